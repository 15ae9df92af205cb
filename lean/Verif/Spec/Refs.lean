import Verif.Model.Refs
/-
Which references of a block dangle, read off the text of the block alone: every reference belongs to an iterator
variable or to a temporary, and a variable is alive until it is dropped.
-/
set_option autoImplicit false

namespace Ip.Spec

variable {I V : Type}

/-- The iterators that a statement names. -/
def names : RStmt I → List Nat
  | .make _ | .read _ => []
  | .assign i j => [i, j]
  | .copy i | .move i _ | .drop i | .bind i | .bindTemp i _ | .bindPost i _ | .bindStdRev i
  | .value i | .valueTemp i _ | .valuePost i _ | .valueStdRev i | .index i _ => [i]

/-- The references that the statements declare: `some i` belongs to iterator `i`, `none` to a temporary. -/
def owners (p : List (RStmt I)) : List (Option Nat) :=
  p.filterMap fun
    | .bind i => some (some i)
    | .bindTemp _ _ | .bindPost _ _ | .bindStdRev _ => some none
    | _ => none

/-- The number of iterator variables that the statements declare. -/
def declared (p : List (RStmt I)) : Nat :=
  p.countP fun
    | .make _ | .copy _ => true
    | _ => false

/-- The statement uses only iterators and references that were declared before: otherwise it does not compile. -/
def Known (before : List (RStmt I)) (s : RStmt I) : Prop :=
  (∀ i ∈ names s, i < declared before) ∧ ∀ k, s = .read k → k < (owners before).length

/-- The statement uses an iterator, or reads a reference into an iterator, whose lifetime has ended; or it reads
what `std::reverse_iterator` returns. -/
def Dangles (before : List (RStmt I)) (s : RStmt I) : Prop :=
  (∃ i ∈ names s, RStmt.drop i ∈ before) ∨
  (∃ k, s = .read k ∧ ((owners before)[k]? = some none ∨ ∃ i, (owners before)[k]? = some (some i) ∧ RStmt.drop i ∈ before)) ∨
  ∃ i, s = .valueStdRev i

/-- A block that compiles. -/
def BlockCompiles (p : List (RStmt I)) : Prop := ∀ a s b, p = a ++ s :: b → Known a s

/-- Some statement of the block dangles. -/
def SomeDangles (p : List (RStmt I)) : Prop := ∃ a s b, p = a ++ s :: b ∧ Dangles a s

/-- A reading of a reference replaced by a reading of the iterator that the reference belongs to. -/
def direct1 (before : List (RStmt I)) : RStmt I → RStmt I
  | .read k =>
    match (owners before)[k]? with
    | some (some i) => .value i
    | _ => .read k
  | s => s

/-- All readings of references replaced. -/
def direct (before : List (RStmt I)) : List (RStmt I) → List (RStmt I)
  | [] => []
  | s :: rest => direct1 before s :: direct (before ++ [s]) rest

/-- `for (const auto& a : range) out.push_back(a);` for `n` more elements, when `k` references were declared before:
iterator `0` is the hidden iterator of the loop. -/
def rangeFor (k : Nat) : Nat → List (RStmt I)
  | 0 => []
  | n + 1 => .bind 0 :: .read k :: .move 0 .inc :: rangeFor (k + 1) n

/-- `for (const auto& a : range) kept.push_back(&a);` for `n` elements. -/
def keepFor : Nat → List (RStmt I)
  | 0 => []
  | n + 1 => .bind 0 :: .move 0 .inc :: keepFor n

/-- `for (auto p : kept) out.push_back(*p);` -/
def readAll (n : Nat) : List (RStmt I) := (List.range n).map .read

end Ip.Spec
