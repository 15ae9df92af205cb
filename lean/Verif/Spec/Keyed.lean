import Verif.Model.Compare
/-
`std::set` and `std::unordered_set` (and the maps) with objects of the library as keys, in terms of the functions of the
library that the containers call: `lt` is `operator<`, `eq` is `operator==`, `hash` is `std::hash`.

A tree is any binary tree: after an insertion or an erasure the container may have any shape with the same elements in
the same order, whatever rotations it does.  A hash table may have any number of buckets and any order of its elements
after every call.
-/
set_option autoImplicit false

namespace Ip.Spec

/-- `operator<` of a class, from all its comparison operators. -/
def lessOf {K : Type} (ops : K → K → Res CmpOps) (a b : K) : Res Bool := do
  let r ← ops a b
  .ok r.lt

/-- `operator==` of a class. -/
def equalOf {K : Type} (ops : K → K → Res CmpOps) (a b : K) : Res Bool := do
  let r ← ops a b
  .ok r.eq

/-- A call that a program makes; for maps `insert` is `emplace` and `find` also stands for `count`, `contains` and `at`. -/
inductive KeyCall (K : Type) where
  | insert (k : K)
  | erase (k : K)
  | find (k : K)

/-- The key of a call. -/
def KeyCall.key {K : Type} : KeyCall K → K
  | .insert k => k
  | .erase k => k
  | .find k => k

/-- Whether the key `k` is held after the calls of `history`, the last call first: it was inserted and not erased since. -/
def Held {K : Type} (same : K → K → Prop) (k : K) : List (KeyCall K) → Prop
  | [] => False
  | .insert j :: past => same k j ∨ Held same k past
  | .erase j :: past => ¬ same k j ∧ Held same k past
  | .find _ :: past => Held same k past

/-- The right answer of a call after `history`: `insert` tells whether the key is new, the others whether it was there. -/
def Answered {K : Type} (same : K → K → Prop) (history : List (KeyCall K)) : KeyCall K → Bool → Prop
  | .insert k, b => b = true ↔ ¬ Held same k history
  | .erase k, b => b = true ↔ Held same k history
  | .find k, b => b = true ↔ Held same k history

/-- A search tree. -/
inductive KTree (K : Type) where
  | leaf
  | node (left : KTree K) (key : K) (right : KTree K)

variable {K : Type}

/-- The keys in the order of iteration. -/
def KTree.keys : KTree K → List K
  | .leaf => []
  | .node l k r => l.keys ++ k :: r.keys

/-- `lower_bound`: how many keys are before the position found. -/
def KTree.lower (lt : K → K → Res Bool) (k : K) : KTree K → Res Nat
  | .leaf => .ok 0
  | .node l x r => do
    if ← lt x k then do
      let i ← r.lower lt k
      .ok (l.keys.length + 1 + i)
    else l.lower lt k

/-- The place of insertion: the way down that `insert` takes. -/
def KTree.upper (lt : K → K → Res Bool) (k : K) : KTree K → Res Nat
  | .leaf => .ok 0
  | .node l x r => do
    if ← lt k x then l.upper lt k
    else do
      let i ← r.upper lt k
      .ok (l.keys.length + 1 + i)

/-- `find`: the position, if the key there is not greater. -/
def KTree.position (lt : K → K → Res Bool) (k : K) (t : KTree K) : Res (Option Nat) := do
  let i ← t.lower lt k
  match t.keys[i]? with
  | none => .ok none
  | some x => do
    if ← lt k x then .ok none else .ok (some i)

/-- One call on a `std::set` (the GNU library): the keys afterwards and the answer.  `insert` compares the key before the
place of insertion, if there is one, and does nothing unless it is less. -/
def KTree.call (lt : K → K → Res Bool) (t : KTree K) : KeyCall K → Res (List K × Bool)
  | .insert k => do
    let i ← t.upper lt k
    match i with
    | 0 => .ok (k :: t.keys, true)
    | j + 1 =>
      match t.keys[j]? with
      | none => .ub
      | some p => do
        if ← lt p k then .ok (t.keys.take (j + 1) ++ k :: t.keys.drop (j + 1), true) else .ok (t.keys, false)
  | .erase k => do
    match ← t.position lt k with
    | none => .ok (t.keys, false)
    | some i => .ok (t.keys.take i ++ t.keys.drop (i + 1), true)
  | .find k => do
    match ← t.position lt k with
    | none => .ok (t.keys, false)
    | some _ => .ok (t.keys, true)

/-- The states of a set after the calls of a history, the last call first, with keys of `good`. -/
inductive SetAfter (lt : K → K → Res Bool) (good : K → Prop) : List (KeyCall K) → KTree K → Prop where
  | empty : SetAfter lt good [] .leaf
  | call {history : List (KeyCall K)} {t u : KTree K} {c : KeyCall K} {l : List K} {b : Bool} :
    SetAfter lt good history t → good c.key → t.call lt c = .ok (l, b) → u.keys = l → SetAfter lt good (c :: history) u

/-- Sets of keys of `good` work: whatever the history, iteration visits the keys that are held, each once, in ascending
order, and every further call has a defined outcome and gives the right answer. -/
def SetsWork (lt : K → K → Res Bool) (same : K → K → Prop) (good : K → Prop) : Prop :=
  ∀ history t, SetAfter lt good history t →
    (∀ k, (∃ x ∈ t.keys, same k x) ↔ Held same k history) ∧
    (t.keys.Pairwise fun a b => ¬ same a b ∧ lt a b = .ok true) ∧
    ∀ c : KeyCall K, good c.key → ∃ l b, t.call lt c = .ok (l, b) ∧ Answered same history c b

/-- The search in a hash table with `n` buckets: the keys of the bucket are compared. -/
def bucketFind {w : Nat} (eq : K → K → Res Bool) (hash : K → Res (BitVec w)) (n : Nat) (k : K) : List K → Res (Option Nat)
  | [] => .ok none
  | x :: rest => do
    let h ← hash k
    let g ← hash x
    if h.toNat % n = g.toNat % n then do
      if ← eq k x then .ok (some 0)
      else do
        let i ← bucketFind eq hash n k rest
        .ok (i.map (· + 1))
    else do
      let i ← bucketFind eq hash n k rest
      .ok (i.map (· + 1))

/-- One call on a `std::unordered_set` with `n` buckets: the keys afterwards and the answer. -/
def bucketCall {w : Nat} (eq : K → K → Res Bool) (hash : K → Res (BitVec w)) (n : Nat) (keys : List K) :
    KeyCall K → Res (List K × Bool)
  | .insert k => do
    match ← bucketFind eq hash n k keys with
    | some _ => .ok (keys, false)
    | none => .ok (k :: keys, true)
  | .erase k => do
    match ← bucketFind eq hash n k keys with
    | some i => .ok (keys.take i ++ keys.drop (i + 1), true)
    | none => .ok (keys, false)
  | .find k => do
    match ← bucketFind eq hash n k keys with
    | some _ => .ok (keys, true)
    | none => .ok (keys, false)

/-- The states of a hash table: after every call any number of buckets and any order. -/
inductive TableAfter {w : Nat} (eq : K → K → Res Bool) (hash : K → Res (BitVec w)) (good : K → Prop) :
    List (KeyCall K) → Nat → List K → Prop where
  | empty {n : Nat} : TableAfter eq hash good [] n []
  | call {history : List (KeyCall K)} {n m : Nat} {s s' : List K} {c : KeyCall K} {l : List K} {b : Bool} :
    TableAfter eq hash good history n s → good c.key → bucketCall eq hash n s c = .ok (l, b) → s'.Perm l →
      TableAfter eq hash good (c :: history) m s'

/-- Hash tables of keys of `good` work: likewise, in any order. -/
def TablesWork {w : Nat} (eq : K → K → Res Bool) (hash : K → Res (BitVec w)) (same : K → K → Prop) (good : K → Prop) : Prop :=
  ∀ history n s, TableAfter eq hash good history n s →
    (∀ k, (∃ x ∈ s, same k x) ↔ Held same k history) ∧
    (s.Pairwise fun a b => ¬ same a b) ∧
    ∀ c : KeyCall K, good c.key → ∃ l b, bucketCall eq hash n s c = .ok (l, b) ∧ Answered same history c b

end Ip.Spec
