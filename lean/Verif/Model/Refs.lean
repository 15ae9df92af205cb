import Verif.Model.StdAlgo
/-
Iterators as objects, and the references that they give out.

The iterators hold their current element as a member, and `operator*` and `operator->` return a reference and a
pointer to that member.  So what a reference means depends on the iterator object it came from.  Here iterators
are objects with a lifetime; a program declares them, moves them, keeps references, and reads through them.
Reading through a reference to an object whose lifetime has ended is the outcome `ub`.
-/
set_option autoImplicit false

namespace Ip

/-- The moves of an iterator: `++`, `--`, `+= n`, `-= n`. -/
inductive Mv where
  | inc
  | dec
  | plus (n : BitVec 64)
  | minus (n : BitVec 64)

/-- `ip-address-iterator.hpp:506-509,531-534,557-560,583-586`, and the same members of `ip_reverse_iterator`
(`ip-address-iterator.hpp:128-131,149-152,173-176,199-202`), `ip_network_iterator`
(`ip-network-iterator.hpp:120-123,145-148,171-174,197-200`) and `ip_any_iterator`
(`ip-any-iterator.hpp:134-137,155-158,179-182,205-208`). -/
def RaOps.mv {I V U : Type} (O : RaOps I V U) : Mv → I → Res I
  | .inc, x => O.inc x
  | .dec, x => O.dec x
  | .plus n, x => O.addI x n
  | .minus n, x => O.subI x n

/-- Statements of a block with iterators `it0`, `it1`, ... and references `r0`, `r1`, ..., numbered in the order of
their declarations.  `value`, `valueTemp`, `valuePost`, `valueStdRev`, `index` and `read` append a copy of the
element to the output. -/
inductive RStmt (I : Type) where
  /-- `auto it = x;`, as with `begin()` -/
  | make (x : I)
  /-- `auto jt = it;` -/
  | copy (i : Nat)
  /-- `it = jt;` -/
  | assign (i j : Nat)
  /-- `++it;`, `--it;`, `it += n;`, `it -= n;` -/
  | move (i : Nat) (m : Mv)
  /-- the end of the lifetime of `it` -/
  | drop (i : Nat)
  /-- `const auto& r = *it;`, or `r` in place of `*p` after `auto p = it.operator->();` -/
  | bind (i : Nat)
  /-- `const auto& r = *(it + n);`, `*(it - n)`, `*std::next(it)`, `*std::prev(it)` -/
  | bindTemp (i : Nat) (m : Mv)
  /-- `const auto& r = *it++;`, `*it--` -/
  | bindPost (i : Nat) (m : Mv)
  /-- `const auto& r = *std::make_reverse_iterator(it);` -/
  | bindStdRev (i : Nat)
  /-- a copy of `*it` -/
  | value (i : Nat)
  /-- a copy of `*(it + n)`, ...; as in `at` and `back` of the sequences, which return `*(_begin + n)` and
  `*(_end - 1U)` by value -/
  | valueTemp (i : Nat) (m : Mv)
  /-- a copy of `*it++`, `*it--` -/
  | valuePost (i : Nat) (m : Mv)
  /-- a copy of `*std::make_reverse_iterator(it)` -/
  | valueStdRev (i : Nat)
  /-- a copy of `it[n]` -/
  | index (i : Nat) (n : BitVec 64)
  /-- a copy of `r` -/
  | read (k : Nat)

/-- The state of a block: all objects that were ever created, with `none` for those whose lifetime has ended; the
object of every iterator variable; the object that every reference refers into; the output. -/
structure RState (I V : Type) where
  objs : List (Option I)
  vars : List Nat
  refs : List Nat
  out : List V

namespace RState
variable {I V U : Type} (O : RaOps I V U)

/-- Before the first statement.  Not in the sources: the start of a block. -/
def start : RState I V := ⟨[], [], [], []⟩

/-- The value of an object; it must be alive.  Not in the sources: the rule of the language for accesses. -/
def load (s : RState I V) (o : Nat) : Res I :=
  match s.objs[o]? with
  | some (some x) => .ok x
  | _ => .ub

/-- A new object, with its number.  Not in the sources: automatic and temporary objects of the language. -/
def create (s : RState I V) (x : I) : Nat × RState I V := (s.objs.length, { s with objs := s.objs ++ [some x] })

/-- The object gets a new value. -/
def store (s : RState I V) (o : Nat) (x : I) : RState I V := { s with objs := s.objs.set o (some x) }

/-- The lifetime of the object ends. -/
def destroy (s : RState I V) (o : Nat) : RState I V := { s with objs := s.objs.set o none }

/-- The object of a variable; a program that names an unknown variable does not compile. -/
def var (s : RState I V) (i : Nat) : Res Nat :=
  match s.vars[i]? with
  | some o => .ok o
  | none => .ub

/-- `operator*` and `operator->` of `ip_address_iterator` (`ip-address-iterator.hpp:465-467,474-476`),
`ip_network_iterator` (`ip-network-iterator.hpp:78-80,87-89`) and `ip_any_iterator` (`ip-any-iterator.hpp:95-97,104-106`):
a reference to the member `_current` of the iterator.  `ip_reverse_iterator` (`ip-address-iterator.hpp:90-92,99-101`)
returns `*_it` and `&*_it`, which refers into its own member `_it`.  A member lives as long as its object, so the
reference is the number of the object. -/
def deref (s : RState I V) (o : Nat) : Res Nat := do
  let _ ← s.load o
  .ok o

/-- Reading through a reference: the member `_current` (or `_it._current`) of the object. -/
def fetch (s : RState I V) (r : Nat) : Res V := do
  let x ← s.load r
  .ok (O.deref x)

/-- `it + n` and `it - n` (`ip-address-iterator.hpp:225-229,279-283,609-613,663-667`,
`ip-network-iterator.hpp:223-227,277-281`, `ip-any-iterator.hpp:231-235,285-289`): `auto tmp = *this; tmp += n; return tmp;`,
a temporary object.  `std::next` and `std::prev` do the same with `++` and `--`. -/
def temp (s : RState I V) (o : Nat) (m : Mv) : Res (Nat × RState I V) := do
  let x ← s.load o
  let (t, s) := s.create x
  let y ← O.mv m x
  .ok (t, s.store t y)

/-- Postfix `++` and `--` (`ip-address-iterator.hpp:138-142,159-163,518-522,543-547`, `ip-network-iterator.hpp:132-136,157-161`,
`ip-any-iterator.hpp:144-148,165-169`): `auto tmp = *this; ++(*this); return tmp;`. -/
def post (s : RState I V) (o : Nat) (m : Mv) : Res (Nat × RState I V) := do
  let x ← s.load o
  let (t, s) := s.create x
  let y ← O.mv m x
  .ok (t, s.store o y)

/-- `std::reverse_iterator<Iterator>::operator*` on an object made from the iterator: `Iterator tmp = current;
return *--tmp;`.  The local `tmp` is destroyed when the function returns. -/
def stdRev (s : RState I V) (o : Nat) : Res (Nat × RState I V) := do
  let x ← s.load o
  let (t, s) := s.create x
  let y ← O.dec x
  let s := s.store t y
  let r ← s.deref t
  .ok (r, s.destroy t)

/-- One statement.  Temporary objects live until the end of the statement. -/
def step (s : RState I V) : RStmt I → Res (RState I V)
  | .make x =>
    let (t, s) := s.create x
    .ok { s with vars := s.vars ++ [t] }
  | .copy i => do
    let o ← s.var i
    let x ← s.load o
    let (t, s) := s.create x
    .ok { s with vars := s.vars ++ [t] }
  | .assign i j => do
    let o ← s.var i
    let _ ← s.load o
    let p ← s.var j
    let x ← s.load p
    .ok (s.store o x)
  | .move i m => do
    let o ← s.var i
    let x ← s.load o
    let y ← O.mv m x
    .ok (s.store o y)
  | .drop i => do
    let o ← s.var i
    let _ ← s.load o
    .ok (s.destroy o)
  | .bind i => do
    let o ← s.var i
    let r ← s.deref o
    .ok { s with refs := s.refs ++ [r] }
  | .bindTemp i m => do
    let o ← s.var i
    let (t, s) ← s.temp O o m
    let r ← s.deref t
    let s := s.destroy t
    .ok { s with refs := s.refs ++ [r] }
  | .bindPost i m => do
    let o ← s.var i
    let (t, s) ← s.post O o m
    let r ← s.deref t
    let s := s.destroy t
    .ok { s with refs := s.refs ++ [r] }
  | .bindStdRev i => do
    let o ← s.var i
    let (r, s) ← s.stdRev O o
    .ok { s with refs := s.refs ++ [r] }
  | .value i => do
    let o ← s.var i
    let r ← s.deref o
    let v ← s.fetch O r
    .ok { s with out := s.out ++ [v] }
  | .valueTemp i m => do
    let o ← s.var i
    let (t, s) ← s.temp O o m
    let r ← s.deref t
    let v ← s.fetch O r
    let s := s.destroy t
    .ok { s with out := s.out ++ [v] }
  | .valuePost i m => do
    let o ← s.var i
    let (t, s) ← s.post O o m
    let r ← s.deref t
    let v ← s.fetch O r
    let s := s.destroy t
    .ok { s with out := s.out ++ [v] }
  | .valueStdRev i => do
    let o ← s.var i
    let (r, s) ← s.stdRev O o
    let v ← s.fetch O r
    .ok { s with out := s.out ++ [v] }
  | .index i n => do
    let o ← s.var i
    let x ← s.load o
    let v ← O.atI x n
    .ok { s with out := s.out ++ [v] }
  | .read k =>
    match s.refs[k]? with
    | some r => do
      let v ← s.fetch O r
      .ok { s with out := s.out ++ [v] }
    | none => .ub

/-- A block. -/
def run (s : RState I V) : List (RStmt I) → Res (RState I V)
  | [] => .ok s
  | p :: ps => do
    let s ← s.step O p
    s.run ps

end RState

end Ip
