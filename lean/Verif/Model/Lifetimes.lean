import Verif.Model.AnyProgram
import Verif.Model.Containers
/-
Objects of the library, their lifetimes, and the references that member functions give out.

Some member functions return a reference to a part of the object they are called on, others return a new object.
`network_address()` and `netmask()` of `ipv4_network` and `ipv6_network` return references, the functions of the same
names of `ip_network` return objects.  A program that keeps such a reference must keep the object.  Here objects have a
lifetime, temporary objects end with the statement unless a reference extends their lifetime, and using an object whose
lifetime has ended is the outcome `ub`.  `data()` of `ip_address` is left out; it points into a union.
-/
set_option autoImplicit false

namespace Ip

/-- The objects of a block: those of the classes of one version (`Model/Program`), those of the version agnostic classes
(`Model/AnyProgram`), byte arrays (`byte-array.hpp:28`) and the optionals that `v4()` and `v6()` return. -/
inductive LObj where
  | one4 (x : Obj (List (BitVec 8)) (BitVec 32))
  | one6 (x : Obj V6 U128)
  | any (x : AnyObj)
  | arr (b : List (BitVec 8))
  | optA4 (o : Opt (List (BitVec 8)))
  | optA6 (o : Opt V6)
  | optN4 (o : Opt (Net (List (BitVec 8))))
  | optN6 (o : Opt (Net V6))

/-- Calls of member functions: of networks (`ip-network-base.hpp:680-1172`), of sequences and iterators
(`ip-address-iterator.hpp`, `ip-network-iterator.hpp`), of addresses and of optionals (cited at `LObj.call`). -/
inductive LCall where
  | network
  | netmask
  | hostmask
  | broadcast
  | supernet (d : Nat) (newp : Option Nat)
  | hosts
  | subnets (d : Nat) (newp : Option Nat)
  | first
  | last
  | reverse
  | base
  | plus (n : BitVec 64)
  | minus (n : BitVec 64)
  | next
  | prev
  /-- `operator*` of iterators; `operator->` is the same -/
  | deref
  | front
  | back
  /-- `bytes()`, or `data()` with its elements -/
  | bytes
  /-- `value()`, `operator*` and `operator->` of an optional -/
  | value
  | v4
  | v6
deriving DecidableEq

/-- What a call gives: a reference to a part of the object it is called on, or a new object.  Not in the sources: the two
kinds of return types. -/
inductive LRes where
  | part (x : LObj)
  | made (r : Res LObj)

/-- The calls in the notation of `Model/Program`, on the object number 0; the lines are cited there. -/
def LCall.expr {U : Type} : LCall → Option (Expr U)
  | .network => some (.network 0)
  | .netmask => some (.netmask 0)
  | .hostmask => some (.hostmask 0)
  | .broadcast => some (.broadcast 0)
  | .supernet d newp => some (.supernet 0 d newp)
  | .hosts => some (.hosts 0)
  | .subnets d newp => some (.subnets 0 d newp)
  | .first => some (.first 0)
  | .last => some (.last 0)
  | .reverse => some (.reverse 0)
  | .base => some (.base 0)
  | .plus n => some (.move 0 (.addI n))
  | .minus n => some (.move 0 (.subI n))
  | .next => some (.move 0 .inc)
  | .prev => some (.move 0 .dec)
  | .deref => some (.deref 0)
  | .front => some (.front 0)
  | .back => some (.back 0)
  | .bytes | .value | .v4 | .v6 => none

/-- The functions of the classes of one version that return references: `network_address()` and `netmask()`
(`ip-network-base.hpp:680-682, 710-712`), and `operator*` of the iterators (`ip-address-iterator.hpp:90-101, 465-476`,
`ip-network-iterator.hpp:78-89, 493-504`). -/
def LCall.refersOne : LCall → Bool
  | .network | .netmask | .deref => true
  | _ => false

/-- The functions of the version agnostic classes that return references: `operator*` of the iterators
(`ip-any-iterator.hpp:95-106`, `ip-network-iterator.hpp:493-504`).  `network_address()` and `netmask()` return objects
(`ip-any-network.hpp:103-107, 127-131`). -/
def LCall.refersAny : LCall → Bool
  | .deref => true
  | _ => false

/-- Excluding iterators can only be moved by `++` (`ip-network-iterator.hpp:511-568`). -/
def LCall.forward : LCall → Bool
  | .plus _ | .minus _ | .prev => false
  | _ => true

/-- The result of a call from its value: a reference to a part, or a new object.  Not in the sources: the return type. -/
def LRes.of {α : Type} (refers : Bool) (f : α → LObj) : Option (Res α) → Option LRes
  | some (.ok x) => some (if refers then .part (f x) else .made (.ok (f x)))
  | some (.err e v) => some (.made (.err e v))
  | some .ub => some (.made .ub)
  | none => none

/-- A call of a member function; `none` when the class has no such function.  `ipv4-address.hpp:70-72` and
`ipv6-address.hpp:712-714`: `bytes()` returns a reference to the member.  `optional.hpp:128-166, 198-236`: `value()` and
`operator*` return references, also of an optional that is a temporary.  `ip-any-address.hpp:267-286` and
`ip-any-network.hpp:675-694`: `v4()` and `v6()` return optionals with a copy. -/
def LObj.call (c : Cfg) : LCall → LObj → Option LRes
  | .bytes, .one4 (.addr a) => some (.part (.arr a))
  | .bytes, .one6 (.addr a) => some (.part (.arr a.bytes))
  | .value, .optA4 o => some (.part (.one4 (.addr o.value)))
  | .value, .optA6 o => some (.part (.one6 (.addr o.value)))
  | .value, .optN4 o => some (.part (.one4 (.net o.value)))
  | .value, .optN6 o => some (.part (.one6 (.net o.value)))
  | .v4, .any (.addr (.v4 a)) => some (.made (.ok (.optA4 (.some a))))
  | .v4, .any (.addr (.v6 _)) => some (.made (.ok (.optA4 (.none (fam4 c.le).zero))))
  | .v6, .any (.addr (.v6 a)) => some (.made (.ok (.optA6 (.some a))))
  | .v6, .any (.addr (.v4 _)) => some (.made (.ok (.optA6 (.none (fam6 c).zero))))
  | .v4, .any (.net (.v4 n)) => some (.made (.ok (.optN4 (.some n))))
  | .v4, .any (.net (.v6 _)) => some (.made (do let d ← (fam4 c.le).defaultNet; .ok (.optN4 (.none d))))
  | .v6, .any (.net (.v6 n)) => some (.made (.ok (.optN6 (.some n))))
  | .v6, .any (.net (.v4 _)) => some (.made (do let d ← (fam6 c).defaultNet; .ok (.optN6 (.none d))))
  | k, .one4 (.exit x) => if k.forward then LRes.of k.refersOne LObj.one4 (k.expr.bind ((fam4 c.le).eval [.exit x])) else none
  | k, .one6 (.exit x) => if k.forward then LRes.of k.refersOne LObj.one6 (k.expr.bind ((fam6 c).eval [.exit x])) else none
  | k, .any (.exit x) => if k.forward then LRes.of k.refersAny LObj.any (k.expr.bind (anyEval c [.exit x])) else none
  | k, .one4 x => LRes.of k.refersOne LObj.one4 (k.expr.bind ((fam4 c.le).eval [x]))
  | k, .one6 x => LRes.of k.refersOne LObj.one6 (k.expr.bind ((fam6 c).eval [x]))
  | k, .any x => LRes.of k.refersAny LObj.any (k.expr.bind (anyEval c [x]))
  | _, _ => none

/-- What an expression begins with: a variable or a reference, numbered in the order of their declarations.  A temporary
object whose lifetime a reference extends counts as a variable too.  Not in the sources: the program of the user. -/
inductive LRoot where
  | var (i : Nat)
  | ref (k : Nat)

/-- An expression: a chain of calls, `x.f().g()...`.  Not in the sources: the program of the user. -/
structure LExpr where
  root : LRoot
  calls : List LCall

/-- The statements of a block.  Not in the sources: the program of the user. -/
inductive LStmt where
  /-- `auto v = x;`, where `x` is the result of `parse` or of a constructor -/
  | decl (x : LObj)
  /-- `auto v = e;`, a copy -/
  | copy (e : LExpr)
  /-- `const auto& r = e;`, or `auto r = &e;` where that compiles -/
  | bind (e : LExpr)
  /-- `const auto& r = x.f().g()...;`, where `x` is the result of `parse` or of a constructor -/
  | bindNew (x : LObj) (calls : List LCall)
  /-- `v = e;`; `++it` is `it = std::next(it)` here, and `it += n` is `it = it + n` -/
  | assign (i : Nat) (e : LExpr)
  /-- the end of the lifetime of a variable -/
  | drop (i : Nat)
  /-- use of the value of `e`: the value is appended to the output -/
  | use (e : LExpr)

/-- The state of a block: all objects that were ever created, with `none` for those whose lifetime has ended; the object
of every variable; the object that every reference refers into, with the calls that lead to the part; the output.  This and
the rest of the file are not in the sources but rules of the language for the lifetimes of objects. -/
structure LState where
  objs : List (Option LObj)
  vars : List Nat
  refs : List (Nat × List LCall)
  out : List LObj

namespace LState

/-- Before the first statement.  Not in the sources: the start of a block. -/
def start : LState := ⟨[], [], [], []⟩

/-- The value of an object; it must be alive.  Not in the sources: the rule of the language for accesses. -/
def load (s : LState) (o : Nat) : Res LObj :=
  match s.objs[o]? with
  | some (some x) => .ok x
  | _ => .ub

/-- The part of a value that calls lead to. -/
def inside (c : Cfg) : LObj → List LCall → Res LObj
  | x, [] => .ok x
  | x, k :: ks =>
    match x.call c k with
    | some (.part y) => inside c y ks
    | _ => .ub

/-- Reading through a reference. -/
def fetch (c : Cfg) (s : LState) (r : Nat × List LCall) : Res LObj := do
  let x ← s.load r.1
  inside c x r.2

/-- A new object. -/
def create (s : LState) (x : LObj) : LState := { s with objs := s.objs ++ [some x] }

/-- The lifetime of the object ends. -/
def destroy (s : LState) (o : Nat) : LState := { s with objs := s.objs.set o none }

/-- The lifetimes of the temporaries end at the end of the statement. -/
def destroyAll (s : LState) : List Nat → LState
  | [] => s
  | o :: os => (s.destroy o).destroyAll os

/-- What the root of an expression refers to; a program that names an unknown variable does not compile. -/
def root (s : LState) : LRoot → Res (Nat × List LCall)
  | .var i =>
    match s.vars[i]? with
    | some o => .ok (o, [])
    | none => .ub
  | .ref k =>
    match s.refs[k]? with
    | some r => .ok r
    | none => .ub

/-- The calls of an expression, one after the other, beginning at `r`.  A call on an object whose lifetime has ended is
undefined.  A call that returns a new object creates a temporary.  The result is what the whole expression refers to, and
the temporaries. -/
def walk (c : Cfg) (s : LState) (r : Nat × List LCall) (temps : List Nat) : List LCall → Res (LState × (Nat × List LCall) × List Nat)
  | [] => .ok (s, r, temps)
  | k :: ks => do
    let x ← s.fetch c r
    match x.call c k with
    | some (.part _) => walk c s (r.1, r.2 ++ [k]) temps ks
    | some (.made y) => do
      let y ← y
      walk c (s.create y) (s.objs.length, []) (temps ++ [s.objs.length]) ks
    | none => .ub

/-- The initialisation of a reference with what an expression refers to.  A temporary object that is the result of the
expression itself lives on as a variable; a temporary of which the result is only a part does not, as the part was
returned by a function. -/
def bindTo (s : LState) (r : Nat × List LCall) (temps : List Nat) : LState :=
  match temps.getLast?, r.2 with
  | some t, [] =>
    let s := s.destroyAll temps.dropLast
    { s with vars := s.vars ++ [t], refs := s.refs ++ [r] }
  | _, _ =>
    let s := s.destroyAll temps
    { s with refs := s.refs ++ [r] }

/-- One statement.  Binding a reference to an object whose lifetime has ended counts as using it. -/
def step (c : Cfg) (s : LState) : LStmt → Res LState
  | .decl x =>
    let s' := s.create x
    .ok { s' with vars := s'.vars ++ [s.objs.length] }
  | .copy e => do
    let r ← s.root e.root
    let (s, r, temps) ← s.walk c r [] e.calls
    let x ← s.fetch c r
    let s := s.destroyAll temps
    let s' := s.create x
    .ok { s' with vars := s'.vars ++ [s.objs.length] }
  | .bind e => do
    let r ← s.root e.root
    let (s, r, temps) ← s.walk c r [] e.calls
    let _ ← s.fetch c r
    .ok (s.bindTo r temps)
  | .bindNew x ks => do
    let (s, r, temps) ← (s.create x).walk c (s.objs.length, []) [s.objs.length] ks
    let _ ← s.fetch c r
    .ok (s.bindTo r temps)
  | .assign i e => do
    let r ← s.root e.root
    let (s, r, temps) ← s.walk c r [] e.calls
    let x ← s.fetch c r
    let v ← s.root (.var i)
    let _ ← s.load v.1
    let s := { s with objs := s.objs.set v.1 (some x) }
    .ok (s.destroyAll temps)
  | .drop i => do
    let v ← s.root (.var i)
    let _ ← s.load v.1
    .ok (s.destroy v.1)
  | .use e => do
    let r ← s.root e.root
    let (s, r, temps) ← s.walk c r [] e.calls
    let x ← s.fetch c r
    let s := s.destroyAll temps
    .ok { s with out := s.out ++ [x] }

/-- A block. -/
def run (c : Cfg) (s : LState) : List LStmt → Res LState
  | [] => .ok s
  | p :: ps => do
    let s ← s.step c p
    s.run c ps

end LState

end Ip
