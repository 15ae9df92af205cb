import Verif.Model.Program
import Verif.Spec.Net
/-
What a user sees of the objects that a program holds.
-/
set_option autoImplicit false

namespace Ip.Spec

/-- A network of `w` bits: an address and a mask of that many bits, a prefix length not above `w`, the mask is the
one of the prefix length, and no bit of the address after the prefix is set. -/
def IsNetwork (w plen : Nat) (addr mask : List (BitVec 8)) : Prop :=
  8 * addr.length = w ∧ 8 * mask.length = w ∧ plen ≤ w ∧ IsMask w plen (beValue mask) ∧
    ∀ i, i < w - plen → (beValue addr).testBit i = false

/-- The networks that can be seen in an object: itself, what an iterator refers to, what the iterators of a
sequence refer to. -/
def netsIn {A U : Type} : Obj A U → List (Net A)
  | .addr _ => []
  | .net n => [n]
  | .ait _ => []
  | .rait _ => []
  | .nit x => [x.cur]
  | .rnit r => [r.it.cur]
  | .hosts _ => []
  | .subs s => [s.first.cur, s.last.cur]
  | .exit x => [x.cur]
  | .exs s => [s.first.cur, s.last.cur]

/-- The network iterators in an object. -/
def nitersIn {A U : Type} : Obj A U → List (NIter A U)
  | .nit x => [x]
  | .rnit r => [r.it]
  | .subs s => [s.first, s.last]
  | _ => []

/-- The address iterators in an object, also those inside network iterators. -/
def aitersIn {A U : Type} : Obj A U → List (AIter A U)
  | .ait x => [x]
  | .rait r => [r.it]
  | .nit x => [x.it]
  | .rnit r => [r.it.it]
  | .hosts s => [s.first, s.last]
  | .subs s => [s.first.it, s.last.it]
  | _ => []

/-- Does the expression make default constructed iterators over networks?  Also `subnets` with `error_code` does,
when it fails. -/
def makesDefault {U : Type} : Expr U → Bool
  | .defNit => true
  | .defSubs => true
  | .subnetsCode _ _ _ => true
  | _ => false

/-- The same for statements. -/
def stmtMakesDefault {U : Type} : Stmt U → Bool
  | .new e => makesDefault e
  | .put _ e => makesDefault e
  | .swap _ _ => false

/-- By how many elements an operator moves an iterator forward; `val` is the number denoted by a `uint_type`. -/
def forward {U : Type} (val : U → Nat) : Move U → Int
  | .inc => 1
  | .dec => -1
  | .add n => val n
  | .sub n => -val n
  | .addI n => n.toInt
  | .subI n => -n.toInt

/-- The object `o'` is `o` moved: an address iterator shows the address `k` further, a network iterator the network `k`
steps further, and a reverse iterator stands the same distance back; `num` is the number of an address, and numbers are
modulo `m`. -/
def MovedBy {A U : Type} (num : A → Nat) (val : U → Nat) (m : Nat) (k : Int) : Obj A U → Obj A U → Prop
  | .ait x, .ait y => (num y.cur : Int) = (num x.cur + k) % m
  | .rait x, .rait y => (num y.it.cur : Int) = (num x.it.cur - k) % m
  | .nit x, .nit y => (num y.cur.addr : Int) = (num x.cur.addr + val x.step * k) % m ∧ y.step = x.step
  | .rnit x, .rnit y => (num y.it.cur.addr : Int) = (num x.it.cur.addr - val x.it.step * k) % m ∧ y.it.step = x.it.step
  | .exit _, .exit _ => True
  | _, _ => False

end Ip.Spec
