import Verif.Model.NetIter
import Verif.Spec.Net
/-
When one network can be excluded from another by the constructors of the excluding iterator.
-/
set_option autoImplicit false

namespace Ip.Spec

/-- The network `u/q` is a part of `v/p` and smaller. -/
def StrictlyInside (w q u p v : Nat) : Prop := p < q ∧ ∀ t, InNet w q u t → InNet w p v t

/-- The network `u/q` is the network of one address `v/w`, or the network of the next address. -/
def SelfOrNext (w q u p v : Nat) : Prop := p = w ∧ q = w ∧ (u = v ∨ u = (v + 1) % 2 ^ w)

/-- The iterator after `i` increments. -/
def _root_.Ip.Fam.exSteps {A U : Type} (F : Fam A U) : Nat → ExIter A → Res (ExIter A)
  | 0, x => .ok x
  | i + 1, x => F.exInc x >>= F.exSteps i

/-- The last networks visited with an excluded network of one address with a scope id, after those of
`address_exclude`. -/
def lastVisited (w u : Nat) : List (Nat × Nat) :=
  if u % 2 = 1 ∧ u ≠ 1 ∧ u + 1 < 2 ^ w then [(u + 1, w)] else []

/-- What is visited for a network of one address `v`, of which `self` tells that the excluded network is this
address and not the next one, `sn` that the network has a scope id and `so` that the excluded network has one. -/
def hostVisited (w v : Nat) (self sn so : Bool) : List (Nat × Nat) :=
  if self then (if v + 1 = 2 ^ w then [] else [(v + 1, w)])
  else if sn = false ∨ v = 0 then []
  else (v, w) :: if so = true ∧ v + 2 ≠ 2 ^ w then [((v + 2) % 2 ^ w, w)] else []

end Ip.Spec
