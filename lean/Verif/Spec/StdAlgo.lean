import Verif.Spec.NetIter
/-
What a binary search should find.
-/
set_option autoImplicit false

namespace Ip.Spec

/-- The place `r` separates the elements of `l` that satisfy `p` from those that do not. -/
def IsPartition {V : Type} (l : List V) (p : V → Prop) (r : Nat) : Prop :=
  r ≤ l.length ∧ (∀ a ∈ l.take r, p a) ∧ ∀ a ∈ l.drop r, ¬ p a

end Ip.Spec
