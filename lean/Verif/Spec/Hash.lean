/-!
Sequences that differ in exactly one place.
-/

set_option autoImplicit false

namespace Ip.Spec

/-- Same length, different in exactly one place. -/
def OneApart {α : Type} (a b : List α) : Prop :=
  ∃ (i : Nat) (x y : α), a[i]? = some x ∧ b[i]? = some y ∧ x ≠ y ∧ ∀ k, k ≠ i → a[k]? = b[k]?

end Ip.Spec
