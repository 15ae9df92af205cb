import Verif.Spec.NetIter
/-
What the code does where C34, C56 and C57 are false, independently of the model.
-/
set_option autoImplicit false

namespace Ip.Spec

/-- Bits 24 to 47 of `s` are those of `v` or the bits 24 places lower, and the lowest 24 bits of `s` are zero. -/
def FoldedBits (v s : Nat) : Prop :=
  ∀ i, s.testBit i = if i < 24 then false else if i < 48 then v.testBit i || v.testBit (i - 24) else v.testBit i

/-- The order of the positions `m` and `n` of a reverse sequence that starts before `v`: the positions behind address 0
come first. -/
def RevLt (v m n : Nat) : Prop := (v ≤ m ∧ n < v) ∨ ((v ≤ m ↔ v ≤ n) ∧ m < n)

/-- The only addresses that `address_exclude` loses: address 0, if address 1 alone is excluded. -/
def Lost (w p u v t : Nat) : Prop := p = w ∧ u = 1 ∧ v = 0 ∧ t = 0

end Ip.Spec
