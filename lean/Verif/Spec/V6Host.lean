import Verif.Model.Basic
/-
What big endian hosts make of a dotted quad at the end of an IPv6 text.
-/
set_option autoImplicit false

namespace Ip.Spec

/-- There is a dot after the last colon of the text before the zone id. -/
def DottedEnd (evs : List Ev) : Prop :=
  .ch '.' ∈ (evs.takeWhile fun e => decide (e ≠ .ch '%')).reverse.takeWhile fun e => decide (e ≠ .ch ':')

instance (evs : List Ev) : Decidable (DottedEnd evs) := by unfold DottedEnd; infer_instance

/-- The last four of sixteen bytes in reverse order. -/
def mirrorEnd (b : List (BitVec 8)) : List (BitVec 8) := b.take 12 ++ (b.drop 12).reverse

end Ip.Spec
