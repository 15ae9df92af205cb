import Verif.Model.FloatIn
/-
What a conversion from a floating point number to a 128 bit unsigned integer should give.
-/
set_option autoImplicit false

namespace Ip.Spec

/-- `r ≤ m * 2^e`, written without fractions. -/
def AtMost (r m : Nat) (e : Int) : Prop := r * 2 ^ (-e).toNat ≤ m * 2 ^ e.toNat

/-- `r` is the integral part of `m * 2^e`, or the largest 128 bit number if that is smaller. -/
def Truncated (m : Nat) (e : Int) (r : Nat) : Prop :=
  r < 2 ^ 128 ∧ AtMost r m e ∧ (r = 2 ^ 128 - 1 ∨ ¬ AtMost (r + 1) m e)

/-- The number that a floating point datum is converted to: 0 for NaN and negative values, otherwise the
integral part, at most `2^128 - 1`. -/
def Converts : FVal → Nat → Prop
  | .nan, r => r = 0
  | .inf neg, r => r = if neg then 0 else 2 ^ 128 - 1
  | .fin neg m e, r => if neg then r = 0 else Truncated m e r

end Ip.Spec
