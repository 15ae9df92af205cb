import Verif.Model.U128Ops
import Verif.Spec.U128
/-
What the conversions and the mixed operators of `uint128_t` mean.
-/
set_option autoImplicit false

namespace Ip.Spec

/-- The number a built-in value denotes: two's complement for a signed type. -/
def builtinValue (n : Builtin) : Int :=
  if n.signed ∧ 2 ^ (n.width - 1) ≤ n.bits.toNat then (n.bits.toNat : Int) - 2 ^ n.width else n.bits.toNat

/-- The numbers a built-in type can represent. -/
def InRange (signed : Bool) (width : Nat) (z : Int) : Prop :=
  if signed then -2 ^ (width - 1) ≤ z ∧ z < 2 ^ (width - 1) else 0 ≤ z ∧ z < 2 ^ width

/-- The operators on numbers modulo `2^128`; a quotient by zero is 0, a remainder by zero is the dividend. -/
def opValue : U128.Op → Nat → Nat → Int
  | .add, a, b => ((a : Int) + b) % 2 ^ 128
  | .sub, a, b => ((a : Int) - b) % 2 ^ 128
  | .mul, a, b => ((a : Int) * b) % 2 ^ 128
  | .div, a, b => if b = 0 then 0 else ((a / b : Nat) : Int)
  | .rem, a, b => if b = 0 then a else ((a % b : Nat) : Int)
  | .and, a, b => ((a &&& b : Nat) : Int)
  | .or, a, b => ((a ||| b : Nat) : Int)
  | .xor, a, b => ((a ^^^ b : Nat) : Int)

end Ip.Spec
