import Verif.Model.U128
/-
What a `uint128_t` denotes, written without reference to the arithmetic of the library.
-/
set_option autoImplicit false

namespace Ip

/-- The number denoted by the two halves. -/
def U128.val (x : U128) : Nat := x.upper.toNat * 18446744073709551616 + x.lower.toNat

/-- `2^128`. -/
def Spec.two128 : Nat := 340282366920938463463374607431768211456

/-- The number base of a format. -/
def Spec.radixOf : U128.Base → Nat
  | .decimal => 10
  | .octal => 8
  | .hexadecimal => 16

/-- The number base the flags `std::ios_base::hex` and `std::ios_base::oct` of a stream select. -/
def Spec.streamRadix (hex oct : Bool) : Nat := if hex then 16 else if oct then 8 else 10

/-- The value of a digit sequence in a base, most significant first. -/
def Spec.digitsValue (base : Nat) (ds : List Nat) : Nat := ds.foldl (fun acc d => acc * base + d) 0

/-- The digit characters `0`-`9`, `A`-`F`, `a`-`f` and their values. -/
def Spec.digitChars : List (Char × Nat) :=
  [('0', 0), ('1', 1), ('2', 2), ('3', 3), ('4', 4), ('5', 5), ('6', 6), ('7', 7), ('8', 8), ('9', 9),
   ('a', 10), ('b', 11), ('c', 12), ('d', 13), ('e', 14), ('f', 15),
   ('A', 10), ('B', 11), ('C', 12), ('D', 13), ('E', 14), ('F', 15)]

/-- The characters are digits of the base and have these values. -/
def Spec.DigitText (base : Nat) : List Char → List Nat → Prop
  | [], [] => True
  | c :: cs, d :: ds => (c, d) ∈ Spec.digitChars ∧ d < base ∧ Spec.DigitText base cs ds
  | _, _ => False

end Ip
