/-
Specification of IPv4 text, independent of the model.
-/
set_option autoImplicit false

namespace Ip.Spec

/-- Canonical decimal text of a number (Lean's own printer). -/
def dec (n : Nat) : List Char := Nat.toDigits 10 n

/-- The dotted decimal text of four octets. -/
def dotted (a b c d : BitVec 8) : List Char :=
  dec a.toNat ++ '.' :: (dec b.toNat ++ '.' :: (dec c.toNat ++ '.' :: dec d.toNat))

/-- Value of a byte sequence read in network byte order. -/
def beValue : List (BitVec 8) → Nat
  | [] => 0
  | b :: bs => b.toNat * 256 ^ bs.length + beValue bs

end Ip.Spec
