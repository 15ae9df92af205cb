import Verif.Spec.V4
import Verif.Spec.U128
/-
Specifications for networks: a network of width `w` and prefix length `p` is the set of the integers
below `2^w` that agree with its address on the `p` leading bits.
-/
set_option autoImplicit false

namespace Ip.Spec

/-- The integer `x` is one of the addresses of the network with address `v` and prefix length `p`:
both are `w` bit numbers with the same `p` leading bits. -/
def InNet (w p v x : Nat) : Prop := x < 2 ^ w ∧ ∀ i, w - p ≤ i → i < w → x.testBit i = v.testBit i

/-- The netmask of prefix length `p`: bit `i` (counted from the least significant) is set iff it is
one of the `p` leading of `w` bits. -/
def IsMask (w p m : Nat) : Prop := ∀ i, m.testBit i = decide (w - p ≤ i ∧ i < w)

/-- The hostmask of prefix length `p`: the complement of the netmask. -/
def IsHostMask (w p m : Nat) : Prop := ∀ i, m.testBit i = decide (i < w - p)

/-- `t` is a non empty string of decimal digits of value `v`. -/
def DecText (t : List Char) (v : Nat) : Prop := t ≠ [] ∧ ∃ ds, DigitText 10 t ds ∧ digitsValue 10 ds = v

/-- `t` is a text of an IPv4 prefix length `p`: the number, the dotted netmask, or the dotted hostmask
(`0.0.0.0` and `255.255.255.255` are read as netmasks). -/
def MaskText4 (t : List Char) (p : Nat) : Prop :=
  (DecText t p ∧ p ≤ 32) ∨
  ∃ a b c d : BitVec 8, t = dotted a b c d ∧
    ((p ≤ 32 ∧ IsMask 32 p (beValue [a, b, c, d])) ∨ (1 ≤ p ∧ p ≤ 31 ∧ IsHostMask 32 p (beValue [a, b, c, d])))

/-- `t` is a text of an IPv6 prefix length `p`. -/
def MaskText6 (t : List Char) (p : Nat) : Prop := DecText t p ∧ p ≤ 128

/-- The characters before the first slash. -/
def addrPart (s : List Char) : List Char := s.takeWhile (· ≠ '/')

/-- The characters after the first slash, if there is one. -/
def maskPart (s : List Char) : Option (List Char) :=
  match s.dropWhile (· ≠ '/') with
  | [] => none
  | _ :: m => some m

/-- `s` is a text of the IPv4 address `x` with prefix length `p` (32 if none is written). -/
def NetText4 (s : List Char) (x : List (BitVec 8)) (p : Nat) : Prop :=
  (∃ a b c d : BitVec 8, x = [a, b, c, d] ∧ addrPart s = dotted a b c d) ∧
  ((maskPart s = none ∧ p = 32) ∨ ∃ m, maskPart s = some m ∧ MaskText4 m p)

end Ip.Spec
