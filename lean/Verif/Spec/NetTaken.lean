import Verif.Spec.Net
import Verif.Spec.V6Nul
/-
Independent specification of the network texts the parser takes, including those it should not.  No
definition here refers to the model.
-/
set_option autoImplicit false

namespace Ip.Spec

/-- What is taken as an IPv4 prefix length `p`: a number, reduced modulo `2^64`, or a dotted netmask or
hostmask other than `0.0.0.0`. -/
def MaskTaken4 (t : List Char) (p : Nat) : Prop :=
  (∃ v, DecText t v ∧ p = v % 2 ^ 64 ∧ p ≤ 32) ∨
  ∃ a b c d : BitVec 8, t = dotted a b c d ∧ 1 ≤ p ∧
    ((p ≤ 32 ∧ IsMask 32 p (beValue [a, b, c, d])) ∨ (p ≤ 31 ∧ IsHostMask 32 p (beValue [a, b, c, d])))

/-- What is taken as an IPv6 prefix length `p`: a number, reduced modulo `2^64`. -/
def MaskTaken6 (t : List Char) (p : Nat) : Prop := ∃ v, DecText t v ∧ p = v % 2 ^ 64 ∧ p ≤ 128

/-- The text that reaches the address parser when its buffer holds `k` characters. -/
def addrRead (k : Nat) (s : List Char) : List Char := cutNul ((addrPart s).take k)

/-- The IPv4 network texts taken, all of them, as the address `x` with prefix length `p`: an address
part that does not fit in 15 characters is shortened, and then the prefix length is not read. -/
def NetTaken4 (s : List Char) (x : List (BitVec 8)) (p : Nat) : Prop :=
  (∃ a b c d : BitVec 8, x = [a, b, c, d] ∧ addrRead 15 s = dotted a b c d) ∧
  ((addrPart s).length ≤ 15 → (maskPart s = none ∧ p = 32) ∨ ∃ m, maskPart s = some m ∧ MaskTaken4 m p) ∧
  (15 < (addrPart s).length → p = 32)

/-- The IPv6 network texts taken, all of them, as the groups `vs` with zone id `z` and prefix length
`p`. -/
def NetTaken6 (spaces : Bool) (M : Nat) (s : List Char) (vs : List Nat) (z : List Char) (p : Nat) : Prop :=
  (∃ ip, addrRead (41 + M) s = ip ++ zoneText z ∧ V6Text ip vs ∧ ('.' ∈ ip → ip.count ':' ≤ 6) ∧ ZoneOk spaces M z) ∧
  ((addrPart s).length ≤ 41 + M → (maskPart s = none ∧ p = 128) ∨ ∃ m, maskPart s = some m ∧ MaskTaken6 m p) ∧
  (41 + M < (addrPart s).length → p = 128)

end Ip.Spec
