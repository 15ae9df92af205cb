import Verif.Spec.Diag4
import Verif.Spec.Diag6
import Verif.Spec.NetTaken
/-
What is wrong with a text that is not a network, and in which order it is looked for.
-/
set_option autoImplicit false

namespace Ip.Spec

/-- The text after the slash that is read when the buffer for the address holds `k` characters: none after
a longer address. -/
def maskRead (k : Nat) (s : List Char) : Option (List Char) := if (addrPart s).length ≤ k then maskPart s else none

/-- What can be wrong with the text after the slash of an IPv4 network. -/
inductive MaskFault4 : List Char → ErrorCode → Nat → Prop
  | large (m : List Char) (n : Nat) : DecText m n → 32 < n % 2 ^ 64 → MaskFault4 m .invalid_netmask 0
  | text (m : List Char) (code : ErrorCode) (v : Nat) : (∀ n, ¬ DecText m n) → V4Fault m code v ∨ V4EndFault m code v →
      MaskFault4 m .invalid_netmask v
  | mixed (a b c d : BitVec 8) : (∀ p, p ≤ 32 → ¬ IsMask 32 p (beValue [a, b, c, d])) →
      (∀ p, p ≤ 32 → ¬ IsHostMask 32 p (beValue [a, b, c, d])) →
      MaskFault4 (dotted a b c d) .netmask_pattern_mixes_zeroes_and_ones 3

/-- The text after the slash of an IPv4 network, or its absence, as the prefix length `p`; `v` is the value
that errors found later have: 3 after a dotted mask, otherwise 0. -/
inductive MaskGood4 : Option (List Char) → Nat → Nat → Prop
  | none : MaskGood4 none 32 0
  | number (m : List Char) (n : Nat) : DecText m n → n % 2 ^ 64 ≤ 32 → MaskGood4 (some m) (n % 2 ^ 64) 0
  | mask (a b c d : BitVec 8) (p : Nat) : 1 ≤ p → p ≤ 32 → IsMask 32 p (beValue [a, b, c, d]) →
      MaskGood4 (some (dotted a b c d)) p 3
  | hostmask (a b c d : BitVec 8) (p : Nat) : 1 ≤ p → p ≤ 31 → IsHostMask 32 p (beValue [a, b, c, d]) →
      MaskGood4 (some (dotted a b c d)) p 3

/-- What can be wrong with the text after the slash of an IPv6 network. -/
inductive MaskFault6 : List Char → ErrorCode → Nat → Prop
  | large (m : List Char) (n : Nat) : DecText m n → 128 < n % 2 ^ 64 → MaskFault6 m .invalid_netmask 0
  | text (m : List Char) : (∀ n, ¬ DecText m n) → MaskFault6 m .invalid_netmask 0

/-- The text after the slash of an IPv6 network, or its absence, as the prefix length `p`. -/
inductive MaskGood6 : Option (List Char) → Nat → Nat → Prop
  | none : MaskGood6 none 128 0
  | number (m : List Char) (n : Nat) : DecText m n → n % 2 ^ 64 ≤ 128 → MaskGood6 (some m) (n % 2 ^ 64) 0

/-- What is wrong with a text that is not a network: first the slashes, then the text after the slash, then the
address, last the host bits.  `Bad`, `Good`, `Wrong` and `Host` are those of the version. -/
inductive NetFault (k : Nat) (Bad : List Char → ErrorCode → Nat → Prop) (Good : Option (List Char) → Nat → Nat → Prop)
    (Wrong : List Char → ErrorCode → Prop) (Host : List Char → Nat → Prop) (strict : Bool) (s : List Char) :
    ErrorCode → Nat → Prop
  | noMask : maskRead k s = some [] → NetFault k Bad Good Wrong Host strict s .empty_netmask 0
  | slash (m : List Char) : maskRead k s = some m → '/' ∈ m → NetFault k Bad Good Wrong Host strict s .only_one_slash_permitted 0
  | mask (m : List Char) (code : ErrorCode) (v : Nat) : maskRead k s = some m → m ≠ [] → '/' ∉ m → Bad m code v →
      NetFault k Bad Good Wrong Host strict s code v
  | address (p v : Nat) (code : ErrorCode) : Good (maskRead k s) p v → Wrong (addrRead k s) code →
      NetFault k Bad Good Wrong Host strict s code v
  | host (p v : Nat) : Good (maskRead k s) p v → Host (addrRead k s) p → strict = true →
      NetFault k Bad Good Wrong Host strict s .has_host_bits_set v

/-- What is wrong with the address of an IPv4 network. -/
def AddrFault4 (a : List Char) (code : ErrorCode) : Prop :=
  (a = [] ∧ code = .empty_address) ∨ (a ≠ [] ∧ ∃ v, V4Fault a code v ∨ V4EndFault a code v)

/-- The IPv4 address `t` has host bits set for the prefix length `p`. -/
def HostBits4 (t : List Char) (p : Nat) : Prop :=
  ∃ a b c d : BitVec 8, t = dotted a b c d ∧ ∃ i, i < 32 - p ∧ (beValue [a, b, c, d]).testBit i = true

/-- What is wrong with the address of an IPv6 network. -/
def AddrFault6 (spaces : Bool) (M : Nat) (a : List Char) (code : ErrorCode) : Prop :=
  (a = [] ∧ code = .empty_address) ∨ (a ≠ [] ∧ ∃ v, V6Fault spaces M a code v)

/-- The IPv6 address `t` has host bits set for the prefix length `p`. -/
def HostBits6 (spaces : Bool) (M : Nat) (t : List Char) (p : Nat) : Prop :=
  ∃ ip z vs, t = ip ++ zoneText z ∧ V6Text ip vs ∧ ('.' ∈ ip → ip.count ':' ≤ 6) ∧ ZoneOk spaces M z ∧
    ∃ i, i < 128 - p ∧ (beValue (groupBytes vs)).testBit i = true

/-- What is wrong with a text that is not an IPv4 network. -/
abbrev NetFault4 := NetFault 15 MaskFault4 MaskGood4 AddrFault4 HostBits4

/-- What is wrong with a text that is not an IPv6 network. -/
abbrev NetFault6 (spaces : Bool) (M : Nat) :=
  NetFault (41 + M) MaskFault6 MaskGood6 (AddrFault6 spaces M) (HostBits6 spaces M)

end Ip.Spec
