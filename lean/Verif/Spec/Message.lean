import Verif.Spec.Unicode
import Verif.Spec.V6
import Verif.Spec.Throw
/-
What the messages of exceptions should say.
-/
set_option autoImplicit false

namespace Ip.Spec

/-- A code point in messages: `U+` and its hexadecimal number of at least four digits, in braces. -/
def uplus (cp : Nat) : List Char :=
  "{U+".toList ++ (if cp < 65536 then hex4 cp else Nat.toDigits 16 cp) ++ ['}']

/-- A text in messages: ASCII characters as they are, other code points by their numbers. -/
def displayed (cps : List Nat) : List Char := cps.flatMap fun cp => if cp < 128 then [Char.ofNat cp] else uplus cp

/-- The leading code points that lie wholly in the first `n` code units. -/
def wholly {U : Type} (encode : Nat → List U) : Nat → List Nat → List Nat
  | _, [] => []
  | n, cp :: cps => if (encode cp).length ≤ n then cp :: wholly encode (n - (encode cp).length) cps else []

/-- A text of any length in messages: what lies wholly in its first 100 code units, and three dots if
something is left out. -/
def shownText {U : Type} (encode : Nat → List U) (cps : List Nat) : List Char :=
  displayed (wholly encode 100 cps) ++ (if wholly encode 100 cps = cps then [] else ['.', '.', '.'])

/-- The message of an error: `v` is the number of the octet or part concerned, `u` the symbol concerned
and `s` the text. -/
def message (v u s : List Char) : ErrorCode → List Char
  | .empty_address => "address cannot be empty".toList
  | .empty_netmask => "empty mask in address ".toList ++ s
  | .invalid_netmask => "is not a valid netmask in address ".toList ++ s
  | .netmask_pattern_mixes_zeroes_and_ones => "netmask pattern mixes zeroes & ones in address ".toList ++ s
  | .has_host_bits_set => "has host bits set in address ".toList ++ s
  | .only_one_slash_permitted => "only one '/' permitted in address ".toList ++ s
  | .string_is_too_long => "input string is too long ".toList ++ s
  | .empty_octet => "empty octet ".toList ++ v ++ " in address ".toList ++ s
  | .expected_4_octets => "expected 4 octets in ".toList ++ s
  | .leading_0_are_not_permitted => "leading zeros are not permitted in octet ".toList ++ v ++ " of address ".toList ++ s
  | .octet_more_3_characters => "in octet ".toList ++ v ++ " of address ".toList ++ s ++ " more 3 characters".toList
  | .octet_has_invalid_symbol => "in octet ".toList ++ v ++ " of address ".toList ++ s ++ " has invalid symbol".toList
  | .octet_exceeded_255 => "octet ".toList ++ v ++ " of address ".toList ++ s ++ " exceeded 255".toList
  | .least_3_parts => "least 3 parts in address ".toList ++ s
  | .most_8_colons_permitted => "most 8 colons permitted in address ".toList ++ s
  | .part_is_more_4_chars => "in part ".toList ++ v ++ " of address ".toList ++ s ++ " more 4 characters".toList
  | .part_has_invalid_symbol => "in part ".toList ++ v ++ " of address ".toList ++ s ++ " has invalid symbols".toList
  | .most_one_double_colon_permitted => "at most one '::' permitted in address ".toList ++ s
  | .leading_colon_only_permitted_as_part_of_double_colon => "at leading ':' only permitted as part of '::' in address ".toList ++ s
  | .trailing_colon_only_permitted_as_part_of_double_colon => "at trailing ':' only permitted as part of '::' in address ".toList ++ s
  | .expected_at_most_7_other_parts_with_double_colon => "expected at most 7 other parts with '::' in address ".toList ++ s
  | .exactly_8_parts_expected_without_double_colon => "exactly 8 parts expected without '::' in address ".toList ++ s
  | .scope_id_is_too_long => "scope id is too long in address ".toList ++ s
  | .invalid_scope_id => "invalid scope id in address ".toList ++ s
  | .invalid_version => "versions don't match".toList
  | .invalid_prefixlen_diff => "invalid prefixlen_diff".toList
  | .new_prefix_must_be_shorter => "new prefix must be shorter".toList
  | .new_prefix_must_be_longer => "new prefix must be longer".toList
  | .cannot_set_prefixlen_diff_and_new_prefix => "cannot set prefixlen_diff and new_prefix".toList
  | .not_contained_network => "network is not a subnet of other".toList
  | .unexpected_symbol => "unexpected next unicode symbol ".toList ++ u ++ " in string ".toList ++ s
  | .wrong_encoding_sequence => "incorrect sequence of bytes in unicode encoding for string ".toList ++ s

/-- The exception of an error: its class is that of the code and its message names the octet or part, the
symbol and the text shown as `t`. -/
def exnOf (code : ErrorCode) (value : Nat) (t : List Char) : Exn :=
  ⟨if code ∈ argumentErrors then .logic else .parse, code, message (Nat.toDigits 10 value) (uplus value) t code⟩

/-- The text is not cut inside of a character: it has at most 100 code units, or its first characters have
exactly 100. -/
def CutBetween {U : Type} (encode : Nat → List U) (cps : List Nat) : Prop :=
  ∃ pre rest, cps = pre ++ rest ∧ (pre.flatMap encode).length ≤ 100 ∧ (rest = [] ∨ (pre.flatMap encode).length = 100)

/-- The throwing function gives `t` where the other overload reports `r`: the exception describes the code
and the value reported. -/
def ThrowsDescribing {α U : Type} (enc : Enc U) (s : List U) (t : Thr α) (r : Res α) : Prop :=
  ∀ code value, r = .err code value → ∃ x, raiseError enc code value s s.length = .ok (exnOf code value x) ∧
    t = .thrown (exnOf code value x)

end Ip.Spec
