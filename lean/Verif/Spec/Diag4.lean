import Verif.Model.Basic
import Verif.Spec.V4
/-
What is wrong with a text that is not an IPv4 address.
-/
set_option autoImplicit false

namespace Ip.Spec

/-- Octets, each followed by a dot. -/
def octetsText (done : List Nat) : List Char := done.flatMap fun o => dec o ++ ['.']

/-- The beginning of an octet: nothing, or a number of at most three digits without leading zeros. -/
def Started (cur : List Char) : Prop := cur = [] ∨ ∃ n, n < 1000 ∧ cur = dec n

/-- What can be wrong with a text from the beginning of an octet, and is seen before the end of the text. -/
inductive OctetFault : List Char → ErrorCode → Prop
  | empty (post : List Char) : OctetFault ('.' :: post) .empty_octet
  | symbol (cur : List Char) (c : Char) (post : List Char) : Started cur → c.isDigit = false → c ≠ '.' →
      OctetFault (cur ++ c :: post) .octet_has_invalid_symbol
  | zero (d : Char) (post : List Char) : d.isDigit = true → OctetFault ('0' :: d :: post) .leading_0_are_not_permitted
  | long (n : Nat) (d : Char) (post : List Char) : 100 ≤ n → n < 1000 → d.isDigit = true →
      OctetFault (dec n ++ d :: post) .octet_more_3_characters
  | large (n : Nat) (post : List Char) : 255 < n → n < 1000 → OctetFault (dec n ++ '.' :: post) .octet_exceeded_255

/-- What can be wrong with a text and is seen before its end: the code and the number of the octet, which
counts from zero. -/
inductive V4Fault : List Char → ErrorCode → Nat → Prop
  | octet (done : List Nat) (rest : List Char) (code : ErrorCode) : done.length < 4 → (∀ o ∈ done, o ≤ 255) → OctetFault rest code →
      V4Fault (octetsText done ++ rest) code done.length
  | more (done : List Nat) (c : Char) (rest : List Char) : done.length = 4 → (∀ o ∈ done, o ≤ 255) →
      V4Fault (octetsText done ++ c :: rest) .expected_4_octets 4

/-- What can be wrong with a text and is seen at its end. -/
inductive V4EndFault : List Char → ErrorCode → Nat → Prop
  | few (done : List Nat) (rest : List Char) : done.length < 3 → (∀ o ∈ done, o ≤ 255) → Started rest →
      V4EndFault (octetsText done ++ rest) .expected_4_octets done.length
  | empty (done : List Nat) : done.length = 3 → (∀ o ∈ done, o ≤ 255) → V4EndFault (octetsText done) .empty_octet 3
  | large (done : List Nat) (n : Nat) : done.length = 3 → (∀ o ∈ done, o ≤ 255) → 255 < n → n < 1000 →
      V4EndFault (octetsText done ++ dec n) .octet_exceeded_255 3
  | trailing (done : List Nat) : done.length = 4 → (∀ o ∈ done, o ≤ 255) → V4EndFault (octetsText done) .expected_4_octets 4

end Ip.Spec
