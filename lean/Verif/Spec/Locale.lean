import Verif.Model.Locale
import Verif.Spec.U128
import Verif.Spec.Message
/-
What the grouping of digits means.
-/
set_option autoImplicit false

namespace Ip.Spec

/-- The limits of the groups after the first: the last limit counts again and again. -/
def nextLimits : List Nat → List Nat
  | [] => []
  | [g] => [g]
  | _ :: g :: gs => g :: gs

/-- Groups of digits, the least significant group first, that respect the limits: every group is full, the last
one (on the left) may be shorter.  The limit 0, or no limit at all, is no limit. -/
def GroupsOf : List Nat → List (List Char) → Prop
  | _, [] => False
  | gs, [d] => d ≠ [] ∧ (gs.headD 0 = 0 ∨ d.length ≤ gs.headD 0)
  | gs, d :: e :: more => d ≠ [] ∧ d.length = gs.headD 0 ∧ GroupsOf (nextLimits gs) (e :: more)

/-- Groups put together with the separator, the most significant one first. -/
def joinGroups (sep : Char) (groups : List (List Char)) : List Char := List.intercalate [sep] groups.reverse

/-- The locale leaves a number of base `b` alone: no limit, or no more digits than the first limit. -/
def Ungrouped (p : Punct) (b n : Nat) : Prop := p.grouping.headD 0 = 0 ∨ n < b ^ p.grouping.headD 0

instance (p : Punct) (b n : Nat) : Decidable (Ungrouped p b n) := by unfold Ungrouped; infer_instance

/-- What a message shows of a text: its characters, and the numbers of other code points. -/
inductive Shown where
  | char (c : Char)
  | number (n : Nat)
deriving DecidableEq, Repr

/-- A code point in messages: its hexadecimal digits, at least four characters, in braces. -/
def uplusDigits (digits : List Char) : List Char :=
  "{U+".toList ++ List.replicate (4 - digits.length) '0' ++ digits ++ ['}']

/-- What a message shows of a text, with `hex` for the digits of numbers. -/
def showText (hex : Nat → List Char) (toks : List Shown) : List Char :=
  toks.flatMap fun
    | .char c => [c]
    | .number n => uplusDigits (hex n)

/-- The errors whose messages name an octet or a part by its number. -/
def numberErrors : List ErrorCode :=
  [.empty_octet, .leading_0_are_not_permitted, .octet_more_3_characters, .octet_has_invalid_symbol, .octet_exceeded_255,
   .part_is_more_4_chars, .part_has_invalid_symbol]

/-- The errors whose messages do not show the text. -/
def textless : List ErrorCode :=
  [.empty_address, .invalid_version, .invalid_prefixlen_diff, .new_prefix_must_be_shorter, .new_prefix_must_be_longer,
   .cannot_set_prefixlen_diff_and_new_prefix, .not_contained_network]

/-- The characters a separator must not be for texts to tell it from digits and from the braces around code points. -/
def hexChars : List Char := "0123456789abcdef{U+}".toList

end Ip.Spec
