import Verif.Spec.Diag4
import Verif.Spec.V6
/-
What is wrong with a text that is not an IPv6 address.
-/
set_option autoImplicit false

namespace Ip.Spec

/-- A part as it is read: the characters before the first NUL character, which is the whole part if it has
none. -/
def upToNul (p : List Char) : List Char := p.takeWhile (· ≠ '\x00')

/-- The text `a` is made of the parts `ps`, with colons between them. -/
def IsParts (a : List Char) (ps : List (List Char)) : Prop := ps ≠ [] ∧ (∀ p ∈ ps, ':' ∉ p) ∧ a = colons ps

/-- Parts of at most four characters. -/
def Short (ps : List (List Char)) : Prop := ∀ p ∈ ps, p.length ≤ 4

instance (ps : List (List Char)) : Decidable (Short ps) := by unfold Short; infer_instance

/-- What can be wrong with the parts while they are separated: the code and its value. -/
inductive SplitFault : List (List Char) → ErrorCode → Nat → Prop
  /-- Part `d.length` is too long; only a last part of at most 16 characters with a dot may be longer. -/
  | long (d : List (List Char)) (p : List Char) (rest : List (List Char)) : Short d → d.length ≤ 8 → 4 < p.length →
      (rest ≠ [] ∨ 16 < p.length ∨ '.' ∉ p) → SplitFault (d ++ p :: rest) .part_is_more_4_chars d.length
  /-- More characters follow nine colons, and there is no double colon among what was read so far. -/
  | colons (d : List (List Char)) (p : List Char) (rest : List (List Char)) : Short d → d.length = 9 →
      p ≠ [] → [] ∉ d.tail → SplitFault (d ++ p :: rest) .most_8_colons_permitted 9
  /-- More characters follow nine colons, and there is a double colon among what was read so far. -/
  | parts (d : List (List Char)) (p : List Char) (rest : List (List Char)) : Short d → d.length = 9 →
      (p ≠ [] ∨ rest ≠ []) → ([] ∈ d.tail ∨ p = []) →
      SplitFault (d ++ p :: rest) .expected_at_most_7_other_parts_with_double_colon 9
  /-- The text ends with the ninth colon and begins with a single one. -/
  | leading (p q : List Char) (d : List (List Char)) : Short (p :: q :: d) → d.length = 7 → upToNul p = [] → upToNul q ≠ [] →
      SplitFault (p :: q :: d ++ [[]]) .leading_colon_only_permitted_as_part_of_double_colon 9
  /-- The text ends with the ninth colon and does not begin with a single one. -/
  | trailing (p q : List Char) (d : List (List Char)) : Short (p :: q :: d) → d.length = 7 → (upToNul p = [] → upToNul q = []) →
      SplitFault (p :: q :: d ++ [[]]) .trailing_colon_only_permitted_as_part_of_double_colon 9
  /-- A dotted last part after seven or eight colons. -/
  | quadLate (d : List (List Char)) (k : List Char) : Short d → 7 ≤ d.length → d.length ≤ 8 → k.length ≤ 16 → '.' ∈ k →
      SplitFault (d ++ [k]) .most_8_colons_permitted d.length
  /-- A dotted last part that is not an IPv4 address. -/
  | quad (d : List (List Char)) (k : List Char) (code : ErrorCode) (v : Nat) : Short d → d.length ≤ 6 → k.length ≤ 16 → '.' ∈ k →
      upToNul k ≠ [] → (V4Fault (upToNul k) code v ∨ V4EndFault (upToNul k) code v) → SplitFault (d ++ [k]) code d.length
  /-- A dotted last part that begins with NUL. -/
  | quadEmpty (d : List (List Char)) (k : List Char) : Short d → d.length ≤ 6 → k.length ≤ 16 → '.' ∈ k →
      upToNul k = [] → SplitFault (d ++ [k]) .empty_address d.length

/-- The parts `R` that remain when a dotted last part is replaced by the two parts with its value. -/
inductive Resolved : List (List Char) → List (List Char) → Prop
  | hex (d : List (List Char)) (k : List Char) : Short d → d.length ≤ 8 → k.length ≤ 4 → '.' ∉ k →
      Resolved (d ++ [k]) ((d ++ [k]).map upToNul)
  | quad (d : List (List Char)) (k : List Char) (w x y z : BitVec 8) : Short d → d.length ≤ 6 → k.length ≤ 16 → '.' ∈ k →
      upToNul k = dotted w x y z →
      Resolved (d ++ [k]) (d.map upToNul ++ [hex4 (w.toNat * 256 + x.toNat), hex4 (y.toNat * 256 + z.toNat)])

/-- Part `k` is the only empty one between the first and the last part. -/
def GapAt (R : List (List Char)) (k : Nat) : Prop :=
  1 ≤ k ∧ k + 1 < R.length ∧ R[k]? = some [] ∧ ∀ j, 1 ≤ j → j + 1 < R.length → R[j]? = some [] → j = k

/-- No part between the first and the last one is empty. -/
def NoGap (R : List (List Char)) : Prop := ∀ j, 1 ≤ j → j + 1 < R.length → R[j]? ≠ some []

/-- What can be wrong with the number of parts and with empty parts. -/
inductive ShapeFault (R : List (List Char)) : ErrorCode → Prop
  | twice (i j : Nat) : 1 ≤ i → i < j → j + 1 < R.length → R[i]? = some [] → R[j]? = some [] →
      ShapeFault R .most_one_double_colon_permitted
  | leading (k : Nat) : GapAt R k → R[0]? = some [] → k ≠ 1 → ShapeFault R .leading_colon_only_permitted_as_part_of_double_colon
  | trailing (k : Nat) : GapAt R k → (R[0]? = some [] → k = 1) → R[R.length - 1]? = some [] → k + 2 ≠ R.length →
      ShapeFault R .trailing_colon_only_permitted_as_part_of_double_colon
  | parts (k : Nat) : GapAt R k → R[0]? ≠ some [] → R[R.length - 1]? ≠ some [] → R.length = 9 →
      ShapeFault R .expected_at_most_7_other_parts_with_double_colon
  | count : NoGap R → R.length ≠ 8 → ShapeFault R .exactly_8_parts_expected_without_double_colon
  | leading8 : NoGap R → R.length = 8 → R[0]? = some [] → ShapeFault R .leading_colon_only_permitted_as_part_of_double_colon
  | trailing8 : NoGap R → R.length = 8 → R[0]? ≠ some [] → R[7]? = some [] →
      ShapeFault R .trailing_colon_only_permitted_as_part_of_double_colon

/-- Some character of the parts is not a hexadecimal digit. -/
def HasSymbol (R : List (List Char)) : Prop := ∃ p ∈ R, ∃ c ∈ p, ∀ d, ¬ HexDigit c d

/-- What can be wrong with the parts of an address, and the value of the error.  For errors of the shape and
of the symbols it is the number of all parts. -/
inductive PartsFault (ps : List (List Char)) : ErrorCode → Nat → Prop
  | split (code : ErrorCode) (v : Nat) : SplitFault ps code v → PartsFault ps code v
  | few (R : List (List Char)) : Resolved ps R → R.length < 3 → PartsFault ps .least_3_parts R.length
  | shape (R : List (List Char)) (code : ErrorCode) : Resolved ps R → 3 ≤ R.length → ShapeFault R code →
      PartsFault ps code R.length
  | symbol (R : List (List Char)) : Resolved ps R → 3 ≤ R.length → (∀ code, ¬ ShapeFault R code) → HasSymbol R →
      PartsFault ps .part_has_invalid_symbol R.length

/-- What can be wrong with a zone id and is seen before its end. -/
inductive ZoneFault (spaces : Bool) (M : Nat) : List Char → ErrorCode → Prop
  | long (pre : List Char) (c : Char) (post : List Char) : ZoneOk spaces M pre → pre.length = M →
      ZoneFault spaces M (pre ++ c :: post) .scope_id_is_too_long
  | symbol (pre : List Char) (c : Char) (post : List Char) : ZoneOk spaces M pre → pre.length < M → ¬ ZoneOk spaces 1 [c] →
      ZoneFault spaces M (pre ++ c :: post) .invalid_scope_id

/-- What is wrong with a text that is not an IPv6 address: the zone id comes first, then the address. -/
inductive V6Fault (spaces : Bool) (M : Nat) : List Char → ErrorCode → Nat → Prop
  | zone (a z : List Char) (code : ErrorCode) : '%' ∉ a → ZoneFault spaces M z code → V6Fault spaces M (a ++ '%' :: z) code 0
  | noZone (a z : List Char) : '%' ∉ a → ZoneOk spaces M z → (z = [] ∨ z.head? = some '\x00') →
      V6Fault spaces M (a ++ '%' :: z) .invalid_scope_id 0
  | address (a : List Char) (ps : List (List Char)) (code : ErrorCode) (v : Nat) : '%' ∉ a → IsParts a ps → PartsFault ps code v →
      V6Fault spaces M a code v
  | addressZone (a z : List Char) (ps : List (List Char)) (code : ErrorCode) (v : Nat) : '%' ∉ a → ZoneOk spaces M z → z ≠ [] →
      z.head? ≠ some '\x00' → IsParts a ps → PartsFault ps code v → V6Fault spaces M (a ++ '%' :: z) code v

/-- The address of a text: what stands before the first percent sign. -/
def AddressOf (s a : List Char) : Prop := '%' ∉ a ∧ (s = a ∨ ∃ z, s = a ++ '%' :: z)

/-- The codes of errors that name an octet. -/
def octetErrors : List ErrorCode :=
  [.empty_octet, .leading_0_are_not_permitted, .octet_more_3_characters, .octet_has_invalid_symbol, .octet_exceeded_255]

end Ip.Spec
