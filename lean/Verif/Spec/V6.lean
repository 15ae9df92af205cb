import Verif.Spec.V4
/-
Independent specification of IPv6 text: the grammar of RFC 4291 section 2.2 with RFC 4007 zone
ids, and the canonical text of RFC 5952.  No definition here refers to the model.
-/
set_option autoImplicit false

namespace Ip.Spec

/-- The hexadecimal digits in order of value, lower case. -/
def hexLower : List Char :=
  ['0', '1', '2', '3', '4', '5', '6', '7', '8', '9', 'a', 'b', 'c', 'd', 'e', 'f']

/-- The hexadecimal digits in order of value, upper case. -/
def hexUpper : List Char :=
  ['0', '1', '2', '3', '4', '5', '6', '7', '8', '9', 'A', 'B', 'C', 'D', 'E', 'F']

/-- `c` is a hexadecimal digit, lower or upper case, of value `d`. -/
def HexDigit (c : Char) (d : Nat) : Prop := hexLower[d]? = some c ∨ hexUpper[d]? = some c

/-- `t` is a string of hexadecimal digits of value `v`. -/
inductive HexNum : List Char → Nat → Prop
  | nil : HexNum [] 0
  | snoc (t : List Char) (c : Char) (v d : Nat) : HexNum t v → HexDigit c d → HexNum (t ++ [c]) (16 * v + d)

/-- One group: one to four hexadecimal digits. -/
def Group (t : List Char) (v : Nat) : Prop := 1 ≤ t.length ∧ t.length ≤ 4 ∧ HexNum t v

/-- Groups separated by colons. -/
inductive Groups : List Char → List Nat → Prop
  | one (t : List Char) (v : Nat) : Group t v → Groups t [v]
  | cons (t : List Char) (v : Nat) (s : List Char) (vs : List Nat) :
      Group t v → Groups s vs → Groups (t ++ ':' :: s) (v :: vs)

/-- Groups separated by colons, where the last two groups may be written as a dotted quad. -/
inductive GroupsV4 : List Char → List Nat → Prop
  | one (t : List Char) (v : Nat) : Group t v → GroupsV4 t [v]
  | quad (a b c d : BitVec 8) :
      GroupsV4 (dotted a b c d) [a.toNat * 256 + b.toNat, c.toNat * 256 + d.toNat]
  | cons (t : List Char) (v : Nat) (s : List Char) (vs : List Nat) :
      Group t v → GroupsV4 s vs → GroupsV4 (t ++ ':' :: s) (v :: vs)

/-- RFC 4291: `s` is a text of the address whose eight 16 bit groups are `vs`. -/
inductive V6Text : List Char → List Nat → Prop
  | full (s : List Char) (vs : List Nat) : GroupsV4 s vs → vs.length = 8 → V6Text s vs
  | compressed (sh : List Char) (hi : List Nat) (sl : List Char) (lo : List Nat) :
      (sh = [] ∧ hi = [] ∨ Groups sh hi) → (sl = [] ∧ lo = [] ∨ GroupsV4 sl lo) →
      hi.length + lo.length ≤ 7 →
      V6Text (sh ++ ':' :: ':' :: sl) (hi ++ List.replicate (8 - (hi.length + lo.length)) 0 ++ lo)

/-- The octets of groups in network order. -/
def groupBytes : List Nat → List (BitVec 8)
  | [] => []
  | v :: vs => BitVec.ofNat 8 (v / 256) :: BitVec.ofNat 8 (v % 256) :: groupBytes vs

/-- The zone id part of a text: nothing for an empty zone id. -/
def zoneText (z : List Char) : List Char := if z = [] then [] else '%' :: z

/-- A legal zone id: at most `M` characters, no `%`, no `/` and, unless spaces are allowed, no
white space. -/
def ZoneOk (spaces : Bool) (M : Nat) (z : List Char) : Prop :=
  z.length ≤ M ∧ ∀ c ∈ z, c ≠ '%' ∧ c ≠ '/' ∧
    (spaces = false → c ≠ ' ' ∧ c ≠ '\t' ∧ c ≠ '\n' ∧ c ≠ '\x0b' ∧ c ≠ '\x0c' ∧ c ≠ '\r')

/-- The number written by four lower case hexadecimal digits. -/
def hex4 (v : Nat) : List Char :=
  [(v / 4096 % 16).digitChar, (v / 256 % 16).digitChar, (v / 16 % 16).digitChar, (v % 16).digitChar]

/-- The number in lower case hexadecimal without leading zeros. -/
def hexShort (v : Nat) : List Char := Nat.toDigits 16 v

/-- Texts separated by colons. -/
def colons : List (List Char) → List Char
  | [] => []
  | [t] => t
  | t :: ts => t ++ ':' :: colons ts

/-- `vs` has a run of `l` zeros at position `p`. -/
def ZeroRun (vs : List Nat) (p l : Nat) : Prop := p + l ≤ vs.length ∧ ∀ i, p ≤ i → i < p + l → vs[i]? = some 0

/-- RFC 5952 section 4: `s` is the canonical text of the groups `vs`.  Lower case, no leading
zeros, the leftmost of the longest runs of at least two zero groups is replaced by `::`. -/
def Canonical (vs : List Nat) (s : List Char) : Prop :=
  (∃ p l, 2 ≤ l ∧ ZeroRun vs p l ∧ (∀ p' l', ZeroRun vs p' l' → l' ≤ l ∧ (l' = l → p ≤ p')) ∧
    s = colons ((vs.take p).map hexShort) ++ ':' :: ':' :: colons ((vs.drop (p + l)).map hexShort)) ∨
  ((∀ p l, ZeroRun vs p l → l ≤ 1) ∧ s = colons (vs.map hexShort))

end Ip.Spec
