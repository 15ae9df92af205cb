import Verif.Model.Basic
/-
Unicode encoding forms (Unicode standard, section 3.9), independent of the readers of the library.
-/
set_option autoImplicit false

namespace Ip.Spec

/-- A Unicode scalar value: a code point that is not a surrogate. -/
def Scalar (cp : Nat) : Prop := cp < 0x110000 ∧ ¬ (0xD800 ≤ cp ∧ cp < 0xE000)

/-- UTF-8. -/
def utf8Encode (cp : Nat) : List (BitVec 8) :=
  if cp < 0x80 then [BitVec.ofNat 8 cp]
  else if cp < 0x800 then [BitVec.ofNat 8 (0xC0 + cp / 0x40), BitVec.ofNat 8 (0x80 + cp % 0x40)]
  else if cp < 0x10000 then
    [BitVec.ofNat 8 (0xE0 + cp / 0x1000), BitVec.ofNat 8 (0x80 + cp / 0x40 % 0x40), BitVec.ofNat 8 (0x80 + cp % 0x40)]
  else
    [BitVec.ofNat 8 (0xF0 + cp / 0x40000), BitVec.ofNat 8 (0x80 + cp / 0x1000 % 0x40),
     BitVec.ofNat 8 (0x80 + cp / 0x40 % 0x40), BitVec.ofNat 8 (0x80 + cp % 0x40)]

/-- UTF-16. -/
def utf16Encode (cp : Nat) : List (BitVec 16) :=
  if cp < 0x10000 then [BitVec.ofNat 16 cp]
  else [BitVec.ofNat 16 (0xD800 + (cp - 0x10000) / 0x400), BitVec.ofNat 16 (0xDC00 + (cp - 0x10000) % 0x400)]

/-- UTF-32. -/
def utf32Encode (cp : Nat) : List (BitVec 32) := [BitVec.ofNat 32 cp]

/-- What a reader should report for a text: its ASCII characters up to the first other code point,
which is reported as an unexpected symbol. -/
def textEvents : List Nat → List Ev
  | [] => []
  | cp :: rest => if cp < 128 then .ch (Char.ofNat cp) :: textEvents rest else [.bad .unexpected_symbol cp]

/-- UTF-8 code units without overlong or malformed three and four byte forms: the bytes `C0` and `C1`
do not occur, `E0` is followed by `A0`..`BF`, `F0` by `90`..`BF` (unless at the end). -/
def NoOverlong : List (BitVec 8) → Prop
  | [] => True
  | b :: rest =>
    b.toNat ≠ 0xC0 ∧ b.toNat ≠ 0xC1 ∧
    (b.toNat = 0xE0 → ∀ x ∈ rest.head?, 0xA0 ≤ x.toNat ∧ x.toNat < 0xC0) ∧
    (b.toNat = 0xF0 → ∀ x ∈ rest.head?, 0x90 ≤ x.toNat ∧ x.toNat < 0xC0) ∧
    NoOverlong rest

/-- What a reader reports for code units `us` of width `w`: the leading ASCII units as characters, then
an error at the first other unit. -/
def Reads {w : Nat} (us : List (BitVec w)) (evs : List Ev) : Prop :=
  ∃ (pre : List Char) (rest : List (BitVec w)), us = pre.map (fun c => BitVec.ofNat w c.toNat) ++ rest ∧
    (∀ c ∈ pre, c.toNat < 128) ∧
    ((rest = [] ∧ evs = pre.map Ev.ch) ∨
     (∃ u r code sym, rest = u :: r ∧ 128 ≤ u.toNat ∧ evs = pre.map Ev.ch ++ [.bad code sym]))

end Ip.Spec
