import Verif.Spec.Utf8Loose
/-
Texts whose last sequence of code units announces more units than there are.
-/
set_option autoImplicit false

namespace Ip.Spec

/-- The number of bytes that the lead byte of a UTF-8 sequence announces; 1 for a byte that is no lead byte. -/
def announced8 (b : BitVec 8) : Nat :=
  if 192 ≤ b.toNat ∧ b.toNat < 224 then 2
  else if 224 ≤ b.toNat ∧ b.toNat < 240 then 3
  else if 240 ≤ b.toNat ∧ b.toNat < 248 then 4
  else 1

/-- The number of units that a UTF-16 unit announces: two for a high surrogate. -/
def announced16 (u : BitVec 16) : Nat := if 0xD800 ≤ u.toNat ∧ u.toNat < 0xDC00 then 2 else 1

/-- The bytes taken for an ASCII character, overlong or not. -/
def Ascii8 (cp : Nat) (g : List (BitVec 8)) : Prop := Loose cp g ∧ cp < 128

/-- The unit for an ASCII character. -/
def Ascii {w : Nat} (cp : Nat) (g : List (BitVec w)) : Prop := ∃ u, g = [u] ∧ u.toNat = cp ∧ cp < 128

/-- A text `us`, followed by `k` more elements in its array, that ends in a sequence of units whose first unit
announces more units than the text and those elements have; before it there are only ASCII characters that satisfy `P`. -/
def Overruns {U : Type} (Char' : Nat → List U → Prop) (announced : U → Nat) (P : Nat → Prop) (k : Nat) (us : List U) : Prop :=
  ∃ (gs : List (Nat × List U)) (u : U) (r : List U), us = gs.flatMap (·.2) ++ u :: r ∧
    (∀ g ∈ gs, Char' g.1 g.2 ∧ P g.1) ∧ r.length + 1 + k < announced u

/-- An array `units` of `n` elements followed by an element `last`, read as characters until a NUL character or until
`n` characters were read: the characters in `units` are fewer than `n` and none of them is NUL, so that `last` is read,
and `last` announces more than one element, or it is one more character different from NUL and they are still fewer
than `n`. -/
def ReadsPast {U : Type} (Char' : Nat → List U → Prop) (announced : U → Nat) (n : Nat) (units : List U) (last : U) : Prop :=
  ∃ gs : List (Nat × List U), units = gs.flatMap (·.2) ∧ (∀ g ∈ gs, Char' g.1 g.2 ∧ g.1 ≠ 0) ∧ gs.length < n ∧
    (1 < announced last ∨ (∃ cp, Char' cp [last] ∧ cp ≠ 0) ∧ gs.length + 1 < n)

/-- The code units `us` are the characters `s`, one group of units after the other. -/
def Writes {U : Type} (Char' : Nat → List U → Prop) (us : List U) (s : List Char) : Prop :=
  ∃ gs : List (Char × List U), us = gs.flatMap (·.2) ∧ s = gs.map (·.1) ∧ ∀ g ∈ gs, Char' g.1.toNat g.2

/-- `x`, computed on pointers, is undefined when `W` holds and is `y` when it does not. -/
def UndefinedWhen {α : Type} (W : Prop) (x y : Res α) : Prop := (W → x = .ub) ∧ (¬ W → x = y)

/-- A text starting with `%`, followed by a legal zone id. -/
def ZoneOnly (legal : List Char → Prop) (s : List Char) : Prop := ∃ z, s = '%' :: z ∧ z ≠ [] ∧ z.head? ≠ some '\x00' ∧ legal z

end Ip.Spec
