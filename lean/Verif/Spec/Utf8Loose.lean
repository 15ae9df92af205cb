import Verif.Model.Basic
/-
The sequences of bytes that the UTF-8 reader of the library takes for a code point: lead byte and
number of bytes as in UTF-8, but overlong forms and surrogates are taken, values up to `1FFFFF` are
taken, and of the trailing bytes only the last has to be a continuation byte.
-/
set_option autoImplicit false

namespace Ip.Spec

/-- A UTF-8 continuation byte. -/
def Trailing8 (b : BitVec 8) : Prop := 128 ≤ b.toNat ∧ b.toNat < 192

instance (b : BitVec 8) : Decidable (Trailing8 b) := inferInstanceAs (Decidable (_ ∧ _))

/-- The bits of a byte in the middle of a sequence: none if it is not a continuation byte. -/
def midBits (b : BitVec 8) : Nat := if Trailing8 b then b.toNat - 128 else 0

/-- `Loose cp us`: the bytes `us` are taken for the code point `cp`. -/
inductive Loose : Nat → List (BitVec 8) → Prop
  | one (a : BitVec 8) : a.toNat < 128 → Loose a.toNat [a]
  | two (a z : BitVec 8) : 192 ≤ a.toNat → a.toNat < 224 → Trailing8 z →
      Loose ((a.toNat - 192) * 64 + (z.toNat - 128)) [a, z]
  | three (a x z : BitVec 8) : 224 ≤ a.toNat → a.toNat < 240 → Trailing8 z →
      Loose (((a.toNat - 224) * 64 + midBits x) * 64 + (z.toNat - 128)) [a, x, z]
  | four (a x y z : BitVec 8) : 240 ≤ a.toNat → a.toNat < 248 → Trailing8 z →
      Loose ((((a.toNat - 240) * 64 + midBits x) * 64 + midBits y) * 64 + (z.toNat - 128)) [a, x, y, z]

/-- What is read from a sequence of bytes: characters, up to the first code point that is not ASCII or
the first place where no code point starts. -/
inductive LooseRead : List (BitVec 8) → List Ev → Prop
  | nil : LooseRead [] []
  | char (cp : Nat) (us r : List (BitVec 8)) (evs : List Ev) : Loose cp us → cp < 128 → LooseRead r evs →
      LooseRead (us ++ r) (.ch (Char.ofNat cp) :: evs)
  | symbol (cp : Nat) (us r : List (BitVec 8)) : Loose cp us → 128 ≤ cp →
      LooseRead (us ++ r) [.bad .unexpected_symbol cp]
  | wrong (us : List (BitVec 8)) : us ≠ [] → (∀ cp t r, Loose cp t → us ≠ t ++ r) →
      LooseRead us [.bad .wrong_encoding_sequence 0]

end Ip.Spec
