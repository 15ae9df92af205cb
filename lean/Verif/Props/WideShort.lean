import Verif.Model.WideShort
import Verif.Props.Unicode
/-
C45 and C46 for a `wchar_t` of 16 bits outside Windows.
-/
set_option autoImplicit false

namespace Ip
open Spec

theorem shortWide_text : ∀ us : List (BitVec 16), shortWideEvents us = textEvents (us.map BitVec.toNat)
  | [] => rfl
  | u :: us => by
    rw [shortWideEvents, List.map_cons, textEvents, shortWideNext]
    by_cases h : u.toNat > 127
    · rw [if_pos h, if_neg (by omega)]
    · rw [if_neg h, if_pos (by omega), shortWide_text us]

theorem bmp_units : ∀ cps : List Nat, (∀ cp ∈ cps, cp < 0x10000) → (cps.flatMap utf16Encode).map BitVec.toNat = cps
  | [], _ => rfl
  | cp :: cps, h => by
    have h1 := h cp (by simp)
    rw [List.flatMap_cons, List.map_append, bmp_units cps (fun c hc => h c (by simp [hc])), utf16Encode, if_pos h1]
    simp only [List.map_cons, List.map_nil, BitVec.toNat_ofNat, List.singleton_append]
    rw [Nat.mod_eq_of_lt h1]

/-- C45, a `wchar_t` of 16 bits outside Windows: texts of code points below `U+10000` are read as in the other
encodings. -/
theorem C45_short_wide (cps : List Nat) (h : ∀ cp ∈ cps, cp < 0x10000) :
    shortWideEvents (cps.flatMap utf16Encode) = textEvents cps := by
  rw [shortWide_text, bmp_units cps h]

example : shortWideEvents ([0x31, 0x20AC].flatMap utf16Encode) = [.ch '1', .bad .unexpected_symbol 0x20AC] := by
  rw [C45_short_wide _ (by decide)]; decide

/-- C46, a `wchar_t` of 16 bits outside Windows: every text is either ASCII, and read like UTF-16, or has a first unit
that is not, at which both readers stop; they report the same unless that unit is a high surrogate.  Then the unit
itself is reported, for UTF-16 the code point of the pair, or a wrong sequence. -/
theorem C46_short_wide (us : List (BitVec 16)) :
    ((∀ u ∈ us, u.toNat < 128) ∧ shortWideEvents us = utf16Events us ∧
      shortWideEvents us = us.map fun u => .ch (Char.ofNat u.toNat)) ∨
    ∃ pre u rest c v, us = pre ++ u :: rest ∧ (∀ u ∈ pre, u.toNat < 128) ∧ 128 ≤ u.toNat ∧
      shortWideEvents us = (pre.map fun u => .ch (Char.ofNat u.toNat)) ++ [.bad .unexpected_symbol u.toNat] ∧
      utf16Events us = (pre.map fun u => .ch (Char.ofNat u.toNat)) ++ [.bad c v] ∧
      (¬ (0xD800 ≤ u.toNat ∧ u.toNat < 0xDC00) → c = .unexpected_symbol ∧ v = u.toNat) ∧
      (0xD800 ≤ u.toNat ∧ u.toNat < 0xDC00 → v ≠ u.toNat) := by
  induction us with
  | nil => exact .inl ⟨by simp, by rw [utf16Events]; rfl, rfl⟩
  | cons u us ih =>
    have key : ∀ v : BitVec 16, v &&& 0b1111110000000000#16 = 0b1101100000000000#16 ↔ 0xD800 ≤ v.toNat ∧ v.toNat < 0xDC00 := by
      intro v
      rw [← BitVec.toNat_inj, BitVec.toNat_and]
      show v.toNat &&& 0xFC00 = 0xD800 ↔ _
      have e : v.toNat &&& 0xFC00 = v.toNat / 1024 * 1024 := by
        have h0 := v.isLt
        apply Nat.eq_of_testBit_eq
        intro i
        rw [Nat.testBit_and, show v.toNat / 1024 * 1024 = (v.toNat >>> 10) <<< 10 by rw [Nat.shiftRight_eq_div_pow, Nat.shiftLeft_eq],
          Nat.testBit_shiftLeft, Nat.testBit_shiftRight]
        by_cases hi : i < 16
        · have : ∀ i < 16, Nat.testBit 0xFC00 i = decide (10 ≤ i) := by decide
          rw [this i hi]
          by_cases h10 : 10 ≤ i
          · simp [h10]
          · simp [h10]
        · have : v.toNat.testBit i = false := Nat.testBit_lt_two_pow (Nat.lt_of_lt_of_le h0 (Nat.pow_le_pow_right (by omega) (by omega)))
          simp only [this, Bool.false_and]
          by_cases h10 : i ≥ 10
          · rw [show 10 + (i - 10) = i by omega, this]; simp
          · simp [h10]
      rw [e]
      have := v.isLt
      omega
    by_cases h : u.toNat > 127
    · refine .inr ⟨[], u, us, ?_⟩
      have hs : shortWideEvents (u :: us) = [.bad .unexpected_symbol u.toNat] := by
        rw [shortWideEvents, shortWideNext, if_pos h]
      by_cases hk : 0xD800 ≤ u.toNat ∧ u.toNat < 0xDC00
      · cases us with
        | nil =>
          refine ⟨.wrong_encoding_sequence, 0, rfl, by simp, by omega, hs, ?_, fun g => absurd hk g, fun _ => by omega⟩
          rw [utf16Events]
          simp only [utf16Next, utf16CodePoint, if_pos ((key u).2 hk)]
          simp
        | cons l r =>
          by_cases hl : l &&& 0b1111110000000000#16 = 0b1101110000000000#16
          · have small : ∀ w : BitVec 16, ((w &&& 0b0000001111111111#16).setWidth 32).toNat < 2 ^ 10 := by
              intro w
              rw [BitVec.toNat_setWidth, BitVec.toNat_and]
              exact Nat.lt_of_le_of_lt (Nat.mod_le _ _) (Nat.lt_of_le_of_lt Nat.and_le_right (by decide))
            have hx : ((((u &&& 0b0000001111111111#16).setWidth 32 : BitVec 32) <<< 10) |||
                (l &&& 0b0000001111111111#16).setWidth 32).toNat < 2 ^ 20 := by
              rw [BitVec.toNat_or]
              apply Nat.or_lt_two_pow
              · rw [BitVec.toNat_shiftLeft, Nat.shiftLeft_eq]
                have := small u
                exact Nat.lt_of_le_of_lt (Nat.mod_le _ _) (by omega)
              · have := small l; omega
            have hy : (((((u &&& 0b0000001111111111#16).setWidth 32 : BitVec 32) <<< 10) |||
                (l &&& 0b0000001111111111#16).setWidth 32) + 0x10000#32).toNat ≥ 0x10000 := by
              rw [BitVec.toNat_add, Nat.mod_eq_of_lt (by show _ + 65536 < _; omega)]
              show _ ≤ _ + 65536
              omega
            refine ⟨.unexpected_symbol, (((((u &&& 0b0000001111111111#16).setWidth 32 : BitVec 32) <<< 10) |||
                (l &&& 0b0000001111111111#16).setWidth 32) + 0x10000#32).toNat, rfl, by simp, by omega, hs, ?_,
              fun g => absurd hk g, fun _ => by omega⟩
            rw [utf16Events]
            simp only [utf16Next, utf16CodePoint, if_pos ((key u).2 hk), if_pos hl]
            rw [if_neg (by decide), if_pos (by omega)]
            rfl
          · refine ⟨.wrong_encoding_sequence, 0, rfl, by simp, by omega, hs, ?_, fun g => absurd hk g, fun _ => by omega⟩
            rw [utf16Events]
            simp only [utf16Next, utf16CodePoint, if_pos ((key u).2 hk), if_neg hl]
            simp
      · refine ⟨.unexpected_symbol, u.toNat, rfl, by simp, by omega, hs, ?_, fun _ => ⟨rfl, rfl⟩, fun g => absurd g hk⟩
        rw [utf16Events]
        simp only [utf16Next, utf16CodePoint, if_neg (mt (key u).1 hk)]
        have : (u.setWidth 32).toNat = u.toNat := by
          rw [BitVec.toNat_setWidth]; exact Nat.mod_eq_of_lt (by have := u.isLt; omega)
        simp only [if_true, this, if_pos h]
        rfl
    · have hs : shortWideEvents (u :: us) = .ch (Char.ofNat u.toNat) :: shortWideEvents us := by
        rw [shortWideEvents, shortWideNext, if_neg h]
      have hu : utf16Events (u :: us) = .ch (Char.ofNat u.toNat) :: utf16Events us := by
        have : (u.setWidth 32).toNat = u.toNat := by
          rw [BitVec.toNat_setWidth]; exact Nat.mod_eq_of_lt (by have := u.isLt; omega)
        rw [utf16Events]
        simp only [utf16Next, utf16CodePoint, if_neg (mt (key u).1 (by omega)), if_true, this, if_neg h]
        rw [if_pos (by omega)]
      rcases ih with ⟨h1, h2, h3⟩ | ⟨pre, w, rest, c, v, h1, h2, h3, h4, h5, h6⟩
      · refine .inl ⟨?_, by rw [hs, hu, h2], by rw [hs, h3]; rfl⟩
        intro x hx
        rcases List.mem_cons.1 hx with rfl | hx
        · omega
        · exact h1 x hx
      · refine .inr ⟨u :: pre, w, rest, c, v, by rw [h1]; rfl, ?_, h3, by rw [hs, h4]; rfl, by rw [hu, h5]; rfl, h6⟩
        intro x hx
        rcases List.mem_cons.1 hx with rfl | hx
        · omega
        · exact h2 x hx

example : shortWideEvents [0x31#16, 0xD83D#16, 0xDE00#16] = [.ch '1', .bad .unexpected_symbol 0xD83D] ∧
    utf16Events [0x31#16, 0xD83D#16, 0xDE00#16] = [.ch '1', .bad .unexpected_symbol 0x1F600] := by decide +kernel

/-- C46, negation: there the pair for `U+1F600` is reported as the symbol `U+D83D`, and a lone surrogate is not a wrong
sequence. -/
theorem C46_short_wide_wrong :
    utf16Encode 0x1F600 = [0xD83D, 0xDE00] ∧ utf16Events [0xD83D, 0xDE00] = [.bad .unexpected_symbol 0x1F600] ∧
    shortWideEvents [0xD83D, 0xDE00] = [.bad .unexpected_symbol 0xD83D] ∧
    utf16Events [0xD800] = [.bad .wrong_encoding_sequence 0] ∧ shortWideEvents [0xD800] = [.bad .unexpected_symbol 0xD800] := by
  refine ⟨by decide, ?_, by decide, ?_, by decide⟩ <;> · rw [utf16Events]; decide

end Ip
