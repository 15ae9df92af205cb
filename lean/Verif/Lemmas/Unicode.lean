import Verif.Model.Unicode
import Verif.Spec.Unicode
import Mathlib.Tactic.IntervalCases
set_option autoImplicit false

namespace Ip
open Spec

theorem utf8CodePoint_eq (b : BitVec 8) : utf8CodePoint b =
    if b.toNat < 128 then (BitVec.ofNat 32 b.toNat, 1)
    else if b.toNat < 192 then (0#32, 0)
    else if b.toNat < 224 then (BitVec.ofNat 32 (b.toNat - 192), 2)
    else if b.toNat < 240 then (BitVec.ofNat 32 (b.toNat - 224), 3)
    else if b.toNat < 248 then (BitVec.ofNat 32 (b.toNat - 240), 4)
    else (0#32, 0) := by
  revert b; decide +kernel

theorem utf8Trailing_eq (b : BitVec 8) (r : List (BitVec 8)) : utf8Trailing (b :: r) =
    if 128 ≤ b.toNat ∧ b.toNat < 192 then (BitVec.ofNat 32 (b.toNat - 128), true, r) else (0#32, false, r) := by
  have h1 : (b &&& 0b11000000#8 = 0b10000000#8) ↔ (128 ≤ b.toNat ∧ b.toNat < 192) := by
    revert b; decide +kernel
  have h2 : (128 ≤ b.toNat ∧ b.toNat < 192) → (b &&& 0b00111111#8).setWidth 32 = BitVec.ofNat 32 (b.toNat - 128) := by
    revert b; decide +kernel
  simp only [utf8Trailing]
  by_cases h : 128 ≤ b.toNat ∧ b.toNat < 192
  · rw [if_pos h, if_pos (h1.2 h), h2 h]
  · rw [if_neg h, if_neg (fun h' => h (h1.1 h'))]

/-- The outcome of `utf8_next_or_error` after the trailing units. -/
def utf8Fin (t : BitVec 32 × Bool × List (BitVec 8)) : Ev × List (BitVec 8) :=
  if t.2.1 = false then (.bad .wrong_encoding_sequence 0, t.2.2)
  else if t.1.toNat > 127 then (.bad .unexpected_symbol t.1.toNat, t.2.2)
  else (.ch (Char.ofNat t.1.toNat), t.2.2)

theorem utf8Next_of (b : BitVec 8) (rest : List (BitVec 8)) (v : BitVec 32) (n : Nat)
    (h : utf8CodePoint b = (v, n + 1)) : utf8Next b rest = utf8Fin (utf8Trail n v true rest) := by
  simp only [utf8Next, h, Nat.add_eq_zero_iff, Nat.add_sub_cancel]
  simp only [one_ne_zero, and_false, if_false]
  rfl

theorem utf8Fin_ok (v : BitVec 32) (rest : List (BitVec 8)) (cp : Nat) (h : v.toNat = cp) :
    utf8Fin (v, true, rest) = (if cp < 128 then .ch (Char.ofNat cp) else .bad .unexpected_symbol cp, rest) := by
  subst h
  simp only [utf8Fin, Bool.true_eq_false, if_false]
  by_cases h : v.toNat < 128
  · rw [if_pos h, if_neg (by omega)]
  · rw [if_neg h, if_pos (by omega)]

theorem utf8Trail_cont (n : Nat) (v : BitVec 32) (ok : Bool) (t : Nat) (ht : t < 64) (rest : List (BitVec 8)) :
    utf8Trail (n + 1) v ok (BitVec.ofNat 8 (0x80 + t) :: rest) =
      utf8Trail n ((v <<< 6) ||| BitVec.ofNat 32 t) true rest := by
  have e : (BitVec.ofNat 8 (0x80 + t)).toNat = 0x80 + t := by simp; omega
  simp only [utf8Trail, utf8Trailing_eq, e]
  rw [if_pos (by omega)]
  simp

theorem shl6_ofNat (v t : Nat) (hv : v < 2 ^ 20) (ht : t < 64) :
    (BitVec.ofNat 32 v <<< 6) ||| BitVec.ofNat 32 t = BitVec.ofNat 32 (v * 64 + t) := by
  apply BitVec.eq_of_toNat_eq
  rw [BitVec.toNat_or, BitVec.toNat_shiftLeft, Nat.shiftLeft_eq]
  simp only [BitVec.toNat_ofNat]
  rw [Nat.mod_eq_of_lt (show t < 2 ^ 32 by omega), Nat.mod_eq_of_lt (show v < 2 ^ 32 by omega),
    Nat.mod_eq_of_lt (by omega), show v * 2 ^ 6 = 2 ^ 6 * v by omega, ← Nat.two_pow_add_eq_or_of_lt (i := 6) ht,
    Nat.mod_eq_of_lt (by omega)]
  omega

theorem utf8Next_encode (cp : Nat) (h : Scalar cp) (rest : List (BitVec 8)) (b : BitVec 8) (r : List (BitVec 8))
    (he : utf8Encode cp = b :: r) :
    utf8Next b (r ++ rest) =
      (if cp < 128 then .ch (Char.ofNat cp) else .bad .unexpected_symbol cp, rest) := by
  obtain ⟨h1, _⟩ := h
  unfold utf8Encode at he
  split at he
  · rename_i hc
    obtain ⟨rfl, rfl⟩ := List.cons.inj he
    have e : (BitVec.ofNat 8 cp).toNat = cp := by simp; omega
    have hcp : utf8CodePoint (BitVec.ofNat 8 cp) = (BitVec.ofNat 32 cp, 0 + 1) := by
      rw [utf8CodePoint_eq, e, if_pos (by omega)]
    rw [utf8Next_of _ _ _ _ hcp]
    exact utf8Fin_ok _ _ cp (by simp; omega)
  split at he
  · rename_i hc0 hc
    obtain ⟨rfl, rfl⟩ := List.cons.inj he
    have e1 : (BitVec.ofNat 8 (0xC0 + cp / 0x40)).toNat = 0xC0 + cp / 0x40 := by simp; omega
    have hcp : utf8CodePoint (BitVec.ofNat 8 (0xC0 + cp / 0x40)) = (BitVec.ofNat 32 (cp / 0x40), 1 + 1) := by
      rw [utf8CodePoint_eq, e1, if_neg (by omega), if_neg (by omega), if_pos (by omega), Nat.add_sub_cancel_left]
    rw [utf8Next_of _ _ _ _ hcp, List.cons_append, utf8Trail_cont _ _ _ _ (by omega), shl6_ofNat _ _ (by omega) (by omega)]
    exact utf8Fin_ok _ _ cp (by simp; omega)
  split at he
  · rename_i hc0 hc1 hc
    obtain ⟨rfl, rfl⟩ := List.cons.inj he
    have e1 : (BitVec.ofNat 8 (0xE0 + cp / 0x1000)).toNat = 0xE0 + cp / 0x1000 := by simp; omega
    have hcp : utf8CodePoint (BitVec.ofNat 8 (0xE0 + cp / 0x1000)) = (BitVec.ofNat 32 (cp / 0x1000), 2 + 1) := by
      rw [utf8CodePoint_eq, e1, if_neg (by omega), if_neg (by omega), if_neg (by omega), if_pos (by omega),
        Nat.add_sub_cancel_left]
    rw [utf8Next_of _ _ _ _ hcp, List.cons_append, utf8Trail_cont _ _ _ _ (by omega), List.cons_append,
      utf8Trail_cont _ _ _ _ (by omega), shl6_ofNat _ _ (by omega) (by omega), shl6_ofNat _ _ (by omega) (by omega)]
    exact utf8Fin_ok _ _ cp (by simp; omega)
  · rename_i hc0 hc1 hc
    obtain ⟨rfl, rfl⟩ := List.cons.inj he
    have e1 : (BitVec.ofNat 8 (0xF0 + cp / 0x40000)).toNat = 0xF0 + cp / 0x40000 := by simp; omega
    have hcp : utf8CodePoint (BitVec.ofNat 8 (0xF0 + cp / 0x40000)) = (BitVec.ofNat 32 (cp / 0x40000), 3 + 1) := by
      rw [utf8CodePoint_eq, e1, if_neg (by omega), if_neg (by omega), if_neg (by omega), if_neg (by omega),
        if_pos (by omega), Nat.add_sub_cancel_left]
    rw [utf8Next_of _ _ _ _ hcp, List.cons_append, utf8Trail_cont _ _ _ _ (by omega), List.cons_append,
      utf8Trail_cont _ _ _ _ (by omega), List.cons_append, utf8Trail_cont _ _ _ _ (by omega),
      shl6_ofNat _ _ (by omega) (by omega), shl6_ofNat _ _ (by omega) (by omega), shl6_ofNat _ _ (by omega) (by omega)]
    exact utf8Fin_ok _ _ cp (by simp; omega)

theorem utf8Encode_cons (cp : Nat) : ∃ b r, utf8Encode cp = b :: r := by
  unfold utf8Encode; repeat' split
  all_goals exact ⟨_, _, rfl⟩

theorem utf8Events_encode : ∀ (cps : List Nat), (∀ cp ∈ cps, Scalar cp) →
    utf8Events (cps.flatMap utf8Encode) = textEvents cps
  | [], _ => by simp [utf8Events, textEvents]
  | cp :: cps, h => by
    obtain ⟨b, r, he⟩ := utf8Encode_cons cp
    have ih := utf8Events_encode cps (fun c hc => h c (by simp [hc]))
    have hn := utf8Next_encode cp (h cp (by simp)) (cps.flatMap utf8Encode) b r he
    rw [List.flatMap_cons, he, List.cons_append, utf8Events, textEvents]
    by_cases hc : cp < 128
    · rw [if_pos hc] at hn ⊢
      rw [hn]
      simp only [List.length_append]
      rw [if_pos (by omega), ih]
    · rw [if_neg hc] at hn ⊢
      rw [hn]

theorem utf16High (u : BitVec 16) : (u &&& 0b1111110000000000#16).toNat = u.toNat / 1024 * 1024 := by
  have : u &&& 0b1111110000000000#16 = (u >>> 10) <<< 10 := by
    apply BitVec.eq_of_getLsbD_eq
    intro i hi
    interval_cases i <;> simp [-BitVec.getLsbD_eq_getElem]
  have hu := u.isLt
  rw [this, BitVec.toNat_shiftLeft, BitVec.toNat_ushiftRight, Nat.shiftLeft_eq, Nat.shiftRight_eq_div_pow]
  omega

theorem utf16MaskHigh (u : BitVec 16) : (u &&& 0b1111110000000000#16 = 0b1101100000000000#16) ↔
    (0xD800 ≤ u.toNat ∧ u.toNat < 0xDC00) := by
  rw [← BitVec.toNat_inj, utf16High]
  simp only [BitVec.toNat_ofNat]
  omega

theorem utf16MaskLow (u : BitVec 16) : (u &&& 0b1111110000000000#16 = 0b1101110000000000#16) ↔
    (0xDC00 ≤ u.toNat ∧ u.toNat < 0xE000) := by
  rw [← BitVec.toNat_inj, utf16High]
  simp only [BitVec.toNat_ofNat]
  omega

theorem low10 (u : BitVec 16) : (u &&& 0b0000001111111111#16).setWidth 32 = BitVec.ofNat 32 (u.toNat % 1024) := by
  apply BitVec.eq_of_toNat_eq
  simp only [BitVec.toNat_setWidth, BitVec.toNat_and, BitVec.toNat_ofNat]
  rw [show (1023 : Nat) % 2 ^ 16 = 2 ^ 10 - 1 from rfl, Nat.and_two_pow_sub_one_eq_mod]

theorem shl10_ofNat (v t : Nat) (hv : v < 1024) (ht : t < 1024) :
    ((BitVec.ofNat 32 v <<< 10) ||| BitVec.ofNat 32 t) + 0x10000#32 = BitVec.ofNat 32 (v * 1024 + t + 0x10000) := by
  apply BitVec.eq_of_toNat_eq
  rw [BitVec.toNat_add, BitVec.toNat_or, BitVec.toNat_shiftLeft, Nat.shiftLeft_eq]
  simp only [BitVec.toNat_ofNat]
  rw [Nat.mod_eq_of_lt (show t < 2 ^ 32 by omega), Nat.mod_eq_of_lt (show v < 2 ^ 32 by omega),
    Nat.mod_eq_of_lt (show v * 2 ^ 10 < 2 ^ 32 by omega), show v * 2 ^ 10 = 2 ^ 10 * v by omega,
    ← Nat.two_pow_add_eq_or_of_lt (i := 10) ht]
  omega

/-- The outcome of `utf16_next_or_error` once the code point is known. -/
def utf16Fin (cp : Nat) (r : List (BitVec 16)) : Ev × List (BitVec 16) :=
  (if cp < 128 then .ch (Char.ofNat cp) else .bad .unexpected_symbol cp, r)

theorem utf16Next_eq (u : BitVec 16) (rest : List (BitVec 16)) : utf16Next u rest =
    if 0xD800 ≤ u.toNat ∧ u.toNat < 0xDC00 then
      match rest with
      | [] => (.bad .wrong_encoding_sequence 0, [])
      | l :: r =>
        if 0xDC00 ≤ l.toNat ∧ l.toNat < 0xE000 then
          utf16Fin (u.toNat % 1024 * 1024 + l.toNat % 1024 + 0x10000) r
        else (.bad .wrong_encoding_sequence 0, r)
    else utf16Fin u.toNat rest := by
  have hu := u.isLt
  unfold utf16Next utf16CodePoint
  by_cases h : 0xD800 ≤ u.toNat ∧ u.toNat < 0xDC00
  · rw [if_pos h, if_pos ((utf16MaskHigh u).2 h)]
    simp only [show ¬ (2 = 1) by omega, if_false]
    cases rest with
    | nil => rfl
    | cons l r =>
      simp only
      by_cases hl : 0xDC00 ≤ l.toNat ∧ l.toNat < 0xE000
      · rw [if_pos hl, if_pos ((utf16MaskLow l).2 hl), low10, low10, shl10_ofNat _ _ (by omega) (by omega)]
        have e : (BitVec.ofNat 32 (u.toNat % 1024 * 1024 + l.toNat % 1024 + 0x10000)).toNat =
            u.toNat % 1024 * 1024 + l.toNat % 1024 + 0x10000 := by simp; omega
        simp only [e, utf16Fin]
        rw [if_pos (by omega), if_neg (by omega)]
      · rw [if_neg hl, if_neg (fun h' => hl ((utf16MaskLow l).1 h'))]
  · rw [if_neg h, if_neg (fun h' => h ((utf16MaskHigh u).1 h'))]
    simp only [if_true, utf16Fin]
    have e : (BitVec.setWidth 32 u).toNat = u.toNat := by simp; omega
    rw [e]
    by_cases h : u.toNat < 128
    · rw [if_pos h, if_neg (by omega)]
    · rw [if_neg h, if_pos (by omega)]

theorem utf16Encode_cons (cp : Nat) : ∃ b r, utf16Encode cp = b :: r := by
  unfold utf16Encode; split
  all_goals exact ⟨_, _, rfl⟩

theorem utf16Next_encode (cp : Nat) (h : Scalar cp) (rest : List (BitVec 16)) (b : BitVec 16) (r : List (BitVec 16))
    (he : utf16Encode cp = b :: r) : utf16Next b (r ++ rest) = utf16Fin cp rest := by
  obtain ⟨h1, h2⟩ := h
  unfold utf16Encode at he
  split at he
  · obtain ⟨rfl, rfl⟩ := List.cons.inj he
    have e : (BitVec.ofNat 16 cp).toNat = cp := by simp; omega
    rw [utf16Next_eq, e, if_neg (by omega)]
    rfl
  · obtain ⟨rfl, rfl⟩ := List.cons.inj he
    have e1 : (BitVec.ofNat 16 (0xD800 + (cp - 0x10000) / 0x400)).toNat = 0xD800 + (cp - 0x10000) / 0x400 := by simp; omega
    have e2 : (BitVec.ofNat 16 (0xDC00 + (cp - 0x10000) % 0x400)).toNat = 0xDC00 + (cp - 0x10000) % 0x400 := by simp; omega
    rw [utf16Next_eq, e1, if_pos (by omega), List.cons_append]
    simp only [e2]
    rw [if_pos (by omega)]
    exact congrArg (fun x => utf16Fin x rest) (by omega)

theorem utf16Events_encode : ∀ (cps : List Nat), (∀ cp ∈ cps, Scalar cp) →
    utf16Events (cps.flatMap utf16Encode) = textEvents cps
  | [], _ => by simp [utf16Events, textEvents]
  | cp :: cps, h => by
    obtain ⟨b, r, he⟩ := utf16Encode_cons cp
    have ih := utf16Events_encode cps (fun c hc => h c (by simp [hc]))
    have hn := utf16Next_encode cp (h cp (by simp)) (cps.flatMap utf16Encode) b r he
    rw [utf16Fin] at hn
    rw [List.flatMap_cons, he, List.cons_append, utf16Events, textEvents]
    by_cases hc : cp < 128
    · rw [if_pos hc] at hn ⊢
      rw [hn]
      simp only [List.length_append]
      rw [if_pos (by omega), ih]
    · rw [if_neg hc] at hn ⊢
      rw [hn]

theorem utf32Events_encode : ∀ (cps : List Nat), (∀ cp ∈ cps, Scalar cp) →
    utf32Events (cps.flatMap utf32Encode) = textEvents cps
  | [], _ => by simp [utf32Events, textEvents]
  | cp :: cps, h => by
    have ih := utf32Events_encode cps (fun c hc => h c (by simp [hc]))
    have h1 := (h cp (by simp)).1
    have e : (BitVec.ofNat 32 cp).toNat = cp := by simp; omega
    simp only [List.flatMap_cons, utf32Encode, List.cons_append, List.nil_append, utf32Events, textEvents, e]
    by_cases hc : cp < 128
    · rw [if_pos hc, if_neg (by omega)]; exact congrArg _ ih
    · rw [if_neg hc, if_pos (by omega)]

theorem ofNat_toNat (c : Char) : Char.ofNat c.toNat = c := by simp

theorem toNat_ofNat_ascii (n : Nat) (h : n < 128) : (Char.ofNat n).toNat = n := by
  have : n.isValidChar := Or.inl (by omega)
  rw [Char.ofNat, dif_pos this]
  simp [Char.toNat, Char.ofNatAux]

theorem textEvents_ascii : ∀ (s : List Char), (∀ c ∈ s, c.toNat < 128) →
    textEvents (s.map Char.toNat) = readChars s
  | [], _ => rfl
  | c :: s, h => by
    have ih := textEvents_ascii s (fun d hd => h d (by simp [hd]))
    simp only [List.map_cons, textEvents, h c (by simp), if_true, ih, readChars, ofNat_toNat]

theorem utf8Trailing_lt (l : List (BitVec 8)) : (utf8Trailing l).1.toNat < 64 := by
  cases l with
  | nil => simp [utf8Trailing]
  | cons b r =>
    rw [utf8Trailing_eq]
    split
    · simp; omega
    · simp

theorem shl6_or (v t : BitVec 32) (hv : v.toNat < 2 ^ 20) (ht : t.toNat < 64) :
    ((v <<< 6) ||| t).toNat = v.toNat * 64 + t.toNat := by
  have := shl6_ofNat v.toNat t.toNat hv ht
  rw [BitVec.ofNat_toNat, BitVec.ofNat_toNat, BitVec.setWidth_eq, BitVec.setWidth_eq] at this
  rw [this]
  simp
  omega

/-- Trailing units keep the bits already read. -/
theorem utf8Trail_ge : ∀ (n : Nat) (v : BitVec 32) (ok : Bool) (l : List (BitVec 8)), n ≤ 3 →
    v.toNat < 2 ^ (26 - 6 * n) → v.toNat * 64 ^ n ≤ (utf8Trail n v ok l).1.toNat
  | 0, v, ok, l, _, _ => by simp [utf8Trail]
  | n + 1, v, ok, l, hn, hv => by
    have ht := utf8Trailing_lt l
    have h20 : v.toNat < 2 ^ 20 := Nat.lt_of_lt_of_le hv (Nat.pow_le_pow_right (by omega) (by omega))
    have e := shl6_or v (utf8Trailing l).1 h20 ht
    have hlt : ((v <<< 6) ||| (utf8Trailing l).1).toNat < 2 ^ (26 - 6 * n) := by
      rw [e, show 26 - 6 * n = 26 - 6 * (n + 1) + 6 by omega, Nat.pow_add]
      generalize 2 ^ (26 - 6 * (n + 1)) = p at hv
      omega
    have ih := utf8Trail_ge n ((v <<< 6) ||| (utf8Trailing l).1) (utf8Trailing l).2.1 (utf8Trailing l).2.2 (by omega) hlt
    rw [e] at ih
    simp only [utf8Trail]
    refine Nat.le_trans ?_ ih
    rw [Nat.pow_succ, Nat.mul_comm _ 64, ← Nat.mul_assoc]
    exact Nat.mul_le_mul_right _ (by omega)

theorem utf8Fin_ge (t : BitVec 32 × Bool × List (BitVec 8)) (h : 128 ≤ t.1.toNat) (c : Char) (r : List (BitVec 8)) :
    utf8Fin t ≠ (.ch c, r) := by
  unfold utf8Fin
  split
  · simp
  · rw [if_pos (by omega)]; simp

theorem utf8Trail_nil : ∀ (n : Nat) (v : BitVec 32) (ok : Bool), (utf8Trail (n + 1) v ok []).2.1 = false
  | 0, _, _ => rfl
  | n + 1, v, ok => by
    rw [utf8Trail]
    exact utf8Trail_nil n _ _

theorem utf8Fin_bad (t : BitVec 32 × Bool × List (BitVec 8)) (h : t.2.1 = false) (c : Char) (r : List (BitVec 8)) :
    utf8Fin t ≠ (.ch c, r) := by
  unfold utf8Fin
  rw [if_pos h]; simp

/-- Without overlong forms only an ASCII unit yields a character. -/
theorem utf8Next_char (b : BitVec 8) (rest r : List (BitVec 8)) (c : Char) (h : NoOverlong (b :: rest))
    (hn : utf8Next b rest = (.ch c, r)) : b.toNat < 128 ∧ c = Char.ofNat b.toNat ∧ r = rest := by
  obtain ⟨h0, h1, h2, h3, _⟩ := h
  have hb := b.isLt
  have hcp := utf8CodePoint_eq b
  by_cases c1 : b.toNat < 128
  · rw [if_pos c1] at hcp
    rw [utf8Next_of b rest _ 0 hcp, utf8Trail, utf8Fin_ok _ _ b.toNat (by simp; omega), if_pos c1] at hn
    simp only [Prod.mk.injEq, Ev.ch.injEq] at hn
    exact ⟨c1, hn.1.symm, hn.2.symm⟩
  rw [if_neg c1] at hcp
  exfalso
  by_cases c2 : b.toNat < 192
  · rw [if_pos c2] at hcp
    simp [utf8Next, hcp] at hn
  rw [if_neg c2] at hcp
  by_cases c3 : b.toNat < 224
  · rw [if_pos c3] at hcp
    rw [utf8Next_of b rest _ 1 hcp] at hn
    refine utf8Fin_ge _ ?_ _ _ hn
    have := utf8Trail_ge 1 (BitVec.ofNat 32 (b.toNat - 192)) true rest (by omega) (by simp; omega)
    simp only [BitVec.toNat_ofNat] at this
    omega
  rw [if_neg c3] at hcp
  by_cases c4 : b.toNat < 240
  · rw [if_pos c4] at hcp
    rw [utf8Next_of b rest _ 2 hcp] at hn
    cases rest with
    | nil => exact utf8Fin_bad _ (utf8Trail_nil _ _ _) _ _ hn
    | cons x xs =>
      refine utf8Fin_ge _ ?_ _ _ hn
      by_cases c5 : b.toNat = 0xE0
      · have hx := h2 c5 x (by simp)
        have ht := utf8Trailing_eq x xs
        rw [if_pos (by omega)] at ht
        rw [utf8Trail]
        simp only [ht]
        have e := shl6_or (BitVec.ofNat 32 (b.toNat - 224)) (BitVec.ofNat 32 (x.toNat - 128)) (by simp; omega) (by simp; omega)
        simp only [BitVec.toNat_ofNat] at e
        have := utf8Trail_ge 1 (BitVec.ofNat 32 (b.toNat - 224) <<< 6 ||| BitVec.ofNat 32 (x.toNat - 128)) true xs (by omega) (by rw [e]; omega)
        rw [e] at this
        omega
      · have := utf8Trail_ge 2 (BitVec.ofNat 32 (b.toNat - 224)) true (x :: xs) (by omega) (by simp; omega)
        simp only [BitVec.toNat_ofNat] at this
        omega
  rw [if_neg c4] at hcp
  by_cases c5 : b.toNat < 248
  · rw [if_pos c5] at hcp
    rw [utf8Next_of b rest _ 3 hcp] at hn
    cases rest with
    | nil => exact utf8Fin_bad _ (utf8Trail_nil _ _ _) _ _ hn
    | cons x xs =>
      refine utf8Fin_ge _ ?_ _ _ hn
      by_cases c6 : b.toNat = 0xF0
      · have hx := h3 c6 x (by simp)
        have ht := utf8Trailing_eq x xs
        rw [if_pos (by omega)] at ht
        rw [utf8Trail]
        simp only [ht]
        have e := shl6_or (BitVec.ofNat 32 (b.toNat - 240)) (BitVec.ofNat 32 (x.toNat - 128)) (by simp; omega) (by simp; omega)
        simp only [BitVec.toNat_ofNat] at e
        have := utf8Trail_ge 2 (BitVec.ofNat 32 (b.toNat - 240) <<< 6 ||| BitVec.ofNat 32 (x.toNat - 128)) true xs (by omega) (by rw [e]; omega)
        rw [e] at this
        omega
      · have := utf8Trail_ge 3 (BitVec.ofNat 32 (b.toNat - 240)) true (x :: xs) (by omega) (by simp; omega)
        simp only [BitVec.toNat_ofNat] at this
        omega
  rw [if_neg c5] at hcp
  simp [utf8Next, hcp] at hn

theorem _root_.Ip.Spec.Reads.nil {w : Nat} : Reads ([] : List (BitVec w)) [] := ⟨[], [], by simp, by simp, Or.inl ⟨rfl, rfl⟩⟩

theorem _root_.Ip.Spec.Reads.bad {w : Nat} (u : BitVec w) (us : List (BitVec w)) (h : 128 ≤ u.toNat) (code : ErrorCode) (sym : Nat) :
    Reads (u :: us) [.bad code sym] :=
  ⟨[], u :: us, by simp, by simp, Or.inr ⟨u, us, code, sym, rfl, h, rfl⟩⟩

theorem _root_.Ip.Spec.Reads.ch {w : Nat} (u : BitVec w) (us : List (BitVec w)) (evs : List Ev) (h : u.toNat < 128) (hr : Reads us evs) :
    Reads (u :: us) (.ch (Char.ofNat u.toNat) :: evs) := by
  obtain ⟨pre, rest, h1, h2, h3⟩ := hr
  refine ⟨Char.ofNat u.toNat :: pre, rest, ?_, ?_, ?_⟩
  · rw [List.map_cons, List.cons_append, ← h1, toNat_ofNat_ascii _ h]
    simp
  · intro c hc
    rcases List.mem_cons.1 hc with rfl | hc
    · rw [toNat_ofNat_ascii _ h]; exact h
    · exact h2 c hc
  · rcases h3 with ⟨rfl, rfl⟩ | ⟨v, r, code, sym, rfl, hv, rfl⟩
    · exact Or.inl ⟨rfl, rfl⟩
    · exact Or.inr ⟨v, r, code, sym, rfl, hv, rfl⟩

theorem utf32Events_reads : ∀ us, Reads us (utf32Events us)
  | [] => by rw [utf32Events]; exact Reads.nil
  | u :: us => by
    rw [utf32Events]
    split
    · exact Reads.bad u us (by omega) _ _
    · exact Reads.ch u us _ (by omega) (utf32Events_reads us)

theorem utf16Events_reads : ∀ us, Reads us (utf16Events us)
  | [] => by rw [utf16Events]; exact Reads.nil
  | u :: us => by
    have ih := utf16Events_reads us
    have hn := utf16Next_eq u us
    rw [utf16Events]
    by_cases h : u.toNat < 128
    · rw [if_neg (by omega), utf16Fin, if_pos h] at hn
      rw [hn]
      simp only
      rw [if_pos (by omega)]
      exact Reads.ch u us _ h ih
    · have : ∃ code sym r, utf16Next u us = (.bad code sym, r) := by
        rw [hn]
        split
        · split
          · exact ⟨_, _, _, rfl⟩
          · split
            · rw [utf16Fin, if_neg (by omega)]; exact ⟨_, _, _, rfl⟩
            · exact ⟨_, _, _, rfl⟩
        · rw [utf16Fin, if_neg h]; exact ⟨_, _, _, rfl⟩
      obtain ⟨code, sym, r, e⟩ := this
      rw [e]
      exact Reads.bad u us (by omega) _ _

theorem utf8Events_reads : ∀ us, NoOverlong us → Reads us (utf8Events us)
  | [], _ => by rw [utf8Events]; exact Reads.nil
  | u :: us, ho => by
    have ih := utf8Events_reads us ho.2.2.2.2
    rw [utf8Events]
    split
    · rename_i code sym r hb
      by_cases h : u.toNat < 128
      · exfalso
        have hcp := utf8CodePoint_eq u
        rw [if_pos h] at hcp
        rw [utf8Next_of u us _ 0 hcp, utf8Trail, utf8Fin_ok _ _ u.toNat (by simp; omega), if_pos h] at hb
        simp at hb
      · exact Reads.bad u us (by omega) _ _
    · rename_i c r hb
      obtain ⟨e1, rfl, rfl⟩ := utf8Next_char u us r c ho hb
      rw [if_pos (by omega)]
      exact Reads.ch u _ _ e1 ih

/-- Reading always advances, so the fallback of `utf8Events` and `utf16Events` is never taken. -/
theorem utf8Trail_length : ∀ (n : Nat) (v : BitVec 32) (ok : Bool) (l : List (BitVec 8)),
    (utf8Trail n v ok l).2.2.length ≤ l.length
  | 0, _, _, _ => by simp [utf8Trail]
  | n + 1, v, ok, l => by
    rw [utf8Trail]
    refine Nat.le_trans (utf8Trail_length n _ _ _) ?_
    cases l with
    | nil => simp [utf8Trailing]
    | cons b r => rw [utf8Trailing_eq]; split <;> simp

theorem utf8Next_length (b : BitVec 8) (rest : List (BitVec 8)) : (utf8Next b rest).2.length ≤ rest.length := by
  have h := utf8Trail_length ((utf8CodePoint b).2 - 1) (utf8CodePoint b).1 true rest
  simp only [utf8Next]
  repeat' split
  all_goals first | exact Nat.le_refl _ | exact h

theorem utf16Next_length (u : BitVec 16) (rest : List (BitVec 16)) : (utf16Next u rest).2.length ≤ rest.length := by
  rw [utf16Next_eq]
  repeat' split
  all_goals simp [utf16Fin]

end Ip
