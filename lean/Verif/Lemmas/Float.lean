import Verif.Model.Float
import Verif.Spec.Float
import Verif.Lemmas.U128Text
/-
Rounding to nearest and the conversion to double.
-/
set_option autoImplicit false

namespace Ip

open Spec

theorem pow_lt_cancel {a b : Nat} (h : 2 ^ a < 2 ^ b) : a < b := (Nat.pow_lt_pow_iff_right (by decide)).1 h

/-- Between two neighbouring multiples of the last place there is no number of the format. -/
theorem fits_gap (p k q d : Nat) (hp : 1 ≤ p) (hq : 2 ^ (p - 1) ≤ q) (h : Fits p d) :
    d ≤ q * 2 ^ k ∨ (q + 1) * 2 ^ k ≤ d := by
  obtain ⟨m, e, hm, rfl⟩ := h
  rcases Nat.lt_or_ge e k with he | he
  · left
    have h1 : 2 ^ k = 2 ^ (k - e) * 2 ^ e := by rw [← Nat.pow_add]; exact congrArg _ (by omega)
    rw [h1, ← Nat.mul_assoc]
    refine Nat.mul_le_mul_right _ ?_
    have h2 : 2 ^ 1 ≤ 2 ^ (k - e) := Nat.pow_le_pow_right (by decide) (by omega)
    have h3 : 2 ^ p = 2 ^ (p - 1) * 2 := by rw [← Nat.pow_succ]; exact congrArg _ (by omega)
    have h4 : 2 ^ (p - 1) * 2 ≤ q * 2 ^ (k - e) := Nat.mul_le_mul hq (by simpa using h2)
    omega
  · have h1 : 2 ^ e = 2 ^ (e - k) * 2 ^ k := by rw [← Nat.pow_add]; exact congrArg _ (by omega)
    rw [h1, ← Nat.mul_assoc]
    rcases Nat.lt_or_ge q (m * 2 ^ (e - k)) with h | h
    · right; exact Nat.mul_le_mul_right _ h
    · left; exact Nat.mul_le_mul_right _ h

theorem fits_of_lt {p m : Nat} (e : Nat) (h : m < 2 ^ p) : Fits p (m * 2 ^ e) := ⟨m, e, h, rfl⟩

theorem evenFits_fits {p n : Nat} (h : EvenFits p n) : Fits p n := by
  obtain ⟨m, e, h1, _, h2⟩ := h
  exact ⟨m, e, h1, h2⟩

theorem fits_mono {p p' n : Nat} (h : p ≤ p') (hf : Fits p n) : Fits p' n := by
  obtain ⟨m, e, h1, h2⟩ := hf
  exact ⟨m, e, Nat.lt_of_lt_of_le h1 (Nat.pow_le_pow_right (by decide) h), h2⟩

/-- The last place of a number that does not fit. -/
theorem log_facts (p v : Nat) (hp : 1 ≤ p) (hv : 2 ^ p ≤ v) :
    p ≤ v.log2 ∧ 2 ^ (p - 1) ≤ v / 2 ^ (v.log2 + 1 - p) ∧ v / 2 ^ (v.log2 + 1 - p) < 2 ^ p := by
  have h0 : v ≠ 0 := by have := Nat.two_pow_pos p; omega
  have h1 : v < 2 ^ (v.log2 + 1) := Nat.lt_log2_self
  have h2 : 2 ^ v.log2 ≤ v := Nat.log2_self_le h0
  have h3 : p ≤ v.log2 := (Nat.le_log2 h0).2 hv
  refine ⟨h3, ?_, ?_⟩
  · rw [Nat.le_div_iff_mul_le (Nat.two_pow_pos _), ← Nat.pow_add]
    refine Nat.le_trans (Nat.le_of_eq (congrArg _ ?_)) h2
    omega
  · rw [Nat.div_lt_iff_lt_mul (Nat.two_pow_pos _), ← Nat.pow_add]
    refine Nat.lt_of_lt_of_le h1 (Nat.le_of_eq (congrArg _ ?_))
    omega

theorem roundTo_nearest (p v : Nat) (hp : 2 ≤ p) : Nearest p v (roundTo p v) := by
  unfold roundTo
  by_cases hv : v < 2 ^ p
  · rw [if_pos hv]
    refine ⟨⟨v, 0, hv, by simp⟩, ?_, ?_⟩
    · intro d' _; unfold dist; omega
    · intro d' _ h1 h2; unfold dist at h2; omega
  · rw [if_neg hv]
    obtain ⟨hl, hq1, hq2⟩ := log_facts p v (by omega) (by omega)
    dsimp only
    generalize v.log2 + 1 - p = k at hq1 hq2 ⊢
    have hdm : v = v / 2 ^ k * 2 ^ k + v % 2 ^ k := by rw [Nat.mul_comm]; exact (Nat.div_add_mod _ _).symm
    have hr : v % 2 ^ k < 2 ^ k := Nat.mod_lt _ (Nat.two_pow_pos _)
    have gap := fun d' hd => fits_gap p k (v / 2 ^ k) d' (by omega) hq1 hd
    have fA : Fits p (v / 2 ^ k * 2 ^ k) := fits_of_lt k hq2
    have hp2 : 2 ^ p = 2 ^ (p - 1) * 2 := by rw [← Nat.pow_succ]; exact congrArg _ (by omega)
    have hp4 : 2 ^ (p - 1) = 2 ^ (p - 2) * 2 := by rw [← Nat.pow_succ]; exact congrArg _ (by omega)
    have eB : v / 2 ^ k % 2 = 1 → EvenFits p ((v / 2 ^ k + 1) * 2 ^ k) := by
      intro ho
      rcases Nat.lt_or_ge (v / 2 ^ k + 1) (2 ^ p) with h | h
      · exact ⟨_, k, h, by omega, rfl⟩
      · refine ⟨2 ^ (p - 1), k + 1, by have := Nat.two_pow_pos (p - 1); omega, by omega, ?_⟩
        have : v / 2 ^ k + 1 = 2 ^ (p - 1) * 2 := by omega
        rw [this, Nat.pow_succ, Nat.mul_assoc, Nat.mul_comm 2]
    have fB : Fits p ((v / 2 ^ k + 1) * 2 ^ k) := by
      rcases Nat.lt_or_ge (v / 2 ^ k + 1) (2 ^ p) with h | h
      · exact fits_of_lt k h
      · exact evenFits_fits (eB (by omega))
    have eA : v / 2 ^ k % 2 ≠ 1 → EvenFits p (v / 2 ^ k * 2 ^ k) := by
      intro ho
      exact ⟨_, k, hq2, by omega, rfl⟩
    rw [Nat.add_mul, Nat.one_mul] at eB fB
    simp only [Nat.add_mul, Nat.one_mul] at gap
    generalize v % 2 ^ k = r at hdm hr ⊢
    generalize v / 2 ^ k = q at hdm hr gap fA eA fB eB ⊢
    generalize hA : q * 2 ^ k = A at hdm gap fA eA fB eB ⊢
    generalize 2 ^ k = T at hdm hr gap fA eA fB eB hA ⊢
    split
    next h =>
      rw [Nat.add_mul, Nat.one_mul, hA]
      refine ⟨fB, ?_, ?_⟩
      · intro d' hd
        rcases gap d' hd with hg | hg <;> unfold dist <;> omega
      · intro d' hd hne heq
        rcases gap d' hd with hg | hg <;> unfold dist at heq
        · exact eB (by omega)
        · omega
    next h =>
      rw [hA]
      refine ⟨fA, ?_, ?_⟩
      · intro d' hd
        rcases gap d' hd with hg | hg <;> unfold dist <;> omega
      · intro d' hd hne heq
        rcases gap d' hd with hg | hg <;> unfold dist at heq
        · omega
        · exact eA (by omega)

theorem nearest_exact {p v d : Nat} (hv : Fits p v) (h : Nearest p v d) : d = v := by
  have := h.2.1 v hv
  unfold dist at this
  omega

theorem roundTo_exact {p v : Nat} (hp : 2 ≤ p) (hv : Fits p v) : roundTo p v = v :=
  nearest_exact hv (roundTo_nearest p v hp)

theorem nearest_le {p v d g : Nat} (h : Nearest p v d) (hg : Fits p g) (hvg : v ≤ g) : d ≤ g := by
  have := h.2.1 g hg
  rcases Nat.lt_or_ge g d with h1 | h1
  · unfold dist at this; omega
  · exact h1

theorem nearest_ge {p v d g : Nat} (h : Nearest p v d) (hg : Fits p g) (hvg : g ≤ v) : g ≤ d := by
  have := h.2.1 g hg
  rcases Nat.lt_or_ge d g with h1 | h1
  · unfold dist at this; omega
  · exact h1

theorem nearest_faithful {p v d : Nat} (h : Nearest p v d) : Faithful p v d :=
  ⟨h.1, fun _ hg hvg => nearest_le h hg hvg, fun _ hg hvg => nearest_ge h hg hvg⟩

theorem roundTo_mono (p v w : Nat) (hp : 2 ≤ p) (h : v ≤ w) : roundTo p v ≤ roundTo p w := by
  rcases Nat.eq_or_lt_of_le h with rfl | hlt
  · exact Nat.le_refl _
  · have hv := roundTo_nearest p v hp
    have hw := roundTo_nearest p w hp
    have h1 := hv.2.1 _ hw.1
    have h2 := hw.2.1 _ hv.1
    unfold dist at h1 h2
    omega

/-- Rounding changes a number by at most one part in `2^p`. -/
theorem roundTo_close (p v : Nat) (hp : 2 ≤ p) : dist v (roundTo p v) * 2 ^ p ≤ v := by
  rcases Nat.lt_or_ge v (2 ^ p) with hv | hv
  · rw [roundTo_exact hp ⟨v, 0, hv, by simp⟩]
    unfold dist
    simp
  · obtain ⟨hl, hq1, hq2⟩ := log_facts p v (by omega) hv
    unfold roundTo
    rw [if_neg (by omega)]
    dsimp only
    generalize v.log2 + 1 - p = k at hq1 hq2 ⊢
    have hdm : v = v / 2 ^ k * 2 ^ k + v % 2 ^ k := by rw [Nat.mul_comm]; exact (Nat.div_add_mod _ _).symm
    have hr : v % 2 ^ k < 2 ^ k := Nat.mod_lt _ (Nat.two_pow_pos _)
    have hp2 : 2 ^ p = 2 * 2 ^ (p - 1) := by rw [← Nat.pow_add_one']; exact congrArg _ (by omega)
    have hm := Nat.mul_le_mul_right (2 ^ k) hq1
    have key : ∀ d, 2 * d ≤ 2 ^ k → d * 2 ^ p ≤ v := by
      intro d hd
      have h1 : d * 2 ^ p = 2 * d * 2 ^ (p - 1) := by rw [hp2, Nat.mul_comm 2 d, Nat.mul_assoc]
      have h2 := Nat.mul_le_mul_right (2 ^ (p - 1)) hd
      rw [h1, Nat.mul_comm (2 ^ k)] at *
      omega
    apply key
    generalize v % 2 ^ k = r at hdm hr ⊢
    generalize v / 2 ^ k = q at hdm hr ⊢
    split
    next h =>
      rw [Nat.add_mul, Nat.one_mul]
      generalize q * 2 ^ k = A at hdm ⊢
      unfold dist; omega
    next h =>
      generalize q * 2 ^ k = A at hdm ⊢
      unfold dist; omega

/-- Bits far below the last place only matter as being all zero or not. -/
theorem roundTo_sticky (p j v w : Nat) (hp : 1 ≤ p) (hv : 2 ^ (p + j) ≤ v) (h1 : v / 2 ^ j = w / 2 ^ j)
    (h2 : v % 2 ^ j = 0 ↔ w % 2 ^ j = 0) : roundTo p v = roundTo p w := by
  have hw : 2 ^ (p + j) ≤ w := by
    rw [Nat.pow_add] at hv ⊢
    rw [← Nat.le_div_iff_mul_le (Nat.two_pow_pos _)] at hv ⊢
    omega
  have hle : 2 ^ p ≤ 2 ^ (p + j) := Nat.pow_le_pow_right (by decide) (by omega)
  have v0 : v ≠ 0 := by have := Nat.two_pow_pos (p + j); omega
  have w0 : w ≠ 0 := by have := Nat.two_pow_pos (p + j); omega
  have hlog : v.log2 = w.log2 := by
    have key : ∀ a b : Nat, a ≠ 0 → b ≠ 0 → 2 ^ (p + j) ≤ a → a / 2 ^ j = b / 2 ^ j → a.log2 ≤ b.log2 := by
      intro a b ha hb hab h
      rw [Nat.le_log2 hb]
      have l1 : p + j ≤ a.log2 := (Nat.le_log2 ha).2 hab
      have l2 : 2 ^ a.log2 = 2 ^ (a.log2 - j) * 2 ^ j := by rw [← Nat.pow_add]; exact congrArg _ (by omega)
      rw [l2, ← Nat.le_div_iff_mul_le (Nat.two_pow_pos _), ← h, Nat.le_div_iff_mul_le (Nat.two_pow_pos _), ← l2]
      exact Nat.log2_self_le ha
    exact Nat.le_antisymm (key v w v0 w0 hv h1) (key w v w0 v0 hw h1.symm)
  have l1 : p + j ≤ v.log2 := (Nat.le_log2 v0).2 hv
  unfold roundTo
  rw [if_neg (by omega), if_neg (by omega), ← hlog]
  dsimp only
  obtain ⟨i, hi⟩ : ∃ i, v.log2 + 1 - p = j + (i + 1) := ⟨v.log2 - p - j, by omega⟩
  rw [hi]
  have s1 : 2 ^ (j + (i + 1)) = 2 ^ j * (2 * 2 ^ i) := by rw [Nat.pow_add, Nat.pow_succ, Nat.mul_comm (2 ^ i)]
  have q1 : v / 2 ^ (j + (i + 1)) = w / 2 ^ (j + (i + 1)) := by
    rw [s1, ← Nat.div_div_eq_div_mul, h1, Nat.div_div_eq_div_mul]
  have r1 : ∀ a : Nat, a % 2 ^ (j + (i + 1)) = a % 2 ^ j + 2 ^ j * (a / 2 ^ j % (2 * 2 ^ i)) := by
    intro a; rw [s1, Nat.mod_mul]
  rw [← q1, r1 v, r1 w, ← h1]
  have hb : v % 2 ^ j < 2 ^ j := Nat.mod_lt _ (Nat.two_pow_pos _)
  have hb' : w % 2 ^ j < 2 ^ j := Nat.mod_lt _ (Nat.two_pow_pos _)
  rw [s1]
  generalize v / 2 ^ j % (2 * 2 ^ i) = c
  generalize v / (2 ^ j * (2 * 2 ^ i)) = q
  generalize v % 2 ^ j = a at hb h2 ⊢
  generalize w % 2 ^ j = b at hb' h2 ⊢
  have : (2 * (a + 2 ^ j * c) > 2 ^ j * (2 * 2 ^ i) ∨ 2 * (a + 2 ^ j * c) = 2 ^ j * (2 * 2 ^ i) ∧ q % 2 = 1) ↔
      (2 * (b + 2 ^ j * c) > 2 ^ j * (2 * 2 ^ i) ∨ 2 * (b + 2 ^ j * c) = 2 ^ j * (2 * 2 ^ i) ∧ q % 2 = 1) := by
    have e1 : 2 ^ j * (2 * 2 ^ i) = 2 * (2 ^ j * 2 ^ i) := Nat.mul_left_comm _ _ _
    rw [e1]
    generalize 2 ^ i = n
    rcases Nat.lt_trichotomy c n with h | h | h
    · have : 2 ^ j * (c + 1) ≤ 2 ^ j * n := Nat.mul_le_mul_left _ h
      rw [Nat.mul_add] at this
      omega
    · subst h
      omega
    · have : 2 ^ j * (n + 1) ≤ 2 ^ j * c := Nat.mul_le_mul_left _ h
      rw [Nat.mul_add] at this
      have := Nat.two_pow_pos j
      omega
  simp only [this]

theorem roundInt_nat (p n : Nat) : roundInt p (n : Int) = (roundTo p n : Int) := by
  unfold roundInt
  rw [if_neg (by omega), Int.natAbs_natCast]

theorem bits_val (E m : Nat) (b : BitVec 64) (hE : E < 2048) (hm : m < 2 ^ 52) (h : b.toNat = E * 2 ^ 52 + m) :
    bitsToDouble b = (((2 ^ 52 + m) * 2 ^ (E - 1075) : Nat) : Int) := by
  have h1 : (b &&& 0xFFFFFFFFFFFFF#64).toNat = m := by
    rw [BitVec.toNat_and, h]
    have : (0xFFFFFFFFFFFFF#64).toNat = 2 ^ 52 - 1 := by decide
    rw [this, Nat.and_two_pow_sub_one_eq_mod]
    omega
  have h2 : ((b >>> 52) &&& 0x7FF#64).toNat = E := by
    rw [BitVec.toNat_and, BitVec.toNat_ushiftRight, h, Nat.shiftRight_eq_div_pow]
    have : (0x7FF#64).toNat = 2 ^ 11 - 1 := by decide
    rw [this, Nat.and_two_pow_sub_one_eq_mod]
    omega
  unfold bitsToDouble
  rw [h1, h2]

theorem sub_bits (E m : Nat) (b : BitVec 64) (c : Int) (hE : E < 2048) (hm : m < 2 ^ 52)
    (h : b.toNat = E * 2 ^ 52 + m) (hc : c = ((2 ^ 52 * 2 ^ (E - 1075) : Nat) : Int)) :
    dSub (bitsToDouble b) c = ((m * 2 ^ (E - 1075) : Nat) : Int) := by
  rw [bits_val E m b hE hm h, hc, dSub, Nat.add_mul]
  have : (((2 ^ 52 * 2 ^ (E - 1075) + m * 2 ^ (E - 1075) : Nat) : Int) - ((2 ^ 52 * 2 ^ (E - 1075) : Nat) : Int)) =
      ((m * 2 ^ (E - 1075) : Nat) : Int) := by
    generalize 2 ^ 52 * 2 ^ (E - 1075) = a
    generalize m * 2 ^ (E - 1075) = b
    omega
  rw [this, roundInt_nat, roundTo_exact (by decide) (fits_of_lt _ (by omega))]

namespace U128

/-- The number that the last branch of `to_double` rounds: the low 24 bits are moved up. -/
def folded (v : Nat) : Nat := v / 2 ^ 76 * 2 ^ 76 + (v / 2 ^ 24 % 2 ^ 52 ||| v % 2 ^ 24) * 2 ^ 24

theorem toDouble_eq (x : U128) :
    x.toDouble = .ok ((roundTo 53 (if x.val < 2 ^ 88 then x.val else folded x.val) : Nat) : Int) := by
  have hl := x.lower.isLt
  have hu := x.upper.isLt
  have hx : x.val = x.upper.toNat * 18446744073709551616 + x.lower.toNat := rfl
  unfold toDouble
  by_cases h0 : x.upper = 0
  · have hz : x.upper.toNat = 0 := by rw [h0]; rfl
    rw [if_pos (by simp [h0]), roundInt_nat, if_pos (by omega)]
    rw [hx, hz, Nat.zero_mul, Nat.zero_add]
  · rw [if_neg (by rw [beq_iff_eq]; exact h0)]
    by_cases h1 : x.upper.toNat < 2 ^ 24
    · have h2 : (x.upper >>> 24) = 0 := by
        apply BitVec.eq_of_toNat_eq
        rw [BitVec.toNat_ushiftRight, Nat.shiftRight_eq_div_pow]
        simp; omega
      obtain ⟨s, hs, hsv⟩ := shr_val x 52 (by decide)
      rw [if_pos (by simp [h2]), if_pos (by omega)]
      have hs' : x.shr 52 = .ok s := hs
      rw [hs', Res.ok_bind]
      have hsu : s.val = s.upper.toNat * 18446744073709551616 + s.lower.toNat := rfl
      have hsl := s.lower.isLt
      have hsl2 : s.lower.toNat = x.val / 2 ^ 52 := by omega
      have b1 : (0x4330000000000000#64 ||| ((x.lower <<< 12) >>> 12)).toNat = 1075 * 2 ^ 52 + x.lower.toNat % 2 ^ 52 := by
        rw [BitVec.toNat_or, BitVec.toNat_ushiftRight, BitVec.toNat_shiftLeft, Nat.shiftRight_eq_div_pow, Nat.shiftLeft_eq]
        have a1 : (0x4330000000000000#64).toNat = 1075 * 2 ^ 52 := by decide
        have a2 : x.lower.toNat * 2 ^ 12 % 2 ^ 64 / 2 ^ 12 = x.lower.toNat % 2 ^ 52 := by omega
        rw [a1, a2, nat_or_split 52 _ _ (by omega)]
      have b2 : (0x4670000000000000#64 ||| s.lower).toNat = 1127 * 2 ^ 52 + s.lower.toNat := by
        rw [BitVec.toNat_or]
        have a1 : (0x4670000000000000#64).toNat = 1127 * 2 ^ 52 := by decide
        rw [a1, nat_or_split 52 _ _ (by omega)]
      rw [sub_bits 1075 _ _ _ (by decide) (by omega) b1 (by decide),
        sub_bits 1127 _ _ _ (by decide) (by omega) b2 (by decide)]
      simp only [dAdd]
      rw [← Int.natCast_add, roundInt_nat]
      refine congrArg (fun n : Nat => Res.ok ((roundTo 53 n : Nat) : Int)) ?_
      omega
    · have h2 : (x.upper >>> 24) ≠ 0 := by
        intro h
        have := congrArg BitVec.toNat h
        rw [BitVec.toNat_ushiftRight, Nat.shiftRight_eq_div_pow] at this
        simp at this; omega
      obtain ⟨t, ht, htv⟩ := shr_val x 12 (by decide)
      obtain ⟨s, hs, hsv⟩ := shr_val x 76 (by decide)
      rw [if_neg (by rw [beq_iff_eq]; exact h2), if_neg (by omega)]
      have hs' : x.shr 76 = .ok s := hs
      have ht' : x.shr 12 = .ok t := ht
      simp only [hs', ht', Res.ok_bind]
      have hsu : s.val = s.upper.toNat * 18446744073709551616 + s.lower.toNat := rfl
      have htu : t.val = t.upper.toNat * 18446744073709551616 + t.lower.toNat := rfl
      have hsl := s.lower.isLt
      have htl := t.lower.isLt
      have hsl2 : s.lower.toNat = x.val / 2 ^ 76 := by omega
      have htl2 : t.lower.toNat / 2 ^ 12 = x.val / 2 ^ 24 % 2 ^ 52 := by omega
      have c1 : x.lower.toNat % 2 ^ 24 = x.val % 2 ^ 24 := by omega
      have hor : (x.val / 2 ^ 24 % 2 ^ 52 ||| x.val % 2 ^ 24) < 2 ^ 52 :=
        Nat.or_lt_two_pow (by omega) (by omega)
      have b1 : (0x44B0000000000000#64 ||| (t.lower >>> 12) ||| (x.lower &&& 0xFFFFFF#64)).toNat =
          1099 * 2 ^ 52 + (x.val / 2 ^ 24 % 2 ^ 52 ||| x.val % 2 ^ 24) := by
        rw [BitVec.toNat_or, BitVec.toNat_or, BitVec.toNat_ushiftRight, BitVec.toNat_and, Nat.shiftRight_eq_div_pow]
        have a1 : (0x44B0000000000000#64).toNat = 1099 * 2 ^ 52 := by decide
        have a2 : (0xFFFFFF#64).toNat = 2 ^ 24 - 1 := by decide
        rw [a1, a2, Nat.and_two_pow_sub_one_eq_mod, htl2, c1, Nat.or_assoc, nat_or_split 52 _ _ hor]
      have b2 : (0x47F0000000000000#64 ||| s.lower).toNat = 1151 * 2 ^ 52 + s.lower.toNat := by
        rw [BitVec.toNat_or]
        have a1 : (0x47F0000000000000#64).toNat = 1151 * 2 ^ 52 := by decide
        rw [a1, nat_or_split 52 _ _ (by omega)]
      rw [sub_bits 1099 _ _ _ (by decide) hor b1 (by decide),
        sub_bits 1151 _ _ _ (by decide) (by omega) b2 (by decide)]
      simp only [dAdd]
      rw [← Int.natCast_add, roundInt_nat]
      refine congrArg (fun n : Nat => Res.ok ((roundTo 53 n : Nat) : Int)) ?_
      rw [folded, hsl2, Nat.add_comm]

theorem folded_facts (v : Nat) :
    v / 2 ^ 48 = folded v / 2 ^ 48 ∧ (v % 2 ^ 48 = 0 ↔ folded v % 2 ^ 48 = 0) := by
  unfold folded
  have hd : v / 2 ^ 24 % 2 ^ 52 = v / 2 ^ 48 % 2 ^ 28 * 2 ^ 24 + v / 2 ^ 24 % 2 ^ 24 := by omega
  have h1 : (v / 2 ^ 24 % 2 ^ 52 ||| v % 2 ^ 24) =
      v / 2 ^ 48 % 2 ^ 28 * 2 ^ 24 + (v / 2 ^ 24 % 2 ^ 24 ||| v % 2 ^ 24) := by
    rw [hd, ← nat_or_split 24 _ _ (by omega), Nat.or_assoc,
      nat_or_split 24 _ _ (Nat.or_lt_two_pow (by omega) (by omega))]
  have h2 : (v / 2 ^ 24 % 2 ^ 24 ||| v % 2 ^ 24) < 2 ^ 24 := Nat.or_lt_two_pow (by omega) (by omega)
  have h3 : (v / 2 ^ 24 % 2 ^ 24 ||| v % 2 ^ 24) = 0 ↔ v / 2 ^ 24 % 2 ^ 24 = 0 ∧ v % 2 ^ 24 = 0 := Nat.or_eq_zero_iff
  rw [h1]
  generalize (v / 2 ^ 24 % 2 ^ 24 ||| v % 2 ^ 24) = o at h2 h3 ⊢
  constructor <;> omega

theorem folded_zero (v : Nat) (h : v % 2 ^ 24 = 0) : folded v = v := by
  unfold folded
  rw [h, Nat.or_zero]
  omega

end U128

end Ip
