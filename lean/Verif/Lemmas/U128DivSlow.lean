import Verif.Lemmas.U128Div
/-
Normalisation, the digit loop and the complete division of `uint128_t`.
-/
set_option autoImplicit false

namespace Ip
namespace U128

/-! ### Leading zeros -/

theorem lzcLoop_eq (v w : Nat) (hv : v ≠ 0) : ∀ (n i : Nat), n + i = w → v < 2 ^ n →
    ∃ k, lzcLoop v w n i = k ∧ k < w ∧ 2 ^ (w - 1 - k) ≤ v ∧ v < 2 ^ (w - k) := by
  intro n
  induction n with
  | zero => intro i _ h; simp at h; omega
  | succ n ih =>
    intro i hi hlt
    rw [lzcLoop]
    have hw : w - 1 - i = n := by omega
    rw [hw]
    by_cases ht : v.testBit n
    · rw [if_pos ht]
      refine ⟨i, rfl, by omega, ?_, ?_⟩
      · rw [hw]; exact Nat.ge_two_pow_of_testBit ht
      · rw [show w - i = n + 1 by omega]; exact hlt
    · rw [if_neg ht]
      apply ih (i + 1) (by omega)
      rw [Nat.testBit_eq_decide_div_mod_eq, decide_eq_true_iff] at ht
      have h1 : v / 2 ^ n < 2 := by
        rw [Nat.div_lt_iff_lt_mul (Nat.two_pow_pos n)]
        rw [Nat.pow_succ] at hlt; omega
      have h2 : v / 2 ^ n = 0 := by
        generalize v / 2 ^ n = z at *
        omega
      rcases Nat.div_eq_zero_iff.1 h2 with h | h
      · have := Nat.two_pow_pos n; omega
      · exact h

theorem lzc128_eq (x : U128) (hx : x.val ≠ 0) :
    lzc128 x < 128 ∧ 2 ^ (127 - lzc128 x) ≤ x.val ∧ x.val < 2 ^ (128 - lzc128 x) := by
  have hu := x.upper.isLt; have hl := x.lower.isLt
  unfold lzc128
  by_cases h : x.upper ≠ 0
  · rw [if_pos h]
    have h0 : x.upper.toNat ≠ 0 := fun e => h (BitVec.eq_of_toNat_eq (by simpa using e))
    obtain ⟨k, hk, h1, h2, h3⟩ := lzcLoop_eq x.upper.toNat 64 h0 64 0 rfl hu
    rw [hk]
    have e1 : 2 ^ (127 - k) = 2 ^ (64 - 1 - k) * 18446744073709551616 := by
      rw [show (18446744073709551616 : Nat) = 2 ^ 64 by norm_num, ← Nat.pow_add]
      exact congrArg (2 ^ ·) (by omega)
    have e2 : 2 ^ (128 - k) = 2 ^ (64 - k) * 18446744073709551616 := by
      rw [show (18446744073709551616 : Nat) = 2 ^ 64 by norm_num, ← Nat.pow_add]
      exact congrArg (2 ^ ·) (by omega)
    rw [e1, e2, val]
    refine ⟨by omega, ?_, ?_⟩ <;> omega
  · rw [if_neg h]
    have h0 : x.upper = 0 := by simpa using h
    have hv : x.val = x.lower.toNat := by simp [val, h0]
    have hl0 : x.lower ≠ 0 := by rintro e; rw [hv, e] at hx; simp at hx
    rw [if_pos hl0]
    obtain ⟨k, hk, h1, h2, h3⟩ := lzcLoop_eq x.lower.toNat 64 (hv ▸ hx) 64 0 rfl hl
    rw [hk, hv, show 127 - (64 + k) = 64 - 1 - k by omega, show 128 - (64 + k) = 64 - k by omega]
    exact ⟨by omega, h2, h3⟩

/-- The number of limbs. -/
theorem limbCount_eq (x : U128) (hx : x.val ≠ 0) :
    ∃ ls, 4 - lzc128 x / 32 = ls ∧ 1 ≤ ls ∧ ls ≤ 4 ∧ 4294967296 ^ (ls - 1) ≤ x.val ∧ x.val < 4294967296 ^ ls := by
  obtain ⟨h1, h2, h3⟩ := lzc128_eq x hx
  refine ⟨_, rfl, by omega, by omega, ?_, ?_⟩
  · refine Nat.le_trans ?_ h2
    rw [show (4294967296 : Nat) = 2 ^ 32 by norm_num, ← Nat.pow_mul]
    exact Nat.pow_le_pow_right (by norm_num) (by omega)
  · refine Nat.lt_of_lt_of_le h3 ?_
    rw [show (4294967296 : Nat) = 2 ^ 32 by norm_num, ← Nat.pow_mul]
    exact Nat.pow_le_pow_right (by norm_num) (by omega)

theorem lzc32_eq (v : Nat) (hv : v ≠ 0) (hlt : v < 4294967296) :
    lzc32 v < 32 ∧ 2 ^ (31 - lzc32 v) ≤ v ∧ v < 2 ^ (32 - lzc32 v) := by
  rw [lzc32, if_pos hv]
  obtain ⟨k, hk, h1, h2, h3⟩ := lzcLoop_eq v 32 hv 32 0 rfl (by simpa using hlt)
  rw [hk]
  exact ⟨h1, h2, h3⟩

/-! ### Limbs -/

theorem limbs_lv (x : U128) : lv (limbs x) = x.val := by
  have hu := x.upper.isLt; have hl := x.lower.isLt
  simp only [limbs, lv, u32, val, BitVec.toNat_ushiftRight, Nat.shiftRight_eq_div_pow]
  omega

theorem limbs_lt (x : U128) : ∀ y ∈ limbs x, y < 4294967296 := by
  intro y hy
  simp only [limbs, List.mem_cons, List.not_mem_nil, or_false, u32] at hy
  omega

theorem ofLimbs_eq (bits : List Nat) (h : bits.length = 4) (hb : ∀ x ∈ bits, x < 4294967296) :
    ∃ r, ofLimbs bits = .ok r ∧ r.val = lv bits := by
  match bits, h with
  | [a, c, d, e], _ =>
    have h1 := hb a (by simp); have h2 := hb c (by simp); have h3 := hb d (by simp); have h4 := hb e (by simp)
    refine ⟨⟨BitVec.ofNat 64 ((e <<< 32) ||| d), BitVec.ofNat 64 ((c <<< 32) ||| a)⟩, rfl, ?_⟩
    rw [val, BitVec.toNat_ofNat, BitVec.toNat_ofNat, Nat.shiftLeft_eq, Nat.shiftLeft_eq,
      nat_or_split 32 _ _ (by omega), nat_or_split 32 _ _ (by omega)]
    simp only [lv]
    omega

/-! ### Normalisation -/

theorem two_pow_split (s : Nat) (hs : s < 32) : 2 ^ s * 2 ^ (32 - s) = 4294967296 := by
  rw [← Nat.pow_add, show s + (32 - s) = 32 by omega]

theorem shr_back (s y : Nat) (hs : s < 32) : y >>> (32 - s) = y * 2 ^ s / 4294967296 := by
  rw [Nat.shiftRight_eq_div_pow, ← two_pow_split s hs, Nat.mul_comm y, Nat.mul_div_mul_left _ _ (Nat.two_pow_pos s)]

theorem back_lt (s y : Nat) (hy : y < 4294967296) : y * 2 ^ s / 4294967296 < 2 ^ s := by
  rw [Nat.div_lt_iff_lt_mul (by norm_num), Nat.mul_comm]
  exact Nat.mul_lt_mul_of_pos_left hy (Nat.two_pow_pos s)

theorem shiftIn32_eq (s x y : Nat) (hs : s < 32) (hy : y < 4294967296) :
    ∃ z, shiftIn32 s x y = .ok z ∧ z = x * 2 ^ s % 4294967296 + y * 2 ^ s / 4294967296 ∧ z < 4294967296 := by
  have hb := back_lt s y hy
  have e : x * 2 ^ s % 4294967296 = (x % 2 ^ (32 - s)) * 2 ^ s := by
    rw [← two_pow_split s hs, Nat.mul_comm x, Nat.mul_mod_mul_left, Nat.mul_comm]
  have hlt : (x % 2 ^ (32 - s)) * 2 ^ s + 2 ^ s ≤ 4294967296 := by
    rw [← two_pow_split s hs]
    have : x % 2 ^ (32 - s) < 2 ^ (32 - s) := Nat.mod_lt _ (Nat.two_pow_pos _)
    calc (x % 2 ^ (32 - s)) * 2 ^ s + 2 ^ s = (x % 2 ^ (32 - s) + 1) * 2 ^ s := by ring
      _ ≤ 2 ^ (32 - s) * 2 ^ s := Nat.mul_le_mul_right _ this
      _ = 2 ^ s * 2 ^ (32 - s) := Nat.mul_comm _ _
  refine ⟨_, ?_, rfl, by rw [e]; omega⟩
  rw [shiftIn32, if_neg (by omega), u32, Nat.shiftLeft_eq, shr_back s y hs, e, nat_or_split s _ _ hb]

/-- Shifting three leading limbs: bounds of the leading two. -/
theorem shifted_bounds (X Y Z hi lo : Nat)
    (hhi : hi = X + Y / 4294967296) (hlo : lo = Y % 4294967296 + Z / 4294967296) :
    (hi * 4294967296 + lo) * 4294967296 ≤ (X * 4294967296 + Y) * 4294967296 + Z ∧
    (X * 4294967296 + Y) * 4294967296 + Z < (hi * 4294967296 + lo + 1) * 4294967296 := by
  omega

theorem scale_bounds (F W V s bi : Nat) (hs : s < 32)
    (h1 : W * bi ≤ F * 79228162514264337593543950336) (h2 : F * 79228162514264337593543950336 < (W + 1) * bi)
    (h3 : V * 4294967296 ≤ W * 2 ^ s) (h4 : W * 2 ^ s < (V + 1) * 4294967296) :
    V * bi ≤ F * 2 ^ s * 18446744073709551616 ∧ F * 2 ^ s * 18446744073709551616 < (V + 1) * bi := by
  have hσ := Nat.two_pow_pos s
  have h5 : (W + 1) * 2 ^ s ≤ (V + 1) * 4294967296 := by
    rw [← two_pow_split s hs] at h4 ⊢
    have e : (V + 1) * (2 ^ s * 2 ^ (32 - s)) = ((V + 1) * 2 ^ (32 - s)) * 2 ^ s := by ring
    rw [e] at h4 ⊢
    exact Nat.mul_le_mul_right _ (Nat.lt_of_mul_lt_mul_right h4)
  constructor
  · apply Nat.le_of_mul_le_mul_right (c := 4294967296) _ (by norm_num)
    calc V * bi * 4294967296 = V * 4294967296 * bi := by ring
      _ ≤ W * 2 ^ s * bi := Nat.mul_le_mul_right _ h3
      _ = W * bi * 2 ^ s := by ring
      _ ≤ F * 79228162514264337593543950336 * 2 ^ s := Nat.mul_le_mul_right _ h1
      _ = F * 2 ^ s * 18446744073709551616 * 4294967296 := by ring
  · apply Nat.lt_of_mul_lt_mul_right (a := 4294967296)
    calc F * 2 ^ s * 18446744073709551616 * 4294967296 = F * 79228162514264337593543950336 * 2 ^ s := by ring
      _ < (W + 1) * bi * 2 ^ s := Nat.mul_lt_mul_of_pos_right h2 hσ
      _ = (W + 1) * 2 ^ s * bi := by ring
      _ ≤ (V + 1) * 4294967296 * bi := Nat.mul_le_mul_right _ h5
      _ = (V + 1) * bi * 4294967296 := by ring

theorem normDividend_reads (left : List Nat) (i t s x y z : Nat) (hs : s < 32)
    (hx : rd left (i - 1) = .ok x) (hy : rdIf (decide (i > 1)) left (i - 2) = .ok y)
    (hz : rdIf (decide (i > 2)) left (i - 3) = .ok z)
    (hxl : x < 4294967296) (hyl : y < 4294967296) (hzl : z < 4294967296)
    (hov : (t * 4294967296 + x) * 2 ^ s < 18446744073709551616) :
    ∃ vh vl, normDividend left i t s = .ok (vh, vl) ∧ vl < 4294967296 ∧
      (vh * 4294967296 + vl) * 4294967296 ≤ (((t * 4294967296 + x) * 4294967296 + y) * 4294967296 + z) * 2 ^ s ∧
      (((t * 4294967296 + x) * 4294967296 + y) * 4294967296 + z) * 2 ^ s <
        (vh * 4294967296 + vl + 1) * 4294967296 := by
  have ev : (t <<< 32) ||| x = t * 4294967296 + x := by
    rw [Nat.shiftLeft_eq]; exact nat_or_split 32 t x (by simpa using hxl)
  have eW : (((t * 4294967296 + x) * 4294967296 + y) * 4294967296 + z) * 2 ^ s =
      (((t * 4294967296 + x) * 2 ^ s) * 4294967296 + y * 2 ^ s) * 4294967296 + z * 2 ^ s := by ring
  simp only [normDividend, hx, hy, Res.ok_bind, ev]
  by_cases h0 : s > 0
  · simp only [if_pos h0, hz, Res.ok_bind, if_neg (show ¬ s ≥ 32 by omega)]
    obtain ⟨lo, h1, h2, h3⟩ := shiftIn32_eq s y z hs hzl
    rw [h1, Res.ok_bind]
    refine ⟨_, lo, rfl, h3, ?_⟩
    have e : u64 ((t * 4294967296 + x) <<< s) ||| y >>> (32 - s) =
        (t * 4294967296 + x) * 2 ^ s + y * 2 ^ s / 4294967296 := by
      rw [Nat.shiftLeft_eq, u64, Nat.mod_eq_of_lt hov, shr_back s y hs, nat_or_split s _ _ (back_lt s y hyl)]
    rw [e, eW]
    exact shifted_bounds _ _ _ _ _ rfl h2
  · obtain rfl : s = 0 := by omega
    simp only [if_neg h0]
    refine ⟨_, y, rfl, hyl, ?_, ?_⟩ <;> simp only [Nat.pow_zero, Nat.mul_one] <;> clear hov ev eW hx hy hz <;> omega

theorem normDividend_eq (left : List Nat) (i t s : Nat) (hs : s < 32) (hlen : left.length = 4)
    (hl : ∀ x ∈ left, x < 4294967296) (hi1 : 1 ≤ i) (hi4 : i ≤ 4) (bi : Nat) (hbi : bi = 4294967296 ^ i)
    (hov : ∀ x, left[i - 1]? = some x → (t * 4294967296 + x) * 2 ^ s < 18446744073709551616) :
    ∃ vh vl, normDividend left i t s = .ok (vh, vl) ∧ vl < 4294967296 ∧
      (vh * 4294967296 + vl) * bi ≤ (lv (left.take i) + t * bi) * 2 ^ s * 18446744073709551616 ∧
      (lv (left.take i) + t * bi) * 2 ^ s * 18446744073709551616 < (vh * 4294967296 + vl + 1) * bi := by
  match left, hlen with
  | [a, c, d, e], _ =>
    have ha := hl a (by simp); have hc := hl c (by simp); have hd := hl d (by simp); have he := hl e (by simp)
    interval_cases i
    · obtain ⟨vh, vl, h1, h2, h3, h4⟩ := normDividend_reads [a, c, d, e] 1 t s a 0 0 hs rfl rfl rfl ha
        (by norm_num) (by norm_num) (hov a rfl)
      refine ⟨vh, vl, h1, h2, scale_bounds _ _ _ s bi hs ?_ ?_ h3 h4⟩ <;> subst hbi <;> clear hov h1 h3 h4 <;>
        simp only [lv, List.take] <;> omega
    · obtain ⟨vh, vl, h1, h2, h3, h4⟩ := normDividend_reads [a, c, d, e] 2 t s c a 0 hs rfl rfl rfl hc
        ha (by norm_num) (hov c rfl)
      refine ⟨vh, vl, h1, h2, scale_bounds _ _ _ s bi hs ?_ ?_ h3 h4⟩ <;> subst hbi <;> clear hov h1 h3 h4 <;>
        simp only [lv, List.take] <;> omega
    · obtain ⟨vh, vl, h1, h2, h3, h4⟩ := normDividend_reads [a, c, d, e] 3 t s d c a hs rfl rfl rfl hd
        hc ha (hov d rfl)
      refine ⟨vh, vl, h1, h2, scale_bounds _ _ _ s bi hs ?_ ?_ h3 h4⟩ <;> subst hbi <;> clear hov h1 h3 h4 <;>
        simp only [lv, List.take] <;> omega
    · obtain ⟨vh, vl, h1, h2, h3, h4⟩ := normDividend_reads [a, c, d, e] 4 t s e d c hs rfl rfl rfl he
        hd hc (hov e rfl)
      refine ⟨vh, vl, h1, h2, scale_bounds _ _ _ s bi hs ?_ ?_ h3 h4⟩ <;> subst hbi <;> clear hov h1 h3 h4 <;>
        simp only [lv, List.take] <;> omega

theorem normDivisor_reads (right : List Nat) (rs x y z : Nat)
    (hx : rd right (rs - 1) = .ok x) (hy : rdIf (decide (rs > 1)) right (rs - 2) = .ok y)
    (hz : rdIf (decide (rs > 2)) right (rs - 3) = .ok z)
    (hx0 : x ≠ 0) (hxl : x < 4294967296) (hyl : y < 4294967296) (hzl : z < 4294967296) :
    ∃ dh dl s, normDivisor right rs = .ok (dh, dl, s) ∧ s < 32 ∧ dh < 4294967296 ∧ dl < 4294967296 ∧
      2147483648 ≤ dh ∧
      (dh * 4294967296 + dl) * 4294967296 ≤ ((x * 4294967296 + y) * 4294967296 + z) * 2 ^ s ∧
      ((x * 4294967296 + y) * 4294967296 + z) * 2 ^ s < (dh * 4294967296 + dl + 1) * 4294967296 := by
  obtain ⟨hs, hlo, hhi⟩ := lzc32_eq x hx0 hxl
  obtain ⟨s, hse⟩ : ∃ s, lzc32 x = s := ⟨_, rfl⟩
  rw [hse] at hs hlo hhi
  have hσ := Nat.two_pow_pos s
  have hxs : x * 2 ^ s < 4294967296 := by
    rw [← two_pow_split s hs, Nat.mul_comm]; exact Nat.mul_lt_mul_of_pos_left hhi hσ
  have hxs' : 2147483648 ≤ x * 2 ^ s := by
    calc 2147483648 = 2 ^ (31 - s) * 2 ^ s := by
          rw [← Nat.pow_add, show 31 - s + s = 31 by omega]
      _ ≤ x * 2 ^ s := Nat.mul_le_mul_right _ hlo
  simp only [normDivisor, hx, hy, Res.ok_bind, hse]
  by_cases h0 : s > 0
  · simp only [if_pos h0, hz, Res.ok_bind]
    obtain ⟨hi, h1, h2, h3⟩ := shiftIn32_eq s x y hs hyl
    obtain ⟨lo, h4, h5, h6⟩ := shiftIn32_eq s y z hs hzl
    rw [h1, h4]
    rw [Nat.mod_eq_of_lt hxs] at h2
    refine ⟨hi, lo, s, rfl, hs, h3, h6, by omega, ?_⟩
    have eW : ((x * 4294967296 + y) * 4294967296 + z) * 2 ^ s =
      ((x * 2 ^ s) * 4294967296 + y * 2 ^ s) * 4294967296 + z * 2 ^ s := by ring
    rw [eW]
    exact shifted_bounds _ _ _ _ _ h2 h5
  · obtain rfl : s = 0 := by omega
    simp only [if_neg h0]
    refine ⟨x, y, 0, rfl, hs, hxl, hyl, by simpa using hxs', ?_, ?_⟩ <;> omega

theorem normDivisor_eq (right : List Nat) (rs : Nat) (hlen : right.length = 4)
    (hl : ∀ x ∈ right, x < 4294967296) (h1 : 1 ≤ rs) (h4 : rs ≤ 4)
    (hlo : 4294967296 ^ (rs - 1) ≤ lv right) (hhi : lv right < 4294967296 ^ rs) :
    ∃ dh dl s, normDivisor right rs = .ok (dh, dl, s) ∧ s < 32 ∧ dh < 4294967296 ∧ dl < 4294967296 ∧
      2147483648 ≤ dh ∧ lv (right.take rs) = lv right ∧
      (dh * 4294967296 + dl) * 4294967296 ^ rs ≤ lv right * 2 ^ s * 18446744073709551616 ∧
      lv right * 2 ^ s * 18446744073709551616 < (dh * 4294967296 + dl + 1) * 4294967296 ^ rs := by
  match right, hlen with
  | [a, c, d, e], _ =>
    have ha := hl a (by simp); have hc := hl c (by simp); have hd := hl d (by simp); have he := hl e (by simp)
    simp only [lv] at hlo hhi
    interval_cases rs
    · obtain ⟨dh, dl, s, g1, g2, g3, g4, g5, g6, g7⟩ := normDivisor_reads [a, c, d, e] 1 a 0 0 rfl rfl rfl
        (by omega) ha (by norm_num) (by norm_num)
      refine ⟨dh, dl, s, g1, g2, g3, g4, g5, by clear g1 g6 g7; simp only [lv, List.take]; omega, scale_bounds _ _ _ s _ g2 ?_ ?_ g6 g7⟩ <;>
        clear g1 g6 g7 <;> simp only [lv] <;> omega
    · obtain ⟨dh, dl, s, g1, g2, g3, g4, g5, g6, g7⟩ := normDivisor_reads [a, c, d, e] 2 c a 0 rfl rfl rfl
        (by omega) hc ha (by norm_num)
      refine ⟨dh, dl, s, g1, g2, g3, g4, g5, by clear g1 g6 g7; simp only [lv, List.take]; omega, scale_bounds _ _ _ s _ g2 ?_ ?_ g6 g7⟩ <;>
        clear g1 g6 g7 <;> simp only [lv] <;> omega
    · obtain ⟨dh, dl, s, g1, g2, g3, g4, g5, g6, g7⟩ := normDivisor_reads [a, c, d, e] 3 d c a rfl rfl rfl
        (by omega) hd hc ha
      refine ⟨dh, dl, s, g1, g2, g3, g4, g5, by clear g1 g6 g7; simp only [lv, List.take]; omega, scale_bounds _ _ _ s _ g2 ?_ ?_ g6 g7⟩ <;>
        clear g1 g6 g7 <;> simp only [lv] <;> omega
    · obtain ⟨dh, dl, s, g1, g2, g3, g4, g5, g6, g7⟩ := normDivisor_reads [a, c, d, e] 4 e d c rfl rfl rfl
        (by omega) he hd hc
      refine ⟨dh, dl, s, g1, g2, g3, g4, g5, rfl, scale_bounds _ _ _ s _ g2 ?_ ?_ g6 g7⟩ <;>
        clear g1 g6 g7 <;> simp only [lv] <;> omega

/-! ### The digit loop -/

theorem lv_zeros (k : Nat) : lv (List.replicate k 0) = 0 := by
  induction k with
  | zero => rfl
  | succ k ih => simp [List.replicate_succ, lv, ih]

theorem rdIf_post (L : List Nat) (i ls : Nat) (hL : L.length = 4) (hi : i ≤ ls) (hls : ls ≤ 4)
    (h1 : lv L < 4294967296 ^ (i + 1)) (h2 : i = ls → lv L < 4294967296 ^ i) :
    ∃ t, rdIf (decide (i < ls)) L i = .ok t ∧ lv (L.drop i) = t ∧
      (∀ A, A.length = i → ∃ post', wrIf (decide (i < ls)) (A ++ L.drop i) i 0 = .ok (A ++ post') ∧
        lv post' = 0 ∧ post'.length = 4 - i ∧ ∀ x ∈ post', x ∈ L ∨ x = 0) := by
  have hsplit : lv L = lv (L.take i) + 4294967296 ^ i * lv (L.drop i) := by
    conv_lhs => rw [← List.take_append_drop i L]
    rw [lv_append, List.length_take, hL, Nat.min_eq_left (by omega)]
  have hBpos : 0 < 4294967296 ^ i := Nat.pow_pos (by norm_num)
  by_cases h : i < ls
  · have hil : i < L.length := by omega
    refine ⟨L[i], ?_, ?_, ?_⟩
    · rw [rdIf, if_pos (by simpa using h)]; exact rd_of_lt _ _ hil
    · rw [List.drop_eq_getElem_cons hil] at hsplit ⊢
      simp only [lv] at hsplit ⊢
      rcases Nat.eq_zero_or_pos (lv (L.drop (i + 1))) with h0 | h0
      · omega
      · exfalso
        rw [Nat.pow_succ] at h1
        have : 4294967296 ^ i * 4294967296 ≤ 4294967296 ^ i * (L[i] + 4294967296 * lv (L.drop (i + 1))) :=
          Nat.mul_le_mul_left _ (by omega)
        omega
    · intro A hA
      rw [wrIf, if_pos (by simpa using h), List.drop_eq_getElem_cons hil,
        wr_append _ _ _ _ _ hA.symm]
      refine ⟨_, rfl, ?_, ?_, ?_⟩
      · rw [List.drop_eq_getElem_cons hil] at hsplit
        simp only [lv] at hsplit ⊢
        rcases Nat.eq_zero_or_pos (lv (L.drop (i + 1))) with h0 | h0
        · omega
        · exfalso
          rw [Nat.pow_succ] at h1
          have : 4294967296 ^ i * 4294967296 ≤ 4294967296 ^ i * (L[i] + 4294967296 * lv (L.drop (i + 1))) :=
            Nat.mul_le_mul_left _ (by omega)
          omega
      · simp [hL]; omega
      · intro x hx
        rcases List.mem_cons.1 hx with rfl | hx
        · exact Or.inr rfl
        · exact Or.inl (List.mem_of_mem_drop hx)
  · have hz : lv (L.drop i) = 0 := by
      have := h2 (by omega)
      rcases Nat.eq_zero_or_pos (lv (L.drop i)) with h0 | h0
      · exact h0
      · have : 4294967296 ^ i * 1 ≤ 4294967296 ^ i * lv (L.drop i) := Nat.mul_le_mul_left _ h0
        omega
    refine ⟨0, ?_, hz, ?_⟩
    · rw [rdIf, if_neg (by simpa using h)]
    · intro A hA
      rw [wrIf, if_neg (by simpa using h)]
      exact ⟨_, rfl, hz, by simp [hL], fun x hx => Or.inl (List.mem_of_mem_drop hx)⟩

theorem divLoop_eq (ls rs dh dl s D : Nat) (right r tail : List Nat) (N : Nat)
    (hr : right = r ++ tail) (hrl : r.length = rs) (hrs : 1 ≤ rs) (hxr : ∀ x ∈ r, x < 4294967296)
    (hD : lv r = D) (hD0 : 0 < D) (hls : ls ≤ 4) (hs : s < 32) (hdh : dh < 4294967296) (hdl : dl < 4294967296)
    (hdh' : 2147483648 ≤ dh)
    (hT1 : (dh * 4294967296 + dl) * 4294967296 ^ rs ≤ D * 2 ^ s * 18446744073709551616)
    (hT2 : D * 2 ^ s * 18446744073709551616 < (dh * 4294967296 + dl + 1) * 4294967296 ^ rs) :
    ∀ (k i : Nat) (left bits : List Nat), i + 1 = rs + k → i ≤ ls → left.length = 4 →
      (∀ x ∈ left, x < 4294967296) → lv left < 4294967296 ^ (i + 1) → (i = ls → lv left < 4294967296 ^ i) →
      (∃ hi, bits = List.replicate k 0 ++ hi ∧ hi.length = 4 - k ∧ ∀ x ∈ hi, x < 4294967296) →
      N = D * lv bits + lv left → lv left < D * 4294967296 ^ k →
      ∃ bits', divLoop ls rs right (dh, dl, s) k i left bits = .ok bits' ∧ bits'.length = 4 ∧
        (∀ x ∈ bits', x < 4294967296) ∧ lv bits' = N / D := by
  intro k
  induction k with
  | zero =>
    rintro i left bits _ _ _ _ _ _ ⟨hi, hb, hbl, hbx⟩ hN hlt
    simp only [List.replicate_zero, List.nil_append, Nat.sub_zero] at hb hbl
    subst hb
    refine ⟨bits, rfl, hbl, hbx, ?_⟩
    rw [hN, Nat.mul_add_div hD0, Nat.div_eq_of_lt (by simpa using hlt), Nat.add_zero]
  | succ k ih =>
    rintro i left bits hik hils hll hlx hl1 hl2 ⟨up, hb, hbl, hbx⟩ hN hlt
    have hi : i = k + rs := by omega
    have hi1 : 1 ≤ i := by omega
    obtain ⟨t, ht, htv, hwr⟩ := rdIf_post left i ls hll hils hls hl1 hl2
    -- the parts of the remainder
    obtain ⟨pre, hpre⟩ : ∃ pre, left.take k = pre := ⟨_, rfl⟩
    obtain ⟨mid, hmid⟩ : ∃ mid, (left.drop k).take rs = mid := ⟨_, rfl⟩
    have hprel : pre.length = k := by rw [← hpre, List.length_take]; omega
    have hmidl : mid.length = r.length := by
      rw [← hmid, List.length_take, List.length_drop]; omega
    have htake : left.take i = pre ++ mid := by
      rw [hi, List.take_add, hpre, hmid]
    have hleft : left = pre ++ mid ++ left.drop i := by
      rw [← htake, List.take_append_drop]
    have hprex : ∀ x ∈ pre, x < 4294967296 := fun x hx => hlx x (List.mem_of_mem_take (hpre ▸ hx))
    have hmidx : ∀ x ∈ mid, x < 4294967296 := fun x hx =>
      hlx x (List.mem_of_mem_drop (List.mem_of_mem_take (hmid ▸ hx)))
    have hprelt := lv_lt pre hprex
    rw [hprel] at hprelt
    have hBk : 0 < 4294967296 ^ k := Nat.pow_pos (by norm_num)
    have hBrs : 0 < 4294967296 ^ rs := Nat.pow_pos (by norm_num)
    have hBi : 4294967296 ^ i = 4294967296 ^ rs * 4294967296 ^ k := by
      rw [hi, Nat.add_comm, Nat.pow_add]
    have hlv : lv left = lv pre + 4294967296 ^ k * (lv mid + t * 4294967296 ^ rs) := by
      rw [hleft, lv_append, lv_append, htv, List.length_append, hprel, hmidl, hrl, ← hi, hBi]; ring
    have hFt : lv (left.take i) + t * 4294967296 ^ i = lv left := by
      rw [htake, lv_append, hprel, hlv, hBi]; ring
    have htlt : t < 4294967296 := by
      rw [Nat.pow_succ, ← hFt] at hl1
      have hBipos : 0 < 4294967296 ^ i := Nat.pow_pos (by norm_num)
      apply Nat.lt_of_mul_lt_mul_right (a := 4294967296 ^ i)
      rw [Nat.mul_comm 4294967296]; omega
    -- no overflow of the shifted leading limbs
    have hDs : D * 2 ^ s < 4294967296 ^ rs := by
      have h1 : (dh * 4294967296 + dl + 1) * 4294967296 ^ rs ≤ 18446744073709551616 * 4294967296 ^ rs :=
        Nat.mul_le_mul_right _ (by omega)
      omega
    have hov : ∀ x, left[i - 1]? = some x → (t * 4294967296 + x) * 2 ^ s < 18446744073709551616 := by
      intro x hx
      have hlow : (t * 4294967296 + x) * 4294967296 ^ (i - 1) ≤ lv left := by
        have e1 : left.take i = left.take (i - 1) ++ [x] := by
          conv_lhs => rw [show i = (i - 1) + 1 by omega]
          rw [List.take_add_one, hx]; rfl
        rw [← hFt, e1, lv_append, List.length_take, Nat.min_eq_left (by omega)]
        have e2 : 4294967296 ^ i = 4294967296 ^ (i - 1) * 4294967296 := by
          rw [← Nat.pow_succ]; congr 1; omega
        rw [e2]
        simp only [lv]
        have e3 : (t * 4294967296 + x) * 4294967296 ^ (i - 1) =
            4294967296 ^ (i - 1) * (x + 4294967296 * 0) + t * (4294967296 ^ (i - 1) * 4294967296) := by ring
        rw [e3]
        exact Nat.add_le_add_right (Nat.le_add_left _ _) _
      apply Nat.lt_of_mul_lt_mul_right (a := 4294967296 ^ (i - 1))
      calc (t * 4294967296 + x) * 2 ^ s * 4294967296 ^ (i - 1)
          = (t * 4294967296 + x) * 4294967296 ^ (i - 1) * 2 ^ s := by ring
        _ ≤ lv left * 2 ^ s := Nat.mul_le_mul_right _ hlow
        _ ≤ D * 4294967296 ^ (k + 1) * 2 ^ s := Nat.mul_le_mul_right _ (Nat.le_of_lt hlt)
        _ = D * 2 ^ s * 4294967296 ^ (k + 1) := by ring
        _ < 4294967296 ^ rs * 4294967296 ^ (k + 1) :=
            Nat.mul_lt_mul_of_pos_right hDs (Nat.pow_pos (by norm_num))
        _ = 18446744073709551616 * 4294967296 ^ (i - 1) := by
            rw [← Nat.pow_add, show rs + (k + 1) = 2 + (i - 1) by omega, Nat.pow_add]
    obtain ⟨vh, vl, hv1, hv2, hv3, hv4⟩ := normDividend_eq left i t s hs hll hlx hi1 (by omega) _ rfl hov
    rw [hFt] at hv3 hv4
    obtain ⟨q, hq1, hq2, hq3, hq4⟩ := guessDigit_eq vh vl dh dl hv2 hdh hdl (by omega)
    have hlt' : lv left < D * 4294967296 ^ k * 4294967296 := by rw [Nat.mul_assoc, ← Nat.pow_succ]; exact hlt
    have hguess := guess_bounds (lv left) D (vh * 4294967296 + vl) (dh * 4294967296 + dl) q (2 ^ s)
      (4294967296 ^ i) (4294967296 ^ rs) (4294967296 ^ k) hBi hBrs hBk hD0 hv3 hv4 hT1 hT2 (by omega) hq2 hq3
      hq4 hlt'
    have hdiv : lv left / (D * 4294967296 ^ k) = (lv mid + t * 4294967296 ^ rs) / D := by
      rw [Nat.mul_comm, ← Nat.div_div_eq_div_mul, hlv, Nat.add_mul_div_left _ _ hBk, Nat.div_eq_of_lt hprelt,
        Nat.zero_add]
    rw [hdiv] at hguess
    subst hD
    subst hrl
    obtain ⟨mid', ha1, ha2, ha3, ha4⟩ := applyDigit_eq right pre mid (left.drop i) r tail k ls t q hr hprel hmidl
      hxr hmidx htlt (by omega) hq2 hD0 hguess.1 hguess.2
    have hdm := Nat.div_add_mod (lv mid + t * 4294967296 ^ r.length) (lv r)
    have hml := Nat.mod_lt (lv mid + t * 4294967296 ^ r.length) hD0
    rw [← hleft] at ha1
    obtain ⟨Q, hQ⟩ : ∃ Q, (lv mid + t * 4294967296 ^ r.length) / lv r = Q := ⟨_, rfl⟩
    rw [hQ] at ha1 hguess hdm
    rw [← ha4] at hdm hml
    obtain ⟨post', hw1, hw2, hw3, hw4⟩ := hwr (pre ++ mid') (by simp [hprel, ha2]; omega)
    have hQlt : Q < 4294967296 := by omega
    have hbw : wrIf (decide (k < ls - r.length + 1)) bits k (u32 Q) =
        .ok (List.replicate k 0 ++ Q :: up) := by
      have e : bits = List.replicate k 0 ++ 0 :: up := by
        rw [hb, List.replicate_succ']; simp
      rw [wrIf, if_pos (by simp; omega), e, wr_append _ _ _ _ _ (by simp), u32, Nat.mod_eq_of_lt hQlt]
    have hstep : divLoop ls r.length right (dh, dl, s) (k + 1) i left bits =
        divLoop ls r.length right (dh, dl, s) k (i - 1) (pre ++ mid' ++ post') (List.replicate k 0 ++ Q :: up) := by
      rw [divLoop]
      have en : i - r.length = k := by omega
      simp only [en, ht, Res.ok_bind, hv1, hq1, ha1, hbw, hw1]
    rw [hstep]
    have hall : ∀ x ∈ pre ++ mid' ++ post', x < 4294967296 := by
      intro x hx
      rcases List.mem_append.1 hx with hx | hx
      · rcases List.mem_append.1 hx with hx | hx
        · exact hprex x hx
        · exact ha3 x hx
      · rcases hw4 x hx with h | h
        · exact hlx x h
        · omega
    have hlv' : lv (pre ++ mid' ++ post') = lv (pre ++ mid') := by
      rw [lv_append, hw2]; simp
    have hlt2 : lv (pre ++ mid') < 4294967296 ^ i := by
      have := lv_lt (pre ++ mid') (fun x hx => hall x (List.mem_append_left _ hx))
      rwa [List.length_append, hprel, ha2, ← hi] at this
    have hpm : lv (pre ++ mid') = lv pre + 4294967296 ^ k * lv mid' := by rw [lv_append, hprel]
    apply ih (i - 1) _ _ (by omega) (by omega) (by simp [hprel, ha2, hw3]; omega) hall
    · rw [hlv', Nat.sub_add_cancel hi1]; exact hlt2
    · intro h; omega
    · refine ⟨Q :: up, rfl, by simp [hbl]; omega, ?_⟩
      intro x hx
      rcases List.mem_cons.1 hx with rfl | hx
      · exact hQlt
      · exact hbx x hx
    · have e1 : lv (List.replicate k 0 ++ Q :: up) = lv bits + Q * 4294967296 ^ k := by
        have e : bits = List.replicate k 0 ++ 0 :: up := by
          rw [hb, List.replicate_succ']; simp
        rw [e, lv_append, lv_append]
        simp only [lv, List.length_replicate]; ring
      rw [hN, hlv, e1, hlv', hpm, ← hdm]; ring
    · rw [hlv', hpm]
      calc lv pre + 4294967296 ^ k * lv mid' < 4294967296 ^ k + 4294967296 ^ k * lv mid' := by omega
        _ = 4294967296 ^ k * (lv mid' + 1) := by ring
        _ ≤ 4294967296 ^ k * lv r := Nat.mul_le_mul_left _ hml
        _ = lv r * 4294967296 ^ k := Nat.mul_comm _ _

/-! ### Division -/

theorem divideSlow_eq (x y : U128) (hy : y.val ≠ 0) (h : y.val ≤ x.val) :
    ∃ q, divideSlow x y = .ok q ∧ q.val = x.val / y.val := by
  obtain ⟨ls, hls, hls1, hls4, hxl, hxu⟩ := limbCount_eq x (by omega)
  obtain ⟨rs, hrs, hrs1, hrs4, hyl, hyu⟩ := limbCount_eq y hy
  have hle : rs ≤ ls := by
    by_contra hc
    have : 4294967296 ^ ls ≤ 4294967296 ^ (rs - 1) := Nat.pow_le_pow_right (by norm_num) (by omega)
    omega
  obtain ⟨dh, dl, s, hn, hs, hdh, hdl, hdh', htk, hT1, hT2⟩ := normDivisor_eq (limbs y) rs rfl (limbs_lt y) hrs1 hrs4
    (by rw [limbs_lv]; exact hyl) (by rw [limbs_lv]; exact hyu)
  have hBk : 4294967296 ^ ls = 4294967296 ^ (rs - 1) * 4294967296 ^ (ls - rs + 1) := by
    rw [← Nat.pow_add]; congr 1; omega
  obtain ⟨bits, hb1, hb2, hb3, hb4⟩ := divLoop_eq ls rs dh dl s y.val (limbs y) ((limbs y).take rs) ((limbs y).drop rs)
    x.val (by rw [List.take_append_drop]) (by rw [List.length_take, show (limbs y).length = 4 from rfl]; omega) hrs1
    (fun z hz => limbs_lt y z (List.mem_of_mem_take hz)) (by rw [htk, limbs_lv]) (by omega) hls4 hs hdh hdl hdh'
    (by rw [← limbs_lv]; exact hT1) (by rw [← limbs_lv]; exact hT2)
    (ls - rs + 1) ls (limbs x) [0, 0, 0, 0] (by omega) (Nat.le_refl _) rfl (limbs_lt x)
    (by rw [limbs_lv, Nat.pow_succ]; omega) (fun _ => by rw [limbs_lv]; exact hxu)
    (by
      refine ⟨List.replicate (4 - (ls - rs + 1)) 0, ?_, by simp, ?_⟩
      · rw [List.replicate_append_replicate, show ls - rs + 1 + (4 - (ls - rs + 1)) = 4 by omega]; rfl
      · intro z hz; have := List.eq_of_mem_replicate hz; omega)
    (by rw [limbs_lv]; simp [lv])
    (by
      rw [limbs_lv]
      refine Nat.lt_of_lt_of_le hxu ?_
      rw [hBk]
      exact Nat.mul_le_mul_right _ hyl)
  obtain ⟨r, hr1, hr2⟩ := ofLimbs_eq bits hb2 hb3
  refine ⟨r, ?_, by rw [hr2, hb4]⟩
  simp only [divideSlow, hls, hrs]
  rw [if_neg (by omega), hn, Res.ok_bind, hb1, Res.ok_bind, hr1]

theorem div_eq (x y : U128) : ∃ q, x.div y = .ok q ∧ q.val = x.val / y.val := by
  unfold div
  have hxu := x.upper.isLt; have hxl := x.lower.isLt; have hyu := y.upper.isLt; have hyl := y.lower.isLt
  by_cases h0 : y.upper = 0 ∧ y.lower = 0
  · rw [if_pos h0]
    exact ⟨_, rfl, by simp [val, h0.1, h0.2]⟩
  rw [if_neg h0]
  by_cases h1 : y.upper = 0 ∧ x.upper = 0
  · rw [if_pos h1]
    exact ⟨_, rfl, by simp [val, ofU64, h1.1, h1.2]⟩
  rw [if_neg h1]
  have hy0 : y.val ≠ 0 := by
    intro h
    apply h0
    simp only [val] at h
    constructor <;> apply BitVec.eq_of_toNat_eq <;> simp <;> omega
  rw [lt_iff, eq_iff]
  by_cases h2 : y.val < x.val
  · rw [if_neg (by simpa using h2)]
    exact divideSlow_eq x y hy0 (by omega)
  · rw [if_pos (by simpa using h2)]
    refine ⟨_, rfl, ?_⟩
    by_cases h3 : y.val = x.val
    · rw [if_pos (by simpa using h3), h3, Nat.div_self (by omega)]; rfl
    · rw [if_neg (by simpa using h3), Nat.div_eq_of_lt (by omega)]; rfl

theorem mod_eq (x y : U128) : ∃ r, x.mod y = .ok r ∧ r.val = x.val % y.val := by
  obtain ⟨q, h1, h2⟩ := div_eq x y
  rw [mod, h1, Res.ok_bind]
  refine ⟨_, rfl, ?_⟩
  have hx := val_lt x
  have hle : q.val * y.val ≤ x.val := by rw [h2]; exact Nat.div_mul_le_self _ _
  rw [val_sub, val_mul, Nat.mod_eq_of_lt (a := q.val * y.val) (by omega)]
  have hdm := Nat.div_add_mod x.val y.val
  rw [← h2, Nat.mul_comm] at hdm
  rw [show x.val + (Spec.two128 - q.val * y.val) = (x.val - q.val * y.val) + Spec.two128 by omega, Nat.add_mod_right,
    Nat.mod_eq_of_lt (by omega)]
  omega

end U128
end Ip
