import Verif.Lemmas.Float
import Verif.Lemmas.U128Text
import Verif.Spec.FloatIn
/-
Conversion from floating point numbers.
-/
set_option autoImplicit false

namespace Ip

open Spec

theorem atMost_iff (r m : Nat) (e : Int) (s : Nat) (h : 0 ≤ e + s) :
    AtMost r m e ↔ r * 2 ^ s ≤ m * 2 ^ (e + s).toNat := by
  unfold AtMost
  rcases Int.lt_or_le e 0 with he | he
  · have h1 : s = (-e).toNat + (e + s).toNat := by omega
    have h2 : e.toNat = 0 := by omega
    rw [h2, Nat.pow_zero, Nat.mul_one]
    conv => rhs; lhs; rw [h1, Nat.pow_add, ← Nat.mul_assoc]
    exact (Nat.mul_le_mul_right_iff (Nat.two_pow_pos _)).symm
  · have h1 : (e + s).toNat = e.toNat + s := by omega
    have h2 : (-e).toNat = 0 := by omega
    rw [h2, Nat.pow_zero, Nat.mul_one, h1, Nat.pow_add, ← Nat.mul_assoc]
    exact (Nat.mul_le_mul_right_iff (Nat.two_pow_pos _)).symm

theorem atMost_mono {r r' m : Nat} {e : Int} (h : r' ≤ r) (ha : AtMost r m e) : AtMost r' m e := by
  unfold AtMost at *
  exact Nat.le_trans (Nat.mul_le_mul_right _ h) ha

theorem truncated_max {m r : Nat} {e : Int} (h : AtMost (2 ^ 128) m e) : Truncated m e r ↔ r = 2 ^ 128 - 1 := by
  unfold Truncated
  constructor
  · rintro ⟨a, _, b | b⟩
    · exact b
    · exact absurd (atMost_mono (by omega) h) b
  · rintro rfl
    exact ⟨by decide, atMost_mono (by omega) h, Or.inl rfl⟩

theorem truncated_zero {m r : Nat} {e : Int} (h : ¬ AtMost 1 m e) : Truncated m e r ↔ r = 0 := by
  unfold Truncated
  constructor
  · rintro ⟨_, a, _⟩
    apply Classical.byContradiction
    intro h0
    exact h (atMost_mono (by omega) a)
  · rintro rfl
    refine ⟨by decide, ?_, Or.inr h⟩
    unfold AtMost
    simp

theorem truncated_congr {m m' r : Nat} {e e' : Int} (h : ∀ r, AtMost r m e ↔ AtMost r m' e') :
    Truncated m e r ↔ Truncated m' e' r := by
  unfold Truncated
  rw [h r, h (r + 1)]

/-- Two ways to write the same value. -/
theorem atMost_congr {m m' : Nat} {e e' : Int} {a b : Nat} (h : m * 2 ^ a = m' * 2 ^ b) (he : e - a = e' - b) (r : Nat) :
    AtMost r m e ↔ AtMost r m' e' := by
  have hs : 0 ≤ e - a + ((a + e.natAbs + b + e'.natAbs : Nat) : Int) := by omega
  rw [atMost_iff r m e (a + e.natAbs + b + e'.natAbs) (by omega),
    atMost_iff r m' e' (a + e.natAbs + b + e'.natAbs) (by omega)]
  generalize a + e.natAbs + b + e'.natAbs = s at hs
  have h1 : (e + s).toNat = a + (e - a + s).toNat := by omega
  have h2 : (e' + s).toNat = b + (e - a + s).toNat := by omega
  rw [h1, h2, Nat.pow_add, Nat.pow_add, ← Nat.mul_assoc, ← Nat.mul_assoc, h]

/-! ### Reading a double -/

theorem truncated_exists (m : Nat) (e : Int) : ∃ r, Truncated m e r := by
  by_cases h : AtMost (2 ^ 128 - 1) m e
  · exact ⟨2 ^ 128 - 1, by decide, h, Or.inl rfl⟩
  · have : ∀ n, ¬ AtMost n m e → n < 2 ^ 128 → ∃ r, Truncated m e r := by
      intro n
      induction n with
      | zero => intro hn; exact absurd (by unfold AtMost; simp) hn
      | succ n ih =>
        intro hn hl
        by_cases h1 : AtMost n m e
        · exact ⟨n, by omega, h1, Or.inr hn⟩
        · exact ih h1 (by omega)
    exact this _ h (by decide)

theorem doubleVal_eq (bits : BitVec 64) : doubleVal bits =
    if bits.toNat / 2 ^ 52 % 2048 = 2047 then
      (if bits.toNat % 2 ^ 52 = 0 then .inf (decide (bits.toNat / 2 ^ 63 = 1)) else .nan)
    else if bits.toNat / 2 ^ 52 % 2048 = 0 then .fin (decide (bits.toNat / 2 ^ 63 = 1)) (bits.toNat % 2 ^ 52) (-1074)
    else .fin (decide (bits.toNat / 2 ^ 63 = 1)) (2 ^ 52 + bits.toNat % 2 ^ 52)
      (((bits.toNat / 2 ^ 52 % 2048 : Nat) : Int) - 1075) := rfl

theorem U128.fromDoubleBits_fields (bits : BitVec 64) (h : bits.toNat < 2 ^ 63)
    (h1 : (doubleVal bits).negative = false) (h2 : (doubleVal bits).isNan = false)
    (h3 : (doubleVal bits).atLeast 340282366920938463463374607431768211456 = false)
    (h4 : (doubleVal bits).atLeast 1 = true)
    (h5 : 1023 ≤ bits.toNat / 2 ^ 52) (h6 : bits.toNat / 2 ^ 52 ≤ 1150) :
    U128.fromDoubleBits bits = U128.fromDouble (bits.toNat / 2 ^ 52) (BitVec.ofNat 52 (bits.toNat % 2 ^ 52)) := by
  unfold U128.fromDoubleBits U128.fromDouble
  dsimp only
  rw [h1, h2, h3, h4, if_neg (by simp), if_neg (by simp), if_pos rfl, if_neg (by omega), if_pos h5]
  have e : (BitVec.ofNat 64 (bits.toNat / 2 ^ 52) <<< 52) ||| (BitVec.ofNat 52 (bits.toNat % 2 ^ 52)).setWidth 64 = bits := by
    apply BitVec.eq_of_toNat_eq
    have hf : bits.toNat % 2 ^ 52 < 2 ^ 52 := Nat.mod_lt _ (by decide)
    rw [BitVec.toNat_or, BitVec.toNat_shiftLeft, BitVec.toNat_setWidth, BitVec.toNat_ofNat, BitVec.toNat_ofNat,
      Nat.shiftLeft_eq]
    have a1 : bits.toNat / 2 ^ 52 % 2 ^ 64 = bits.toNat / 2 ^ 52 := by omega
    have a2 : bits.toNat % 2 ^ 52 % 2 ^ 52 % 2 ^ 64 = bits.toNat % 2 ^ 52 := by omega
    have a3 : bits.toNat / 2 ^ 52 * 2 ^ 52 % 2 ^ 64 = bits.toNat / 2 ^ 52 * 2 ^ 52 := by omega
    rw [a1, a2, a3, nat_or_split 52 _ _ hf]
    omega
  simp only [e]

theorem atLeast_iff (k : Nat) (m : Nat) (e : Int) : (FVal.fin false m e).atLeast k = true ↔ AtMost k m e := by
  simp [FVal.atLeast, AtMost]

theorem U128.fromDoubleBits_spec (bits : BitVec 64) :
    ∃ r, U128.fromDoubleBits bits = .ok r ∧ Converts (doubleVal bits) r.val := by
  have hlt := bits.isLt
  by_cases hneg : (doubleVal bits).negative || (doubleVal bits).isNan
  · refine ⟨⟨0, 0⟩, by unfold U128.fromDoubleBits; rw [if_pos hneg], ?_⟩
    cases hv : doubleVal bits with
    | nan => rfl
    | inf neg =>
      rw [hv] at hneg
      cases neg
      · simp [FVal.negative, FVal.isNan] at hneg
      · rfl
    | fin neg m e =>
      rw [hv] at hneg
      cases neg
      · simp [FVal.negative, FVal.isNan] at hneg
      · rfl
  · have hn1 : (doubleVal bits).negative = false := by
      cases h : (doubleVal bits).negative <;> simp_all
    have hn2 : (doubleVal bits).isNan = false := by
      cases h : (doubleVal bits).isNan <;> simp_all
    by_cases hbig : (doubleVal bits).atLeast 340282366920938463463374607431768211456 = true
    · refine ⟨⟨0xFFFFFFFFFFFFFFFF, 0xFFFFFFFFFFFFFFFF⟩, by unfold U128.fromDoubleBits; rw [if_neg hneg, if_pos hbig], ?_⟩
      cases hv : doubleVal bits with
      | nan => rw [hv] at hbig; cases hbig
      | inf neg =>
        rw [hv] at hbig
        cases neg
        · rfl
        · cases hbig
      | fin neg m e =>
        rw [hv] at hbig
        cases neg
        · exact (truncated_max ((atLeast_iff _ m e).1 hbig)).2 (by decide)
        · simp [FVal.atLeast] at hbig
    · have hbig' : (doubleVal bits).atLeast 340282366920938463463374607431768211456 = false := by
        cases h : (doubleVal bits).atLeast 340282366920938463463374607431768211456 <;> simp_all
      by_cases hone : (doubleVal bits).atLeast 1 = true
      · -- the middle
        have hv : bits.toNat < 2 ^ 63 ∧ 1023 ≤ bits.toNat / 2 ^ 52 ∧ bits.toNat / 2 ^ 52 ≤ 1150 ∧
            doubleVal bits = .fin false (2 ^ 52 + bits.toNat % 2 ^ 52) (((bits.toNat / 2 ^ 52 : Nat) : Int) - 1075) := by
          have hdef := doubleVal_eq bits
          have hf : bits.toNat % 2 ^ 52 < 2 ^ 52 := Nat.mod_lt _ (by decide)
          by_cases c1 : bits.toNat / 2 ^ 52 % 2048 = 2047
          · rw [if_pos c1] at hdef
            by_cases c2 : bits.toNat % 2 ^ 52 = 0
            · rw [if_pos c2] at hdef
              rw [hdef] at hbig' hone
              simp only [FVal.atLeast] at hbig' hone
              rw [hbig'] at hone
              cases hone
            · rw [if_neg c2] at hdef
              rw [hdef] at hone
              cases hone
          · rw [if_neg c1] at hdef
            by_cases c3 : bits.toNat / 2 ^ 52 % 2048 = 0
            · rw [if_pos c3] at hdef
              rw [hdef] at hone
              simp only [FVal.atLeast, Bool.and_eq_true, decide_eq_true_eq] at hone
              have hb := hone.2
              rw [show (-(-1074 : Int)).toNat = 1074 from rfl, show (-1074 : Int).toNat = 0 from rfl] at hb
              have : 2 ^ 52 ≤ 2 ^ 1074 := Nat.pow_le_pow_right (by decide) (by decide)
              omega
            · rw [if_neg c3] at hdef
              by_cases c4 : bits.toNat / 2 ^ 63 = 1
              · rw [hdef] at hone
                rw [decide_eq_true c4] at hone
                cases hone
              · have hl : bits.toNat < 2 ^ 63 := by omega
                have c5 : bits.toNat / 2 ^ 52 % 2048 = bits.toNat / 2 ^ 52 := by omega
                rw [c5] at hdef
                have c4' : decide (bits.toNat / 2 ^ 63 = 1) = false := decide_eq_false c4
                rw [c4'] at hdef
                have h1 := hone
                have h2 := hbig
                rw [hdef, atLeast_iff] at h1 h2
                generalize bits.toNat / 2 ^ 52 = E at *
                generalize bits.toNat % 2 ^ 52 = f at *
                refine ⟨hl, ?_, ?_, hdef⟩
                · apply Classical.byContradiction
                  intro hE
                  rw [atMost_iff _ _ _ 1075 (by omega), show ((E : Int) - 1075 + (1075 : Nat)).toNat = E by omega] at h1
                  have h3 : (2 ^ 52 + f) * 2 ^ E < 2 ^ 53 * 2 ^ E := Nat.mul_lt_mul_of_pos_right (by omega) (Nat.two_pow_pos _)
                  rw [← Nat.pow_add] at h3
                  have h4 : 2 ^ (53 + E) ≤ 2 ^ 1075 := Nat.pow_le_pow_right (by decide) (by omega)
                  omega
                · apply Classical.byContradiction
                  intro hE
                  apply h2
                  rw [atMost_iff _ _ _ 1075 (by omega), show ((E : Int) - 1075 + (1075 : Nat)).toNat = E by omega,
                    show 340282366920938463463374607431768211456 = 2 ^ 128 by decide]
                  have h3 : 2 ^ 52 * 2 ^ E ≤ (2 ^ 52 + f) * 2 ^ E := Nat.mul_le_mul_right _ (by omega)
                  have h4 : 2 ^ 128 * 2 ^ 1075 ≤ 2 ^ 52 * 2 ^ E := by
                    rw [← Nat.pow_add, ← Nat.pow_add]
                    exact Nat.pow_le_pow_right (by decide) (by omega)
                  omega
        obtain ⟨v1, v2, v3, v4⟩ := hv
        obtain ⟨r, hr1, hr2⟩ := U128.fromDouble_eq (bits.toNat / 2 ^ 52) (BitVec.ofNat 52 (bits.toNat % 2 ^ 52)) v2 v3
        refine ⟨r, by rw [U128.fromDoubleBits_fields bits v1 hn1 hn2 hbig' hone v2 v3, hr1], ?_⟩
        have hf : bits.toNat % 2 ^ 52 < 2 ^ 52 := Nat.mod_lt _ (by decide)
        rw [BitVec.toNat_ofNat, Nat.mod_eq_of_lt hf] at hr2
        rw [v4]
        show Truncated _ _ _
        have hlim : ¬ AtMost (2 ^ 128) (2 ^ 52 + bits.toNat % 2 ^ 52) (((bits.toNat / 2 ^ 52 : Nat) : Int) - 1075) := by
          rw [← atLeast_iff, ← v4]; exact hbig
        generalize bits.toNat / 2 ^ 52 = E at *
        generalize bits.toNat % 2 ^ 52 = f at *
        have key : ∀ x, AtMost x (2 ^ 52 + f) ((E : Int) - 1075) ↔ x ≤ r.val := by
          intro x
          rw [atMost_iff _ _ _ 52 (by omega), show ((E : Int) - 1075 + (52 : Nat)).toNat = E - 1023 by omega, hr2]
          exact (Nat.le_div_iff_mul_le (by decide)).symm
        refine ⟨?_, (key _).2 (Nat.le_refl _), Or.inr ?_⟩
        · rw [key] at hlim; omega
        · rw [key]; omega
      · refine ⟨⟨0, 0⟩, by unfold U128.fromDoubleBits; rw [if_neg hneg, if_neg hbig, if_neg hone], ?_⟩
        cases hv : doubleVal bits with
        | nan => rfl
        | inf neg =>
          rw [hv] at hone
          cases neg
          · exact absurd rfl hone
          · rfl
        | fin neg m e =>
          rw [hv] at hone
          cases neg
          · refine (truncated_zero ?_).2 (by decide)
            intro h
            exact hone ((atLeast_iff _ m e).2 h)
          · rfl

/-! ### Rounding to a double -/

theorem roundTo_bounds (m : Nat) (h : m ≠ 0) : 2 ^ m.log2 ≤ roundTo 53 m ∧ roundTo 53 m ≤ 2 ^ (m.log2 + 1) := by
  have hn := roundTo_nearest 53 m (by decide)
  have f : ∀ k, Fits 53 (2 ^ k) := fun k => ⟨1, k, by decide, by simp⟩
  exact ⟨nearest_ge hn (f _) (Nat.log2_self_le h), nearest_le hn (f _) (Nat.le_of_lt Nat.lt_log2_self)⟩

theorem roundQuot_le (a d : Nat) : roundQuot a d ≤ a / d + 1 := by
  unfold roundQuot
  dsimp only
  split <;> omega

/-- The significand of the nearest double. -/
def sig53 (m : Nat) : Nat := if m.log2 ≤ 52 then m * 2 ^ (52 - m.log2) else roundQuot m (2 ^ (m.log2 - 52))

theorem sig53_value (m : Nat) (h : m ≠ 0) : roundTo 53 m * 2 ^ 52 = sig53 m * 2 ^ m.log2 := by
  unfold sig53
  by_cases c : m.log2 ≤ 52
  · have hm : m < 2 ^ 53 := Nat.lt_of_lt_of_le Nat.lt_log2_self (Nat.pow_le_pow_right (by decide) (by omega))
    rw [if_pos c, roundTo, if_pos hm, Nat.mul_assoc, ← Nat.pow_add]
    exact congrArg _ (congrArg _ (by omega))
  · have hm : ¬ m < 2 ^ 53 := by
      intro hm
      have := Nat.lt_of_le_of_lt (Nat.log2_self_le h) hm
      have := pow_lt_cancel this
      omega
    rw [if_neg c, roundTo, if_neg hm]
    dsimp only
    rw [show m.log2 + 1 - 53 = m.log2 - 52 by omega, Nat.mul_assoc, ← Nat.pow_add,
      show m.log2 - 52 + 52 = m.log2 by omega]
    rfl

theorem sig53_bounds (m : Nat) (h : m ≠ 0) : 2 ^ 52 ≤ sig53 m ∧ sig53 m ≤ 2 ^ 53 := by
  have hv := sig53_value m h
  obtain ⟨b1, b2⟩ := roundTo_bounds m h
  constructor
  · have : 2 ^ 52 * 2 ^ m.log2 ≤ sig53 m * 2 ^ m.log2 := by
      rw [← hv, Nat.mul_comm]
      exact Nat.mul_le_mul_right _ b1
    exact Nat.le_of_mul_le_mul_right this (Nat.two_pow_pos _)
  · have : sig53 m * 2 ^ m.log2 ≤ 2 ^ 53 * 2 ^ m.log2 := by
      rw [← hv]
      refine Nat.le_trans (Nat.mul_le_mul_right _ b2) (Nat.le_of_eq ?_)
      rw [← Nat.pow_add, ← Nat.pow_add]
      exact congrArg _ (by omega)
    exact Nat.le_of_mul_le_mul_right this (Nat.two_pow_pos _)

theorem doubleBits_normal (m : Nat) (e : Int) (h : m ≠ 0) (h1 : -1022 ≤ (m.log2 : Int) + e) (h2 : (m.log2 : Int) + e ≤ 1023) :
    doubleBits m e = ((m.log2 : Int) + e + 1022).toNat * 2 ^ 52 + sig53 m := by
  unfold doubleBits sig53
  rw [if_neg h]
  dsimp only
  rw [if_neg (by omega), show max ((m.log2 : Int) + e - 52) (-1074) = (m.log2 : Int) + e - 52 by omega,
    show (m.log2 : Int) + e - 52 + 1074 = (m.log2 : Int) + e + 1022 by omega]
  congr 1
  by_cases c : m.log2 ≤ 52
  · rw [if_pos (by omega), if_pos c]
    exact congrArg _ (congrArg _ (by omega))
  · rw [if_neg (by omega), if_neg c]
    exact congrArg _ (congrArg _ (by omega))

theorem doubleBits_tiny (m : Nat) (e : Int) (h : m ≠ 0) (h1 : (m.log2 : Int) + e < -1022) : doubleBits m e ≤ 2 ^ 52 := by
  unfold doubleBits
  rw [if_neg h]
  dsimp only
  rw [if_neg (by omega), show max ((m.log2 : Int) + e - 52) (-1074) = -1074 by omega,
    show (-1074 + 1074 : Int).toNat = 0 from rfl, Nat.zero_mul, Nat.zero_add]
  have hm : m < 2 ^ (m.log2 + 1) := Nat.lt_log2_self
  by_cases c : -1074 ≤ e
  · rw [if_pos c]
    have : m * 2 ^ (e - -1074).toNat < 2 ^ (m.log2 + 1) * 2 ^ (e - -1074).toNat :=
      Nat.mul_lt_mul_of_pos_right hm (Nat.two_pow_pos _)
    rw [← Nat.pow_add] at this
    have h3 : 2 ^ (m.log2 + 1 + (e - -1074).toNat) ≤ 2 ^ 52 := Nat.pow_le_pow_right (by decide) (by omega)
    omega
  · rw [if_neg c]
    refine Nat.le_trans (roundQuot_le _ _) ?_
    have : m / 2 ^ (-1074 - e).toNat < 2 ^ 52 := by
      rw [Nat.div_lt_iff_lt_mul (Nat.two_pow_pos _), ← Nat.pow_add]
      exact Nat.lt_of_lt_of_le hm (Nat.pow_le_pow_right (by decide) (by omega))
    omega

theorem doubleBits_le (m : Nat) (e : Int) : doubleBits m e ≤ 2047 * 2 ^ 52 := by
  by_cases h : m = 0
  · unfold doubleBits; rw [if_pos h]; omega
  · rcases Int.lt_or_le ((m.log2 : Int) + e) (-1022) with c | c
    · have := doubleBits_tiny m e h c; omega
    · rcases Int.lt_or_le 1023 ((m.log2 : Int) + e) with d | d
      · unfold doubleBits; rw [if_neg h]; dsimp only; rw [if_pos d]
      · rw [doubleBits_normal m e h c d]
        have := (sig53_bounds m h).2
        omega

theorem double_converts_neg (bits : BitVec 64) (h : 2 ^ 63 ≤ bits.toNat) (h2 : bits.toNat ≤ 2 ^ 63 + 2047 * 2 ^ 52) (r : Nat)
    (hc : Converts (doubleVal bits) r) : r = 0 := by
  rw [doubleVal_eq] at hc
  have hn : decide (bits.toNat / 2 ^ 63 = 1) = true := decide_eq_true (by omega)
  rw [hn] at hc
  split at hc
  · split at hc <;> exact hc
  · split at hc <;> exact hc

theorem double_converts_tiny (bits : BitVec 64) (h : bits.toNat ≤ 2 ^ 52) (r : Nat)
    (hc : Converts (doubleVal bits) r) : r = 0 := by
  rw [doubleVal_eq] at hc
  have hn : decide (bits.toNat / 2 ^ 63 = 1) = false := decide_eq_false (by omega)
  rw [hn, if_neg (by omega)] at hc
  split at hc
  · refine (truncated_zero ?_).1 hc
    rw [atMost_iff _ _ _ 1074 (by decide), show ((-1074 : Int) + (1074 : Nat)).toNat = 0 from rfl]
    have : 2 ^ 53 ≤ 2 ^ 1074 := Nat.pow_le_pow_right (by decide) (by decide)
    omega
  · have hb : bits.toNat = 2 ^ 52 := by omega
    rw [hb] at hc
    refine (truncated_zero ?_).1 hc
    rw [show ((2 ^ 52 / 2 ^ 52 % 2048 : Nat) : Int) - 1075 = -1074 from rfl,
      atMost_iff _ _ _ 1074 (by decide), show ((-1074 : Int) + (1074 : Nat)).toNat = 0 from rfl]
    have : 2 ^ 54 ≤ 2 ^ 1074 := Nat.pow_le_pow_right (by decide) (by decide)
    omega

theorem double_converts_normal (bits : BitVec 64) (m : Nat) (e : Int) (h : m ≠ 0) (h1 : -1022 ≤ (m.log2 : Int) + e)
    (h2 : (m.log2 : Int) + e ≤ 1023) (hb : bits.toNat = doubleBits m e) (r : Nat) (hc : Converts (doubleVal bits) r) :
    Truncated (roundTo 53 m) e r := by
  have hv := sig53_value m h
  obtain ⟨b1, b2⟩ := sig53_bounds m h
  obtain ⟨c1, c2⟩ := roundTo_bounds m h
  rw [doubleBits_normal m e h h1 h2] at hb
  rw [doubleVal_eq] at hc
  have hn : decide (bits.toNat / 2 ^ 63 = 1) = false := decide_eq_false (by omega)
  rw [hn] at hc
  by_cases hs : sig53 m = 2 ^ 53
  · have hE : bits.toNat / 2 ^ 52 % 2048 = ((m.log2 : Int) + e + 1024).toNat := by omega
    have hf : bits.toNat % 2 ^ 52 = 0 := by omega
    rw [hE, hf] at hc
    by_cases ht : (m.log2 : Int) + e = 1023
    · rw [if_pos (by omega), if_pos rfl] at hc
      refine (truncated_max ?_).2 hc
      refine (atMost_congr hv (e := e) (e' := (m.log2 : Int) + e - 52) (by omega) _).2 ?_
      rw [hs, ht, atMost_iff _ _ _ 0 (by decide), show ((1023 - 52 : Int) + (0 : Nat)).toNat = 971 from rfl]
      have : (2 : Nat) ^ 128 ≤ 2 ^ 971 := Nat.pow_le_pow_right (by decide) (by decide)
      omega
    · rw [if_neg (by omega), if_neg (by omega)] at hc
      refine (truncated_congr ?_).1 hc
      intro x
      have e1 : (2 ^ 52 + 0) * 2 ^ (m.log2 + 1) = roundTo 53 m * 2 ^ 52 := by
        rw [hv, hs, Nat.add_zero, ← Nat.pow_add, ← Nat.pow_add]
        exact congrArg _ (by omega)
      exact atMost_congr e1 (by omega) x
  · have hE : bits.toNat / 2 ^ 52 % 2048 = ((m.log2 : Int) + e + 1023).toNat := by omega
    have hf : bits.toNat % 2 ^ 52 = sig53 m - 2 ^ 52 := by omega
    rw [hE, hf, if_neg (by omega), if_neg (by omega)] at hc
    refine (truncated_congr ?_).1 hc
    intro x
    have e1 : (2 ^ 52 + (sig53 m - 2 ^ 52)) * 2 ^ m.log2 = roundTo 53 m * 2 ^ 52 := by
      rw [hv, Nat.add_sub_cancel' b1]
    exact atMost_congr e1 (by omega) x

/-- Rounding to a double and converting is converting the number with its significand rounded. -/
theorem toDoubleBits_converts (neg : Bool) (m : Nat) (e : Int) (r : Nat)
    (hc : Converts (doubleVal (toDoubleBits (.fin neg m e))) r) : Converts (.fin neg (roundTo 53 m) e) r := by
  have hle := doubleBits_le m e
  cases neg with
  | true =>
    show r = 0
    refine double_converts_neg _ ?_ ?_ r hc
    · show _ ≤ (BitVec.ofNat 64 (2 ^ 63 + doubleBits m e)).toNat
      rw [BitVec.toNat_ofNat, Nat.mod_eq_of_lt (by omega)]; omega
    · show (BitVec.ofNat 64 (2 ^ 63 + doubleBits m e)).toNat ≤ _
      rw [BitVec.toNat_ofNat, Nat.mod_eq_of_lt (by omega)]; omega
  | false =>
    show Truncated _ _ _
    have hb : (toDoubleBits (.fin false m e)).toNat = doubleBits m e := by
      show (BitVec.ofNat 64 (0 + doubleBits m e)).toNat = _
      rw [BitVec.toNat_ofNat, Nat.mod_eq_of_lt (by omega), Nat.zero_add]
    by_cases h : m = 0
    · have h0 : r = 0 := double_converts_tiny _ (by rw [hb]; unfold doubleBits; rw [if_pos h]; omega) r hc
      subst h
      refine (truncated_zero ?_).2 h0
      have : roundTo 53 0 = 0 := by decide
      rw [this]
      unfold AtMost
      have := Nat.two_pow_pos (-e).toNat
      omega
    · obtain ⟨c1, c2⟩ := roundTo_bounds m h
      rcases Int.lt_or_le ((m.log2 : Int) + e) (-1022) with c | c
      · have h0 : r = 0 := double_converts_tiny _ (by rw [hb]; exact doubleBits_tiny m e h c) r hc
        refine (truncated_zero ?_).2 h0
        rw [atMost_iff _ _ _ (-e).toNat (by omega), show (e + ((-e).toNat : Int)).toNat = 0 by omega]
        have : 2 ^ (m.log2 + 1) < 2 ^ (-e).toNat := Nat.pow_lt_pow_right (by decide) (by omega)
        omega
      · rcases Int.lt_or_le 1023 ((m.log2 : Int) + e) with d | d
        · have hb' : toDoubleBits (.fin false m e) = 0x7FF0000000000000#64 := by
            apply BitVec.eq_of_toNat_eq
            rw [hb]
            unfold doubleBits
            rw [if_neg h]
            dsimp only
            rw [if_pos d]
            decide
          rw [hb'] at hc
          refine (truncated_max ?_).2 hc
          rw [atMost_iff _ _ _ e.natAbs (by omega)]
          have h3 : 2 ^ m.log2 * 2 ^ (e + e.natAbs).toNat ≤ roundTo 53 m * 2 ^ (e + e.natAbs).toNat :=
            Nat.mul_le_mul_right _ c1
          have h4 : 2 ^ 128 * 2 ^ e.natAbs ≤ 2 ^ m.log2 * 2 ^ (e + e.natAbs).toNat := by
            rw [← Nat.pow_add, ← Nat.pow_add]
            exact Nat.pow_le_pow_right (by decide) (by omega)
          omega
        · exact double_converts_normal _ m e h c d hb r hc

end Ip
