import Verif.Lemmas.Float
import Verif.Props.U128
/-
C57: conversion of 128 bit integers to floating point.
-/
set_option autoImplicit false

namespace Ip

open Spec

/-- C57, partial.  Below `2^88` and from `2^101` on, the conversion to `double` rounds to nearest,
ties to even.  In between it does not (`C57_double_wrong`). -/
theorem C57_double_partial (x : U128) (h : x.val < 2 ^ 88 ∨ 2 ^ 101 ≤ x.val) :
    ∃ d : Nat, x.toDouble = .ok (d : Int) ∧ Nearest 53 x.val d := by
  refine ⟨_, U128.toDouble_eq x, ?_⟩
  rcases h with h | h
  · rw [if_pos h]
    exact roundTo_nearest 53 _ (by decide)
  · rw [if_neg (by omega)]
    obtain ⟨h1, h2⟩ := U128.folded_facts x.val
    rw [← roundTo_sticky 53 48 x.val _ (by decide) h h1 h2]
    exact roundTo_nearest 53 _ (by decide)

example : (⟨1, 2049⟩ : U128).val < 2 ^ 88 ∧ (⟨1, 2049⟩ : U128).toDouble = .ok 18446744073709555712 := by decide +kernel
example : 2 ^ 101 ≤ (⟨0x8000000000000400, 1⟩ : U128).val ∧
    (⟨0x8000000000000400, 1⟩ : U128).toDouble = .ok ((2 ^ 127 + 2 ^ 75 : Nat) : Int) := by decide +kernel

/-- C57, negation.  For every magnitude from `2^88` to `2^101` there is a value that is converted to
a `double` other than the nearest: the low 24 bits are added into bits 24 to 47 of the sum. -/
theorem C57_double_wrong (n : Nat) (h1 : 88 ≤ n) (h2 : n ≤ 100) :
    ∃ (x : U128) (d : Nat), 2 ^ n ≤ x.val ∧ x.val < 2 ^ (n + 1) ∧ x.toDouble = .ok (d : Int) ∧ ¬ Nearest 53 x.val d := by
  refine ⟨⟨BitVec.ofNat 64 (2 ^ (n - 64)), 0xFFFFFF⟩, roundTo 53 (2 ^ n + 281474959933440), ?_⟩
  have key : ∀ n < 101, 88 ≤ n →
      2 ^ n ≤ (⟨BitVec.ofNat 64 (2 ^ (n - 64)), 0xFFFFFF⟩ : U128).val ∧
      (⟨BitVec.ofNat 64 (2 ^ (n - 64)), 0xFFFFFF⟩ : U128).val < 2 ^ (n + 1) ∧
      (⟨BitVec.ofNat 64 (2 ^ (n - 64)), 0xFFFFFF⟩ : U128).toDouble =
        .ok ((roundTo 53 (2 ^ n + 281474959933440) : Nat) : Int) ∧
      ¬ dist (⟨BitVec.ofNat 64 (2 ^ (n - 64)), 0xFFFFFF⟩ : U128).val (roundTo 53 (2 ^ n + 281474959933440)) ≤
        dist (⟨BitVec.ofNat 64 (2 ^ (n - 64)), 0xFFFFFF⟩ : U128).val (2 ^ n) := by decide +kernel
  obtain ⟨k1, k2, k3, k4⟩ := key n (by omega) h1
  exact ⟨k1, k2, k3, fun hn => k4 (hn.2.1 _ ⟨1, n, by decide, by simp⟩)⟩

example := C57_double_wrong 95 (by decide) (by decide)

/-- C57, negation.  The conversion to `double` does not keep the order: of these two values the
greater has the smaller image. -/
theorem C57_order_wrong :
    ∃ (x y : U128) (d e : Nat), x.val < y.val ∧ x.toDouble = .ok (d : Int) ∧ y.toDouble = .ok (e : Int) ∧ e < d :=
  ⟨⟨2 ^ 24, 0xFFFFFF⟩, ⟨2 ^ 24, 2 ^ 37⟩, 2 ^ 88 + 2 ^ 48, 2 ^ 88 + 2 ^ 37, by decide +kernel⟩

/-- C57, partial.  Outside `[2^88, 2^101)` the conversion to `double` keeps the order. -/
theorem C57_order_partial (x y : U128) (hx : x.val < 2 ^ 88 ∨ 2 ^ 101 ≤ x.val)
    (hy : y.val < 2 ^ 88 ∨ 2 ^ 101 ≤ y.val) (h : x.val ≤ y.val) :
    ∃ d e : Nat, x.toDouble = .ok (d : Int) ∧ y.toDouble = .ok (e : Int) ∧ d ≤ e := by
  have conv : ∀ z : U128, z.val < 2 ^ 88 ∨ 2 ^ 101 ≤ z.val → z.toDouble = .ok ((roundTo 53 z.val : Nat) : Int) := by
    intro z hz
    rw [U128.toDouble_eq]
    rcases hz with hz | hz
    · rw [if_pos hz]
    · rw [if_neg (by omega)]
      obtain ⟨h1, h2⟩ := U128.folded_facts z.val
      rw [← roundTo_sticky 53 48 z.val _ (by decide) hz h1 h2]
  exact ⟨_, _, conv x hx, conv y hy, roundTo_mono 53 _ _ (by decide) h⟩

example : (⟨0, 7⟩ : U128).val < 2 ^ 88 ∧ 2 ^ 101 ≤ (⟨2 ^ 40, 0⟩ : U128).val ∧
    (⟨0, 7⟩ : U128).val ≤ (⟨2 ^ 40, 0⟩ : U128).val := by decide +kernel

/-- C57.  Every value is converted to a `double` within one part in `2^39` of it. -/
theorem C57_double_close (x : U128) :
    ∃ d : Nat, x.toDouble = .ok (d : Int) ∧ dist x.val d * 2 ^ 39 ≤ x.val := by
  refine ⟨_, U128.toDouble_eq x, ?_⟩
  split
  next h =>
    have hc := roundTo_close 53 x.val (by decide)
    exact Nat.le_trans (Nat.mul_le_mul_left _ (by decide)) hc
  next h =>
    obtain ⟨h1, h2⟩ := U128.folded_facts x.val
    have hc := roundTo_close 53 (U128.folded x.val) (by decide)
    generalize roundTo 53 (U128.folded x.val) = d at hc ⊢
    generalize U128.folded x.val = w at hc h1 h2 ⊢
    have ht : dist x.val d ≤ dist x.val w + dist w d := by unfold dist; omega
    have hw : dist x.val w ≤ 2 ^ 48 := by unfold dist; omega
    have hv : w < x.val + 2 ^ 48 := by omega
    generalize dist w d = a at hc ht
    generalize dist x.val w = b at hw ht
    generalize dist x.val d = c at ht ⊢
    have e1 : a * 2 ^ 39 * 2 ^ 14 ≤ w := by rw [Nat.mul_assoc]; exact hc
    have e2 : c * 2 ^ 39 ≤ b * 2 ^ 39 + a * 2 ^ 39 := by rw [← Nat.add_mul]; exact Nat.mul_le_mul_right _ ht
    have e3 : b * 2 ^ 39 ≤ 2 ^ 87 := Nat.mul_le_mul_right (2 ^ 39) hw
    have fin : ∀ A B C v : Nat, A * 2 ^ 14 ≤ w → C ≤ B + A → B ≤ 2 ^ 87 → w < v + 2 ^ 48 → ¬ v < 2 ^ 88 → C ≤ v := by
      intro A B C v; omega
    exact fin _ _ _ _ e1 e2 e3 hv h

example : (⟨2 ^ 24, 0xFFFFFF⟩ : U128).toDouble = .ok ((2 ^ 88 + 2 ^ 48 : Nat) : Int) := by decide +kernel

/-- C57.  A value with at most 53 significant bits is converted to `double`, and to `long double`,
without change. -/
theorem C57_double_exact (x : U128) (h : Fits 53 x.val) :
    x.toDouble = .ok (x.val : Int) ∧ x.toLongDouble = .ok (x.val : Int) := by
  have key : x.toDouble = .ok (x.val : Int) := by
    rw [U128.toDouble_eq]
    split
    next _ => rw [roundTo_exact (by decide) h]
    next h1 =>
      have : x.val % 2 ^ 24 = 0 := by
        obtain ⟨m, e, hm, he⟩ := h
        have h2 : 24 ≤ e := by
          rcases Nat.lt_or_ge e 24 with h3 | h3
          · have : 2 ^ e ≤ 2 ^ 24 := Nat.pow_le_pow_right (by decide) (by omega)
            have := Nat.mul_le_mul (Nat.le_of_lt hm) this
            omega
          · exact h3
        have h3 : 2 ^ e = 2 ^ (e - 24) * 2 ^ 24 := by rw [← Nat.pow_add]; exact congrArg _ (by omega)
        rw [he, h3, ← Nat.mul_assoc]
        exact Nat.mul_mod_left _ _
      rw [U128.folded_zero _ this, roundTo_exact (by decide) h]
  exact ⟨key, key⟩

example : Fits 53 (⟨2 ^ 24, 2 ^ 37⟩ : U128).val := ⟨2 ^ 51 + 1, 37, by decide, by decide +kernel⟩

/-- C57.  A `double` from 1 up to `2^128` converted to an integer and back is its integral part. -/
theorem C57_round_trip (e : Nat) (f : BitVec 52) (h1 : 1023 ≤ e) (h2 : e ≤ 1150) :
    ∃ r, U128.fromDouble e f = .ok r ∧
      r.toDouble = .ok (((2 ^ 52 + f.toNat) * 2 ^ (e - 1023) / 2 ^ 52 : Nat) : Int) := by
  obtain ⟨r, hr1, hr2⟩ := (C52_from_double e f).1 h1 h2
  refine ⟨r, hr1, ?_⟩
  rw [← hr2]
  refine (C57_double_exact r ?_).1
  have hf := f.isLt
  rw [hr2]
  rcases Nat.lt_or_ge e 1075 with h | h
  · refine ⟨_, 0, ?_, (Nat.mul_one _).symm⟩
    have h3 : 2 ^ (e - 1023) ≤ 2 ^ 51 := Nat.pow_le_pow_right (by decide) (by omega)
    rw [Nat.div_lt_iff_lt_mul (by decide)]
    refine Nat.lt_of_le_of_lt (Nat.mul_le_mul_left _ h3) ?_
    omega
  · refine ⟨2 ^ 52 + f.toNat, e - 1075, by omega, ?_⟩
    have h3 : 2 ^ (e - 1023) = 2 ^ (e - 1075) * 2 ^ 52 := by rw [← Nat.pow_add]; exact congrArg _ (by omega)
    rw [h3, ← Nat.mul_assoc, Nat.mul_div_cancel _ (by decide)]

example : U128.fromDouble 1123 0x123456789abcd = .ok ⟨0x1123456789, 0xabcd000000000000⟩ ∧
    (⟨0x1123456789, 0xabcd000000000000⟩ : U128).toDouble = .ok 1357794642911125450531046162432 := by decide +kernel

/-- C57, partial.  Outside `[2^88, 2^101)` the conversion to `float` gives one of the two
neighbouring floats, or the value itself when it is one; infinity only above the largest float.
It need not be the nearest (`C57_float_wrong`). -/
theorem C57_float_partial (x : U128) (h : x.val < 2 ^ 88 ∨ 2 ^ 101 ≤ x.val) :
    (∃ f : Nat, x.toFloat = .ok (some (f : Int)) ∧ f < 2 ^ 128 ∧ Faithful 24 x.val f) ∨
    (x.toFloat = .ok none ∧ (2 ^ 24 - 1) * 2 ^ 104 < x.val) := by
  obtain ⟨d, hd, hn⟩ := C57_double_partial x h
  have hr := roundTo_nearest 24 d (by decide)
  have fa : Faithful 24 x.val (roundTo 24 d) := by
    refine ⟨hr.1, ?_, ?_⟩
    · intro g hg hvg
      exact nearest_le hr hg (nearest_le hn (fits_mono (by decide) hg) hvg)
    · intro g hg hvg
      exact nearest_ge hr hg (nearest_ge hn (fits_mono (by decide) hg) hvg)
  have hf : x.toFloat = .ok (if (roundTo 24 d : Int) ≥ 340282366920938463463374607431768211456 then none
      else some (roundTo 24 d : Int)) := by
    unfold U128.toFloat
    rw [hd, Res.ok_bind, roundInt_nat]
  by_cases hb : (roundTo 24 d : Int) ≥ 340282366920938463463374607431768211456
  · right
    rw [hf, if_pos hb]
    refine ⟨rfl, ?_⟩
    apply Nat.lt_of_not_le
    intro hle
    have := fa.2.1 ((2 ^ 24 - 1) * 2 ^ 104) ⟨2 ^ 24 - 1, 104, by decide, rfl⟩ hle
    omega
  · left
    rw [hf, if_neg hb]
    exact ⟨_, rfl, by omega, fa⟩

example : (⟨1, 12345⟩ : U128).val < 2 ^ 88 ∧ (⟨1, 12345⟩ : U128).toFloat = .ok (some 18446744073709551616) := by
  decide +kernel
example : 2 ^ 101 ≤ (⟨-1, 0⟩ : U128).val ∧ (⟨-1, 0⟩ : U128).toFloat = .ok none := by decide +kernel

/-- C57, negation.  The conversion to `float` rounds twice, so the result need not be the nearest
`float`. -/
theorem C57_float_wrong :
    ∃ (x : U128) (f : Nat), x.val < 2 ^ 88 ∧ x.toFloat = .ok (some (f : Int)) ∧ ¬ Nearest 24 x.val f := by
  refine ⟨⟨1, 2 ^ 40 + 1⟩, 2 ^ 64, by decide +kernel, by decide +kernel, ?_⟩
  intro h
  have := h.2.1 (2 ^ 64 + 2 ^ 41) ⟨2 ^ 23 + 1, 41, by decide, by decide +kernel⟩
  exact absurd this (by decide +kernel)

/-- C57, negation.  The conversion to `long double` goes through `double`: where `long double` has a
64 bit significand, a value that it represents exactly is changed. -/
theorem C57_long_double_wrong :
    ∃ x : U128, Fits 64 x.val ∧ x.toLongDouble ≠ .ok (x.val : Int) :=
  ⟨⟨0, -1⟩, ⟨2 ^ 64 - 1, 0, by decide, by decide +kernel⟩, by decide +kernel⟩

end Ip
