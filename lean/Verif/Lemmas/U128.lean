import Verif.Spec.U128
import Mathlib.Tactic.Ring
import Mathlib.Tactic.NormNum
import Mathlib.Tactic.Linarith
import Mathlib.Tactic.IntervalCases
/-
Arithmetic of `uint128_t` apart from division.
-/
set_option autoImplicit false

namespace Ip
namespace U128

theorem val_lt (x : U128) : x.val < Spec.two128 := by
  have := x.upper.isLt; have := x.lower.isLt
  simp only [val, Spec.two128]; omega

theorem val_inj {x y : U128} (h : x.val = y.val) : x = y := by
  have := x.upper.isLt; have := x.lower.isLt; have := y.upper.isLt; have := y.lower.isLt
  simp only [val] at h
  obtain ⟨a, b⟩ := x; obtain ⟨c, d⟩ := y
  simp only [U128.mk.injEq]
  constructor <;> apply BitVec.eq_of_toNat_eq <;> simp at * <;> omega

theorem val_mk (u l : BitVec 64) : val ⟨u, l⟩ = u.toNat * 18446744073709551616 + l.toNat := rfl

theorem val_ofU64 (x : BitVec 64) : (ofU64 x).val = x.toNat := by simp [ofU64, val]

theorem val_ofI64_nonneg (x : BitVec 64) (h : x.toNat < 2 ^ 63) : (ofI64 x).val = x.toNat := by
  have : x.sshiftRight 63 = 0 := by
    apply BitVec.eq_of_toNat_eq
    rw [BitVec.sshiftRight_eq_of_msb_false]
    · simp [BitVec.toNat_ushiftRight, Nat.shiftRight_eq_div_pow]; omega
    · rw [BitVec.msb_eq_decide]; simp; omega
  simp [ofI64, val, this]

theorem val_add (x y : U128) : (x.add y).val = (x.val + y.val) % Spec.two128 := by
  have := x.upper.isLt; have := x.lower.isLt; have := y.upper.isLt; have := y.lower.isLt
  simp only [add, val, Spec.two128, BitVec.lt_def, BitVec.toNat_add]
  split <;> simp <;> omega

theorem val_sub (x y : U128) :
    (x.sub y).val = (x.val + (Spec.two128 - y.val)) % Spec.two128 := by
  have := x.upper.isLt; have := x.lower.isLt; have := y.upper.isLt; have := y.lower.isLt
  simp only [sub, val, Spec.two128, GT.gt, BitVec.lt_def, BitVec.toNat_sub]
  split <;> simp at * <;> omega

theorem val_not (x : U128) : x.not.val = Spec.two128 - 1 - x.val := by
  have := x.upper.isLt; have := x.lower.isLt
  simp only [not, val, Spec.two128, BitVec.toNat_not]
  omega

theorem val_one : (ofI64 1).val = 1 := val_ofI64_nonneg _ (by decide)

theorem val_inc (x : U128) : x.inc.val = (x.val + 1) % Spec.two128 := by
  rw [inc, val_add, val_one]

theorem val_dec (x : U128) : x.dec.val = (x.val + (Spec.two128 - 1)) % Spec.two128 := by
  rw [dec, val_sub, val_one]

theorem val_neg (x : U128) : x.neg.val = (Spec.two128 - x.val) % Spec.two128 := by
  have := val_lt x
  rw [neg, val_inc, val_not]
  congr 1; omega

theorem nat_or_split (n a b : Nat) (h : b < 2 ^ n) : (a * 2 ^ n) ||| b = a * 2 ^ n + b := by
  rw [Nat.mul_comm, Nat.two_pow_add_eq_or_of_lt h]

theorem bigMul_val (a b : BitVec 64) :
    (bigMul a b).1.toNat * 18446744073709551616 + (bigMul a b).2.toNat = a.toNat * b.toNat := by
  have ha := a.isLt; have hb := b.isLt
  simp only [bigMul, BitVec.toNat_add, BitVec.toNat_mul, BitVec.toNat_or, BitVec.toNat_shiftLeft,
    BitVec.toNat_ushiftRight, BitVec.toNat_setWidth, Nat.shiftRight_eq_div_pow, Nat.shiftLeft_eq]
  generalize hx : a.toNat = x at *
  generalize hy : b.toNat = y at *
  have e1 : x % 2 ^ 32 % 2 ^ 64 = x % 2 ^ 32 := by omega
  have e2 : y % 2 ^ 32 % 2 ^ 64 = y % 2 ^ 32 := by omega
  have e3 : x / 2 ^ 32 % 2 ^ 32 % 2 ^ 64 = x / 2 ^ 32 := by omega
  have e4 : y / 2 ^ 32 % 2 ^ 32 % 2 ^ 64 = y / 2 ^ 32 := by omega
  rw [e1, e2, e3, e4]
  obtain ⟨al, hal⟩ : ∃ al, x % 2 ^ 32 = al := ⟨_, rfl⟩
  obtain ⟨ah, hah⟩ : ∃ ah, x / 2 ^ 32 = ah := ⟨_, rfl⟩
  obtain ⟨bl, hbl⟩ : ∃ bl, y % 2 ^ 32 = bl := ⟨_, rfl⟩
  obtain ⟨bh, hbh⟩ : ∃ bh, y / 2 ^ 32 = bh := ⟨_, rfl⟩
  have hx' : x = ah * 2 ^ 32 + al := by omega
  have hy' : y = bh * 2 ^ 32 + bl := by omega
  have b1 : al ≤ 2 ^ 32 - 1 := by omega
  have b2 : ah ≤ 2 ^ 32 - 1 := by omega
  have b3 : bl ≤ 2 ^ 32 - 1 := by omega
  have b4 : bh ≤ 2 ^ 32 - 1 := by omega
  rw [hal, hah, hbl, hbh]
  have p1 := Nat.mul_le_mul b1 b3
  have p2 := Nat.mul_le_mul b2 b3
  have p3 := Nat.mul_le_mul b1 b4
  have p4 := Nat.mul_le_mul b2 b4
  have hxy : x * y = (ah * bh) * 2 ^ 64 + (ah * bl + al * bh) * 2 ^ 32 + al * bl := by
    rw [hx', hy']; ring
  rw [hxy]
  clear hxy hx' hy' hal hah hbl hbh e1 e2 e3 e4 b1 b2 b3 b4
  generalize al * bl = P at *
  generalize ah * bl = Q at *
  generalize al * bh = R at *
  generalize ah * bh = S at *
  have m1 : P % 2 ^ 64 = P := by omega
  rw [m1]
  have m2 : (Q % 2 ^ 64 + P / 2 ^ 32) % 2 ^ 64 = Q + P / 2 ^ 32 := by omega
  rw [m2]
  have m3 : (R % 2 ^ 64 + (Q + P / 2 ^ 32) % 2 ^ 32 % 2 ^ 64) % 2 ^ 64 = R + (Q + P / 2 ^ 32) % 2 ^ 32 := by
    omega
  rw [m3]
  have m4 : (R + (Q + P / 2 ^ 32) % 2 ^ 32) * 2 ^ 32 % 2 ^ 64 =
      ((R + (Q + P / 2 ^ 32) % 2 ^ 32) % 2 ^ 32) * 2 ^ 32 := by omega
  rw [m4, nat_or_split 32 _ _ (by omega)]
  omega

theorem mul_aux (A B C p q : Nat) (h2 : q < 2 ^ 64) :
    (p + (B % 2 ^ 64 + C % 2 ^ 64) % 2 ^ 64) % 2 ^ 64 * 18446744073709551616 + q =
      (A * 340282366920938463463374607431768211456 + (B + C) * 18446744073709551616 +
        (p * 18446744073709551616 + q)) % 340282366920938463463374607431768211456 := by
  omega

theorem val_mul (x y : U128) : (x.mul y).val = (x.val * y.val) % Spec.two128 := by
  have h := bigMul_val x.lower y.lower
  have h2 := (bigMul x.lower y.lower).2.isLt
  simp only [mul, val, Spec.two128, BitVec.toNat_add, BitVec.toNat_mul]
  generalize (bigMul x.lower y.lower).1.toNat = p at *
  generalize (bigMul x.lower y.lower).2.toNat = q at *
  have e : (x.upper.toNat * 18446744073709551616 + x.lower.toNat) *
      (y.upper.toNat * 18446744073709551616 + y.lower.toNat) =
      x.upper.toNat * y.upper.toNat * 340282366920938463463374607431768211456 +
      (x.upper.toNat * y.lower.toNat + x.lower.toNat * y.upper.toNat) * 18446744073709551616 +
      x.lower.toNat * y.lower.toNat := by ring
  rw [e, ← h]
  exact mul_aux _ _ _ _ _ h2

theorem lt_iff (x y : U128) : x.lt y = decide (x.val < y.val) := by
  have := x.upper.isLt; have := x.lower.isLt; have := y.upper.isLt; have := y.lower.isLt
  rw [Bool.eq_iff_iff, decide_eq_true_iff]
  simp only [lt, Bool.or_eq_true, Bool.and_eq_true, BitVec.ult_iff_lt, BitVec.lt_def, beq_iff_eq,
    val, ← BitVec.toNat_inj]
  omega

theorem eq_iff (x y : U128) : x.eq y = decide (x.val = y.val) := by
  have := x.upper.isLt; have := x.lower.isLt; have := y.upper.isLt; have := y.lower.isLt
  rw [Bool.eq_iff_iff, decide_eq_true_iff]
  simp only [eq, Bool.and_eq_true, beq_iff_eq, val, ← BitVec.toNat_inj]
  omega

theorem cmp64_eq (x y : BitVec 64) : cmp64 x y = compare x.toNat y.toNat := by
  simp only [cmp64, BitVec.ult_iff_lt, BitVec.lt_def, beq_iff_eq, ← BitVec.toNat_inj, Nat.compare_eq_ite_lt]
  (repeat' split) <;> first | rfl | omega

theorem cmp_eq (x y : U128) : x.cmp y = compare x.val y.val := by
  have := x.upper.isLt; have := x.lower.isLt; have := y.upper.isLt; have := y.lower.isLt
  simp only [cmp, cmp64_eq, val, Nat.compare_eq_ite_lt]
  (repeat' split) <;> first | rfl | omega | simp_all

theorem toBool_iff (x : U128) : x.toBool = decide (x.val ≠ 0) := by
  have := x.upper.isLt; have := x.lower.isLt
  rw [Bool.eq_iff_iff, decide_eq_true_iff]
  simp only [toBool, Bool.or_eq_true, bne_iff_ne, ne_eq, ← BitVec.toNat_inj, val]
  simp
  omega

/-- The halves joined into one bit vector. -/
def bv (x : U128) : BitVec 128 := BitVec.ofNat 128 x.val

theorem bv_eq_append (x : U128) : x.bv = x.upper ++ x.lower := by
  apply BitVec.eq_of_toNat_eq
  have := x.upper.isLt; have := x.lower.isLt
  simp only [bv, BitVec.toNat_ofNat, BitVec.toNat_append, val, Nat.shiftLeft_eq]
  rw [nat_or_split 64 _ _ (by omega)]
  omega

theorem val_of_bv {x : U128} {n : Nat} (h : x.bv = BitVec.ofNat 128 n) (hn : n < Spec.two128) : x.val = n := by
  have := val_lt x
  have := congrArg BitVec.toNat h
  simp only [bv, BitVec.toNat_ofNat, Spec.two128] at *
  omega

theorem toNat_bv (x : U128) : x.bv.toNat = x.val := by
  have := val_lt x
  simp only [bv, BitVec.toNat_ofNat, Spec.two128] at *
  omega

theorem bv_inj {x y : U128} (h : x.bv = y.bv) : x = y := val_inj (by rw [← toNat_bv, ← toNat_bv, h])

theorem val_and (x y : U128) : (x.and y).val = x.val &&& y.val := by
  rw [← toNat_bv, ← toNat_bv, ← toNat_bv, ← BitVec.toNat_and, bv_eq_append, bv_eq_append, bv_eq_append,
    BitVec.and_append]
  rfl

theorem val_or (x y : U128) : (x.or y).val = x.val ||| y.val := by
  rw [← toNat_bv, ← toNat_bv, ← toNat_bv, ← BitVec.toNat_or, bv_eq_append, bv_eq_append, bv_eq_append,
    BitVec.or_append]
  rfl

theorem val_xor (x y : U128) : (x.xor y).val = x.val ^^^ y.val := by
  rw [← toNat_bv, ← toNat_bv, ← toNat_bv, ← BitVec.toNat_xor, bv_eq_append, bv_eq_append, bv_eq_append,
    BitVec.xor_append]
  rfl

theorem shl_val (x : U128) (n : Nat) (h : n ≠ 128) :
    ∃ r, x.shl n = .ok r ∧ r.val = (x.val * 2 ^ n) % Spec.two128 := by
  have hu := x.upper.isLt; have hl := x.lower.isLt
  have ht : Spec.two128 = 2 ^ 64 * 2 ^ 64 := by norm_num [Spec.two128]
  unfold shl
  by_cases h0 : n = 0
  · subst h0
    refine ⟨x, by simp, ?_⟩
    rw [Nat.mod_eq_of_lt] <;> simp [val_lt]
  rw [if_neg (by omega)]
  by_cases h1 : 64 ≤ n ∧ n < 128
  · have hs : shl64 x.lower ((n : Int) - 64).toNat = .ok (x.lower <<< (n - 64)) := by
      have e : ((n : Int) - 64).toNat = n - 64 := by omega
      rw [e, shl64, if_pos (by omega)]
    rw [if_pos (by omega), hs]
    refine ⟨_, rfl, ?_⟩
    have e : 2 ^ n = 2 ^ 64 * 2 ^ (n - 64) := by rw [← Nat.pow_add]; congr 1; omega
    have e2 : x.val * 2 ^ n = (x.upper.toNat * 2 ^ (n - 64)) * (2 ^ 64 * 2 ^ 64) +
        2 ^ 64 * (x.lower.toNat * 2 ^ (n - 64)) := by
      rw [e, val]; ring
    rw [e2, ht, Nat.mul_comm (x.upper.toNat * 2 ^ (n - 64)), Nat.mul_add_mod, Nat.mul_mod_mul_left,
      val_mk, BitVec.toNat_shiftLeft, Nat.shiftLeft_eq]
    simp [Nat.mul_comm]
  · by_cases h2 : n < 64
    · have hs1 : shl64 x.upper (n : Int).toNat = .ok (x.upper <<< n) := by
        rw [Int.toNat_natCast, shl64, if_pos h2]
      have hs2 : shl64 x.lower (n : Int).toNat = .ok (x.lower <<< n) := by
        rw [Int.toNat_natCast, shl64, if_pos h2]
      have hs3 : shr64 x.lower (64 - (n : Int)).toNat = .ok (x.lower >>> (64 - n)) := by
        have e : (64 - (n : Int)).toNat = 64 - n := by omega
        rw [e, shr64, if_pos (by omega)]
      rw [if_neg (by omega), if_pos (by omega), hs1, hs2, hs3]
      refine ⟨_, rfl, ?_⟩
      have e : (2 : Nat) ^ 64 = 2 ^ n * 2 ^ (64 - n) := by rw [← Nat.pow_add]; congr 1; omega
      have e3 : x.lower.toNat / 2 ^ (64 - n) = x.lower.toNat * 2 ^ n / 2 ^ 64 := by
        rw [e, Nat.mul_comm x.lower.toNat, Nat.mul_div_mul_left _ _ (Nat.two_pow_pos n)]
      have hv : x.val * 2 ^ n = (x.upper.toNat * 2 ^ n) * 2 ^ 64 + x.lower.toNat * 2 ^ n := by
        rw [val]; ring
      rw [val_mk, BitVec.toNat_add, BitVec.toNat_shiftLeft, BitVec.toNat_shiftLeft, BitVec.toNat_ushiftRight,
        Nat.shiftLeft_eq, Nat.shiftLeft_eq, Nat.shiftRight_eq_div_pow, e3, hv, Spec.two128]
      generalize x.upper.toNat * 2 ^ n = X
      generalize x.lower.toNat * 2 ^ n = Y
      omega
    · rw [if_neg (by omega), if_neg (by omega)]
      refine ⟨_, rfl, ?_⟩
      have e : 2 ^ n = Spec.two128 * 2 ^ (n - 128) := by
        rw [ht, ← Nat.pow_add, ← Nat.pow_add]; exact congrArg (2 ^ ·) (by omega)
      rw [e, Nat.mul_left_comm, Nat.mul_mod_right]
      rfl

theorem shr_val (x : U128) (n : Nat) (h : n ≠ 128) :
    ∃ r, x.shr n = .ok r ∧ r.val = x.val / 2 ^ n := by
  have hu := x.upper.isLt; have hl := x.lower.isLt
  have ht : Spec.two128 = 2 ^ 64 * 2 ^ 64 := by norm_num [Spec.two128]
  unfold shr
  by_cases h0 : n = 0
  · subst h0
    exact ⟨x, by simp, by simp⟩
  rw [if_neg (by omega)]
  by_cases h1 : 64 ≤ n ∧ n < 128
  · have hs : shr64 x.upper ((n : Int) - 64).toNat = .ok (x.upper >>> (n - 64)) := by
      have e : ((n : Int) - 64).toNat = n - 64 := by omega
      rw [e, shr64, if_pos (by omega)]
    rw [if_pos (by omega), hs]
    refine ⟨_, rfl, ?_⟩
    have e : 2 ^ n = 18446744073709551616 * 2 ^ (n - 64) := by
      rw [show (18446744073709551616 : Nat) = 2 ^ 64 by norm_num, ← Nat.pow_add]; congr 1; omega
    rw [e, ← Nat.div_div_eq_div_mul, val_mk, val, BitVec.toNat_ushiftRight, Nat.shiftRight_eq_div_pow]
    have : (x.upper.toNat * 18446744073709551616 + x.lower.toNat) / 18446744073709551616 = x.upper.toNat := by
      omega
    rw [this]; simp
  · by_cases h2 : n < 64
    · have hs1 : shr64 x.upper (n : Int).toNat = .ok (x.upper >>> n) := by
        rw [Int.toNat_natCast, shr64, if_pos h2]
      have hs2 : shr64 x.lower (n : Int).toNat = .ok (x.lower >>> n) := by
        rw [Int.toNat_natCast, shr64, if_pos h2]
      have hs3 : shl64 x.upper (64 - (n : Int)).toNat = .ok (x.upper <<< (64 - n)) := by
        have e : (64 - (n : Int)).toNat = 64 - n := by omega
        rw [e, shl64, if_pos (by omega)]
      rw [if_neg (by omega), if_pos (by omega), hs1, hs2, hs3]
      refine ⟨_, rfl, ?_⟩
      have hB : (18446744073709551616 : Nat) = 2 ^ n * 2 ^ (64 - n) := by
        rw [show (18446744073709551616 : Nat) = 2 ^ 64 by norm_num, ← Nat.pow_add]; congr 1; omega
      have hσ := Nat.two_pow_pos n
      have hτ := Nat.two_pow_pos (64 - n)
      rw [val_mk, BitVec.toNat_add, BitVec.toNat_shiftLeft, BitVec.toNat_ushiftRight, BitVec.toNat_ushiftRight,
        Nat.shiftLeft_eq, Nat.shiftRight_eq_div_pow, Nat.shiftRight_eq_div_pow, val,
        show (2 : Nat) ^ 64 = 18446744073709551616 by norm_num]
      rw [show (2 : Nat) ^ 64 = 18446744073709551616 by norm_num] at hu hl
      have hl' : x.lower.toNat / 2 ^ n < 2 ^ (64 - n) := by
        rw [Nat.div_lt_iff_lt_mul hσ, Nat.mul_comm, ← hB]; exact hl
      generalize hs : 2 ^ n = s at *
      generalize ht' : 2 ^ (64 - n) = t at *
      generalize x.upper.toNat = U at *
      generalize x.lower.toNat = L at *
      have e1 : U * t % 18446744073709551616 = (U % s) * t := by
        rw [hB, Nat.mul_mod_mul_right]
      have e2 : (U * 18446744073709551616 + L) / s = U * t + L / s := by
        rw [hB, show U * (s * t) + L = s * (U * t) + L by ring, Nat.mul_add_div hσ]
      rw [e1, e2]
      have hm : U % s < s := Nat.mod_lt _ hσ
      have e3 : L / s + (U % s) * t < 18446744073709551616 := by
        rw [hB]
        have : (U % s + 1) * t ≤ s * t := Nat.mul_le_mul_right _ hm
        have : (U % s + 1) * t = (U % s) * t + t := by ring
        omega
      rw [Nat.mod_eq_of_lt e3]
      have hU := Nat.div_add_mod U s
      have : U * t = (U / s) * 18446744073709551616 + (U % s) * t := by
        conv_lhs => rw [← hU]
        rw [hB]; ring
      omega
    · rw [if_neg (by omega), if_neg (by omega)]
      refine ⟨_, rfl, ?_⟩
      have e : 2 ^ n = Spec.two128 * 2 ^ (n - 128) := by
        rw [ht, ← Nat.pow_add, ← Nat.pow_add]; exact congrArg (2 ^ ·) (by omega)
      rw [e, ← Nat.div_div_eq_div_mul, Nat.div_eq_of_lt (val_lt x)]
      simp [val]

end U128
end Ip
