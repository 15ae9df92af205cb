import Verif.Lemmas.NatBits
import Verif.Lemmas.V4Uint
import Mathlib.Tactic.IntervalCases
set_option autoImplicit false

namespace Ip
open Spec

theorem v4FromUint_val (u : BitVec 32) :
    (v4FromUint true u).length = 4 ∧ beValue (v4FromUint true u) = u.toNat := by
  obtain ⟨a, b, c, d, rfl⟩ := split32 u
  rw [v4FromUint_le, cat4_toNat]
  exact ⟨rfl, rfl⟩

theorem v4ToUint_val (b : List (BitVec 8)) (h : b.length = 4) :
    ∃ u, v4ToUint true b = .ok u ∧ u.toNat = beValue b := by
  match b, h with
  | [a, b, c, d], _ => exact ⟨_, v4ToUint_le a b c d, cat4_toNat a b c d⟩

theorem v4FromPrefix_val (p : Nat) (h : p ≤ 32) :
    ∃ b, v4FromPrefix true p = .ok b ∧ b.length = 4 ∧ beValue b = 2 ^ 32 - 2 ^ (32 - p) := by
  unfold v4FromPrefix
  by_cases h0 : p = 0
  · subst h0
    exact ⟨_, rfl, (v4FromUint_val _).1, (v4FromUint_val _).2⟩
  · rw [if_pos h0, if_pos (by omega)]
    refine ⟨_, rfl, (v4FromUint_val _).1, ?_⟩
    rw [(v4FromUint_val _).2]
    have : 1 ≤ p := by omega
    interval_cases p <;> decide

theorem v4FromPrefix_ub (le : Bool) (p : Nat) (h : 32 < p) : v4FromPrefix le p = .ub := by
  unfold v4FromPrefix
  rw [if_pos (by omega), if_neg (by omega)]

theorem v6PrefixLoop_eq : ∀ (n i : Nat) (rest : List (BitVec 8)), n ≤ rest.length →
    ∀ pre : List (BitVec 8), pre.length = i →
    v6PrefixLoop n i (pre ++ rest) = .ok (pre ++ (List.replicate n 0xFF#8 ++ rest.drop n))
  | 0, _, rest, _, pre, _ => by simp [v6PrefixLoop]
  | n + 1, i, [], h, _, _ => by simp at h
  | n + 1, i, r :: rest, h, pre, hp => by
    have ih := v6PrefixLoop_eq n (i + 1) rest (by simpa using h) (pre ++ [0xFF#8]) (by simp [hp])
    rw [v6PrefixLoop, wr_append _ _ _ _ _ hp.symm, Res.ok_bind]
    rw [List.append_assoc, List.singleton_append] at ih
    rw [ih]
    simp [List.replicate_succ]

theorem v6PrefixLoop_ub : ∀ (n i : Nat) (bytes : List (BitVec 8)), bytes.length < i + n → 0 < n →
    v6PrefixLoop n i bytes = .ub
  | 0, _, _, _, h => by omega
  | n + 1, i, bytes, h, _ => by
    rw [v6PrefixLoop]
    unfold wr
    by_cases hi : i < bytes.length
    · rw [if_pos hi, Res.ok_bind]
      exact v6PrefixLoop_ub n (i + 1) _ (by simp; omega) (by omega)
    · rw [if_neg hi, Res.ub_bind]

theorem beValue_ones : ∀ n, beValue (List.replicate n 0xFF#8) = 256 ^ n - 1
  | 0 => rfl
  | n + 1 => by
    have ih := beValue_ones n
    have hp := Nat.pow_pos (n := n) (show 0 < 256 by decide)
    simp only [List.replicate_succ, beValue, List.length_replicate, ih, Nat.pow_succ]
    have : (255#8).toNat = 255 := rfl
    rw [this]
    omega

theorem beValue_zeros : ∀ n, beValue (List.replicate n 0#8) = 0
  | 0 => rfl
  | n + 1 => by
    have ih := beValue_zeros n
    simp only [List.replicate_succ, beValue, List.length_replicate, ih]
    simp

theorem shiftByte (s : Nat) (h : s < 8) : (0xFF#8 ^^^ (0xFF#8 >>> s)).toNat = 256 - 2 ^ (8 - s) := by
  interval_cases s <;> decide

theorem v6FromPrefix_val (p : Nat) (h : p ≤ 128) :
    ∃ b, v6FromPrefix p = .ok b ∧ b.length = 16 ∧ beValue b = 2 ^ 128 - 2 ^ (128 - p) := by
  have e3 : p >>> 3 = p / 8 := by rw [Nat.shiftRight_eq_div_pow]
  have e8 : (p / 8) <<< 3 = p / 8 * 8 := by rw [Nat.shiftLeft_eq]
  unfold v6FromPrefix
  rw [e3, e8]
  have hq : p / 8 ≤ 16 := by omega
  have l := v6PrefixLoop_eq (p / 8) 0 (List.replicate 16 0#8) (by simpa using hq) [] rfl
  rw [List.nil_append, List.nil_append, List.drop_replicate] at l
  rw [l, Res.ok_bind]
  by_cases hs : p % 8 = 0
  · rw [if_neg (by omega)]
    refine ⟨_, rfl, by simp; omega, ?_⟩
    rw [beValue_append, beValue_ones, beValue_zeros, List.length_replicate, Nat.add_zero]
    rw [Nat.sub_mul, Nat.one_mul, ← Nat.pow_add, pow256, pow256]
    congr 2 <;> omega
  · rw [if_pos (by omega)]
    have hq' : 16 - p / 8 = (15 - p / 8) + 1 := by omega
    rw [hq', List.replicate_succ, wr_append _ _ _ _ _ (by simp)]
    refine ⟨_, rfl, by simp; omega, ?_⟩
    rw [beValue_append, beValue_ones, beValue, beValue_zeros, List.length_cons, List.length_replicate, Nat.add_zero,
      show p - p / 8 * 8 = p % 8 by omega, shiftByte _ (Nat.mod_lt _ (by decide))]
    rw [Nat.sub_mul, Nat.sub_mul, Nat.one_mul, ← Nat.pow_add, pow256, pow256, pow256, ← Nat.pow_add,
      show (256 : Nat) = 2 ^ 8 from rfl, ← Nat.pow_add,
      show 8 * (p / 8 + (15 - p / 8 + 1)) = 128 by omega, show 8 * (15 - p / 8 + 1) = 8 + 8 * (15 - p / 8) by omega,
      show 8 - p % 8 + 8 * (15 - p / 8) = 128 - p by omega]
    have h1 : 2 ^ (128 - p) ≤ 2 ^ (8 + 8 * (15 - p / 8)) := Nat.pow_le_pow_right (by decide) (by omega)
    have h2 : 2 ^ (8 + 8 * (15 - p / 8)) ≤ 2 ^ 128 := Nat.pow_le_pow_right (by decide) (by omega)
    omega

theorem v6FromPrefix_ub (p : Nat) (h : 128 < p) : v6FromPrefix p = .ub := by
  have e3 : p >>> 3 = p / 8 := by rw [Nat.shiftRight_eq_div_pow]
  have e8 : (p / 8) <<< 3 = p / 8 * 8 := by rw [Nat.shiftLeft_eq]
  unfold v6FromPrefix
  rw [e3, e8]
  by_cases h8 : p / 8 = 16
  · rw [h8]
    have l := v6PrefixLoop_eq 16 0 (List.replicate 16 0#8) (by simp) [] rfl
    rw [List.nil_append, List.nil_append] at l
    rw [l, Res.ok_bind, if_pos (by omega)]
    rfl
  · rw [v6PrefixLoop_ub _ _ _ (by simp; omega) (by omega), Res.ub_bind]

end Ip
