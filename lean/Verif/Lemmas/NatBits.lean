import Verif.Model.Net
import Verif.Lemmas.V6Uint
import Verif.Lemmas.V6Addr
import Verif.Lemmas.Bytes
/-
Bit operations on naturals and on byte sequences read as numbers.
-/
set_option autoImplicit false

namespace Ip
open Spec

theorem nat_and_split (n a b c d : Nat) (hb : b < 2 ^ n) (hd : d < 2 ^ n) :
    (a * 2 ^ n + b) &&& (c * 2 ^ n + d) = (a &&& c) * 2 ^ n + (b &&& d) := by
  have hbd : b &&& d < 2 ^ n := Nat.lt_of_le_of_lt Nat.and_le_left hb
  apply Nat.eq_of_testBit_eq
  intro i
  rw [Nat.testBit_and, Nat.mul_comm a, Nat.mul_comm c, Nat.mul_comm (a &&& c)]
  rw [Nat.testBit_two_pow_mul_add _ hb, Nat.testBit_two_pow_mul_add _ hd, Nat.testBit_two_pow_mul_add _ hbd]
  split <;> rw [Nat.testBit_and]

theorem nat_or_split2 (n a b c d : Nat) (hb : b < 2 ^ n) (hd : d < 2 ^ n) :
    (a * 2 ^ n + b) ||| (c * 2 ^ n + d) = (a ||| c) * 2 ^ n + (b ||| d) := by
  have hbd : b ||| d < 2 ^ n := Nat.or_lt_two_pow hb hd
  apply Nat.eq_of_testBit_eq
  intro i
  rw [Nat.testBit_or, Nat.mul_comm a, Nat.mul_comm c, Nat.mul_comm (a ||| c)]
  rw [Nat.testBit_two_pow_mul_add _ hb, Nat.testBit_two_pow_mul_add _ hd, Nat.testBit_two_pow_mul_add _ hbd]
  split <;> rw [Nat.testBit_or]

theorem two_pow_split (w k : Nat) (h : k ≤ w) : 2 ^ w = 2 ^ (w - k) * 2 ^ k := by
  rw [← Nat.pow_add]; congr 1; omega

/-- Masking with the `w - k` leading ones clears the low `k` bits. -/
theorem and_mask (w k v : Nat) (hk : k ≤ w) (hv : v < 2 ^ w) :
    v &&& (2 ^ w - 2 ^ k) = v / 2 ^ k * 2 ^ k := by
  have hp := Nat.two_pow_pos k
  have e1 : 2 ^ w - 2 ^ k = (2 ^ (w - k) - 1) * 2 ^ k + 0 := by
    rw [two_pow_split w k hk, Nat.sub_mul, Nat.one_mul, Nat.add_zero]
  have e2 : v = v / 2 ^ k * 2 ^ k + v % 2 ^ k := by rw [Nat.mul_comm]; exact (Nat.div_add_mod _ _).symm
  have hq : v / 2 ^ k < 2 ^ (w - k) := by
    rw [Nat.div_lt_iff_lt_mul hp, ← two_pow_split w k hk]; exact hv
  rw [e1]
  conv => lhs; rw [e2]
  rw [nat_and_split k _ _ _ _ (Nat.mod_lt _ hp) hp, Nat.and_zero, Nat.add_zero, Nat.and_two_pow_sub_one_eq_mod,
    Nat.mod_eq_of_lt hq]

/-- Setting the low `k` bits. -/
theorem or_ones (k v : Nat) : v ||| (2 ^ k - 1) = v / 2 ^ k * 2 ^ k + (2 ^ k - 1) := by
  have hp := Nat.two_pow_pos k
  have e2 : v = v / 2 ^ k * 2 ^ k + v % 2 ^ k := by rw [Nat.mul_comm]; exact (Nat.div_add_mod _ _).symm
  have e1 : 2 ^ k - 1 = 0 * 2 ^ k + (2 ^ k - 1) := by omega
  conv => lhs; rw [e2, e1]
  rw [nat_or_split2 k _ _ _ _ (Nat.mod_lt _ hp) (by omega), Nat.or_zero]
  congr 1
  have hm := Nat.mod_lt v hp
  apply Nat.eq_of_testBit_eq
  intro i
  rw [Nat.testBit_or, Nat.testBit_two_pow_sub_one, Nat.testBit_mod_two_pow]
  by_cases h : i < k <;> simp [h]

theorem pow256 (n : Nat) : 256 ^ n = 2 ^ (8 * n) := by
  rw [Nat.pow_mul]

theorem beValue_lt_pow (a : List (BitVec 8)) (w : Nat) (h : 8 * a.length = w) : beValue a < 2 ^ w := by
  rw [← h, ← pow256]; exact beValue_lt a

theorem bytesZip_and : ∀ (a b : List (BitVec 8)), a.length = b.length →
    ∃ r, bytesZip (· &&& ·) a b = .ok r ∧ r.length = a.length ∧ beValue r = beValue a &&& beValue b
  | [], [], _ => ⟨[], rfl, rfl, rfl⟩
  | x :: xs, y :: ys, h => by
    have hl : xs.length = ys.length := by simpa using h
    obtain ⟨r, h1, h2, h3⟩ := bytesZip_and xs ys hl
    refine ⟨(x &&& y) :: r, by simp [bytesZip, h1], by simp [h2], ?_⟩
    have e1 := beValue_lt xs
    have e2 := beValue_lt ys
    rw [← hl] at e2
    rw [pow256] at e1 e2
    simp only [beValue, h2, h3, ← hl, pow256, BitVec.toNat_and]
    rw [nat_and_split _ _ _ _ _ e1 e2]

theorem bytesZip_or : ∀ (a b : List (BitVec 8)), a.length = b.length →
    ∃ r, bytesZip (· ||| ·) a b = .ok r ∧ r.length = a.length ∧ beValue r = beValue a ||| beValue b
  | [], [], _ => ⟨[], rfl, rfl, rfl⟩
  | x :: xs, y :: ys, h => by
    have hl : xs.length = ys.length := by simpa using h
    obtain ⟨r, h1, h2, h3⟩ := bytesZip_or xs ys hl
    refine ⟨(x ||| y) :: r, by simp [bytesZip, h1], by simp [h2], ?_⟩
    have e1 := beValue_lt xs
    have e2 := beValue_lt ys
    rw [← hl] at e2
    rw [pow256] at e1 e2
    simp only [beValue, h2, h3, ← hl, pow256, BitVec.toNat_or]
    rw [nat_or_split2 _ _ _ _ _ e1 e2]

theorem xorFF (b : BitVec 8) : (b ^^^ 0xFF#8).toNat = 255 - b.toNat := by
  revert b; decide +kernel

theorem beValue_not : ∀ (a : List (BitVec 8)), beValue (a.map (· ^^^ 0xFF#8)) + beValue a + 1 = 256 ^ a.length
  | [] => rfl
  | x :: xs => by
    have ih := beValue_not xs
    have hx := x.isLt
    simp only [List.map_cons, beValue, List.length_map, xorFF, List.length_cons, Nat.pow_succ]
    generalize 256 ^ xs.length = P at ih
    generalize beValue xs = v at ih
    generalize beValue (List.map (fun x => x ^^^ 0xFF#8) xs) = u at ih
    generalize x.toNat = t at hx
    have : (255 - t) * P + t * P = 255 * P := by rw [← Nat.add_mul]; congr 1; omega
    omega

theorem containsLoop_eq : ∀ (xs ms as : List (BitVec 8)), xs.length = ms.length → ms.length = as.length →
    Fam.containsLoop xs ms as = .ok (decide (beValue xs &&& beValue ms = beValue as)) := by
  intro xs ms as h1 h2
  have key : ∀ (xs ms as : List (BitVec 8)), xs.length = ms.length → ms.length = as.length →
      ∃ r, bytesZip (· &&& ·) xs ms = .ok r ∧ Fam.containsLoop xs ms as = .ok (decide (r = as)) := by
    clear h1 h2 xs ms as
    intro xs
    induction xs with
    | nil =>
      intro ms as h1 h2
      cases ms with
      | nil => cases as with
        | nil => exact ⟨[], rfl, by simp [Fam.containsLoop]⟩
        | cons => simp at h2
      | cons => simp at h1
    | cons x xs ih =>
      intro ms as h1 h2
      cases ms with
      | nil => simp at h1
      | cons m ms =>
        cases as with
        | nil => simp at h2
        | cons a as =>
          obtain ⟨r, e1, e2⟩ := ih ms as (by simpa using h1) (by simpa using h2)
          refine ⟨(x &&& m) :: r, by simp [bytesZip, e1], ?_⟩
          rw [Fam.containsLoop]
          by_cases hx : x &&& m = a
          · simp [hx, e2]
          · simp [hx]
  obtain ⟨r, e1, e2⟩ := key xs ms as h1 h2
  obtain ⟨r', f1, f2, f3⟩ := bytesZip_and xs ms h1
  rw [e1] at f1
  cases f1
  rw [e2, ← f3]
  congr 1
  rw [decide_eq_decide]
  exact ⟨fun h => by rw [h], beValue_inj _ _ (by omega)⟩

end Ip
