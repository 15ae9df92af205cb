import Verif.Lemmas.Net
import Verif.Lemmas.V4
import Verif.Lemmas.U128Text
/-
The text of netmasks and prefix lengths.
-/
set_option autoImplicit false

namespace Ip
open Spec

/-! ### Decimal numbers -/

theorem digit_dec (c : Char) (h : '0'.toNat ≤ c.toNat ∧ c.toNat ≤ '9'.toNat) :
    (c, c.toNat - '0'.toNat) ∈ digitChars ∧ c.toNat - '0'.toNat < 10 := by
  have h1 := isDig_digitChar (c := c) (by simp [isDig]; exact h)
  unfold digitVal at h1
  obtain ⟨h2, h3⟩ := h1
  refine ⟨?_, h2⟩
  generalize c.toNat - '0'.toNat = d at *
  rw [← h3]
  interval_cases d <;> decide

theorem dec_digit (c : Char) (d : Nat) (h : (c, d) ∈ digitChars) (hd : d < 10) :
    ('0'.toNat ≤ c.toNat ∧ c.toNat ≤ '9'.toNat) ∧ c.toNat - '0'.toNat = d := by
  have : ∀ x ∈ digitChars, x.2 < 10 → ('0'.toNat ≤ x.1.toNat ∧ x.1.toNat ≤ '9'.toNat) ∧ x.1.toNat - '0'.toNat = x.2 := by
    decide
  exact this (c, d) h hd

theorem digitsLoop_rel : ∀ (t : List Char) (a : Nat),
    (∃ ds, DigitText 10 t ds ∧ digitsLoop (readChars t) (a % 18446744073709551616) =
      .ok (some (ds.foldl (fun acc d => acc * 10 + d) a % 18446744073709551616))) ∨
    ((¬ ∃ ds, DigitText 10 t ds) ∧ digitsLoop (readChars t) (a % 18446744073709551616) = .ok none)
  | [], a => .inl ⟨[], trivial, rfl⟩
  | c :: cs, a => by
    simp only [readChars, List.map_cons, digitsLoop]
    by_cases h : '0'.toNat ≤ c.toNat ∧ c.toNat ≤ '9'.toNat
    · rw [if_pos h]
      obtain ⟨h1, h2⟩ := digit_dec c h
      have e : (a % 18446744073709551616 * 10 + (c.toNat - '0'.toNat)) % 18446744073709551616 =
          (a * 10 + (c.toNat - '0'.toNat)) % 18446744073709551616 := by
        generalize c.toNat - '0'.toNat = x
        omega
      rw [e]
      rcases digitsLoop_rel cs (a * 10 + (c.toNat - '0'.toNat)) with ⟨ds, g1, g2⟩ | ⟨g1, g2⟩
      · exact .inl ⟨_ :: ds, ⟨h1, h2, g1⟩, g2⟩
      · refine .inr ⟨?_, g2⟩
        rintro ⟨ds, hds⟩
        cases ds with
        | nil => exact hds
        | cons d ds => exact g1 ⟨ds, hds.2.2⟩
    · rw [if_neg h]
      refine .inr ⟨?_, rfl⟩
      rintro ⟨ds, hds⟩
      cases ds with
      | nil => exact hds
      | cons d ds => exact h (dec_digit c d hds.1 hds.2.1).1

/-! ### Contiguous masks -/

theorem countOnes_eq : ∀ (t fuel c : Nat), t < fuel → t ≤ 32 →
    countOnesLoop fuel (BitVec.ofNat 32 (2 ^ t - 1)) c = .ok (c + t)
  | 0, fuel + 1, c, _, _ => by simp [countOnesLoop]
  | t + 1, fuel + 1, c, h, h32 => by
    have ih := countOnes_eq t fuel (c + 1) (by omega) (by omega)
    have hp : 2 ^ (t + 1) ≤ 2 ^ 32 := Nat.pow_le_pow_right (by decide) h32
    have hq := Nat.two_pow_pos t
    have e0 : (BitVec.ofNat 32 (2 ^ (t + 1) - 1)).toNat = 2 ^ (t + 1) - 1 := by
      rw [BitVec.toNat_ofNat, Nat.mod_eq_of_lt (by omega)]
    have e1 : BitVec.ofNat 32 (2 ^ (t + 1) - 1) ≠ 0#32 := by
      intro e
      have := congrArg BitVec.toNat e
      rw [e0] at this
      simp only [Nat.pow_succ] at this
      have h0 : (0#32).toNat = 0 := rfl
      omega
    have e2 : BitVec.ofNat 32 (2 ^ (t + 1) - 1) >>> 1 = BitVec.ofNat 32 (2 ^ t - 1) := by
      apply BitVec.eq_of_toNat_eq
      rw [BitVec.toNat_ushiftRight, e0, BitVec.toNat_ofNat, Nat.shiftRight_eq_div_pow]
      simp only [Nat.pow_succ] at *
      rw [Nat.mod_eq_of_lt (by omega)]
      omega
    have e3 : (BitVec.ofNat 32 (2 ^ (t + 1) - 1) &&& 0x1#32).toNat = 1 := by
      rw [BitVec.toNat_and, e0, show (0x1#32).toNat = 2 ^ 1 - 1 by decide, Nat.and_two_pow_sub_one_eq_mod]
      simp only [Nat.pow_succ] at *
      omega
    rw [countOnesLoop, if_pos e1, e2, e3, ih]
    congr 1
    omega

/-- For odd `q` the complement of `q` and `q - 1` have no common bit. -/
theorem compl_pred (s q : Nat) (ho : q % 2 = 1) (hq : q < 2 ^ s) : (2 ^ s - (q + 1)) &&& (q - 1) = 0 := by
  apply Nat.eq_of_testBit_eq
  intro i
  rw [Nat.testBit_and, Nat.testBit_two_pow_sub_succ hq, Nat.zero_testBit]
  cases i with
  | zero =>
    have : (q - 1).testBit 0 = false := by rw [Nat.testBit_zero]; simp; omega
    rw [this, Bool.and_false]
  | succ i =>
    have : (q - 1).testBit (i + 1) = q.testBit (i + 1) := by
      rw [Nat.testBit_succ, Nat.testBit_succ]
      congr 1; omega
    rw [this]
    cases q.testBit (i + 1) <;> simp

theorem lowbits (q t : Nat) (ht : t < 32) (ho : q % 2 = 1) (hq : q * 2 ^ t < 2 ^ 32) :
    ~~~(BitVec.ofNat 32 (q * 2 ^ t)) &&& (BitVec.ofNat 32 (q * 2 ^ t) - 1#32) = BitVec.ofNat 32 (2 ^ t - 1) := by
  have hp := Nat.two_pow_pos t
  have hs := two_pow_split 32 t (by omega)
  have hq2 : q < 2 ^ (32 - t) := by
    apply Nat.lt_of_mul_lt_mul_right (a := 2 ^ t)
    rw [← hs]; exact hq
  have hqp : 1 ≤ q := by omega
  have hge : 2 ^ t ≤ q * 2 ^ t := Nat.le_mul_of_pos_left _ hqp
  have hle : 2 ^ t ≤ 2 ^ 32 := Nat.pow_le_pow_right (by decide) (by omega)
  apply BitVec.eq_of_toNat_eq
  rw [BitVec.toNat_and, BitVec.toNat_not, BitVec.toNat_sub, BitVec.toNat_ofNat, BitVec.toNat_ofNat, BitVec.toNat_ofNat,
    Nat.mod_eq_of_lt hq, Nat.mod_eq_of_lt (by omega : 2 ^ t - 1 < 2 ^ 32)]
  have e1 : 2 ^ 32 - 1 - q * 2 ^ t = (2 ^ (32 - t) - (q + 1)) * 2 ^ t + (2 ^ t - 1) := by
    rw [Nat.sub_mul, ← hs, Nat.add_mul, Nat.one_mul]
    have : q * 2 ^ t + 2 ^ t ≤ 2 ^ 32 := by
      have := Nat.mul_le_mul_right (2 ^ t) hq2
      rw [← hs, Nat.succ_mul] at this
      exact this
    omega
  have e2 : (2 ^ 32 - 1 % 2 ^ 32 + q * 2 ^ t) % 2 ^ 32 = (q - 1) * 2 ^ t + (2 ^ t - 1) := by
    rw [Nat.sub_mul, Nat.one_mul]
    omega
  rw [e1, e2, nat_and_split t _ _ _ _ (by omega) (by omega), compl_pred (32 - t) q ho hq2]
  rw [Nat.and_self]
  omega

theorem prefixFromUint_eq (q t v : Nat) (ht : t < 32) (ho : q % 2 = 1) (hq : q * 2 ^ t < 2 ^ 32) :
    prefixFromUint (BitVec.ofNat 32 (q * 2 ^ t)) v =
      if q = 2 ^ (32 - t) - 1 then .ok (32 - t) else .err .netmask_pattern_mixes_zeroes_and_ones v := by
  have hp := Nat.two_pow_pos t
  have hq0 : 0 < q * 2 ^ t := Nat.mul_pos (by omega) hp
  have hle : q ≤ q * 2 ^ t := Nat.le_mul_of_pos_right _ hp
  have e0 : (BitVec.ofNat 32 (q * 2 ^ t)).toNat = q * 2 ^ t := by
    rw [BitVec.toNat_ofNat, Nat.mod_eq_of_lt hq]
  have ne0 : BitVec.ofNat 32 (q * 2 ^ t) ≠ 0#32 := by
    intro e
    have := congrArg BitVec.toNat e
    rw [e0] at this
    have h0 : (0#32).toNat = 0 := rfl
    omega
  have e1 : countRightZeros (BitVec.ofNat 32 (q * 2 ^ t)) 32 = .ok t := by
    rw [countRightZeros, if_neg ne0, lowbits q t ht ho hq, countOnes_eq t 33 0 (by omega) (by omega), Res.ok_bind,
      if_neg (by omega), Nat.zero_add]
  have e2 : BitVec.ofNat 32 (q * 2 ^ t) >>> t = BitVec.ofNat 32 q := by
    apply BitVec.eq_of_toNat_eq
    rw [BitVec.toNat_ushiftRight, e0, Nat.shiftRight_eq_div_pow, Nat.mul_div_cancel _ hp, BitVec.toNat_ofNat,
      Nat.mod_eq_of_lt (by omega)]
  have e3 : ((1#32 <<< (32 - t - 1)) <<< 1) - 1#32 = BitVec.ofNat 32 (2 ^ (32 - t) - 1) := by
    clear e2 e1 ne0 e0 hle hq0 hp hq ho
    interval_cases t <;> decide
  have hb : 2 ^ (32 - t) ≤ 2 ^ 32 := Nat.pow_le_pow_right (by decide) (by omega)
  have hb0 := Nat.two_pow_pos (32 - t)
  have e4 : BitVec.ofNat 32 q ≠ BitVec.ofNat 32 (2 ^ (32 - t) - 1) ↔ q ≠ 2 ^ (32 - t) - 1 := by
    apply not_congr
    constructor
    · intro h
      have := congrArg BitVec.toNat h
      rwa [BitVec.toNat_ofNat, BitVec.toNat_ofNat, Nat.mod_eq_of_lt (by omega), Nat.mod_eq_of_lt (by omega)] at this
    · intro h; rw [h]
  rw [prefixFromUint, e1, Res.ok_bind, if_neg (by omega)]
  simp only [if_pos (show t ≠ 32 by omega), e2, e3]
  rw [if_neg (by omega)]
  by_cases h : q = 2 ^ (32 - t) - 1
  · rw [if_neg (fun x => (e4.mp x) h), if_pos h]
  · rw [if_pos (e4.mpr h), if_neg h]

theorem odd_part : ∀ (n : Nat), 0 < n → ∃ q t, q % 2 = 1 ∧ n = q * 2 ^ t := by
  intro n
  induction n using Nat.strongRecOn with
  | _ n ih =>
    intro h
    by_cases ho : n % 2 = 1
    · exact ⟨n, 0, ho, by simp⟩
    · obtain ⟨q, t, h1, h2⟩ := ih (n / 2) (by omega) (by omega)
      exact ⟨q, t + 1, h1, by rw [Nat.pow_succ, ← Nat.mul_assoc, ← h2]; omega⟩

/-- The result of `prefix_from_ip_uint32` for a non zero value. -/
theorem prefixFromUint_rel (x : BitVec 32) (hx : x ≠ 0#32) (v : Nat) :
    (∃ p, 1 ≤ p ∧ p ≤ 32 ∧ x.toNat = 2 ^ 32 - 2 ^ (32 - p) ∧ prefixFromUint x v = .ok p) ∨
    ((¬ ∃ p, p ≤ 32 ∧ x.toNat = 2 ^ 32 - 2 ^ (32 - p)) ∧
      prefixFromUint x v = .err .netmask_pattern_mixes_zeroes_and_ones v) := by
  have hpos : 0 < x.toNat := by
    rcases Nat.eq_zero_or_pos x.toNat with h | h
    · exact absurd (BitVec.eq_of_toNat_eq (by rw [h]; rfl)) hx
    · exact h
  have key : ∀ p, 1 ≤ p → p ≤ 32 → x.toNat = 2 ^ 32 - 2 ^ (32 - p) → prefixFromUint x v = .ok p := by
    intro p h1 h2 h3
    have hs := two_pow_split 32 (32 - p) (by omega)
    rw [show 32 - (32 - p) = p by omega] at hs
    have e : x.toNat = (2 ^ p - 1) * 2 ^ (32 - p) := by rw [Nat.sub_mul, Nat.one_mul, ← hs, h3]
    have hx2 : x = BitVec.ofNat 32 ((2 ^ p - 1) * 2 ^ (32 - p)) := by
      rw [← e]; exact (BitVec.ofNat_toNat 32 x).symm ▸ (by simp)
    have ho : (2 ^ p - 1) % 2 = 1 := by
      obtain ⟨r, rfl⟩ : ∃ r, p = r + 1 := ⟨p - 1, by omega⟩
      have := Nat.two_pow_pos r
      rw [Nat.pow_succ]; omega
    have := prefixFromUint_eq (2 ^ p - 1) (32 - p) v (by omega) ho (by rw [← e]; exact x.isLt)
    rw [show 32 - (32 - p) = p by omega, if_pos rfl] at this
    rw [hx2]; exact this
  by_cases hm : ∃ p, p ≤ 32 ∧ x.toNat = 2 ^ 32 - 2 ^ (32 - p)
  · obtain ⟨p, h1, h2⟩ := hm
    have hp1 : 1 ≤ p := by
      rcases Nat.eq_zero_or_pos p with h | h
      · subst h; simp at h2; omega
      · exact h
    exact .inl ⟨p, hp1, h1, h2, key p hp1 h1 h2⟩
  · refine .inr ⟨hm, ?_⟩
    obtain ⟨q, t, h1, h2⟩ := odd_part x.toNat hpos
    have hlt := x.isLt
    have ht : t < 32 := by
      apply Nat.lt_of_not_le
      intro h
      have a1 : 2 ^ 32 ≤ 2 ^ t := Nat.pow_le_pow_right (by decide) h
      have a2 : 2 ^ t ≤ q * 2 ^ t := Nat.le_mul_of_pos_left _ (by omega)
      omega
    have hx2 : x = BitVec.ofNat 32 (q * 2 ^ t) := by rw [← h2]; simp
    have := prefixFromUint_eq q t v ht h1 (by omega)
    rw [if_neg] at this
    · rw [hx2]; exact this
    · intro e
      have hs := two_pow_split 32 t (by omega)
      exact hm ⟨32 - t, by omega, by
        rw [show 32 - (32 - t) = t by omega, h2, e, Nat.sub_mul, Nat.one_mul, ← hs]⟩

theorem isMask_iff (w p m : Nat) (h : p ≤ w) : IsMask w p m ↔ m = 2 ^ w - 2 ^ (w - p) :=
  ⟨isMask_unique w p m h, fun e => e ▸ mask_isMask w p h⟩

theorem isHostMask_iff (w p m : Nat) : IsHostMask w p m ↔ m = 2 ^ (w - p) - 1 := by
  constructor
  · intro h
    apply Nat.eq_of_testBit_eq
    intro i
    rw [h i, Nat.testBit_two_pow_sub_one]
  · rintro rfl i
    rw [Nat.testBit_two_pow_sub_one]

theorem mask_inj (w p q : Nat) (hp : p ≤ w) (hq : q ≤ w) (h : 2 ^ w - 2 ^ (w - p) = 2 ^ w - 2 ^ (w - q)) : p = q := by
  have h1 : 2 ^ (w - p) ≤ 2 ^ w := Nat.pow_le_pow_right (by decide) (by omega)
  have h2 : 2 ^ (w - q) ≤ 2 ^ w := Nat.pow_le_pow_right (by decide) (by omega)
  have h3 := Nat.pow_right_injective (Nat.le_refl 2) (show 2 ^ (w - p) = 2 ^ (w - q) by omega)
  omega

end Ip
