import Verif.Lemmas.U128DivSlow
import Verif.Model.Unicode
/-
Text of `uint128_t`, and conversion from floating point.
-/
set_option autoImplicit false

namespace Ip
open Spec

theorem radix_eq_spec (base : U128.Base) : base.radix = radixOf base := by cases base <;> rfl

theorem DigitText_append (b : Nat) (cs cs' : List Char) (ds ds' : List Nat) (h : DigitText b cs ds)
    (h' : DigitText b cs' ds') : DigitText b (cs ++ cs') (ds ++ ds') := by
  induction cs generalizing ds with
  | nil => cases ds with
    | nil => exact h'
    | cons d ds => exact h.elim
  | cons c cs ih => cases ds with
    | nil => exact h.elim
    | cons d ds => exact ⟨h.1, h.2.1, ih ds h.2.2⟩

theorem digitsValue_append (b : Nat) (ds ds' : List Nat) :
    digitsValue b (ds ++ ds') = List.foldl (fun acc d => acc * b + d) (digitsValue b ds) ds' := by
  simp [digitsValue, List.foldl_append]

theorem digitChar_mem (d : Nat) (h : d < 16) : (d.digitChar, d) ∈ digitChars := by
  interval_cases d <;> decide

theorem toDigits_text (b : Nat) (hb1 : 1 < b) (hb2 : b ≤ 16) (n : Nat) :
    ∃ ds, DigitText b (Nat.toDigits b n) ds ∧ digitsValue b ds = n ∧ (ds.head? = some 0 → ds = [0]) ∧ ds ≠ [] ∧
      Nat.toDigits b n = ds.map Nat.digitChar := by
  induction n using Nat.strongRecOn with
  | ind n ih =>
    by_cases h : n < b
    · rw [Nat.toDigits_of_lt_base h]
      exact ⟨[n], ⟨digitChar_mem n (by omega), h, trivial⟩, by simp [digitsValue], by simp, by simp, rfl⟩
    · rw [Nat.toDigits_of_base_le hb1 (by omega)]
      have hm : n % b < b := Nat.mod_lt _ (by omega)
      have hn : 0 < n / b := Nat.div_pos (by omega) (by omega)
      obtain ⟨ds, h1, h2, h3, h4, h5⟩ := ih (n / b) (Nat.div_lt_self (by omega) hb1)
      refine ⟨ds ++ [n % b], DigitText_append b _ _ _ _ h1 ⟨digitChar_mem _ (by omega), hm, trivial⟩, ?_, ?_, by simp,
        by simp [h5]⟩
      · rw [digitsValue_append, h2]
        simp only [List.foldl_cons, List.foldl_nil]
        have := Nat.div_add_mod n b
        rw [Nat.mul_comm]; exact this
      · intro hh
        cases ds with
        | nil => exact absurd rfl h4
        | cons d ds =>
          simp at hh
          subst hh
          have := h3 rfl
          simp only [List.cons.injEq, true_and] at this
          subst this
          simp [digitsValue] at h2
          omega

/-! ### Formatting -/

namespace U128

theorem Base.radix_bounds (base : Base) : 8 ≤ base.radix ∧ base.radix ≤ 16 := by
  cases base <;> decide

theorem digitText_eq (base : Base) (r : BitVec 64) (h : r.toNat < base.radix) :
    digitText base r = .ok [r.toNat.digitChar] := by
  cases base with
  | decimal =>
    simp only [Base.radix] at h
    simp only [digitText]; rw [Nat.toDigits_of_lt_base h]
  | octal =>
    simp only [Base.radix] at h
    simp only [digitText]; rw [Nat.toDigits_of_lt_base (by omega)]
  | hexadecimal =>
    simp only [digitText, Base.radix] at *
    generalize r.toNat = n at *
    interval_cases n <;> rfl

theorem val_radix (base : Base) : (ofI64 (BitVec.ofNat 64 base.radix)).val = base.radix := by
  cases base <;> decide

theorem toTextLoop_step (base : Base) (fuel : Nat) (x : U128) (out : List Char) :
    ∃ q : U128, q.val = x.val / base.radix ∧ toTextLoop base (fuel + 1) x out =
      if q.val ≠ 0 then toTextLoop base fuel q (out ++ [(x.val % base.radix).digitChar])
      else .ok (out ++ [(x.val % base.radix).digitChar]) := by
  have hr := Base.radix_bounds base
  obtain ⟨q, h1, h2⟩ := div_eq x (ofI64 (BitVec.ofNat 64 base.radix))
  rw [val_radix] at h2
  have hrv : (x.sub (q.mul (ofI64 (BitVec.ofNat 64 base.radix)))).val = x.val % base.radix := by
    obtain ⟨m, g1, g2⟩ := mod_eq x (ofI64 (BitVec.ofNat 64 base.radix))
    rw [mod, h1, Res.ok_bind, Res.ok.injEq] at g1
    rw [g1, g2, val_radix]
  have hm : x.val % base.radix < base.radix := Nat.mod_lt _ (by omega)
  have hlow : (x.sub (q.mul (ofI64 (BitVec.ofNat 64 base.radix)))).lower.toNat = x.val % base.radix := by
    rw [val] at hrv; omega
  refine ⟨q, h2, ?_⟩
  rw [toTextLoop, h1]
  simp only [Res.ok_bind]
  rw [digitText_eq base _ (by rw [hlow]; exact hm), Res.ok_bind, hlow, toBool_iff]
  by_cases hq : q.val = 0
  · rw [if_neg (by simp [hq]), if_neg (by simp [hq])]
  · rw [if_pos (by simpa using hq), if_pos hq]

theorem toTextLoop_eq (base : Base) : ∀ (fuel : Nat) (x : U128) (out : List Char), x.val < 2 ^ fuel →
    toTextLoop base (fuel + 1) x out = .ok (out ++ (Nat.toDigits base.radix x.val).reverse) := by
  intro fuel
  have hr := Base.radix_bounds base
  induction fuel with
  | zero =>
    intro x out hx
    have hx0 : x.val = 0 := by simpa using hx
    obtain ⟨q, h1, h2⟩ := toTextLoop_step base 0 x out
    rw [hx0, Nat.zero_div] at h1
    rw [h2, if_neg (by simp [h1]), hx0, Nat.zero_mod, Nat.toDigits_zero]
    rfl
  | succ fuel ih =>
    intro x out hx
    obtain ⟨q, h2, h3⟩ := toTextLoop_step base (fuel + 1) x out
    rw [h3]
    by_cases hq : q.val = 0
    · rw [if_neg (by simp [hq])]
      have hlt : x.val < base.radix := by
        rw [h2] at hq
        rcases Nat.div_eq_zero_iff.1 hq with h | h
        · omega
        · exact h
      rw [Nat.toDigits_of_lt_base hlt, Nat.mod_eq_of_lt hlt, List.reverse_singleton]
    · rw [if_pos hq]
      have hqlt : q.val < 2 ^ fuel := by
        rw [h2, Nat.div_lt_iff_lt_mul (by omega)]
        rw [Nat.pow_succ] at hx
        calc x.val < 2 ^ fuel * 2 := hx
          _ ≤ 2 ^ fuel * base.radix := Nat.mul_le_mul_left _ (by omega)
      rw [ih q _ hqlt]
      have hle : base.radix ≤ x.val := by
        by_contra h
        rw [h2, Nat.div_eq_of_lt (by omega)] at hq
        exact hq rfl
      rw [Nat.toDigits_of_base_le (by omega) hle, h2, List.reverse_append, List.append_assoc]
      rfl

theorem toText_eq (x : U128) (base : Base) : toText x base = .ok (Nat.toDigits base.radix x.val) := by
  unfold toText
  by_cases h : x.upper = 0
  · rw [if_pos h]
    have : x.val = x.lower.toNat := by simp [val, h]
    rw [this]
  · have hx : x.val < 2 ^ 128 := val_lt x
    obtain ⟨n, hn⟩ : ∃ n, n = 128 := ⟨_, rfl⟩
    rw [← hn] at hx
    rw [if_neg h, show 129 = n + 1 by omega, toTextLoop_eq base n x [] hx, Res.ok_bind, List.nil_append,
      List.reverse_reverse]

/-! ### Parsing -/

theorem digitOf_small (base : Base) (n : Nat) (h : n < 128) :
    digitOf base (Char.ofNat n) =
      ((digitChars.find? (fun p => p.1 == Char.ofNat n)).map Prod.snd).filter (fun d => decide (d < base.radix)) := by
  have key : ∀ b ∈ [Base.decimal, Base.octal, Base.hexadecimal], ∀ n ∈ List.range 128,
      digitOf b (Char.ofNat n) =
        ((digitChars.find? (fun p => p.1 == Char.ofNat n)).map Prod.snd).filter (fun d => decide (d < b.radix)) := by
    decide +kernel
  exact key base (by cases base <;> simp) n (by simpa using h)

theorem digitChars_small : ∀ p ∈ digitChars, p.1.toNat < 128 ∧ (digitChars.find? (fun q => q.1 == p.1)) = some p := by
  decide

theorem digitOf_iff (base : Base) (c : Char) (d : Nat) :
    digitOf base c = some d ↔ (c, d) ∈ digitChars ∧ d < base.radix := by
  by_cases h : c.toNat < 128
  · have hc : Char.ofNat c.toNat = c := Char.ofNat_toNat c
    have := digitOf_small base c.toNat h
    rw [hc] at this
    rw [this, Option.filter_eq_some_iff]
    simp only [Option.map_eq_some_iff, decide_eq_true_eq]
    constructor
    · rintro ⟨⟨⟨c', d'⟩, hf, rfl⟩, hd⟩
      have h1 := List.find?_some hf
      have h2 := List.mem_of_find?_eq_some hf
      simp only [beq_iff_eq] at h1
      subst h1
      exact ⟨h2, hd⟩
    · rintro ⟨hm, hd⟩
      exact ⟨⟨(c, d), (digitChars_small _ hm).2, rfl⟩, hd⟩
  · constructor
    · intro hd
      exfalso
      have hle : ∀ x : Char, x.toNat < 128 → ¬ c ≤ x := by
        intro x hx hcx
        have : c.toNat ≤ x.toNat := hcx
        omega
      have hgt : c > '9' := by rw [← not_le_char]; exact hle _ (by decide)
      have hgt7 : c > '7' := by rw [← not_le_char]; exact hle _ (by decide)
      cases base <;>
        simp [digitOf, hgt, hgt7, hle '9' (by decide), hle 'F' (by decide), hle 'f' (by decide)] at hd
    · rintro ⟨hm, _⟩
      exact absurd (digitChars_small _ hm).1 h
where
  not_le_char {c x : Char} : ¬ c ≤ x ↔ c > x := by
    show ¬ c.val ≤ x.val ↔ x.val < c.val
    exact UInt32.not_le

theorem val_digit (d : Nat) (h : d < 16) : (ofI64 (BitVec.ofNat 64 d)).val = d := by
  rw [val_ofI64_nonneg]
  · simp; omega
  · simp; omega

theorem fromTextLoop_iff (base : Base) (cs : List Char) (h0 : '\x00' ∉ cs) (r x : U128) :
    fromTextLoop base (readChars cs) r = some x ↔
      ∃ ds, DigitText base.radix cs ds ∧
        x.val = (List.foldl (fun acc d => acc * base.radix + d) r.val ds) % two128 := by
  induction cs generalizing r with
  | nil =>
    simp only [readChars, List.map_nil, fromTextLoop, Option.some.injEq]
    constructor
    · rintro rfl
      exact ⟨[], trivial, by simp [Nat.mod_eq_of_lt (val_lt r)]⟩
    · rintro ⟨ds, hd, hx⟩
      cases ds with
      | nil =>
        simp only [List.foldl_nil] at hx
        rw [Nat.mod_eq_of_lt (val_lt r)] at hx
        exact (val_inj hx).symm
      | cons d ds => exact hd.elim
  | cons c cs ih =>
    have hc : c ≠ '\x00' := fun e => h0 (by simp [e])
    have h0' : '\x00' ∉ cs := fun e => h0 (by simp [e])
    simp only [readChars, List.map_cons, fromTextLoop, if_neg hc]
    cases hd : digitOf base c with
    | none =>
      simp only [reduceCtorEq, false_iff]
      rintro ⟨ds, hds, _⟩
      cases ds with
      | nil => exact hds.elim
      | cons d ds =>
        rw [(digitOf_iff base c d).2 ⟨hds.1, hds.2.1⟩] at hd
        cases hd
    | some d =>
      simp only
      have hdm := (digitOf_iff base c d).1 hd
      have hb := Base.radix_bounds base
      have hv : ((r.mul (ofI64 (BitVec.ofNat 64 base.radix))).add (ofI64 (BitVec.ofNat 64 d))).val =
          (r.val * base.radix + d) % two128 := by
        rw [val_add, val_mul, val_radix, val_digit d (by omega), Nat.mod_add_mod]
      have hfold : ∀ (ds : List Nat) (a : Nat),
          (List.foldl (fun acc d => acc * base.radix + d) (a % two128) ds) % two128 =
          (List.foldl (fun acc d => acc * base.radix + d) a ds) % two128 := by
        intro ds
        induction ds with
        | nil => intro a; simp
        | cons e ds ihd =>
          intro a
          simp only [List.foldl_cons]
          rw [← ihd (a % two128 * base.radix + e), ← ihd (a * base.radix + e)]
          congr 2
          rw [Nat.add_mod, Nat.mod_mul_mod, ← Nat.add_mod]
      have := ih h0' ((r.mul (ofI64 (BitVec.ofNat 64 base.radix))).add (ofI64 (BitVec.ofNat 64 d)))
      rw [readChars] at this
      rw [this, hv]
      constructor
      · rintro ⟨ds, h1, h2⟩
        refine ⟨d :: ds, ⟨hdm.1, hdm.2, h1⟩, ?_⟩
        rw [h2, hfold]; rfl
      · rintro ⟨ds, h1, h2⟩
        cases ds with
        | nil => exact h1.elim
        | cons d' ds =>
          have : digitOf base c = some d' := (digitOf_iff base c d').2 ⟨h1.1, h1.2.1⟩
          rw [hd, Option.some.injEq] at this
          subst this
          refine ⟨ds, h1.2.2, ?_⟩
          rw [h2, hfold]; rfl

theorem fromText_iff (base : Base) (cs : List Char) (h0 : '\x00' ∉ cs) (x : U128) :
    fromText base (readChars cs) = some x ↔
      ∃ ds, DigitText base.radix cs ds ∧ x.val = digitsValue base.radix ds % two128 := by
  rw [fromText, fromTextLoop_iff base cs h0]
  have : (ofI64 0).val = 0 := by decide
  rw [this]
  rfl

theorem DigitText_no_nul (b : Nat) : ∀ (cs : List Char) (ds : List Nat), DigitText b cs ds → '\x00' ∉ cs := by
  intro cs
  induction cs with
  | nil => intro _ _; simp
  | cons c cs ih =>
    intro ds h
    cases ds with
    | nil => exact h.elim
    | cons d ds =>
      intro hm
      rcases List.mem_cons.1 hm with he | hm
      · have : ∀ p ∈ digitChars, p.1 ≠ '\x00' := by decide
        exact this _ h.1 he.symm
      · exact ih ds h.2.2 hm

/-! ### Floating point -/

theorem fromDouble_eq (e : Nat) (f : BitVec 52) (h1 : 1023 ≤ e) (h2 : e ≤ 1150) :
    ∃ r, fromDouble e f = .ok r ∧ r.val = (2 ^ 52 + f.toNat) * 2 ^ (e - 1023) / 2 ^ 52 := by
  have hf := f.isLt
  unfold fromDouble
  rw [if_neg (by omega), if_pos (by omega)]
  have hbits : ((BitVec.ofNat 64 e <<< 52) ||| f.setWidth 64).toNat = e * 2 ^ 52 + f.toNat := by
    rw [BitVec.toNat_or, BitVec.toNat_shiftLeft, BitVec.toNat_setWidth, BitVec.toNat_ofNat, Nat.shiftLeft_eq]
    have a1 : e % 2 ^ 64 = e := by omega
    have a2 : f.toNat % 2 ^ 64 = f.toNat := by omega
    have a3 : e * 2 ^ 52 % 2 ^ 64 = e * 2 ^ 52 := by omega
    rw [a1, a2, a3, nat_or_split 52 _ _ hf]
  generalize (BitVec.ofNat 64 e <<< 52) ||| f.setWidth 64 = bits at hbits
  have hexp : (bits >>> 52).toNat = e := by
    rw [BitVec.toNat_ushiftRight, Nat.shiftRight_eq_div_pow, hbits]; omega
  have hman : (((bits <<< 12) >>> 1) ||| 0x8000000000000000#64).toNat = 2 ^ 63 + f.toNat * 2 ^ 11 := by
    rw [BitVec.toNat_or, BitVec.toNat_ushiftRight, BitVec.toNat_shiftLeft, Nat.shiftRight_eq_div_pow, Nat.shiftLeft_eq,
      hbits]
    have a1 : (e * 2 ^ 52 + f.toNat) * 2 ^ 12 % 2 ^ 64 / 2 ^ 1 = f.toNat * 2 ^ 11 := by omega
    have a2 : (0x8000000000000000#64).toNat = 1 * 2 ^ 63 := by decide
    rw [a1, a2, Nat.or_comm, nat_or_split 63 _ _ (by omega)]
    omega
  have hn : (1023 + 128 - 1 - ((bits >>> 52).toNat : Int)) = ((1150 - e : Nat) : Int) := by
    rw [hexp]; omega
  simp only [hn]
  obtain ⟨r, hr1, hr2⟩ := shr_val ⟨((bits <<< 12) >>> 1) ||| 0x8000000000000000#64, 0⟩ (1150 - e) (by omega)
  refine ⟨r, hr1, ?_⟩
  rw [hr2, val_mk, hman]
  have e1 : (2 : Nat) ^ 127 = 2 ^ (e - 1023) * 2 ^ (1150 - e) := by
    rw [← Nat.pow_add]; exact congrArg (2 ^ ·) (by omega)
  have e2 : (2 ^ 63 + f.toNat * 2 ^ 11) * 18446744073709551616 + (0 : BitVec 64).toNat =
      (2 ^ 52 + f.toNat) * 2 ^ (e - 1023) * 2 ^ (1150 - e) / 2 ^ 52 := by
    rw [Nat.mul_assoc, ← e1]
    simp
    omega
  rw [e2, Nat.div_div_eq_div_mul, Nat.mul_comm (2 ^ 52) (2 ^ (1150 - e)), ← Nat.div_div_eq_div_mul,
    Nat.mul_div_cancel _ (Nat.two_pow_pos _)]

end U128
end Ip
