import Verif.Lemmas.U128Text
/-
Properties C41 - C44 and C52: 128 bit arithmetic, text and conversion from floating point.
`U128.val` is the number denoted by the two halves, `Spec.two128 = 2^128`.
-/
set_option autoImplicit false

namespace Ip
open Spec

theorem two128_eq : two128 = 2 ^ 128 := by decide

theorem sub_mod_cast (a b m : Nat) (h : b ≤ m) : (((a + (m - b)) % m : Nat) : Int) = ((a : Int) - b) % m := by
  rw [Int.natCast_mod, Int.natCast_add, Int.ofNat_sub h, show (a : Int) + ((m : Int) - b) = (a - b) + m by ring,
    Int.add_emod_right]

/-- C41.  `+`, `-`, `*`, unary `-`, `~`, `++` and `--` compute modulo `2^128`. -/
theorem C41_arith (x y : U128) :
    (x.add y).val = (x.val + y.val) % 2 ^ 128 ∧
    ((x.sub y).val : Int) = ((x.val : Int) - y.val) % 2 ^ 128 ∧
    (x.mul y).val = x.val * y.val % 2 ^ 128 ∧
    ((x.neg.val : Int) = (-(x.val : Int)) % 2 ^ 128) ∧
    (x.inc.val = (x.val + 1) % 2 ^ 128) ∧
    ((x.dec.val : Int) = ((x.val : Int) - 1) % 2 ^ 128) := by
  have hx := U128.val_lt x
  have hy := U128.val_lt y
  have a1 := U128.val_add x y
  have a2 := U128.val_sub x y
  have a3 := U128.val_mul x y
  have a4 := U128.val_neg x
  have a5 := U128.val_inc x
  have a6 := U128.val_dec x
  have e : ((2 : Int) ^ 128) = (two128 : Nat) := by rw [two128_eq]; norm_num
  refine ⟨by rw [← two128_eq]; exact a1, ?_, by rw [← two128_eq]; exact a3, ?_, by rw [← two128_eq]; exact a5, ?_⟩
  · rw [a2, e]; exact sub_mod_cast _ _ _ (by omega)
  · rw [a4, e]; simpa using sub_mod_cast 0 x.val two128 (by omega)
  · rw [a6, e]; exact sub_mod_cast _ 1 _ (by omega)

/-- C41.  Conversion from unsigned and signed integers. -/
theorem C41_conversion (x : BitVec 64) :
    (U128.ofU64 x).val = x.toNat ∧ ((U128.ofI64 x).val : Int) = x.toInt % 2 ^ 128 := by
  refine ⟨U128.val_ofU64 x, ?_⟩
  have hx := x.isLt
  by_cases h : x.toNat < 2 ^ 63
  · rw [U128.val_ofI64_nonneg x h, BitVec.toInt_eq_toNat_of_lt (by omega)]
    omega
  · have hs : x.sshiftRight 63 = BitVec.allOnes 64 := by
      have hm : x.msb = true := by rw [BitVec.msb_eq_decide]; simp; omega
      rw [BitVec.sshiftRight_eq_of_msb_true hm]
      apply BitVec.eq_of_toNat_eq
      rw [BitVec.toNat_not, BitVec.toNat_ushiftRight, BitVec.toNat_not, Nat.shiftRight_eq_div_pow, BitVec.toNat_allOnes]
      omega
    have ht : x.toInt = (x.toNat : Int) - 2 ^ 64 := by
      rw [BitVec.toInt_eq_toNat_cond, if_neg (by omega)]; norm_num
    rw [ht, U128.ofI64, hs, U128.val]
    simp only [BitVec.toNat_allOnes]
    omega

example : (U128.mul ⟨0, 0xFFFFFFFFFFFFFFFF⟩ ⟨0, 0xFFFFFFFFFFFFFFFF⟩) = ⟨0xFFFFFFFFFFFFFFFE, 1⟩ := by decide
example : (U128.add ⟨0, 0xFFFFFFFFFFFFFFFF⟩ ⟨5, 1⟩) = ⟨6, 0⟩ := by decide

/-- C42.  Division by a non zero divisor gives the floor quotient and the remainder, without
undefined behaviour (no assertion fails, no access is out of range). -/
theorem C42_div_mod (x y : U128) (hy : y.val ≠ 0) :
    ∃ q r, x.div y = .ok q ∧ x.mod y = .ok r ∧ q.val = x.val / y.val ∧ r.val = x.val % y.val ∧
      x.val = q.val * y.val + r.val ∧ r.val < y.val := by
  obtain ⟨q, h1, h2⟩ := U128.div_eq x y
  obtain ⟨r, h3, h4⟩ := U128.mod_eq x y
  refine ⟨q, r, h1, h3, h2, h4, ?_, ?_⟩
  · rw [h2, h4, Nat.mul_comm]; exact (Nat.div_add_mod _ _).symm
  · rw [h4]; exact Nat.mod_lt _ (by omega)

example := C42_div_mod ⟨7, 9⟩ ⟨0, 3⟩ (by decide)

/-- C42.  Division by zero is defined: quotient 0, remainder the dividend. -/
theorem C42_div_zero (x y : U128) (hy : y.val = 0) :
    x.div y = .ok ⟨0, 0⟩ ∧ x.mod y = .ok x := by
  obtain ⟨q, h1, h2⟩ := U128.div_eq x y
  obtain ⟨r, h3, h4⟩ := U128.mod_eq x y
  rw [hy] at h2 h4
  rw [Nat.div_zero] at h2
  rw [Nat.mod_zero] at h4
  rw [h1, h3]
  exact ⟨by rw [U128.val_inj (h2.trans (show 0 = U128.val ⟨0, 0⟩ from rfl))], by rw [U128.val_inj h4]⟩

/-- A case that needs the digit correction. -/
example : (U128.div ⟨0x8000000000000000, 0⟩ ⟨0x80000000, 1⟩).isOk = true ∧
    U128.val ⟨0x80000000, 1⟩ ≠ 0 := by
  refine ⟨?_, by decide⟩
  obtain ⟨q, h, _⟩ := U128.div_eq ⟨0x8000000000000000, 0⟩ ⟨0x80000000, 1⟩
  rw [h]; rfl

/-- C43 (partial: the shift amount 128 is excluded).  Shifts are multiplication modulo `2^128` and
floor division by a power of two, and zero for negative amounts.  Missing: amount 128, where both
shifts are undefined behaviour, see `C43_shift_128_ub`. -/
theorem C43_shift_partial (x : U128) (n : Nat) (h : n ≠ 128) :
    (∃ r, x.shl n = .ok r ∧ r.val = x.val * 2 ^ n % 2 ^ 128) ∧
    (∃ r, x.shr n = .ok r ∧ r.val = x.val / 2 ^ n) ∧
    (∀ k : Int, k < 0 → x.shl k = .ok ⟨0, 0⟩ ∧ x.shr k = .ok ⟨0, 0⟩) := by
  refine ⟨?_, U128.shr_val x n h, ?_⟩
  · obtain ⟨r, h1, h2⟩ := U128.shl_val x n h
    exact ⟨r, h1, by rw [h2, two128_eq]⟩
  · intro k hk
    unfold U128.shl U128.shr
    rw [if_neg (by omega), if_neg (by omega), if_neg (by omega), if_neg (by omega), if_neg (by omega),
      if_neg (by omega)]
    exact ⟨rfl, rfl⟩

example : (U128.shl ⟨1, 0x8000000000000000⟩ 63) = .ok ⟨0xC000000000000000, 0⟩ := by decide
example : (U128.shr ⟨1, 0x8000000000000000⟩ 127) = .ok ⟨0, 0⟩ := by decide

/-- C43, negation.  Shifting by exactly 128 shifts a 64 bit half by 64: undefined behaviour. -/
theorem C43_shift_128_ub (x : U128) : x.shl 128 = .ub ∧ x.shr 128 = .ub := by
  constructor <;> rfl

/-- C43.  The bit operations act bitwise on the 128 bit value. -/
theorem C43_bits (x y : U128) (i : Nat) :
    (x.and y).val.testBit i = (x.val.testBit i && y.val.testBit i) ∧
    (x.or y).val.testBit i = (x.val.testBit i || y.val.testBit i) ∧
    (x.xor y).val.testBit i = (x.val.testBit i != y.val.testBit i) ∧
    x.not.val.testBit i = (decide (i < 128) && !x.val.testBit i) := by
  refine ⟨?_, ?_, ?_, ?_⟩
  · rw [U128.val_and, Nat.testBit_and]
  · rw [U128.val_or, Nat.testBit_or]
  · rw [U128.val_xor, Nat.testBit_xor]
  · have hx := U128.val_lt x
    rw [U128.val_not, two128_eq]
    rw [show 2 ^ 128 - 1 - x.val = 2 ^ 128 - (x.val + 1) by omega,
      Nat.testBit_two_pow_sub_succ (by rw [← two128_eq]; exact hx)]

/-- C43.  Both implementations of the comparison operators are the numeric order. -/
theorem C43_compare (x y : U128) :
    (x.lt y = true ↔ x.val < y.val) ∧ (x.eq y = true ↔ x.val = y.val) ∧ (x.eq y = true ↔ x = y) ∧
    (x.cmp y = compare x.val y.val) ∧ (x.toBool = true ↔ x.val ≠ 0) := by
  refine ⟨by rw [U128.lt_iff]; simp, by rw [U128.eq_iff]; simp, ?_, U128.cmp_eq x y, by rw [U128.toBool_iff]; simp⟩
  rw [U128.eq_iff, decide_eq_true_iff]
  exact ⟨U128.val_inj, fun h => by rw [h]⟩

example : U128.lt ⟨0, 0xFFFFFFFFFFFFFFFF⟩ ⟨1, 0⟩ = true := by decide

/-- C44.  The text in each base consists of lower case digits of the base without leading zeros
and denotes the value. -/
theorem C44_to_string (x : U128) (base : U128.Base) :
    ∃ cs ds, x.toText base = .ok cs ∧ DigitText (radixOf base) cs ds ∧ digitsValue (radixOf base) ds = x.val ∧
      ds ≠ [] ∧ (ds.head? = some 0 → ds = [0]) ∧ ∀ c ∈ cs, c ∉ ['A', 'B', 'C', 'D', 'E', 'F'] := by
  simp only [← radix_eq_spec]
  have hb := U128.Base.radix_bounds base
  obtain ⟨ds, h1, h2, h3, h4, h5⟩ := toDigits_text base.radix (by omega) hb.2 x.val
  refine ⟨_, ds, U128.toText_eq x base, h1, h2, h4, h3, ?_⟩
  intro c hc
  rw [h5, List.mem_map] at hc
  obtain ⟨d, hd, rfl⟩ := hc
  have hd16 : d < 16 := by
    clear h2 h3 h4 h5
    generalize Nat.toDigits base.radix x.val = cs at h1
    induction ds generalizing cs with
    | nil => simp at hd
    | cons e ds ih =>
      cases cs with
      | nil => exact h1.elim
      | cons c cs =>
        rcases List.mem_cons.1 hd with rfl | hd
        · have := h1.2.1; omega
        · exact ih hd cs h1.2.2
  interval_cases d <;> decide

example : U128.toText ⟨1, 0xBEEF⟩ .hexadecimal = .ok "1000000000000beef".toList := by decide +kernel

/-- C44.  Parsing the text gives the value back. -/
theorem C44_round_trip (x : U128) (base : U128.Base) :
    ∃ cs, x.toText base = .ok cs ∧ U128.fromText base (readChars cs) = some x := by
  obtain ⟨cs, ds, h1, h2, h3, _⟩ := C44_to_string x base
  refine ⟨cs, h1, ?_⟩
  rw [U128.fromText_iff base cs (U128.DigitText_no_nul _ _ _ h2), radix_eq_spec]
  exact ⟨ds, h2, by rw [h3, Nat.mod_eq_of_lt (U128.val_lt x)]⟩

/-- C44 (partial).  A text without NUL characters is accepted exactly when every character is a
digit of the base, and the result is its value modulo `2^128`.  Missing: rejection of texts whose
value does not fit (see `C44_overflow_wraps`) and of texts with a NUL (see `C44_nul_truncates`). -/
theorem C44_from_string_partial (base : U128.Base) (cs : List Char) (h0 : '\x00' ∉ cs) :
    (∀ x, U128.fromText base (readChars cs) = some x ↔
      ∃ ds, DigitText (radixOf base) cs ds ∧ x.val = digitsValue (radixOf base) ds % 2 ^ 128) ∧
    (U128.fromText base (readChars cs) = none ↔ ∃ c ∈ cs, ∀ d, d < (radixOf base) → (c, d) ∉ digitChars) := by
  simp only [← radix_eq_spec]
  refine ⟨fun x => by rw [U128.fromText_iff base cs h0, two128_eq], ?_⟩
  have hdt : (∃ ds, DigitText base.radix cs ds) ↔ ¬ ∃ c ∈ cs, ∀ d, d < base.radix → (c, d) ∉ digitChars := by
    clear h0
    induction cs with
    | nil => simp; exact ⟨[], trivial⟩
    | cons c cs ih =>
      constructor
      · rintro ⟨ds, hds⟩ ⟨c', hc', hn⟩
        cases ds with
        | nil => exact hds.elim
        | cons d ds =>
          rcases List.mem_cons.1 hc' with rfl | hc'
          · exact hn d hds.2.1 hds.1
          · exact ih.1 ⟨ds, hds.2.2⟩ ⟨c', hc', hn⟩
      · intro hn
        have h1 : ¬ ∀ d, d < base.radix → (c, d) ∉ digitChars := fun h => hn ⟨c, by simp, h⟩
        have h2 := ih.2 (fun ⟨c', hc', h⟩ => hn ⟨c', by simp [hc'], h⟩)
        obtain ⟨ds, hds⟩ := h2
        simp only [not_forall] at h1
        obtain ⟨d, hd, hm⟩ := h1
        exact ⟨d :: ds, not_not.1 hm, hd, hds⟩
  rw [← not_iff_not, ← hdt]
  constructor
  · intro h
    obtain ⟨x, hx⟩ := Option.ne_none_iff_exists'.1 h
    obtain ⟨ds, hds, _⟩ := (U128.fromText_iff base cs h0 x).1 hx
    exact ⟨ds, hds⟩
  · rintro ⟨ds, hds⟩
    have hlt : digitsValue base.radix ds % two128 < two128 := Nat.mod_lt _ (by decide)
    obtain ⟨x, hx⟩ : ∃ x : U128, x.val = digitsValue base.radix ds % two128 := by
      generalize digitsValue base.radix ds % two128 = v at hlt
      refine ⟨⟨BitVec.ofNat 64 (v / 2 ^ 64), BitVec.ofNat 64 v⟩, ?_⟩
      rw [U128.val_mk, BitVec.toNat_ofNat, BitVec.toNat_ofNat]
      rw [two128_eq] at hlt
      omega
    rw [(U128.fromText_iff base cs h0 x).2 ⟨ds, hds, hx⟩]
    simp

example : U128.fromText .hexadecimal (readChars ['f', 'F', '0']) = some ⟨0, 4080⟩ := by decide
example : U128.fromText .octal (readChars ['7', '8']) = none := by decide
example : '\x00' ∉ ['7', '8'] := by decide

/-- C44, negation.  A text whose value does not fit is accepted: `2^128` in hexadecimal gives 0. -/
theorem C44_overflow_wraps :
    U128.fromText .hexadecimal (readChars ('1' :: List.replicate 32 '0')) = some ⟨0, 0⟩ := by
  decide +kernel

/-- C44, negation.  A NUL ends the text: what follows it is not checked. -/
theorem C44_nul_truncates :
    U128.fromText .decimal (readChars ['1', '\x00', 'x']) = some ⟨0, 1⟩ := by decide

/-- C52.  A double in `[1, 2^128)` given by exponent field and fraction is truncated toward zero;
its value is `(2^52 + fraction) * 2^(exponent - 1023) / 2^52`. Smaller doubles give 0, larger ones
the maximum. -/
theorem C52_from_double (e : Nat) (f : BitVec 52) :
    (1023 ≤ e → e ≤ 1150 → ∃ r, U128.fromDouble e f = .ok r ∧
      r.val = (2 ^ 52 + f.toNat) * 2 ^ (e - 1023) / 2 ^ 52) ∧
    (e < 1023 → U128.fromDouble e f = .ok ⟨0, 0⟩) ∧
    (1151 ≤ e → ∃ r, U128.fromDouble e f = .ok r ∧ r.val = 2 ^ 128 - 1) := by
  refine ⟨U128.fromDouble_eq e f, ?_, ?_⟩
  · intro h
    rw [U128.fromDouble, if_neg (by omega), if_neg (by omega)]
  · intro h
    rw [U128.fromDouble, if_pos (by omega)]
    exact ⟨_, rfl, by decide⟩

example : U128.fromDouble 1024 0x8000000000000 = .ok ⟨0, 3⟩ := by decide

end Ip
