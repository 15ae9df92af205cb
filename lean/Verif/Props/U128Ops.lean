import Verif.Spec.U128Ops
import Verif.Props.U128
import Verif.Props.Compare
/-
C58: conversions of 128 bit integers from and to the built-in integer types, operators with a built-in operand,
assignment, logical operators, limits.
-/
set_option autoImplicit false

namespace Ip

open Spec

/-- C58.  A value of a built-in integer type of at most 64 bits is converted modulo `2^128`; a non
negative value is kept. -/
theorem C58_from_builtin (n : Builtin) (h0 : 1 ≤ n.width) (h : n.width ≤ 64) :
    (n.toU128.val : Int) = builtinValue n % 2 ^ 128 := by
  obtain ⟨s, w, b⟩ := n
  dsimp only at h0 h ⊢
  have hb := b.isLt
  have hw : 2 ^ w ≤ 2 ^ 64 := Nat.pow_le_pow_right (by decide) h
  unfold Builtin.toU128 builtinValue
  dsimp only
  cases s
  · rw [if_neg (by decide), if_neg (by simp), (C41_conversion _).1, BitVec.toNat_setWidth]
    rw [Nat.mod_eq_of_lt (by omega)]
    omega
  · rw [if_pos rfl, (C41_conversion _).2, BitVec.toInt_signExtend_of_le h, BitVec.toInt_eq_toNat_cond]
    have hp : 2 ^ w = 2 * 2 ^ (w - 1) := by rw [← Nat.pow_add_one']; exact congrArg _ (by omega)
    by_cases hc : 2 * b.toNat < 2 ^ w
    · rw [if_pos hc, if_neg (by omega)]
    · rw [if_neg hc, if_pos ⟨rfl, by omega⟩]
      norm_num

example : (⟨true, 32, -5⟩ : Builtin).toU128.val = 2 ^ 128 - 5 ∧ builtinValue ⟨true, 32, -5⟩ = -5 := by decide +kernel
example : (⟨false, 32, -5⟩ : Builtin).toU128.val = 2 ^ 32 - 5 := by decide +kernel

/-- C58.  Conversion to a built-in integer type of at most 64 bits gives the number of that type
that is congruent to the value modulo the number of its values. -/
theorem C58_to_builtin (x : U128) (s : Bool) (w : Nat) (h0 : 1 ≤ w) (h : w ≤ 64) :
    InRange s w (builtinValue (x.toBuiltin s w)) ∧
    builtinValue (x.toBuiltin s w) % 2 ^ w = (x.val : Int) % 2 ^ w := by
  have hp : 2 ^ w = 2 * 2 ^ (w - 1) := by rw [← Nat.pow_add_one']; exact congrArg _ (by omega)
  have hpi : (2 : Int) ^ w = ((2 ^ w : Nat) : Int) := by norm_num
  have hpi1 : (2 : Int) ^ (w - 1) = ((2 ^ (w - 1) : Nat) : Int) := by norm_num
  have h64 : 18446744073709551616 = 2 ^ (64 - w) * 2 ^ w := by
    rw [← Nat.pow_add, show 64 - w + w = 64 by omega]
  have hm : x.lower.toNat % 2 ^ w = x.val % 2 ^ w := by
    unfold U128.val
    rw [h64, ← Nat.mul_assoc, Nat.add_comm, Nat.add_mul_mod_self_right]
  have hlt : x.lower.toNat % 2 ^ w < 2 ^ w := Nat.mod_lt _ (Nat.two_pow_pos _)
  have hmi : ((x.val % 2 ^ w : Nat) : Int) = (x.val : Int) % ((2 ^ w : Nat) : Int) := Int.natCast_emod _ _
  unfold InRange builtinValue U128.toBuiltin
  dsimp only
  rw [BitVec.toNat_setWidth, hpi, hpi1]
  rw [← hmi, ← hm]
  generalize x.lower.toNat % 2 ^ w = r at hlt ⊢
  generalize 2 ^ w = a at hp hlt ⊢
  generalize 2 ^ (w - 1) = b at hp ⊢
  cases s
  · rw [if_neg (by simp), if_neg (by simp)]
    refine ⟨by omega, ?_⟩
    rw [Int.emod_eq_of_lt (by omega) (by omega)]
  · rw [if_pos rfl]
    by_cases hc : b ≤ r
    · rw [if_pos ⟨rfl, hc⟩]
      refine ⟨by omega, ?_⟩
      rw [Int.sub_emod_right, Int.emod_eq_of_lt (by omega) (by omega)]
    · rw [if_neg (by omega)]
      refine ⟨by omega, ?_⟩
      rw [Int.emod_eq_of_lt (by omega) (by omega)]

example : builtinValue ((⟨7, 0x80000001⟩ : U128).toBuiltin true 32) = -2147483647 := by decide +kernel

/-- C58.  Conversion to `unsigned char` does not depend on the signedness of `char`: it gives the low eight bits. -/
theorem C58_to_uchar (x : U128) (cs : Bool) : builtinValue (x.toUChar cs) = (x.val % 256 : Nat) := by
  unfold builtinValue U128.toUChar
  dsimp only
  rw [if_neg (by simp)]
  have h1 : (x.lower.setWidth 8).toNat = x.val % 256 := by
    rw [BitVec.toNat_setWidth]; unfold U128.val; omega
  cases cs
  · rw [if_neg (by decide), BitVec.toNat_setWidth, h1]
    omega
  · rw [if_pos rfl, BitVec.signExtend_eq, h1]

example : builtinValue ((⟨7, 0x1ff⟩ : U128).toUChar true) = 255 := by decide +kernel

/-- C58.  A built-in value converted to `uint128_t` and back is unchanged. -/
theorem C58_round_trip (n : Builtin) (h0 : 1 ≤ n.width) (h : n.width ≤ 64) :
    n.toU128.toBuiltin n.signed n.width = n := by
  obtain ⟨s, w, b⟩ := n
  dsimp only at h0 h ⊢
  unfold Builtin.toU128 U128.toBuiltin
  dsimp only
  congr 1
  cases s
  · rw [if_neg (by decide), U128.ofU64]
    dsimp only
    rw [BitVec.setWidth_setWidth_of_le _ h, BitVec.setWidth_eq]
  · rw [if_pos rfl, U128.ofI64]
    dsimp only
    apply BitVec.eq_of_getLsbD_eq
    intro i hi
    rw [BitVec.getLsbD_setWidth, BitVec.getLsbD_signExtend]
    simp [hi]
    omega

example : (⟨true, 16, -300⟩ : Builtin).toU128.toBuiltin true 16 = ⟨true, 16, -300⟩ := by
  exact C58_round_trip ⟨true, 16, -300⟩ (by decide) (by decide)

/-- C58.  The binary operators and the compound assignments compute the same values, those of
arithmetic modulo `2^128`; none has undefined behaviour. -/
theorem C58_operators (op : U128.Op) (x y : U128) :
    ∃ r, U128.apply op x y = .ok r ∧ U128.assign op x y = .ok r ∧ (r.val : Int) = opValue op x.val y.val := by
  obtain ⟨a1, a2, a3, _⟩ := C41_arith x y
  have e : ((2 : Int) ^ 128) = (two128 : Nat) := by rw [two128_eq]; norm_num
  rw [← two128_eq] at a1 a3
  cases op
  · exact ⟨_, rfl, rfl, by rw [a1, opValue, e, Int.natCast_emod, Int.natCast_add]⟩
  · exact ⟨_, rfl, rfl, by rw [opValue]; exact a2⟩
  · exact ⟨_, rfl, rfl, by rw [a3, opValue, e, Int.natCast_emod, Int.natCast_mul]⟩
  · by_cases hy : y.val = 0
    · exact ⟨_, (C42_div_zero x y hy).1, (C42_div_zero x y hy).1, by rw [opValue, if_pos hy]; decide⟩
    · obtain ⟨q, r, h1, _, h2, _⟩ := C42_div_mod x y hy
      exact ⟨q, h1, h1, by rw [opValue, if_neg hy, h2]⟩
  · by_cases hy : y.val = 0
    · exact ⟨_, (C42_div_zero x y hy).2, (C42_div_zero x y hy).2, by rw [opValue, if_pos hy]⟩
    · obtain ⟨q, r, _, h1, _, h2, _⟩ := C42_div_mod x y hy
      exact ⟨r, h1, h1, by rw [opValue, if_neg hy, h2]⟩
  · exact ⟨_, rfl, rfl, by rw [U128.val_and]; rfl⟩
  · exact ⟨_, rfl, rfl, by rw [U128.val_or]; rfl⟩
  · exact ⟨_, rfl, rfl, by rw [U128.val_xor]; rfl⟩

example : U128.assign .xor ⟨5, 6⟩ ⟨4, 3⟩ = .ok ⟨1, 5⟩ ∧ U128.assign .rem ⟨0, 17⟩ ⟨0, 5⟩ = .ok ⟨0, 2⟩ := by decide +kernel

/-- C58.  The shift assignments are the shifts. -/
theorem C58_shift_assign_partial (x : U128) (n : Nat) (h : n ≠ 128) :
    (∃ r, x.assignShl n = .ok r ∧ r.val = x.val * 2 ^ n % 2 ^ 128) ∧
    (∃ r, x.assignShr n = .ok r ∧ r.val = x.val / 2 ^ n) :=
  ⟨(C43_shift_partial x n h).1, (C43_shift_partial x n h).2.1⟩

example : (⟨0, 1⟩ : U128).assignShl 65 = .ok ⟨2, 0⟩ := by decide

/-- C58.  A built-in operand on either side takes part with its value modulo `2^128`. -/
theorem C58_mixed (op : U128.Op) (n : Builtin) (h0 : 1 ≤ n.width) (h : n.width ≤ 64) (x : U128) :
    ∃ (a : Nat) (r q : U128), (a : Int) = builtinValue n % 2 ^ 128 ∧
      U128.mixedLeft op n x = .ok r ∧ (r.val : Int) = opValue op a x.val ∧
      U128.mixedRight op x n = .ok q ∧ (q.val : Int) = opValue op x.val a := by
  obtain ⟨r, h1, _, h2⟩ := C58_operators op n.toU128 x
  obtain ⟨q, h3, _, h4⟩ := C58_operators op x n.toU128
  exact ⟨n.toU128.val, r, q, C58_from_builtin n h0 h, h1, h2, h3, h4⟩

example : U128.mixedLeft .sub ⟨true, 32, 3⟩ ⟨0, 5⟩ = .ok ⟨-1, -2⟩ := by decide +kernel
example : U128.mixedRight .add ⟨0, 5⟩ ⟨true, 32, -3⟩ = .ok ⟨0, 2⟩ := by decide +kernel

/-- C58.  Comparison with a built-in operand, on either side and with or without `<=>`, compares with its value
modulo `2^128`. -/
theorem C58_compare (ss : Bool) (n : Builtin) (h0 : 1 ≤ n.width) (h : n.width ≤ 64) (x : U128) :
    ∃ (a : Nat) (r q : CmpOps), (a : Int) = builtinValue n % 2 ^ 128 ∧
      x.cmpRight ss n = .ok r ∧ Describes r (x.val < a) (x.val = a) (a < x.val) ∧
      U128.cmpLeft ss n x = .ok q ∧ Describes q (a < x.val) (a = x.val) (x.val < a) := by
  obtain ⟨r, h1, h2⟩ := C55_uint128 ss x n.toU128
  obtain ⟨q, h3, h4⟩ := C55_uint128 ss n.toU128 x
  exact ⟨n.toU128.val, r, q, C58_from_builtin n h0 h, h1, h2, h3, h4⟩

example : (⟨0, 5⟩ : U128).cmpRight true ⟨true, 32, -1⟩ = .ok ⟨false, true, true, false, true, false⟩ := by decide +kernel

/-- C58.  The postfix operators return the old value and step by one modulo `2^128`. -/
theorem C58_postfix (x : U128) :
    x.postInc.1 = x ∧ x.postInc.2.val = (x.val + 1) % 2 ^ 128 ∧
    x.postDec.1 = x ∧ (x.postDec.2.val : Int) = ((x.val : Int) - 1) % 2 ^ 128 := by
  obtain ⟨_, _, _, _, h1, h2⟩ := C41_arith x x
  exact ⟨rfl, h1, rfl, h2⟩

example : (⟨0, -1⟩ : U128).postInc = (⟨0, -1⟩, ⟨1, 0⟩) := by decide

/-- C58.  `!`, `&&` and `||` look at whether the values are zero. -/
theorem C58_logic (x y : U128) :
    (x.isZero = true ↔ x.val = 0) ∧ (x.both y = true ↔ x.val ≠ 0 ∧ y.val ≠ 0) ∧
    (x.either y = true ↔ x.val ≠ 0 ∨ y.val ≠ 0) := by
  obtain ⟨_, _, _, _, hx⟩ := C43_compare x x
  obtain ⟨_, _, _, _, hy⟩ := C43_compare y y
  unfold U128.toBool at hx hy
  refine ⟨?_, ?_, ?_⟩
  · have hz : x.isZero = !(x.upper != 0 || x.lower != 0) := by
      unfold U128.isZero
      unfold bne
      cases (x.upper == 0) <;> cases (x.lower == 0) <;> rfl
    rw [hz, Bool.not_eq_true', Bool.eq_false_iff, ne_eq, hx, not_not]
  · unfold U128.both; rw [Bool.and_eq_true, hx, hy]
  · unfold U128.either; rw [Bool.or_eq_true, hx, hy]

example : (⟨1, 0⟩ : U128).isZero = false ∧ (⟨1, 0⟩ : U128).both ⟨0, 1⟩ = true ∧ (⟨0, 0⟩ : U128).either ⟨1, 0⟩ = true := by
  decide

/-- C58.  `numeric_limits` gives the least and the greatest value; unary `+` and `abs` change nothing. -/
theorem C58_limits (x : U128) :
    U128.limitMin.val ≤ x.val ∧ x.val ≤ U128.limitMax.val ∧ U128.limitMin.val = 0 ∧ U128.limitMax.val = 2 ^ 128 - 1 ∧
    x.plus.val = x.val := by
  have hx := U128.val_lt x
  have h1 : U128.limitMin.val = 0 := by decide
  have h2 : U128.limitMax.val = 2 ^ 128 - 1 := by decide
  rw [two128_eq] at hx
  refine ⟨by omega, by omega, h1, h2, rfl⟩

theorem digitsValue_lt (b : Nat) (hb : 0 < b) : ∀ (t : List Char) (ds : List Nat), DigitText b t ds → digitsValue b ds < b ^ ds.length ∧ '\x00' ∉ t := by
  have key : ∀ (t : List Char) (ds : List Nat) (n k : Nat), DigitText b t ds → n < b ^ k →
      ds.foldl (fun acc d => acc * b + d) n < b ^ (k + ds.length) ∧ '\x00' ∉ t := by
    intro t
    induction t with
    | nil =>
      intro ds n k h hn
      cases ds with
      | nil => exact ⟨hn, by simp⟩
      | cons d ds => exact h.elim
    | cons c t ih =>
      intro ds n k h hn
      cases ds with
      | nil => exact h.elim
      | cons d ds =>
        obtain ⟨h1, h2, h3⟩ := h
        have hlt : n * b + d < b ^ (k + 1) := by
          rw [Nat.pow_succ]
          calc n * b + d < n * b + b := by omega
            _ = (n + 1) * b := by ring
            _ ≤ b ^ k * b := Nat.mul_le_mul_right _ hn
        obtain ⟨k1, k2⟩ := ih ds (n * b + d) (k + 1) h3 hlt
        refine ⟨?_, ?_⟩
        · rw [List.length_cons, List.foldl_cons, show k + (ds.length + 1) = k + 1 + ds.length by omega]
          exact k1
        · intro hc
          rcases List.mem_cons.1 hc with hc | hc
          · have : ∀ p ∈ digitChars, p.1 ≠ '\x00' := by decide
            exact this _ h1 hc.symm
          · exact k2 hc
  intro t ds h
  have := key t ds 0 0 h (by simp)
  simpa [digitsValue] using this

/-- C58.  `numeric_limits` tells the number of digits: `digits` digits of `radix` are those of the numbers of the type, all
decimal texts of up to `digits10` digits are read as the number they denote, and a longer one is not. -/
theorem C58_digits :
    (∀ n, n < U128.limitRadix ^ U128.limitDigits ↔ ∃ x : U128, x.val = n) ∧
    (∀ t ds, DigitText 10 t ds → ds.length ≤ U128.limitDigits10 →
      ∃ x, U128.fromText .decimal (readChars t) = some x ∧ x.val = digitsValue 10 ds) ∧
    (∃ t ds, DigitText 10 t ds ∧ ds.length = U128.limitDigits10 + 1 ∧ ¬ ∃ x : U128, x.val = digitsValue 10 ds) := by
  have h1 : ∀ n, n < U128.limitRadix ^ U128.limitDigits ↔ ∃ x : U128, x.val = n := by
    intro n
    constructor
    · intro h
      refine ⟨⟨BitVec.ofNat 64 (n / 2 ^ 64), BitVec.ofNat 64 n⟩, ?_⟩
      have h : n < 2 ^ 128 := h
      unfold U128.val
      simp only [BitVec.toNat_ofNat]
      omega
    · rintro ⟨x, rfl⟩
      have := U128.val_lt x
      rw [two128_eq] at this
      exact this
  refine ⟨h1, ?_, ?_⟩
  · intro t ds h hl
    obtain ⟨k1, k2⟩ := digitsValue_lt 10 (by omega) t ds h
    have hlt : digitsValue 10 ds < 2 ^ 128 :=
      calc digitsValue 10 ds < 10 ^ ds.length := k1
        _ ≤ 10 ^ 38 := Nat.pow_le_pow_right (by omega) hl
        _ < 2 ^ 128 := by decide
    obtain ⟨x, hx⟩ := (h1 _).1 hlt
    exact ⟨x, ((C44_from_string_partial .decimal t k2).1 x).2 ⟨ds, h, by rw [hx]; exact (Nat.mod_eq_of_lt hlt).symm⟩, hx⟩
  · refine ⟨List.replicate 39 '9', List.replicate 39 9, ?_, rfl, ?_⟩
    · have : ∀ n, DigitText 10 (List.replicate n '9') (List.replicate n 9) := by
        intro n
        induction n with
        | zero => trivial
        | succ n ih => exact ⟨by decide, by decide, ih⟩
      exact this 39
    · rw [← h1]
      decide

example : DigitText 10 ['4', '2'] [4, 2] ∧ [4, 2].length ≤ U128.limitDigits10 :=
  ⟨⟨by decide, by decide, by decide, by decide, trivial⟩, by decide⟩

/-- C58.  `swap` exchanges the values. -/
theorem C58_swap (x y : U128) : (x.swap y).1.val = y.val ∧ (x.swap y).2.val = x.val := ⟨rfl, rfl⟩

example : (⟨1, 2⟩ : U128).swap ⟨3, 4⟩ = (⟨3, 4⟩, ⟨1, 2⟩) := by decide

/-- C58.  What `numeric_limits` says about arithmetic: sums, differences and products are those of integers modulo
`radix^digits`, so the type is modulo; no operator traps, not even a division by zero; no value is negative: `-1` becomes
the greatest value. -/
theorem C58_flags (x y : U128) :
    (U128.limitModulo = true ∧
      ∃ s d p, U128.apply .add x y = .ok s ∧ U128.apply .sub x y = .ok d ∧ U128.apply .mul x y = .ok p ∧
        (s.val : Int) = ((x.val : Int) + y.val) % (U128.limitRadix : Int) ^ U128.limitDigits ∧
        (d.val : Int) = ((x.val : Int) - y.val) % (U128.limitRadix : Int) ^ U128.limitDigits ∧
        (p.val : Int) = ((x.val : Int) * y.val) % (U128.limitRadix : Int) ^ U128.limitDigits) ∧
    (U128.limitTraps = false ∧ ∀ op, ∃ r, U128.apply op x y = .ok r) ∧
    (U128.limitSigned = false ∧ (⟨true, 32, -1⟩ : Builtin).toU128 = U128.limitMax) := by
  obtain ⟨s, h1, _, h2⟩ := C58_operators .add x y
  obtain ⟨d, h3, _, h4⟩ := C58_operators .sub x y
  obtain ⟨p, h5, _, h6⟩ := C58_operators .mul x y
  exact ⟨⟨rfl, s, d, p, h1, h3, h5, h2, h4, h6⟩, ⟨rfl, fun op => (C58_operators op x y).imp fun _ h => h.1⟩,
    rfl, by decide +kernel⟩

example : U128.apply .div ⟨0, 7⟩ ⟨0, 0⟩ = .ok ⟨0, 0⟩ ∧ U128.apply .rem ⟨0, 7⟩ ⟨0, 0⟩ = .ok ⟨0, 7⟩ ∧
    U128.apply .sub ⟨0, 0⟩ ⟨0, 1⟩ = .ok U128.limitMax := by decide +kernel

end Ip
