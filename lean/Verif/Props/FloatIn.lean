import Verif.Lemmas.FloatIn
import Verif.Props.Float
import Verif.Props.U128Ops
/-
C81: 128 bit integers from floating point numbers of every type.
-/
set_option autoImplicit false

namespace Ip

open Spec

/-- The number a datum converts to is unique, so the theorems below fix the result. -/
theorem Spec.Converts.unique {v : FVal} {r r' : Nat} (h : Converts v r) (h' : Converts v r') : r = r' := by
  cases v with
  | nan => exact h.trans h'.symm
  | inf neg => exact h.trans h'.symm
  | fin neg m e =>
    cases neg with
    | true => exact Eq.trans h (Eq.symm h')
    | false =>
      obtain ⟨a1, a2, a3⟩ := (h : Truncated m e r)
      obtain ⟨b1, b2, b3⟩ := (h' : Truncated m e r')
      rcases Nat.lt_trichotomy r r' with c | c | c
      · rcases a3 with a3 | a3
        · omega
        · exact absurd (atMost_mono (by omega) b2) a3
      · exact c
      · rcases b3 with b3 | b3
        · omega
        · exact absurd (atMost_mono (by omega) a2) b3

theorem U128.ofDouble_spec (bits : BitVec 64) :
    ∃ r, U128.ofDouble bits = .ok r ∧ Converts (doubleVal bits) r.val := by
  obtain ⟨r, h1, h2⟩ := U128.fromDoubleBits_spec bits
  exact ⟨r, by unfold U128.ofDouble; rw [h1]; rfl, h2⟩

/-- C81, `double`.  Every bit pattern is converted without undefined behaviour: NaN and negative numbers
give 0, other numbers their integral part, and numbers beyond the range, with infinity, the largest value. -/
theorem C81_double (bits : BitVec 64) : ∃ r, U128.ofDouble bits = .ok r ∧ Converts (doubleVal bits) r.val :=
  U128.ofDouble_spec bits

-- 2.5, -2.5, NaN, infinity and the smallest subnormal number
example : U128.ofDouble 0x4004000000000000#64 = .ok ⟨0, 2⟩ ∧ U128.ofDouble 0xC004000000000000#64 = .ok ⟨0, 0⟩ ∧
    U128.ofDouble 0x7FF8000000000001#64 = .ok ⟨0, 0⟩ ∧
    U128.ofDouble 0x7FF0000000000000#64 = .ok ⟨0xFFFFFFFFFFFFFFFF, 0xFFFFFFFFFFFFFFFF⟩ ∧
    U128.ofDouble 1#64 = .ok ⟨0, 0⟩ := by decide +kernel
example : doubleVal 0x4004000000000000#64 = .fin false (5 * 2 ^ 50) (-51) := by decide +kernel

/-- C81, `long double`, exact.  A datum `m * 2^e` of any binary format is rounded to 53 significant bits,
to nearest and ties to even, before its integral part is taken. -/
theorem C81_long_double_exact (neg : Bool) (m : Nat) (e : Int) :
    ∃ r d, U128.ofLongDouble (.fin neg m e) = .ok r ∧ Nearest 53 m d ∧ Converts (.fin neg d e) r.val := by
  obtain ⟨r, h1, h2⟩ := U128.ofDouble_spec (toDoubleBits (.fin neg m e))
  exact ⟨r, roundTo 53 m, h1, roundTo_nearest 53 m (by decide), toDoubleBits_converts neg m e r.val h2⟩

-- 2^64 - 1 and 3 * 2^62 + 1, which are `long double` values with a significand of 64 bits
example : U128.ofLongDouble (.fin false (2 ^ 64 - 1) 0) = .ok ⟨1, 0⟩ ∧
    U128.ofLongDouble (.fin false (3 * 2 ^ 62 + 1) 0) = .ok ⟨0, 0xC000000000000000⟩ := by decide +kernel

/-- C81 (partial), `long double`: a datum whose significand has at most 53 bits is converted to its
integral part, within the range, and NaN and the infinities as for `double`.  Missing: longer significands,
which are rounded first, see `C81_long_double_violated`. -/
theorem C81_long_double_partial (v : FVal) (h : ∀ neg m e, v = .fin neg m e → Fits 53 m) :
    ∃ r, U128.ofLongDouble v = .ok r ∧ Converts v r.val := by
  cases v with
  | nan => exact ⟨⟨0, 0⟩, by decide +kernel, rfl⟩
  | inf neg =>
    cases neg with
    | true => exact ⟨⟨0, 0⟩, by decide +kernel, rfl⟩
    | false => exact ⟨⟨0xFFFFFFFFFFFFFFFF, 0xFFFFFFFFFFFFFFFF⟩, by decide +kernel, rfl⟩
  | fin neg m e =>
    obtain ⟨r, d, h1, h2, h3⟩ := C81_long_double_exact neg m e
    have := nearest_exact (h neg m e rfl) h2
    subst this
    exact ⟨r, h1, h3⟩

example : (∀ neg m e, FVal.fin false 1000001 (-1) = .fin neg m e → Fits 53 m) ∧
    U128.ofLongDouble (.fin false 1000001 (-1)) = .ok ⟨0, 500000⟩ := by
  refine ⟨?_, by decide +kernel⟩
  intro neg m e h
  injection h with h1 h2 h3
  subst h2
  exact ⟨1000001, 0, by decide, by decide⟩

/-- C81, negation.  `long double` values of the x87 format (significands of 64 bits) that are not converted
to their integral part: the integer `2^64 - 1` becomes `2^64`, a number below 1 becomes 1, and
`2^128 - 2^64` becomes `2^128 - 1`. -/
theorem C81_long_double_violated :
    U128.ofLongDouble (.fin false (2 ^ 64 - 1) 0) = .ok ⟨1, 0⟩ ∧ ¬ Converts (.fin false (2 ^ 64 - 1) 0) (2 ^ 64) ∧
    U128.ofLongDouble (.fin false (2 ^ 64 - 1) (-64)) = .ok ⟨0, 1⟩ ∧ ¬ Converts (.fin false (2 ^ 64 - 1) (-64)) 1 ∧
    U128.ofLongDouble (.fin false (2 ^ 64 - 1) 64) = .ok ⟨0xFFFFFFFFFFFFFFFF, 0xFFFFFFFFFFFFFFFF⟩ ∧
    ¬ Converts (.fin false (2 ^ 64 - 1) 64) (2 ^ 128 - 1) := by
  refine ⟨by decide +kernel, ?_, by decide +kernel, ?_, by decide +kernel, ?_⟩ <;>
  · intro h
    exact absurd ((show Truncated _ _ _ from h).2.1) (by unfold AtMost; decide +kernel)

theorem fits_floatVal (bits : BitVec 32) (neg : Bool) (m : Nat) (e : Int) (h : floatVal bits = .fin neg m e) : Fits 53 m := by
  rw [floatVal] at h
  have hf : bits.toNat % 2 ^ 23 < 2 ^ 23 := Nat.mod_lt _ (by decide)
  refine ⟨m, 0, ?_, by simp⟩
  split at h
  · split at h <;> cases h
  · split at h
    · injection h with _ h2 _; omega
    · injection h with _ h2 _; omega

/-- C81, `float`: every bit pattern is converted as for `double`; the conversion to `double` in between
changes nothing. -/
theorem C81_float (bits : BitVec 32) : ∃ r, U128.ofFloat bits = .ok r ∧ Converts (floatVal bits) r.val :=
  C81_long_double_partial (floatVal bits) (fits_floatVal bits)

-- 2.5, the largest float, the smallest subnormal float and minus infinity
example : U128.ofFloat 0x40200000#32 = .ok ⟨0, 2⟩ ∧ U128.ofFloat 0x7F7FFFFF#32 = .ok ⟨0xFFFFFF0000000000, 0⟩ ∧
    U128.ofFloat 1#32 = .ok ⟨0, 0⟩ ∧ U128.ofFloat 0xFF800000#32 = .ok ⟨0, 0⟩ := by decide +kernel

/-- `r ≤ m * 2^(e - k)` without negative exponents. -/
theorem atMost_shift (r m e k : Nat) : AtMost r m ((e : Int) - k) ↔ r * 2 ^ k ≤ m * 2 ^ e := by
  unfold AtMost
  rcases Nat.le_total e k with h | h
  · have h1 : (-((e : Int) - k)).toNat = k - e := by omega
    have h2 : ((e : Int) - k).toNat = 0 := by omega
    have h3 : 2 ^ k = 2 ^ (k - e) * 2 ^ e := by rw [← Nat.pow_add]; congr 1; omega
    rw [h1, h2, h3, ← Nat.mul_assoc, Nat.pow_zero, Nat.mul_one]
    exact (Nat.mul_le_mul_right_iff (Nat.two_pow_pos e)).symm
  · have h1 : (-((e : Int) - k)).toNat = 0 := by omega
    have h2 : ((e : Int) - k).toNat = e - k := by omega
    have h3 : 2 ^ e = 2 ^ (e - k) * 2 ^ k := by rw [← Nat.pow_add]; congr 1; omega
    rw [h1, h2, h3, ← Nat.mul_assoc, Nat.pow_zero, Nat.mul_one]
    exact (Nat.mul_le_mul_right_iff (Nat.two_pow_pos k)).symm

theorem truncated_eq {r m e k : Nat} (h : Truncated m ((e : Int) - k) r) : r = min (2 ^ 128 - 1) (m * 2 ^ e / 2 ^ k) := by
  obtain ⟨h1, h2, h3⟩ := h
  rw [atMost_shift, ← Nat.le_div_iff_mul_le (Nat.two_pow_pos k)] at h2
  rw [atMost_shift, ← Nat.le_div_iff_mul_le (Nat.two_pow_pos k)] at h3
  omega

/-- C81, `double`, by the fields of the bit pattern.  A normal number of sign `s`, biased exponent `e` and
fraction `f` is `(2^52 + f) * 2^(e - 1075)`; it is converted to the integral part of that, at most
`2^128 - 1`, and a negative one to 0. -/
theorem C81_double_number (s e f : Nat) (hs : s < 2) (he : 0 < e ∧ e < 2047) (hf : f < 2 ^ 52) :
    ∃ r, U128.ofDouble (BitVec.ofNat 64 (s * 2 ^ 63 + e * 2 ^ 52 + f)) = .ok r ∧
      r.val = if s = 1 then 0 else min (2 ^ 128 - 1) ((2 ^ 52 + f) * 2 ^ e / 2 ^ 1075) := by
  obtain ⟨r, h1, h2⟩ := C81_double (BitVec.ofNat 64 (s * 2 ^ 63 + e * 2 ^ 52 + f))
  refine ⟨r, h1, ?_⟩
  have hb : (BitVec.ofNat 64 (s * 2 ^ 63 + e * 2 ^ 52 + f)).toNat = s * 2 ^ 63 + e * 2 ^ 52 + f := by
    rw [BitVec.toNat_ofNat]; omega
  have a1 : (s * 2 ^ 63 + e * 2 ^ 52 + f) / 2 ^ 63 = s := by omega
  have a2 : (s * 2 ^ 63 + e * 2 ^ 52 + f) / 2 ^ 52 % 2048 = e := by omega
  have a3 : (s * 2 ^ 63 + e * 2 ^ 52 + f) % 2 ^ 52 = f := by omega
  have hv : doubleVal (BitVec.ofNat 64 (s * 2 ^ 63 + e * 2 ^ 52 + f)) = .fin (decide (s = 1)) (2 ^ 52 + f) ((e : Int) - 1075) := by
    unfold doubleVal
    rw [hb, a1, a2, a3]
    simp only
    rw [if_neg (by omega), if_neg (by omega)]
  rw [hv] at h2
  rcases (by omega : s = 0 ∨ s = 1) with rfl | rfl
  · exact truncated_eq (k := 1075) h2
  · exact h2

-- 2.5 and -2.5
example : U128.ofDouble (BitVec.ofNat 64 (0 * 2 ^ 63 + 1024 * 2 ^ 52 + 2 ^ 50)) = .ok ⟨0, 2⟩ ∧
    U128.ofDouble (BitVec.ofNat 64 (1 * 2 ^ 63 + 1024 * 2 ^ 52 + 2 ^ 50)) = .ok ⟨0, 0⟩ := by decide +kernel

/-- C81, `float`, by the fields of the bit pattern.  A normal number is `(2^23 + f) * 2^(e - 150)`. -/
theorem C81_float_number (s e f : Nat) (hs : s < 2) (he : 0 < e ∧ e < 255) (hf : f < 2 ^ 23) :
    ∃ r, U128.ofFloat (BitVec.ofNat 32 (s * 2 ^ 31 + e * 2 ^ 23 + f)) = .ok r ∧
      r.val = if s = 1 then 0 else min (2 ^ 128 - 1) ((2 ^ 23 + f) * 2 ^ e / 2 ^ 150) := by
  obtain ⟨r, h1, h2⟩ := C81_float (BitVec.ofNat 32 (s * 2 ^ 31 + e * 2 ^ 23 + f))
  refine ⟨r, h1, ?_⟩
  have hb : (BitVec.ofNat 32 (s * 2 ^ 31 + e * 2 ^ 23 + f)).toNat = s * 2 ^ 31 + e * 2 ^ 23 + f := by
    rw [BitVec.toNat_ofNat]; omega
  have a1 : (s * 2 ^ 31 + e * 2 ^ 23 + f) / 2 ^ 31 = s := by omega
  have a2 : (s * 2 ^ 31 + e * 2 ^ 23 + f) / 2 ^ 23 % 256 = e := by omega
  have a3 : (s * 2 ^ 31 + e * 2 ^ 23 + f) % 2 ^ 23 = f := by omega
  have hv : floatVal (BitVec.ofNat 32 (s * 2 ^ 31 + e * 2 ^ 23 + f)) = .fin (decide (s = 1)) (2 ^ 23 + f) ((e : Int) - 150) := by
    unfold floatVal
    rw [hb, a1, a2, a3]
    simp only
    rw [if_neg (by omega), if_neg (by omega)]
  rw [hv] at h2
  rcases (by omega : s = 0 ∨ s = 1) with rfl | rfl
  · exact truncated_eq (k := 150) h2
  · exact h2

-- 457.3
example : U128.ofFloat (BitVec.ofNat 32 (0 * 2 ^ 31 + 135 * 2 ^ 23 + 0x64A666)) = .ok ⟨0, 457⟩ := by decide +kernel

/-- C81.  Operators with a `double` or a `float` on the left first drop its fraction, replace NaN and negative numbers by
0 and numbers beyond the range by the greatest value; none has undefined behaviour. -/
theorem C81_mixed (op : U128.Op) (d : BitVec 64) (f : BitVec 32) (y : U128) :
    (∃ a r, Converts (doubleVal d) a ∧ U128.mixedDouble op d y = .ok r ∧ (r.val : Int) = opValue op a y.val) ∧
    (∃ a r, Converts (floatVal f) a ∧ U128.mixedFloat op f y = .ok r ∧ (r.val : Int) = opValue op a y.val) := by
  obtain ⟨x, h1, h2⟩ := C81_double d
  obtain ⟨z, h3, h4⟩ := C81_float f
  obtain ⟨r, k1, _, k2⟩ := C58_operators op x y
  obtain ⟨q, k3, _, k4⟩ := C58_operators op z y
  refine ⟨⟨x.val, r, h2, ?_, k2⟩, z.val, q, h4, ?_, k4⟩
  · show (U128.ofDouble d >>= fun x => _) = _
    rw [h1]
    exact k1
  · show (U128.ofFloat f >>= fun x => _) = _
    rw [h3]
    exact k3

-- 2.5 * 2 is 4, and -1.0 + 5 is 5
example : U128.mixedDouble .mul 0x4004000000000000#64 ⟨0, 2⟩ = .ok ⟨0, 4⟩ ∧
    U128.mixedDouble .add 0xBFF0000000000000#64 ⟨0, 5⟩ = .ok ⟨0, 5⟩ := by decide +kernel

/-- C81, `long double` on the left: the number is rounded to 53 significant bits first. -/
theorem C81_mixed_long_double (op : U128.Op) (neg : Bool) (m : Nat) (e : Int) (y : U128) :
    ∃ d a r, Nearest 53 m d ∧ Converts (.fin neg d e) a ∧ U128.mixedLongDouble op (.fin neg m e) y = .ok r ∧
      (r.val : Int) = opValue op a y.val := by
  obtain ⟨x, d, h1, h2, h3⟩ := C81_long_double_exact neg m e
  obtain ⟨r, k1, _, k2⟩ := C58_operators op x y
  refine ⟨d, x.val, r, h2, h3, ?_, k2⟩
  show (U128.ofLongDouble _ >>= fun x => _) = _
  rw [h1]
  exact k1

example : U128.mixedLongDouble .sub (.fin false (2 ^ 64 - 1) 0) ⟨0, 1⟩ = .ok ⟨0, 0xFFFFFFFFFFFFFFFF⟩ := by decide +kernel

end Ip
