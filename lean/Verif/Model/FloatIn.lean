import Verif.Model.U128Ops
/-
`include/ipaddress/uint128.hpp`: the constructors from `double`, `long double` and `float`.
-/
set_option autoImplicit false

namespace Ip

/-- A floating point datum (IEEE 754): not a number, an infinity, or `m * 2^e` with a sign. It is the
argument of the constructors of `uint128.hpp:239-265`. -/
inductive FVal where
  | nan
  | inf (neg : Bool)
  | fin (neg : Bool) (m : Nat) (e : Int)
deriving DecidableEq, Repr

/-- The datum of a bit pattern of `double` (binary64), the argument of `uint128.hpp:239-243`. -/
def doubleVal (bits : BitVec 64) : FVal :=
  let neg := decide (bits.toNat / 2 ^ 63 = 1)
  let e : Nat := bits.toNat / 2 ^ 52 % 2048
  let f := bits.toNat % 2 ^ 52
  if e = 2047 then (if f = 0 then .inf neg else .nan)
  else if e = 0 then .fin neg f (-1074)
  else .fin neg (2 ^ 52 + f) ((e : Int) - 1075)

/-- The datum of a bit pattern of `float` (binary32), the argument of `uint128.hpp:264-265`. -/
def floatVal (bits : BitVec 32) : FVal :=
  let neg := decide (bits.toNat / 2 ^ 31 = 1)
  let e : Nat := bits.toNat / 2 ^ 23 % 256
  let f := bits.toNat % 2 ^ 23
  if e = 255 then (if f = 0 then .inf neg else .nan)
  else if e = 0 then .fin neg f (-149)
  else .fin neg (2 ^ 23 + f) ((e : Int) - 150)

/-- `value < 0` of `uint128.hpp:1431`: false for NaN and for both zeros. -/
def FVal.negative : FVal → Bool
  | .nan => false
  | .inf neg => neg
  | .fin neg m _ => neg && m != 0

/-- `std::isnan`, `uint128.hpp:1431`. -/
def FVal.isNan : FVal → Bool
  | .nan => true
  | _ => false

/-- `value >= k` of `uint128.hpp:1435` and `1439`, for a positive constant `k`. -/
def FVal.atLeast (k : Nat) : FVal → Bool
  | .nan => false
  | .inf neg => !neg
  | .fin neg m e => !neg && decide (k * 2 ^ (-e).toNat ≤ m * 2 ^ e.toNat)

/-- Division rounded to nearest, ties to even, as in every conversion between floating point formats
of `uint128.hpp:254` and `264`. -/
def roundQuot (a d : Nat) : Nat :=
  let q := a / d
  let r := a % d
  if 2 * r > d ∨ (2 * r = d ∧ q % 2 = 1) then q + 1 else q

/-- The bits, without the sign, of the `double` nearest to `m * 2^e` (`uint128.hpp:254`, `264`):
`q` is the exponent of the last place, and a carry of the significand into the exponent field gives the
next power of two, up to infinity. -/
def doubleBits (m : Nat) (e : Int) : Nat :=
  if m = 0 then 0
  else
    let top := (m.log2 : Int) + e
    if top > 1023 then 2047 * 2 ^ 52
    else
      let q := max (top - 52) (-1074)
      let n := if q ≤ e then m * 2 ^ (e - q).toNat else roundQuot m (2 ^ (q - e).toNat)
      (q + 1074).toNat * 2 ^ 52 + n

/-- The conversion `(double) value` of a `long double` or `float`, `uint128.hpp:254` and `264`, in the
default rounding mode. -/
def toDoubleBits : FVal → BitVec 64
  | .nan => 0x7FF8000000000000#64
  | .inf neg => if neg then 0xFFF0000000000000#64 else 0x7FF0000000000000#64
  | .fin neg m e => BitVec.ofNat 64 ((if neg then 2 ^ 63 else 0) + doubleBits m e)

namespace U128

/-- `uint128.hpp:1428-1447`, `from_double`, with `double_to_uint64_bits` of `1481-1485`: the argument
is the bit pattern. `int32_t(bits >> 52)` keeps the value. -/
def fromDoubleBits (bits : BitVec 64) : Res U128 :=
  let value := doubleVal bits
  if value.negative || value.isNan then .ok ⟨0, 0⟩
  else if value.atLeast 340282366920938463463374607431768211456 then
    .ok ⟨0xFFFFFFFFFFFFFFFF, 0xFFFFFFFFFFFFFFFF⟩
  else if value.atLeast 1 then
    shr ⟨((bits <<< 12) >>> 1) ||| 0x8000000000000000#64, 0⟩ (1023 + 128 - 1 - ((bits >>> 52).toNat : Int))
  else .ok ⟨0, 0⟩

/-- `uint128.hpp:239-243`, the constructor from `double`. -/
def ofDouble (bits : BitVec 64) : Res U128 := do
  let result ← fromDoubleBits bits
  .ok { upper := result.upper, lower := result.lower }

/-- `uint128.hpp:254-255`, the constructor from `long double`.  The argument is a datum of any binary
format: x87 numbers have `m < 2^64`, binary128 numbers `m < 2^113`. -/
def ofLongDouble (value : FVal) : Res U128 := ofDouble (toDoubleBits value)

/-- `uint128.hpp:264-265`, the constructor from `float`. -/
def ofFloat (bits : BitVec 32) : Res U128 := ofDouble (toDoubleBits (floatVal bits))

/-- `uint128.hpp:1678-1772`, operators with a left operand of type `double`: the templates take every arithmetic
type, so the explicit constructor is used. -/
def mixedDouble (op : Op) (lower : BitVec 64) (value : U128) : Res U128 := do
  let x ← ofDouble lower
  apply op x value

@[inherit_doc mixedDouble]
def mixedFloat (op : Op) (lower : BitVec 32) (value : U128) : Res U128 := do
  let x ← ofFloat lower
  apply op x value

@[inherit_doc mixedDouble]
def mixedLongDouble (op : Op) (lower : FVal) (value : U128) : Res U128 := do
  let x ← ofLongDouble lower
  apply op x value

end U128

end Ip
