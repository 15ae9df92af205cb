import Verif.Model.U128
/-
`include/ipaddress/uint128.hpp`: conversion to floating point.

A finite double with an integral value is written as that integer.  The operations of the hardware
are IEEE 754 operations in the default rounding mode: the exact result rounded to 53 significant
bits, to nearest, ties to even.  Overflow does not occur: every value here is below `2^130`.
-/
set_option autoImplicit false

namespace Ip

/-- Rounding of a natural number to `p` significant bits, to nearest, ties to even (IEEE 754,
`roundTiesToEven`); used by every floating point operation of `uint128.hpp:1449-1473`. -/
def roundTo (p v : Nat) : Nat :=
  if v < 2 ^ p then v
  else
    let k := v.log2 + 1 - p
    let q := v / 2 ^ k
    let r := v % 2 ^ k
    let up := 2 * r > 2 ^ k ∨ (2 * r = 2 ^ k ∧ q % 2 = 1)
    (if up then q + 1 else q) * 2 ^ k

/-- The same on integers: the sign is kept. -/
def roundInt (p : Nat) (z : Int) : Int :=
  if z < 0 then -(roundTo p z.natAbs : Int) else (roundTo p z.natAbs : Int)

/-- Addition of doubles, as in `uint128.hpp:1467` and `1472`. -/
def dAdd (a b : Int) : Int := roundInt 53 (a + b)

/-- Subtraction of doubles, as in `uint128.hpp:1465-1471`. -/
def dSub (a b : Int) : Int := roundInt 53 (a - b)

/-- `uint128.hpp:1475-1479`, `uint64_bits_to_double`: the value of a bit pattern with sign 0 and an
exponent field of at least 1075, `(2^52 + fraction) * 2^(exponent - 1075)`.  Other patterns are not
formed and are not represented. -/
def bitsToDouble (bits : BitVec 64) : Int :=
  ((2 ^ 52 + (bits &&& 0xFFFFFFFFFFFFF#64).toNat) * 2 ^ (((bits >>> 52) &&& 0x7FF#64).toNat - 1075) : Nat)

namespace U128

/-- `uint128.hpp:1449-1473`, `to_double`; `(uint64_t)(value >> n)` is the lower half. -/
def toDouble (x : U128) : Res Int :=
  if x.upper == 0 then .ok (roundInt 53 x.lower.toNat)
  else if (x.upper >>> 24) == 0 then do
    let lower := dSub (bitsToDouble (0x4330000000000000#64 ||| ((x.lower <<< 12) >>> 12))) 4503599627370496
    let s ← x.shr 52
    let upper := dSub (bitsToDouble (0x4670000000000000#64 ||| s.lower)) 20282409603651670423947251286016
    .ok (dAdd lower upper)
  else do
    let t ← x.shr 12
    let lower := dSub (bitsToDouble (0x44B0000000000000#64 ||| (t.lower >>> 12) ||| (x.lower &&& 0xFFFFFF#64)))
      75557863725914323419136
    let s ← x.shr 76
    let upper := dSub (bitsToDouble (0x47F0000000000000#64 ||| s.lower)) 340282366920938463463374607431768211456
    .ok (dAdd lower upper)

/-- `uint128.hpp:639-641`, conversion to `long double`: the double is converted exactly. -/
def toLongDouble (x : U128) : Res Int := x.toDouble

/-- `uint128.hpp:661-663`, conversion to `float`: the double is rounded to 24 significant bits;
`none` is infinity, for a rounded value of `2^128` or more. -/
def toFloat (x : U128) : Res (Option Int) := do
  let d ← x.toDouble
  let f := roundInt 24 d
  .ok (if f ≥ 340282366920938463463374607431768211456 then none else some f)

end U128

end Ip
