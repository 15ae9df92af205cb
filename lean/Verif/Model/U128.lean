import Verif.Model.Bytes
/-
`include/ipaddress/uint128.hpp`: 128 bit unsigned integers from two 64 bit halves.
-/
set_option autoImplicit false

namespace Ip

/-- The two halves (`uint128.hpp:1657-1667`). -/
structure U128 where
  upper : BitVec 64
  lower : BitVec 64
deriving DecidableEq, Repr

namespace U128

/-- `uint128.hpp:141-176`: conversion from an unsigned integer type. -/
def ofU64 (x : BitVec 64) : U128 := ⟨0, x⟩

/-- `uint128.hpp:185-230`: conversion from a signed integer type (a 64 bit two's complement
value): the upper half is `int64_t(lower) >> 63`. -/
def ofI64 (x : BitVec 64) : U128 := ⟨x.sshiftRight 63, x⟩

/-- `uint128.hpp:843-847`. -/
def add (x y : U128) : U128 :=
  let lower := x.lower + y.lower
  let carry : BitVec 64 := if lower < x.lower then 1 else 0
  ⟨x.upper + y.upper + carry, lower⟩

/-- `uint128.hpp:857-861`. -/
def sub (x y : U128) : U128 :=
  let lower := x.lower - y.lower
  let borrow : BitVec 64 := if lower > x.lower then 1 else 0
  ⟨x.upper - y.upper - borrow, lower⟩

/-- `uint128.hpp:831-833`. -/
def not (x : U128) : U128 := ⟨~~~x.upper, ~~~x.lower⟩

/-- `uint128.hpp:992-995`, prefix `++`. -/
def inc (x : U128) : U128 := x.add (ofI64 1)

/-- `uint128.hpp:1004-1007`, prefix `--`. -/
def dec (x : U128) : U128 := x.sub (ofI64 1)

/-- `uint128.hpp:820-822`, unary minus. -/
def neg (x : U128) : U128 := x.not.inc

/-- `uint128.hpp:1263-1276`, `big_mul`: upper and lower half of the product. -/
def bigMul (a b : BitVec 64) : BitVec 64 × BitVec 64 :=
  let al := a.setWidth 32
  let ah := (a >>> 32).setWidth 32
  let bl := b.setWidth 32
  let bh := (b >>> 32).setWidth 32
  let mull := al.setWidth 64 * bl.setWidth 64
  let t := ah.setWidth 64 * bl.setWidth 64 + (mull >>> 32)
  let tl := al.setWidth 64 * bh.setWidth 64 + (t.setWidth 32).setWidth 64
  (ah.setWidth 64 * bh.setWidth 64 + (t >>> 32) + (tl >>> 32), (tl <<< 32) ||| (mull.setWidth 32).setWidth 64)

/-- `uint128.hpp:871-876`. -/
def mul (x y : U128) : U128 :=
  let p := bigMul x.lower y.lower
  ⟨p.1 + (x.upper * y.lower + x.lower * y.upper), p.2⟩

/-- `uint128.hpp:911-913`. -/
def and (x y : U128) : U128 := ⟨x.upper &&& y.upper, x.lower &&& y.lower⟩

/-- `uint128.hpp:923-925`. -/
def or (x y : U128) : U128 := ⟨x.upper ||| y.upper, x.lower ||| y.lower⟩

/-- `uint128.hpp:935-937`. -/
def xor (x y : U128) : U128 := ⟨x.upper ^^^ y.upper, x.lower ^^^ y.lower⟩

/-- `<<` of a 64 bit operand; shifting by 64 or more is undefined. -/
def shl64 (x : BitVec 64) (n : Nat) : Res (BitVec 64) := if n < 64 then .ok (x <<< n) else .ub

/-- `>>` of a 64 bit operand; shifting by 64 or more is undefined. -/
def shr64 (x : BitVec 64) (n : Nat) : Res (BitVec 64) := if n < 64 then .ok (x >>> n) else .ub

/-- `uint128.hpp:948-960`, `<<` by a value of any integer type. -/
def shl (x : U128) (shift : Int) : Res U128 :=
  if shift = 0 then .ok x
  else if shift ≥ 64 ∧ shift ≤ 128 then do
    let u ← shl64 x.lower (shift - 64).toNat
    .ok ⟨u, 0⟩
  else if shift < 64 ∧ shift > 0 then do
    let u ← shl64 x.upper shift.toNat
    let l ← shr64 x.lower (64 - shift).toNat
    let l' ← shl64 x.lower shift.toNat
    .ok ⟨u + l, l'⟩
  else .ok ⟨0, 0⟩

/-- `uint128.hpp:971-983`, `>>` by a value of any integer type. -/
def shr (x : U128) (shift : Int) : Res U128 :=
  if shift = 0 then .ok x
  else if shift ≥ 64 ∧ shift ≤ 128 then do
    let l ← shr64 x.upper (shift - 64).toNat
    .ok ⟨0, l⟩
  else if shift < 64 ∧ shift > 0 then do
    let u ← shr64 x.upper shift.toNat
    let l ← shr64 x.lower shift.toNat
    let u' ← shl64 x.upper (64 - shift).toNat
    .ok ⟨u, l + u'⟩
  else .ok ⟨0, 0⟩

/-- `uint128.hpp:1092-1094`. -/
def eq (x y : U128) : Bool := x.upper == y.upper && x.lower == y.lower

/-- `uint128.hpp:1178-1180`, `<` without the three way operator. -/
def lt (x y : U128) : Bool := x.upper.ult y.upper || (x.upper == y.upper && x.lower.ult y.lower)

/-- Three way comparison of 64 bit values. -/
def cmp64 (x y : BitVec 64) : Ordering := if x.ult y then .lt else if x == y then .eq else .gt

/-- `uint128.hpp:1146-1152`, three way comparison. -/
def cmp (x y : U128) : Ordering :=
  let r := cmp64 x.upper y.upper
  if r = .eq then cmp64 x.lower y.lower else r

/-- `uint128.hpp:507-509`, conversion to `bool`. -/
def toBool (x : U128) : Bool := x.upper != 0 || x.lower != 0

/-- `uint128.hpp:296-301`. -/
def hash (x : U128) : BitVec 64 :=
  let seed := hashCombine x.upper
  hashCombine (seed + 0x9e3779b9#64 + x.lower)

/-! ### Division

In `divide_slow` and its helpers `uint32_t`, `uint64_t` and `int32_t` values are written as natural
numbers; every operation that may leave the range is reduced explicitly. -/

/-- Conversion to `uint32_t`. -/
def u32 (x : Nat) : Nat := x % 4294967296

/-- Conversion to `uint64_t`. -/
def u64 (x : Nat) : Nat := x % 18446744073709551616

/-- The loops `for (i = 0; i < w; ++i) if (v & (1ULL << (w - 1 - i))) return i;` of
`uint128.hpp:1489-1493`, `1496-1500`, `1508-1512`; `w` when no bit is set. -/
def lzcLoop (v w : Nat) : Nat → Nat → Nat
  | 0, i => i
  | n + 1, i => if v.testBit (w - 1 - i) then i else lzcLoop v w n (i + 1)

/-- `uint128.hpp:1487-1503`, `leading_zero_count(const uint128_t&)`. -/
def lzc128 (x : U128) : Nat :=
  if x.upper ≠ 0 then lzcLoop x.upper.toNat 64 64 0
  else if x.lower ≠ 0 then 64 + lzcLoop x.lower.toNat 64 64 0
  else 128

/-- `uint128.hpp:1505-1515`, `leading_zero_count(uint32_t)`. -/
def lzc32 (v : Nat) : Nat := if v ≠ 0 then lzcLoop v 32 32 0 else 32

/-- The four 32 bit limbs, least significant first (`uint128.hpp:1297-1302`, `1305-1310`). -/
def limbs (x : U128) : List Nat :=
  [u32 x.lower.toNat, u32 (x.lower >>> 32).toNat, u32 x.upper.toNat, u32 (x.upper >>> 32).toNat]

/-- `uint128.hpp:1381-1391`, `divide_guess_too_big`; a failing assertion is `ub`. -/
def guessTooBig (q valHi valLo divHi divLo : Nat) : Res Bool :=
  if q > 0xFFFFFFFF then .ub
  else
    let chkHi := u64 (divHi * q)
    let chkLo := u64 (divLo * q)
    let chkHi := u64 (chkHi + chkLo / 4294967296)
    let chkLo := u32 chkLo
    .ok (decide (chkHi > valHi) || (decide (chkHi = valHi) && decide (chkLo > valLo)))

/-- `uint128.hpp:1351-1353`: the correction loop, at most `fuel` rounds. -/
def guessLoop (valHi valLo divHi divLo : Nat) : Nat → Nat → Res Nat
  | 0, _ => .ub
  | fuel + 1, digit => do
    let big ← guessTooBig digit valHi valLo divHi divLo
    if big then guessLoop valHi valLo divHi divLo fuel (u64 (digit + 18446744073709551615))
    else .ok digit

/-- `uint128.hpp:1399-1409`: the loop of `subtract_divisor`, `k` rounds left, from `i`. -/
def subtractLoop (right : List Nat) (n q : Nat) : Nat → Nat → Nat → List Nat → Res (List Nat × Nat)
  | 0, _, carry, left => .ok (left, u32 carry)
  | k + 1, i, carry, left => do
    let r ← rd right i
    let carry := u64 (carry + u64 (r * q))
    let digit := u32 carry
    let carry := carry / 4294967296
    let l ← rd left (n + i)
    let carry := if l < digit then u64 (carry + 1) else carry
    let left ← wr left (n + i) (u32 (l + 4294967296 - digit))
    subtractLoop right n q k (i + 1) carry left

/-- `uint128.hpp:1393-1412`, `subtract_divisor` on `left + n`, with its assertions. -/
def subtractDivisor (left : List Nat) (n ls : Nat) (right : List Nat) (rs q : Nat) : Res (List Nat × Nat) :=
  if ls < rs ∨ q > 0xFFFFFFFF then .ub
  else subtractLoop right n q rs 0 0 left

/-- `uint128.hpp:1419-1423`: the loop of `add_divisor`. -/
def addLoop (right : List Nat) (n : Nat) : Nat → Nat → Nat → List Nat → Res (List Nat × Nat)
  | 0, _, carry, left => .ok (left, u32 carry)
  | k + 1, i, carry, left => do
    let r ← rd right i
    let l ← rd left (n + i)
    let digit := u64 (u64 (l + carry) + r)
    let left ← wr left (n + i) (u32 digit)
    addLoop right n k (i + 1) (digit / 4294967296) left

/-- `uint128.hpp:1414-1426`, `add_divisor` on `left + n`, with its assertion. -/
def addDivisor (left : List Nat) (n ls : Nat) (right : List Nat) (rs : Nat) : Res (List Nat × Nat) :=
  if ls < rs then .ub
  else addLoop right n rs 0 0 left

/-- `cond ? a[i] : 0`. -/
def rdIf (cond : Bool) (a : List Nat) (i : Nat) : Res Nat := if cond then rd a i else .ok 0

/-- `(x << shift) | (y >> (32 - shift))` for 32 bit `x`, `y` and `0 < shift`
(`uint128.hpp:1328`, `1329`, `1342`); a shift by 32 or more is undefined. -/
def shiftIn32 (shift x y : Nat) : Res Nat :=
  if shift ≥ 32 then .ub else .ok (u32 (x <<< shift) ||| (y >>> (32 - shift)))

/-- The normalised leading limbs of the divisor (`uint128.hpp:1320-1330`): high, low, shift. -/
def normDivisor (right : List Nat) (rs : Nat) : Res (Nat × Nat × Nat) := do
  let divHi ← rd right (rs - 1)
  let divLo ← rdIf (decide (rs > 1)) right (rs - 2)
  let shift := lzc32 divHi
  if shift > 0 then do
    let divNx ← rdIf (decide (rs > 2)) right (rs - 3)
    let hi ← shiftIn32 shift divHi divLo
    let lo ← shiftIn32 shift divLo divNx
    .ok (hi, lo, shift)
  else .ok (divHi, divLo, shift)

/-- The normalised leading limbs of the dividend at position `i` (`uint128.hpp:1336-1343`). -/
def normDividend (left : List Nat) (i t shift : Nat) : Res (Nat × Nat) := do
  let l1 ← rd left (i - 1)
  let valHi := (t <<< 32) ||| l1
  let valLo ← rdIf (decide (i > 1)) left (i - 2)
  if shift > 0 then do
    let valNx ← rdIf (decide (i > 2)) left (i - 3)
    if shift ≥ 32 then .ub
    else do
      let hi := u64 (valHi <<< shift) ||| (valLo >>> (32 - shift))
      let lo ← shiftIn32 shift valLo valNx
      .ok (hi, lo)
  else .ok (valHi, valLo)

/-- `uint128.hpp:1345-1353`: the quotient digit guess. -/
def guessDigit (valHi valLo divHi divLo : Nat) : Res Nat :=
  if divHi = 0 then .ub
  else
    let digit := valHi / divHi
    let digit := if digit > 0xFFFFFFFF then 0xFFFFFFFF else digit
    guessLoop valHi valLo divHi divLo (0x100000000 + 1) digit

/-- `uint128.hpp:1355-1367`: subtraction and correction of the digit. -/
def applyDigit (left : List Nat) (n ls : Nat) (right : List Nat) (rs t digit : Nat) : Res (List Nat × Nat) :=
  if digit > 0 then do
    let s ← subtractDivisor left n (ls - n) right rs digit
    if s.2 ≠ t then
      if s.2 ≠ u32 (t + 1) then .ub
      else do
        let a ← addDivisor s.1 n (ls - n) right rs
        if a.2 ≠ 1 then .ub else .ok (a.1, digit - 1)
    else .ok (s.1, digit)
  else .ok (left, digit)

/-- `if (cond) a[i] = x;`. -/
def wrIf (cond : Bool) (a : List Nat) (i x : Nat) : Res (List Nat) := if cond then wr a i x else .ok a

/-- `uint128.hpp:1332-1376`: the loop over the digits; `k` rounds left, current position `i`
(`i` runs from `left_size` down to `right_size`).  Arguments: sizes, divisor limbs, normalised
divisor; state: remainder limbs and quotient limbs. -/
def divLoop (ls rs : Nat) (right : List Nat) (nd : Nat × Nat × Nat) :
    Nat → Nat → List Nat → List Nat → Res (List Nat)
  | 0, _, _, bits => .ok bits
  | k + 1, i, left, bits => do
    let n := i - rs
    let t ← rdIf (decide (i < ls)) left i
    let v ← normDividend left i t nd.2.2
    let digit ← guessDigit v.1 v.2 nd.1 nd.2.1
    let r ← applyDigit left n ls right rs t digit
    let bits ← wrIf (decide (n < ls - rs + 1)) bits n (u32 r.2)
    let left ← wrIf (decide (i < ls)) r.1 i 0
    divLoop ls rs right nd k (i - 1) left bits

/-- The number made of four 32 bit limbs (`uint128.hpp:1378`). -/
def ofLimbs (bits : List Nat) : Res U128 := do
  let b3 ← rd bits 3
  let b2 ← rd bits 2
  let b1 ← rd bits 1
  let b0 ← rd bits 0
  .ok ⟨BitVec.ofNat 64 ((b3 <<< 32) ||| b2), BitVec.ofNat 64 ((b1 <<< 32) ||| b0)⟩

/-- `uint128.hpp:1296-1379`, `divide_slow`. -/
def divideSlow (x y : U128) : Res U128 :=
  let left := limbs x
  let ls := 4 - lzc128 x / 32
  let right := limbs y
  let rs := 4 - lzc128 y / 32
  if ls < 1 ∨ rs < 1 ∨ ls < rs then .ub
  else do
    let nd ← normDivisor right rs
    let bits ← divLoop ls rs right nd (ls - rs + 1) ls left [0, 0, 0, 0]
    ofLimbs bits

/-- `uint128.hpp:1278-1294`, `divide`. -/
def div (x y : U128) : Res U128 :=
  if y.upper = 0 ∧ y.lower = 0 then .ok ⟨0, 0⟩
  else if y.upper = 0 ∧ x.upper = 0 then .ok (ofU64 (x.lower / y.lower))
  else if !(y.lt x) then .ok (if y.eq x then ⟨0, 1⟩ else ⟨0, 0⟩)
  else divideSlow x y

/-- `uint128.hpp:898-901`, `%`. -/
def mod (x y : U128) : Res U128 := do
  let q ← div x y
  .ok (x.sub (q.mul y))

/-! ### Text -/

/-- `uint128_t::format` (`uint128.hpp:61-65`). -/
inductive Base where
  | decimal
  | octal
  | hexadecimal
deriving DecidableEq, Repr

/-- The number base of a format. -/
def Base.radix : Base → Nat
  | .decimal => 10
  | .octal => 8
  | .hexadecimal => 16

/-- One digit written by the loops: `ss << r._lower` or `digits[r._lower]`.  For the decimal and
octal loops the number itself is streamed. -/
def digitText (base : Base) (r : BitVec 64) : Res (List Char) :=
  match base with
  | .hexadecimal => do
    let c ← rd ['0', '1', '2', '3', '4', '5', '6', '7', '8', '9', 'a', 'b', 'c', 'd', 'e', 'f'] r.toNat
    .ok [c]
  | _ => .ok (Nat.toDigits 10 r.toNat)

/-- The loops of `uint128.hpp:1517-1567`: digits in reverse order, at most `fuel` rounds.  The
literal (`10`, `8` or `16`) is converted from `int`. -/
def toTextLoop (base : Base) : Nat → U128 → List Char → Res (List Char)
  | 0, _, _ => .ub
  | fuel + 1, value, out => do
    let b := ofI64 (BitVec.ofNat 64 base.radix)
    let q ← div value b
    let r := value.sub (q.mul b)
    let d ← digitText base r.lower
    let out := out ++ d
    if q.toBool then toTextLoop base fuel q out else .ok out

/-- `uint128.hpp:325-351`, `to_string`.  When the upper half is zero the number is formatted by
`std::ostringstream` in the given base (classic locale), which writes the digits without leading
zeros. -/
def toText (x : U128) (base : Base) : Res (List Char) :=
  if x.upper = 0 then .ok (Nat.toDigits base.radix x.lower.toNat)
  else do
    let out ← toTextLoop base 129 x []
    .ok out.reverse

/-- The value of a digit in a base: `uint128.hpp:1602`, `1622`, `1643-1651`. -/
def digitOf (base : Base) (c : Char) : Option Nat :=
  match base with
  | .decimal => if c < '0' ∨ c > '9' then none else some (c.toNat - '0'.toNat)
  | .octal => if c < '0' ∨ c > '7' then none else some (c.toNat - '0'.toNat)
  | .hexadecimal =>
    if c ≥ '0' ∧ c ≤ '9' then some (c.toNat - '0'.toNat)
    else if c ≥ 'A' ∧ c ≤ 'F' then some (c.toNat - 55)
    else if c ≥ 'a' ∧ c ≤ 'f' then some (c.toNat - 87)
    else none

/-- `uint128.hpp:1590-1655`, the loops of `from_string`; `none` is the empty optional. -/
def fromTextLoop (base : Base) : List Ev → U128 → Option U128
  | [], result => some result
  | .bad _ _ :: _, _ => none
  | .ch c :: rest, result =>
    if c = '\x00' then some result
    else
      match digitOf base c with
      | none => none
      | some d =>
        fromTextLoop base rest
          ((result.mul (ofI64 (BitVec.ofNat 64 base.radix))).add (ofI64 (BitVec.ofNat 64 d)))

/-- `uint128.hpp:419-498`, `from_string`. -/
def fromText (base : Base) (evs : List Ev) : Option U128 := fromTextLoop base evs (ofI64 0)

/-! ### Floating point -/

/-- `uint128.hpp:1428-1447`, `from_double`, for a finite, non negative double given by its
biased exponent field and its 52 bit fraction (so the value is
`(2^52 + fraction) * 2^(exponent - 1075)` for a normal number).  The tests on the value are
written on the fields: `value >= 2^128` iff the exponent field is at least 1151, `value >= 1` iff
it is at least 1023.  Negative numbers and NaN give 0 and are not represented. -/
def fromDouble (exponent : Nat) (fraction : BitVec 52) : Res U128 :=
  if exponent ≥ 1151 then .ok ⟨0xFFFFFFFFFFFFFFFF, 0xFFFFFFFFFFFFFFFF⟩
  else if exponent ≥ 1023 then
    let bits : BitVec 64 := (BitVec.ofNat 64 exponent <<< 52) ||| fraction.setWidth 64
    shr ⟨((bits <<< 12) >>> 1) ||| 0x8000000000000000#64, 0⟩ (1023 + 128 - 1 - ((bits >>> 52).toNat : Int))
  else .ok ⟨0, 0⟩

end U128

end Ip
