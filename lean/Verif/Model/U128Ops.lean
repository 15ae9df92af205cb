import Verif.Model.U128
import Verif.Model.Compare
/-
`include/ipaddress/uint128.hpp`: conversions from and to the built-in integer types, operators with
a built-in operand, assignment and logical operators.
-/
set_option autoImplicit false

namespace Ip

/-- A value of a built-in integer type: whether the type is signed and the bits. -/
structure Builtin where
  signed : Bool
  width : Nat
  bits : BitVec width

/-- `uint128.hpp:141-230`: a built-in value is converted to `unsigned long long` or `long long`
(64 bits) and from there to `uint128_t`.  `bool`, the character types and `unsigned char` have no
constructor of their own and are first promoted to `int`, which keeps the value. -/
def Builtin.toU128 (n : Builtin) : U128 :=
  if n.signed then U128.ofI64 (n.bits.signExtend 64) else U128.ofU64 (n.bits.setWidth 64)

namespace U128

/-- `uint128.hpp:518-597, 617-630`, conversion to a built-in integer type: the lower half is converted.  A
conversion to a narrower or signed type keeps the low bits (C++20, and the usual choice before). -/
def toBuiltin (signed : Bool) (width : Nat) (x : U128) : Builtin := ⟨signed, width, x.lower.setWidth width⟩

/-- `uint128.hpp:606-608`, conversion to `unsigned char`: through `char`, here signed or unsigned
(`charSigned`). -/
def toUChar (charSigned : Bool) (x : U128) : Builtin :=
  let c : BitVec 8 := x.lower.setWidth 8
  ⟨false, 8, if charSigned then c.signExtend 8 else c.setWidth 8⟩

/-- The binary operators of arithmetic. -/
inductive Op where
  | add | sub | mul | div | rem | and | or | xor
deriving DecidableEq, Repr

/-- `uint128.hpp:843-937`, the operators on two `uint128_t`. -/
def apply : Op → U128 → U128 → Res U128
  | .add, x, y => .ok (x.add y)
  | .sub, x, y => .ok (x.sub y)
  | .mul, x, y => .ok (x.mul y)
  | .div, x, y => x.div y
  | .rem, x, y => x.mod y
  | .and, x, y => .ok (x.and y)
  | .or, x, y => .ok (x.or y)
  | .xor, x, y => .ok (x.xor y)

/-- `uint128.hpp:673-770`, the compound assignments: the new value of `*this`. The bit operations
work on the halves in place. -/
def assign : Op → U128 → U128 → Res U128
  | .add, x, y => .ok (x.add y)
  | .sub, x, y => .ok (x.sub y)
  | .mul, x, y => .ok (x.mul y)
  | .div, x, y => x.div y
  | .rem, x, y => x.mod y
  | .and, x, y =>
    let x := { x with upper := x.upper &&& y.upper }
    .ok { x with lower := x.lower &&& y.lower }
  | .or, x, y =>
    let x := { x with upper := x.upper ||| y.upper }
    .ok { x with lower := x.lower ||| y.lower }
  | .xor, x, y =>
    let x := { x with upper := x.upper ^^^ y.upper }
    .ok { x with lower := x.lower ^^^ y.lower }

/-- `uint128.hpp:782-800`, `<<=` and `>>=`. -/
def assignShl (x : U128) (shift : Int) : Res U128 := x.shl shift

@[inherit_doc assignShl]
def assignShr (x : U128) (shift : Int) : Res U128 := x.shr shift

/-- `uint128.hpp:1678-1772`, operators with a built-in left operand. -/
def mixedLeft (op : Op) (n : Builtin) (y : U128) : Res U128 := apply op n.toU128 y

/-- Operators with a built-in right operand: the operand is converted by the implicit constructors
(`uint128.hpp:141-230`). -/
def mixedRight (op : Op) (x : U128) (n : Builtin) : Res U128 := apply op x n.toU128

/-- `uint128.hpp:1079-1081, 1105-1108, 1133-1136, 1165-1168, 1191-1194, 1217-1220, 1243-1246`,
comparison with a built-in right operand. -/
def cmpRight (spaceship : Bool) (x : U128) (n : Builtin) : Res CmpOps := u128CmpOps spaceship x n.toU128

/-- `uint128.hpp:1782-1883`, comparison with a built-in left operand. -/
def cmpLeft (spaceship : Bool) (n : Builtin) (y : U128) : Res CmpOps := u128CmpOps spaceship n.toU128 y

/-- `uint128.hpp:1016-1020`, postfix `++`: the returned value and the new value of `*this`. -/
def postInc (x : U128) : U128 × U128 :=
  let tmp := x
  (tmp, x.inc)

/-- `uint128.hpp:1029-1033`, postfix `--`. -/
def postDec (x : U128) : U128 × U128 :=
  let tmp := x
  (tmp, x.dec)

/-- `uint128.hpp:1042-1044`, `!`. -/
def isZero (x : U128) : Bool := x.upper == 0 && x.lower == 0

/-- `uint128.hpp:1054-1056`, `&&`. -/
def both (x y : U128) : Bool := (x.upper != 0 || x.lower != 0) && (y.upper != 0 || y.lower != 0)

/-- `uint128.hpp:1066-1068`, `||`. -/
def either (x y : U128) : Bool := (x.upper != 0 || x.lower != 0) || (y.upper != 0 || y.lower != 0)

/-- `uint128.hpp:310-314`, `swap`, and `2056-2060`, `std::swap`: the new values of the two operands. -/
def swap (x y : U128) : U128 × U128 :=
  let tmp := x
  let x := y
  (x, tmp)

/-- `uint128.hpp:1930-1940`, `numeric_limits::min` and `lowest`. -/
def limitMin : U128 := ofI64 0

/-- `uint128.hpp:1934-1936`, `numeric_limits::max`. -/
def limitMax : U128 := ⟨0xFFFFFFFFFFFFFFFF, 0xFFFFFFFFFFFFFFFF⟩

/-- `uint128.hpp:1924`, `numeric_limits::digits`. -/
def limitDigits : Nat := 128

/-- `uint128.hpp:1925`, `numeric_limits::digits10`. -/
def limitDigits10 : Nat := 38

/-- `uint128.hpp:1926`, `numeric_limits::radix`. -/
def limitRadix : Nat := 2

/-- `uint128.hpp:1909`, `numeric_limits::is_modulo`. -/
def limitModulo : Bool := true

/-- `uint128.hpp:1912`, `numeric_limits::is_signed`. -/
def limitSigned : Bool := false

/-- `uint128.hpp:1918`, `numeric_limits::traps`. -/
def limitTraps : Bool := false

/-- `uint128.hpp:809-811`, unary `+`, and `2062-2064`, `abs`. -/
def plus (x : U128) : U128 := x

end U128

end Ip
