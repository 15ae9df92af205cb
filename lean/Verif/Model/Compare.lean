import Verif.Model.AnyAddr
import Verif.Model.AnyNet
/-
The six comparison operators of the classes, in both language modes: with `<=>` the operators
`<`, `>`, `<=`, `>=` are rewritten by the language in terms of it, without it each class writes them out.
-/
set_option autoImplicit false

namespace Ip

/-- What the six operators return for one pair of operands. -/
structure CmpOps where
  eq : Bool
  ne : Bool
  lt : Bool
  gt : Bool
  le : Bool
  ge : Bool
deriving DecidableEq, Repr

/-- With `<=>` (C++20): `a != b` is `!(a == b)` (written out by every class, for instance
`ip-address-base.hpp:684-686`), and `a @ b` for the ordering operators is `(a <=> b) @ 0`.
`eq` is `a == b`, `cmp` is `a <=> b`. -/
def opsCmp (eq : Res Bool) (cmp : Res Ordering) : Res CmpOps := do
  let e ← eq
  let o ← cmp
  .ok ⟨e, !e, o == .lt, o == .gt, o != .gt, o != .lt⟩

/-- Without `<=>`: `>` is `rhs < lhs`, `<=` is `!(rhs < lhs)`, `>=` is `!(lhs < rhs)`.  Every class writes
these three out in the same way: `ip-address-base.hpp:684-686, 726-754`, `ip-any-address.hpp:1262-1264, 1312-1338`,
`ip-network-base.hpp:1165-1167, 1214-1240`, `ip-any-network.hpp:1236-1238, 1286-1312`,
`ip-address-iterator.hpp:331-333, 371-397, 715-717, 759-785`,
`ip-network-iterator.hpp:329-331, 373-399, 589-591, 629-655`, `ip-any-iterator.hpp:343-345, 390-416`,
`uint128.hpp:1118-1120, 1204-1206, 1230-1232, 1256-1258`, `byte-array.hpp:401-403, 467-495`,
`fixed-string.hpp:537-539, 595-629`.  `eq` is `a == b`, `lt` is `a < b`, `gt` is `b < a`. -/
def opsLess (eq lt gt : Res Bool) : Res CmpOps := do
  let e ← eq
  let l ← lt
  let g ← gt
  .ok ⟨e, !e, l, g, !g, !l⟩

/-- The operators of a class with the given `==`, `<=>` and `<`. -/
def cmpOps {T : Type} (spaceship : Bool) (eq : T → T → Res Bool) (cmp : T → T → Res Ordering) (lt : T → T → Res Bool)
    (a b : T) : Res CmpOps :=
  if spaceship then opsCmp (eq a b) (cmp a b) else opsLess (eq a b) (lt a b) (lt b a)

/-- `byte-array.hpp:379-495`, the operators of byte arrays of one size; also those of `ipv4_address`
(`ip-address-base.hpp:672-754` with `base-v4.hpp` and `ipv4-address.hpp:88-100`). -/
def bytesCmpOps (spaceship : Bool) : List (BitVec 8) → List (BitVec 8) → Res CmpOps :=
  cmpOps spaceship (fun a b => .ok (bytesEq a b)) (fun a b => .ok (bytesCmp a b)) (fun a b => .ok (bytesLess a b))

/-- `ip-address-base.hpp:672-754`, the operators of `ipv6_address`. -/
def v6CmpOps (c : Cfg) : V6 → V6 → Res CmpOps :=
  cmpOps c.spaceship (v6Equals c.val) (v6Compare c.val) (v6Less c.val)

/-- `ip-any-address.hpp:1247-1338`, the operators of `ip_address`. -/
def anyCmpOps (c : Cfg) : AnyAddr → AnyAddr → Res CmpOps :=
  cmpOps c.spaceship (anyEquals c.val) (anyCompare c.val) (anyLess c.val)

/-- `ip-network-base.hpp:1153-1240`, the operators of `ipv4_network` and `ipv6_network`. -/
def netCmpOps {A U : Type} (F : Fam A U) (spaceship : Bool) : Net A → Net A → Res CmpOps :=
  cmpOps spaceship F.netEq F.netCmp F.netLt

/-- `ip-any-network.hpp:1221-1312`, the operators of `ip_network`. -/
def anyNetCmpOps (c : Cfg) : AnyNet → AnyNet → Res CmpOps :=
  cmpOps c.spaceship (anyNetEq c) (anyNetCmp c) (anyNetLt c)

/-- `uint128.hpp:1092-1258`, the operators of `uint128_t`. -/
def u128CmpOps (spaceship : Bool) : U128 → U128 → Res CmpOps :=
  cmpOps spaceship (fun a b => .ok (U128.eq a b)) (fun a b => .ok (U128.cmp a b)) (fun a b => .ok (U128.lt a b))

/-- `fixed-string.hpp:520-522`, `==`. -/
def fstrEq (val : Char → Int) (a b : FStr) : Res Bool := do
  let r ← FStr.compare val a b
  .ok (decide (r = 0))

/-- `fixed-string.hpp:555-563`, `<=>`. -/
def fstrCmp (val : Char → Int) (a b : FStr) : Res Ordering := do
  let r ← FStr.compare val a b
  .ok (if r = 0 then .eq else if r < 0 then .lt else .gt)

/-- `fixed-string.hpp:579-581`, `<` (without `<=>`). -/
def fstrLt (val : Char → Int) (a b : FStr) : Res Bool := do
  let r ← FStr.compare val a b
  .ok (decide (r < 0))

/-- `fixed-string.hpp:520-629`, the operators of `fixed_string`. -/
def fstrCmpOps (spaceship : Bool) (val : Char → Int) : FStr → FStr → Res CmpOps :=
  cmpOps spaceship (fstrEq val) (fstrCmp val) (fstrLt val)

/-- `ip-address-iterator.hpp:703-785`, the operators of `ip_address_iterator`. -/
def aiCmpOps {A U : Type} (F : Fam A U) (spaceship : Bool) : AIter A U → AIter A U → Res CmpOps :=
  cmpOps spaceship F.aiEq F.aiCmp F.aiLt

/-- `ip-network-iterator.hpp:317-399`, the operators of `ip_network_iterator`. -/
def niCmpOps {A U : Type} (F : Fam A U) (spaceship : Bool) : NIter A U → NIter A U → Res CmpOps :=
  cmpOps spaceship F.niEq F.niCmp F.niLt

/-- `ip-address-iterator.hpp:319-321, 345-347, 359-361`: the reverse iterator compares its base
iterators in the opposite order. -/
def rCmpOps {I : Type} (spaceship : Bool) (eq : I → I → Res Bool) (cmp : I → I → Res Ordering) (lt : I → I → Res Bool) :
    RIter I → RIter I → Res CmpOps :=
  cmpOps spaceship (fun x y => eq y.it x.it) (fun x y => cmp y.it x.it) (fun x y => lt y.it x.it)

/-- `ip-network-iterator.hpp:577-579, 603-605, 617-619`: the excluding iterator compares the current
networks, in the opposite order. -/
def exCmpOps {A U : Type} (F : Fam A U) (spaceship : Bool) : ExIter A → ExIter A → Res CmpOps :=
  cmpOps spaceship F.exEq (fun x y => F.netCmp y.cur x.cur) (fun x y => F.netLt y.cur x.cur)

/-- `ip-any-iterator.hpp:328-416`, the operators of `ip_any_iterator`. -/
def anyItCmpOps {I4 V4 I6 V6 V : Type} (O : AnyItOps I4 V4 I6 V6 V) (spaceship : Bool) :
    AnyIt I4 I6 V → AnyIt I4 I6 V → Res CmpOps :=
  cmpOps spaceship O.eq O.cmp O.lt

end Ip
