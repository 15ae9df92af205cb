import Verif.Model.Netmask
/-
Networks: the class template `ip_network_base<Base>` of `ip-network-base.hpp`.  The template
parameter is represented by the record `Fam`, instantiated for IPv4 and IPv6 at the end.
-/
set_option autoImplicit false

namespace Ip

/-- The operations of `uint_type` used by networks and iterators: `uint32_t` (built in arithmetic)
and `uint128_t` (`uint128.hpp`). -/
structure UOps (U : Type) where
  /-- conversion from `int64_t` or `int` -/
  ofI64 : BitVec 64 → U
  /-- conversion to `int64_t` -/
  toI64 : U → BitVec 64
  add : U → U → U
  sub : U → U → U
  mul : U → U → U
  and : U → U → U
  shl : U → Nat → Res U
  shr : U → Nat → Res U
  div : U → U → Res U
  lt : U → U → Bool
  eq : U → U → Bool

/-- `uint32_t`: shifts by 32 or more and division by zero are undefined. -/
def u32Ops : UOps (BitVec 32) where
  ofI64 x := x.setWidth 32
  toI64 x := x.setWidth 64
  add x y := x + y
  sub x y := x - y
  mul x y := x * y
  and x y := x &&& y
  shl x n := if n < 32 then .ok (x <<< n) else .ub
  shr x n := if n < 32 then .ok (x >>> n) else .ub
  div x y := if y = 0#32 then .ub else .ok (x / y)
  lt x y := x.ult y
  eq x y := x == y

/-- `uint128_t`, by the functions of `Verif.Model.U128`; the conversion to `int64_t` is
`uint128.hpp:529-531,551-553`. -/
def u128Ops : UOps U128 where
  ofI64 := U128.ofI64
  toI64 x := x.lower
  add := U128.add
  sub := U128.sub
  mul := U128.mul
  and := U128.and
  shl x n := U128.shl x n
  shr x n := U128.shr x n
  div := U128.div
  lt := U128.lt
  eq := U128.eq

/-- What `ip_network_base<Base>` and the iterators use of `Base::ip_address_type`.
`A` is the address type, `U` its `uint_type`. -/
structure Fam (A U : Type) where
  ops : UOps U
  /-- `base_max_prefixlen` -/
  maxPrefix : Nat
  /-- `base_max_string_len` -/
  maxLen : Nat
  /-- `std::is_same<value_type, ipv6_address>` -/
  isV6 : Bool
  /-- `bytes()` -/
  bytes : A → List (BitVec 8)
  /-- the constructor from bytes, and `from_bytes` of an array -/
  ofBytes : List (BitVec 8) → A
  /-- the default constructor -/
  zero : A
  toUint : A → Res U
  fromUint : U → Res A
  /-- `ip_from_prefix` -/
  fromPrefix : Nat → Res A
  /-- `strict_netmask` -/
  strict : A → A → Bool → Res A
  eq : A → A → Res Bool
  lt : A → A → Res Bool
  le : A → A → Res Bool
  cmp : A → A → Res Ordering
  hash : A → Res (BitVec 64)
  swap : A → A → Res (A × A)
  /-- `Base::remove_scope_id(const ip_address_type&)` -/
  removeScope : A → Res A
  /-- `parse(const char(&)[N], error_code&)` -/
  parseArray : List Char → Res A
  parseNetmask : List Ev → Res (A × Nat × Nat)
  toText : Format → A → Res (List Char)

/-- The members `_network_address`, `_netmask`, `_prefixlen` (`ip-network-base.hpp:1318-1320`). -/
structure Net (A : Type) where
  addr : A
  mask : A
  plen : Nat
deriving DecidableEq, Repr

namespace Fam

variable {A U : Type} (F : Fam A U)

/-- `ip-network-base.hpp:44-49`, the default constructor. -/
def defaultNet : Res (Net A) := do
  let m ← F.fromPrefix F.maxPrefix
  .ok ⟨F.zero, m, F.maxPrefix⟩

/-- `ip-network-base.hpp:452-472`, `from_address`; the throwing variant (425-438) raises the code. -/
def fromAddress (address : A) (prefixlen : Nat) (strict : Bool) : Res (Net A) := do
  let m ← F.fromPrefix prefixlen
  let a ← F.strict address m strict
  .ok ⟨a, m, prefixlen⟩

/-- `ip-network-base.hpp:499-504`: the loop of `contains` over the bytes of the address, the netmask
and the network address. -/
def containsLoop : List (BitVec 8) → List (BitVec 8) → List (BitVec 8) → Res Bool
  | [], [], [] => .ok true
  | x :: xs, m :: ms, a :: as => if x &&& m ≠ a then .ok false else containsLoop xs ms as
  | _, _, _ => .ub

/-- `ip-network-base.hpp:494-505`, `contains`. -/
def contains (n : Net A) (address : A) : Res Bool :=
  containsLoop (F.bytes address) (F.bytes n.mask) (F.bytes n.addr)

/-- `ip-network-base.hpp:721-728`, `hostmask`. -/
def hostmask (n : Net A) : A := F.ofBytes ((F.bytes n.mask).map (· ^^^ 0xFF#8))

/-- `ip-network-base.hpp:692-700`, `broadcast_address`. -/
def broadcast (n : Net A) : Res A := do
  let b ← bytesZip (· ||| ·) (F.bytes n.addr) (F.bytes (F.hostmask n))
  .ok (F.ofBytes b)

/-- `ip-network-base.hpp:526-528`, `overlaps`; `||` evaluates from the left and stops at `true`. -/
def overlaps (n other : Net A) : Res Bool := do
  if ← F.contains other n.addr then .ok true
  else if ← F.contains other (← F.broadcast n) then .ok true
  else if ← F.contains n other.addr then .ok true
  else F.contains n (← F.broadcast other)

/-- `ip-network-base.hpp:1314-1316`, `is_subnet_of`; the code writes the second comparison as `>=` with the operands
exchanged, which is the same for broadcast addresses because they have no scope id. -/
def isSubnetOf (lhs rhs : Net A) : Res Bool := do
  if ← F.le rhs.addr lhs.addr then do
    let b ← F.broadcast rhs
    let c ← F.broadcast lhs
    F.le c b
  else .ok false

/-- `ip-network-base.hpp:549-551`, `subnet_of`. -/
def subnetOf (n other : Net A) : Res Bool := F.isSubnetOf n other

/-- `ip-network-base.hpp:572-574`, `supernet_of`. -/
def supernetOf (n other : Net A) : Res Bool := F.isSubnetOf other n

/-- `ip-network-base.hpp:585-587`, `to_string`; `std::to_string` writes the decimal digits. -/
def netToString (fmt : Format) (n : Net A) : Res (List Char) := do
  let t ← F.toText fmt n.addr
  .ok (t ++ '/' :: Nat.toDigits 10 n.plen)

/-- `ip-network-base.hpp:653-659`, `swap`. -/
def netSwap (a b : Net A) : Res (Net A × Net A) := do
  let x ← F.swap a.addr b.addr
  let y ← F.swap a.mask b.mask
  let tmp := a.plen
  .ok (⟨x.1, y.1, b.plen⟩, ⟨x.2, y.2, tmp⟩)

/-- `ip-network-base.hpp:669-671`, `hash`. -/
def netHash (n : Net A) : Res (BitVec 64) := do
  let a ← F.hash n.addr
  let m ← F.hash n.mask
  .ok (calcHash a [m])

/-- `ip-network-base.hpp:838-840`, `addresses_count`. -/
def addressesCount (n : Net A) : Res U := do
  let b ← F.broadcast n
  let b ← F.toUint b
  let a ← F.toUint n.addr
  .ok (F.ops.add (F.ops.sub b a) (F.ops.ofI64 1#64))

/-- An exception that leaves a `noexcept` function calls `std::terminate`.  The model has one outcome
for "no result at all", and uses it here. -/
def noexcept {α : Type} : Res α → Res α
  | .ok a => .ok a
  | _ => .ub

/-- `ip-network-base.hpp:1105-1132`, `supernet`, a `noexcept` function; `newp` is `new_prefixlen`.  Line 1131 calls the
`from_address` that throws. -/
def supernet (n : Net A) (diff : Nat) (newp : Option Nat) : Res (Net A) :=
  if n.plen = 0 then .ok n
  else
    let go (diff : Nat) : Res (Net A) :=
      if diff > n.plen then .err .invalid_prefixlen_diff 0
      else do
        let a ← F.toUint n.addr
        let m ← F.toUint n.mask
        let s ← F.ops.shl m diff
        let address ← F.fromUint (F.ops.and a s)
        noexcept (F.fromAddress address (n.plen - diff) true)
    match newp with
    | none => go diff
    | some p =>
      if p > n.plen then .err .new_prefix_must_be_shorter 0
      else if diff ≠ 1 then .err .cannot_set_prefixlen_diff_and_new_prefix 0
      else go (n.plen - p)

/-- `ip-network-base.hpp:1153-1155`, `operator==`. -/
def netEq (a b : Net A) : Res Bool := do
  if ← F.eq a.addr b.addr then F.eq a.mask b.mask else .ok false

/-- `ip-network-base.hpp:1179-1184`, `operator<=>`. -/
def netCmp (a b : Net A) : Res Ordering := do
  let r ← F.cmp a.addr b.addr
  if r ≠ .eq then .ok r else F.cmp a.mask b.mask

/-- `ip-network-base.hpp:1196-1204`, `operator<` (without `<=>`). -/
def netLt (a b : Net A) : Res Bool := do
  if ← F.eq a.addr b.addr then do
    if ← F.eq a.mask b.mask then .ok false else F.lt a.mask b.mask
  else F.lt a.addr b.addr

/-- State of the loop of `parse_address_with_prefix`: the number of characters stored, the array
`address`, and the events after the slash (`none` while `has_slash` is false). -/
structure ParseSt where
  symbol : Nat
  address : List Char
  netmask : Option (List Ev)
deriving DecidableEq, Repr

/-- `ip-network-base.hpp:1282-1287`, the end of the loop body: `true` when the loop is left. -/
def storeChar (c : Char) (st : ParseSt) : Res (ParseSt × Bool) :=
  if st.netmask.isNone then do
    let address ← wr st.address st.symbol c
    .ok (⟨st.symbol + 1, address, none⟩, decide (st.symbol + 1 > F.maxLen))
  else .ok (st, decide (st.symbol > F.maxLen))

/-- `ip-network-base.hpp:1265-1288`, the loop of `parse_address_with_prefix`. -/
def parseLoop : List Ev → ParseSt → Res ParseSt
  | [], st => .ok st
  | .bad code sym :: _, _ => .err code sym
  | .ch c :: rest, st =>
    if c = '/' then
      if st.netmask.isSome then .err .only_one_slash_permitted 0
      else if rest = [] then .err .empty_netmask 0
      else do
        let r ← F.storeChar c ⟨st.symbol, st.address, some rest⟩
        if r.2 then .ok r.1 else parseLoop rest r.1
    else do
      let r ← F.storeChar c st
      if r.2 then .ok r.1 else parseLoop rest r.1

/-- `ip-network-base.hpp:1257-1312`, `parse_address_with_prefix`, on what the reader yields. -/
def parseNet (evs : List Ev) (strict : Bool) : Res (Net A) := do
  let st ← F.parseLoop evs ⟨0, List.replicate (F.maxLen + 1) '\x00', none⟩
  let m ← F.parseNetmask (st.netmask.getD [])
  let a ← withValue m.2.2 (F.parseArray st.address)
  let a ← withValue m.2.2 (F.strict a m.1 strict)
  .ok ⟨a, m.1, m.2.1⟩

/-- `ipv4-network.hpp:37-39` and `ipv6-network.hpp:53-55`, `Base::remove_scope_id` of a network. -/
def removeScopeNet (n : Net A) : Res (Net A) :=
  if F.isV6 then do
    let a ← F.removeScope n.addr
    F.fromAddress a n.plen true
  else .ok n

end Fam

/-- IPv4 (`ipv4-network.hpp`, `ipv4-address.hpp`, `base-v4.hpp`); `le` is `is_little_endian()`. -/
def fam4 (le : Bool) : Fam (List (BitVec 8)) (BitVec 32) where
  ops := u32Ops
  maxPrefix := 32
  maxLen := 15
  isV6 := false
  bytes a := a
  ofBytes b := b
  zero := List.replicate 4 0#8
  toUint := v4ToUint le
  fromUint u := .ok (v4FromUint le u)
  fromPrefix := v4FromPrefix le
  strict := v4Strict le
  eq a b := .ok (bytesEq a b)
  lt a b := .ok (bytesLess a b)
  le a b := .ok (!bytesLess b a)
  cmp a b := .ok (bytesCmp a b)
  hash a := .ok (v4Hash a)
  swap a b := .ok (bytesSwap a b)
  removeScope a := .ok a
  parseArray := v4ParseArray
  parseNetmask := v4ParseNetmask le
  toText _ := v4ToString

/-- The compile time configuration of the IPv6 part: endianness, `IPADDRESS_SCOPE_ID_SUPPORT_SPACES`,
`IPADDRESS_IPV6_SCOPE_MAX_LENGTH`, `IPADDRESS_HAS_SPACESHIP_OPERATOR`, and the conversions of `char`
to `int` and `size_t`. -/
structure Cfg where
  le : Bool
  spaces : Bool
  M : Nat
  spaceship : Bool
  val : Char → Int
  conv : Char → BitVec 64

/-- `operator<=` of `ipv6_address`: `(a <=> b) <= 0`, or `!(b < a)` (`ip-address-base.hpp:739-741`). -/
def v6Le (c : Cfg) (a b : V6) : Res Bool :=
  if c.spaceship then do
    let r ← v6Compare c.val a b
    .ok (decide (r ≠ .gt))
  else do
    let r ← v6Less c.val b a
    .ok (!r)

/-- `operator<` of `ipv6_address`. -/
def v6Lt (c : Cfg) (a b : V6) : Res Bool :=
  if c.spaceship then do
    let r ← v6Compare c.val a b
    .ok (decide (r = .lt))
  else v6Less c.val a b

/-- `ip-address-base.hpp:429-432`: `ipv6_address::parse(const char(&)[N], error_code&)`. -/
def v6ParseArray (spaces : Bool) (M : Nat) (arr : List Char) : Res V6 := do
  let s ← mkFixed arr
  v6FromEvents spaces M (readChars s.contents)

/-- `ipv6-network.hpp:47-51`, `remove_scope_id`: `set_scope_id("")`. -/
def v6RemoveScope (spaces : Bool) (M : Nat) (a : V6) : Res V6 := do
  let r ← v6SetScopeArray spaces M a ['\x00']
  .ok r.1

/-- IPv6 (`ipv6-network.hpp`, `ipv6-address.hpp`, `base-v6.hpp`).  `parseArray` is that of little endian hosts; see
`fam6On` in `Model/V6Host.lean` for the difference on big endian hosts. -/
def fam6 (c : Cfg) : Fam V6 U128 where
  ops := u128Ops
  maxPrefix := 128
  maxLen := 41 + c.M
  isV6 := true
  bytes a := a.bytes
  ofBytes b := ⟨b, emptyScope c.M⟩
  zero := ⟨List.replicate 16 0#8, emptyScope c.M⟩
  toUint a := v6ToUint c.le a.bytes
  fromUint u := do
    let b ← v6FromUint c.le u
    .ok ⟨b, emptyScope c.M⟩
  fromPrefix p := do
    let b ← v6FromPrefix p
    .ok ⟨b, emptyScope c.M⟩
  strict := v6Strict c.M
  eq := v6Equals c.val
  lt := v6Lt c
  le := v6Le c
  cmp := v6Compare c.val
  hash := v6Hash c.conv
  swap := v6Swap
  removeScope := v6RemoveScope c.spaces c.M
  parseArray := v6ParseArray c.spaces c.M
  parseNetmask evs := do
    let m ← v6ParseNetmask evs
    .ok (⟨m.1, emptyScope c.M⟩, m.2)
  toText fmt a := v6ToString c.M a fmt

end Ip
