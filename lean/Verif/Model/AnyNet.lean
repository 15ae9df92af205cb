import Verif.Model.Any
import Verif.Model.Class
import Verif.Model.NetIter
import Verif.Model.Throw
/-
Version agnostic networks and iterators: `ip-any-network.hpp`, `ip-any-iterator.hpp`.
-/
set_option autoImplicit false

namespace Ip

/-- `ip-any-network.hpp:1317-1330`: the union `_ipv_net` together with its tag `_version`.
Simplification: reading the member that is not active is not expressible; every function of the class
selects the member by `_version`, which the constructors (703-724) set consistently. -/
inductive AnyNet where
  | v4 (n : Net (List (BitVec 8)))
  | v6 (n : Net V6)
deriving DecidableEq, Repr

/-- `ip-any-network.hpp:703`, the default constructor. -/
def anyNetDefault (c : Cfg) : Res AnyNet := do
  let d ← (fam4 c.le).defaultNet
  .ok (.v4 d)

/-! ### Parsing -/

/-- `ip-any-network.hpp:44-56`, `net_any_parser::parse` with `error_code`, on what the reader yields. -/
def anyNetFromEvents (c : Cfg) (evs : List Ev) (strict : Bool) : Res AnyNet :=
  match (fam4 c.le).parseNet evs strict with
  | .ok n => .ok (.v4 n)
  | .err _ _ => do
    let n ← (fam6 c).parseNet evs strict
    .ok (.v6 n)
  | .ub => .ub

/-- `ip-any-network.hpp:34-42`, `net_any_parser::parse` without `error_code`, of a string. -/
def anyNetParseThrow {U : Type} (c : Cfg) (enc : Enc U) (s : List U) (strict : Bool) : Thr AnyNet :=
  match (fam4 c.le).parseNet (enc.events s) strict with
  | .ok n => .ret (.v4 n)
  | .err _ _ =>
    match (fam6 c).parseNetThrow enc s strict with
    | .ret n => .ret (.v6 n)
    | .thrown e => .thrown e
    | .ub => .ub
  | .ub => .ub

/-- `ip-any-network.hpp:44-56` of an array (1198). -/
def anyNetArrayParse {U : Type} (c : Cfg) (enc : Enc U) (units : List U) (strict : Bool) : Res AnyNet :=
  match arrayParse enc (fun evs => (fam4 c.le).parseNet evs strict) units with
  | .ok n => .ok (.v4 n)
  | .err _ _ => do
    let n ← arrayParse enc (fun evs => (fam6 c).parseNet evs strict) units
    .ok (.v6 n)
  | .ub => .ub

/-- `ip-any-network.hpp:34-42` of an array (1180). -/
def anyNetArrayParseThrow {U : Type} (c : Cfg) (enc : Enc U) (units : List U) (strict : Bool) : Thr AnyNet :=
  match arrayParse enc (fun evs => (fam4 c.le).parseNet evs strict) units with
  | .ok n => .ret (.v4 n)
  | .err _ _ =>
    match arrayParseThrow enc (fun evs => (fam6 c).parseNet evs strict) units with
    | .ret n => .ret (.v6 n)
    | .thrown e => .thrown e
    | .ub => .ub
  | .ub => .ub

/-- `ip-any-network.hpp:1361-1437`, `operator""_net`. -/
def anyNetLiteral {U : Type} (c : Cfg) (enc : Enc U) (s : List U) : Thr AnyNet :=
  literal enc ((41 + c.M) * 2 + 1) (fun units => anyNetArrayParseThrow c enc units true) s

/-! ### Observers -/

/-- `ip-any-network.hpp:92-94`, `prefixlen`. -/
def anyNetPlen : AnyNet → Nat
  | .v4 n => n.plen
  | .v6 n => n.plen

/-- `ip-any-network.hpp:103-105`, `network_address`. -/
def anyNetAddress : AnyNet → AnyAddr
  | .v4 n => .v4 n.addr
  | .v6 n => .v6 n.addr

/-- `ip-any-network.hpp:115-117`, `broadcast_address`. -/
def anyNetBroadcast (c : Cfg) : AnyNet → Res AnyAddr
  | .v4 n => do
    let b ← (fam4 c.le).broadcast n
    .ok (.v4 b)
  | .v6 n => do
    let b ← (fam6 c).broadcast n
    .ok (.v6 b)

/-- `ip-any-network.hpp:127-129`, `netmask`. -/
def anyNetMask : AnyNet → AnyAddr
  | .v4 n => .v4 n.mask
  | .v6 n => .v6 n.mask

/-- `ip-any-network.hpp:138-140`, `hostmask`. -/
def anyNetHostmask (c : Cfg) : AnyNet → AnyAddr
  | .v4 n => .v4 ((fam4 c.le).hostmask n)
  | .v6 n => .v6 ((fam6 c).hostmask n)

/-- `ip-any-network.hpp:288-290`, `hash`. -/
def anyNetHash (c : Cfg) : AnyNet → Res (BitVec 64)
  | .v4 n => (fam4 c.le).netHash n
  | .v6 n => (fam6 c).netHash n

/-- `ip-any-network.hpp:297-299`, `addresses_count`. -/
def anyNetCount (c : Cfg) : AnyNet → Res U128
  | .v4 n => do
    let k ← (fam4 c.le).addressesCount n
    .ok (U128.ofU64 (k.setWidth 64))
  | .v6 n => (fam6 c).addressesCount n

/-- `ip-any-network.hpp:152-154`, `is_multicast`. -/
def anyNetIsMulticast (c : Cfg) : AnyNet → Res Bool
  | .v4 n => v4NetIsMulticast c.le n
  | .v6 n => v6NetIsMulticast c n

/-- `ip-any-network.hpp:166-168`, `is_private`. -/
def anyNetIsPrivate (c : Cfg) : AnyNet → Res Bool
  | .v4 n => v4NetIsPrivate c.le n
  | .v6 n => v6NetIsPrivate c n

/-- `ip-any-network.hpp:180-182`, `is_global`. -/
def anyNetIsGlobal (c : Cfg) : AnyNet → Res Bool
  | .v4 n => v4NetIsGlobal c.le n
  | .v6 n => v6NetIsGlobal c n

/-- `ip-any-network.hpp:192-194`, `is_reserved`. -/
def anyNetIsReserved (c : Cfg) : AnyNet → Res Bool
  | .v4 n => v4NetIsReserved c.le n
  | .v6 n => v6NetIsReserved c n

/-- `ip-any-network.hpp:206-208`, `is_loopback`. -/
def anyNetIsLoopback (c : Cfg) : AnyNet → Res Bool
  | .v4 n => v4NetIsLoopback c.le n
  | .v6 n => v6NetIsLoopback c n

/-- `ip-any-network.hpp:219-221`, `is_link_local`. -/
def anyNetIsLinkLocal (c : Cfg) : AnyNet → Res Bool
  | .v4 n => v4NetIsLinkLocal c.le n
  | .v6 n => v6NetIsLinkLocal c n

/-- `ip-any-network.hpp:233-235`, `is_unspecified`. -/
def anyNetIsUnspecified (c : Cfg) : AnyNet → Res Bool
  | .v4 n => v4NetIsUnspecified c.le n
  | .v6 n => v6NetIsUnspecified c n

/-- `ip-any-network.hpp:246-248`, `is_site_local`. -/
def anyNetIsSiteLocal (c : Cfg) : AnyNet → Res Bool
  | .v4 _ => .ok false
  | .v6 n => v6NetIsSiteLocal c n

/-- `ip-any-network.hpp:782-784`, `to_string`. -/
def anyNetToString (c : Cfg) (fmt : Format) : AnyNet → Res (List Char)
  | .v4 n => (fam4 c.le).netToString fmt n
  | .v6 n => (fam6 c).netToString fmt n

/-- `ip-any-network.hpp:850-854`, `swap`: copies of the whole objects. -/
def anyNetSwap (a b : AnyNet) : AnyNet × AnyNet :=
  let tmp := a
  let a := b
  let b := tmp
  (a, b)

/-! ### Relations -/

/-- `ip-any-network.hpp:321-327`, `contains`. -/
def anyNetContains (c : Cfg) : AnyNet → AnyAddr → Res Bool
  | .v4 n, .v4 a => (fam4 c.le).contains n a
  | .v6 n, .v6 a => (fam6 c).contains n a
  | _, _ => .ok false

/-- `ip-any-network.hpp:348-354`, `overlaps`. -/
def anyNetOverlaps (c : Cfg) : AnyNet → AnyNet → Res Bool
  | .v4 n, .v4 o => (fam4 c.le).overlaps n o
  | .v6 n, .v6 o => (fam6 c).overlaps n o
  | _, _ => .ok false

/-- `ip-any-network.hpp:375-381`, `subnet_of`. -/
def anyNetSubnetOf (c : Cfg) : AnyNet → AnyNet → Res Bool
  | .v4 n, .v4 o => (fam4 c.le).subnetOf n o
  | .v6 n, .v6 o => (fam6 c).subnetOf n o
  | _, _ => .ok false

/-- `ip-any-network.hpp:402-408`, `supernet_of`. -/
def anyNetSupernetOf (c : Cfg) : AnyNet → AnyNet → Res Bool
  | .v4 n, .v4 o => (fam4 c.le).supernetOf n o
  | .v6 n, .v6 o => (fam6 c).supernetOf n o
  | _, _ => .ok false

/-- `ip-any-network.hpp:1221-1226`, `operator==`. -/
def anyNetEq (c : Cfg) : AnyNet → AnyNet → Res Bool
  | .v4 n, .v4 o => (fam4 c.le).netEq n o
  | .v6 n, .v6 o => (fam6 c).netEq n o
  | _, _ => .ok false

/-- `ip-any-network.hpp:1250-1256`, `operator<=>`; the versions compare as 4 and 6. -/
def anyNetCmp (c : Cfg) : AnyNet → AnyNet → Res Ordering
  | .v4 n, .v4 o => (fam4 c.le).netCmp n o
  | .v6 n, .v6 o => (fam6 c).netCmp n o
  | .v4 _, .v6 _ => .ok .lt
  | .v6 _, .v4 _ => .ok .gt

/-- `ip-any-network.hpp:1268-1276`, `operator<` (without `<=>`). -/
def anyNetLt (c : Cfg) : AnyNet → AnyNet → Res Bool
  | .v4 n, .v4 o => (fam4 c.le).netLt n o
  | .v6 n, .v6 o => (fam6 c).netLt n o
  | .v4 _, .v6 _ => .ok true
  | .v6 _, .v4 _ => .ok false

/-! ### Networks from networks -/

/-- `ip-any-network.hpp:762-771`, `from_address` with `error_code`; the throwing variant (740-748) raises
the code. -/
def anyNetFromAddress (c : Cfg) (a : AnyAddr) (p : Nat) (strict : Bool) : Res AnyNet :=
  match a with
  | .v4 a => do
    let n ← (fam4 c.le).fromAddress a p strict
    .ok (.v4 n)
  | .v6 a => do
    let n ← (fam6 c).fromAddress a p strict
    .ok (.v6 n)

/-- `ip-any-network.hpp:459-461`, `supernet` with `error_code`; the throwing variant (431-433) raises the
code. -/
def anyNetSupernet (c : Cfg) (n : AnyNet) (diff : Nat) (newp : Option Nat) : Res AnyNet :=
  match n with
  | .v4 n => do
    let n ← (fam4 c.le).supernet n diff newp
    .ok (.v4 n)
  | .v6 n => do
    let n ← (fam6 c).supernet n diff newp
    .ok (.v6 n)

/-! ### Iterators -/

/-- `ip-any-iterator.hpp:452-466`: the union `_iter` with its tag `_version`, and `_current`. -/
inductive AnyIt (I4 I6 V : Type) where
  | v4 (it : I4) (cur : V)
  | v6 (it : I6) (cur : V)
deriving DecidableEq, Repr

/-- What `ip_any_iterator<T, Ipv4Iter, Ipv6Iter>` uses of its parameters. -/
structure AnyItOps (I4 V4 I6 V6 V : Type) where
  o4 : IterOps I4 V4 (BitVec 32)
  o6 : IterOps I6 V6 U128
  /-- `uint_diff` -/
  diff4 : I4 → I4 → Res (BitVec 32)
  diff6 : I6 → I6 → Res U128
  /-- `operator[](const uint_type&)` -/
  at4 : I4 → BitVec 32 → Res V4
  at6 : I6 → U128 → Res V6
  cmp4 : I4 → I4 → Res Ordering
  cmp6 : I6 → I6 → Res Ordering
  lt4 : I4 → I4 → Res Bool
  lt6 : I6 → I6 → Res Bool
  /-- the constructors of `T` -/
  emb4 : V4 → V
  emb6 : V6 → V

/-- `uint32_t(n)`: the explicit conversion of `uint128_t`, `uint128.hpp:551-553`. -/
def lo32 (n : U128) : BitVec 32 := n.lower.setWidth 32

namespace AnyItOps
variable {I4 V4 I6 V6 V : Type} (O : AnyItOps I4 V4 I6 V6 V)

/-- `ip-any-iterator.hpp:64-65`, the constructor from an IPv4 iterator. -/
def mk4 (x : I4) : AnyIt I4 I6 V := .v4 x (O.emb4 (O.o4.deref x))

/-- `ip-any-iterator.hpp:72-73`, the constructor from an IPv6 iterator. -/
def mk6 (x : I6) : AnyIt I4 I6 V := .v6 x (O.emb6 (O.o6.deref x))

/-- `ip-any-iterator.hpp:95-97`, `operator*`. -/
def deref : AnyIt I4 I6 V → V
  | .v4 _ cur => cur
  | .v6 _ cur => cur

/-- `ip-any-iterator.hpp:83-88`, `uint_diff`. -/
def uintDiff : AnyIt I4 I6 V → AnyIt I4 I6 V → Res U128
  | .v4 x _, .v4 y _ => do
    let d ← O.diff4 x y
    .ok (U128.ofU64 (d.setWidth 64))
  | .v6 x _, .v6 y _ => O.diff6 x y
  | _, _ => .ok (U128.ofU64 0)

/-- `ip-any-iterator.hpp:125-127`, `operator[](const uint128_t&)`. -/
def at_ (n : U128) : AnyIt I4 I6 V → Res V
  | .v4 x _ => do
    let v ← O.at4 x (lo32 n)
    .ok (O.emb4 v)
  | .v6 x _ => do
    let v ← O.at6 x n
    .ok (O.emb6 v)

/-- `ip-any-iterator.hpp:429-437`, `add`: also `+=` and `+` of a `uint128_t` (192-195, 245-249). -/
def add (x : AnyIt I4 I6 V) (n : U128) : Res (AnyIt I4 I6 V) :=
  match x with
  | .v4 x _ => do
    let y ← O.o4.add x (lo32 n)
    .ok (O.mk4 y)
  | .v6 x _ => do
    let y ← O.o6.add x n
    .ok (O.mk6 y)

/-- `ip-any-iterator.hpp:439-447`, `sub`: also `-=` and `-` of a `uint128_t` (218-221, 299-303). -/
def sub (x : AnyIt I4 I6 V) (n : U128) : Res (AnyIt I4 I6 V) :=
  match x with
  | .v4 x _ => do
    let y ← O.o4.sub x (lo32 n)
    .ok (O.mk4 y)
  | .v6 x _ => do
    let y ← O.o6.sub x n
    .ok (O.mk6 y)

/-- `ip-any-iterator.hpp:134-137`, `++`. -/
def inc (x : AnyIt I4 I6 V) : Res (AnyIt I4 I6 V) := O.add x (U128.ofI64 1#64)

/-- `ip-any-iterator.hpp:155-158`, `--`. -/
def dec (x : AnyIt I4 I6 V) : Res (AnyIt I4 I6 V) := O.sub x (U128.ofI64 1#64)

/-- `ip-any-iterator.hpp:179-182, 231-235`, `+=` and `+` of a `difference_type`. -/
def addI (x : AnyIt I4 I6 V) (n : BitVec 64) : Res (AnyIt I4 I6 V) := O.add x (U128.ofI64 n)

/-- `ip-any-iterator.hpp:205-208, 285-289`, `-=` and `-` of a `difference_type`. -/
def subI (x : AnyIt I4 I6 V) (n : BitVec 64) : Res (AnyIt I4 I6 V) := O.sub x (U128.ofI64 n)

/-- `ip-any-iterator.hpp:313-318`, `operator-` of two iterators. -/
def diff : AnyIt I4 I6 V → AnyIt I4 I6 V → BitVec 64
  | .v4 x _, .v4 y _ => O.o4.diff x y
  | .v6 x _, .v6 y _ => O.o6.diff x y
  | _, _ => 0#64

/-- `ip-any-iterator.hpp:328-333`, `==`. -/
def eq : AnyIt I4 I6 V → AnyIt I4 I6 V → Res Bool
  | .v4 x _, .v4 y _ => O.o4.eq x y
  | .v6 x _, .v6 y _ => O.o6.eq x y
  | _, _ => .ok false

/-- `ip-any-iterator.hpp:357-363`, `<=>`. -/
def cmp : AnyIt I4 I6 V → AnyIt I4 I6 V → Res Ordering
  | .v4 x _, .v4 y _ => O.cmp4 x y
  | .v6 x _, .v6 y _ => O.cmp6 x y
  | .v4 _ _, .v6 _ _ => .ok .lt
  | .v6 _ _, .v4 _ _ => .ok .gt

/-- `ip-any-iterator.hpp:375-380`, `<` (without `<=>`). -/
def lt : AnyIt I4 I6 V → AnyIt I4 I6 V → Res Bool
  | .v4 x _, .v4 y _ => O.lt4 x y
  | .v6 x _, .v6 y _ => O.lt6 x y
  | _, _ => .ok false

/-- `ip-any-iterator.hpp:421-423`, `base`. -/
def base : AnyIt I4 I6 V → Res (AnyIt I4 I6 V)
  | .v4 x _ => do
    let y ← O.o4.base x
    .ok (O.mk4 y)
  | .v6 x _ => do
    let y ← O.o6.base x
    .ok (O.mk6 y)

/-- `ip-any-iterator.hpp:425-427`, `reverse`. -/
def reverse : AnyIt I4 I6 V → Res (AnyIt I4 I6 V)
  | .v4 x _ => do
    let y ← O.o4.reverse x
    .ok (O.mk4 y)
  | .v6 x _ => do
    let y ← O.o6.reverse x
    .ok (O.mk6 y)

/-- `ip_any_iterator` as an iterator. -/
def ops : IterOps (AnyIt I4 I6 V) V U128 where
  deref := deref
  inc := O.inc
  dec := O.dec
  add := O.add
  sub := O.sub
  eq := O.eq
  diff := O.diff
  base := O.base
  reverse := O.reverse

end AnyItOps

/-- The parameters of `hosts_any_sequence::iterator`, `ip-any-iterator.hpp:488`. -/
def anyHostsOps (c : Cfg) :
    AnyItOps (AIter (List (BitVec 8)) (BitVec 32)) (List (BitVec 8)) (AIter V6 U128) V6 AnyAddr where
  o4 := (fam4 c.le).aiOps
  o6 := (fam6 c).aiOps
  diff4 x y := .ok ((fam4 c.le).aiUintDiff x y)
  diff6 x y := .ok ((fam6 c).aiUintDiff x y)
  at4 := (fam4 c.le).aiAt
  at6 := (fam6 c).aiAt
  cmp4 := (fam4 c.le).aiCmp
  cmp6 := (fam6 c).aiCmp
  lt4 := (fam4 c.le).aiLt
  lt6 := (fam6 c).aiLt
  emb4 := .v4
  emb6 := .v6

/-- The parameters of `subnets_any_sequence<ip_network>::iterator`, `ip-any-iterator.hpp:667`. -/
def anySubnetsOps (c : Cfg) :
    AnyItOps (NIter (List (BitVec 8)) (BitVec 32)) (Net (List (BitVec 8))) (NIter V6 U128) (Net V6) AnyNet where
  o4 := (fam4 c.le).niOps
  o6 := (fam6 c).niOps
  diff4 := (fam4 c.le).niUintDiff
  diff6 := (fam6 c).niUintDiff
  at4 := (fam4 c.le).niAt
  at6 := (fam6 c).niAt
  cmp4 := (fam4 c.le).niCmp
  cmp6 := (fam6 c).niCmp
  lt4 := (fam4 c.le).niLt
  lt6 := (fam6 c).niLt
  emb4 := .v4
  emb6 := .v6

/-! ### Sequences -/

/-- The members `_begin`, `_end` of `hosts_any_sequence` and `subnets_any_sequence`
(`ip-any-iterator.hpp:642-643, 821-822`), set by the constructors (`501-510, 680-689`) and returned by `begin`,
`end` and, as reverse iterators, by `rbegin`, `rend` (`517-582, 696-761`). -/
structure AnySeq (I4 I6 V : Type) where
  first : AnyIt I4 I6 V
  last : AnyIt I4 I6 V
deriving DecidableEq, Repr

namespace AnyItOps
variable {I4 V4 I6 V6 V : Type} (O : AnyItOps I4 V4 I6 V6 V)

/-- `ip-any-iterator.hpp:590-592, 769-771`, `empty`. -/
def seqEmpty (s : AnySeq I4 I6 V) : Res Bool := O.eq s.first s.last

/-- `ip-any-iterator.hpp:599-601, 778-780`, `size`. -/
def seqSize (s : AnySeq I4 I6 V) : Res U128 := O.uintDiff s.last s.first

/-- `ip-any-iterator.hpp:609-621, 788-800`, `operator[]` and `at`. -/
def seqAt (s : AnySeq I4 I6 V) (n : U128) : Res V := do
  let x ← O.add s.first n
  .ok (deref x)

/-- `ip-any-iterator.hpp:628-630, 807-809`, `front`. -/
def seqFront (s : AnySeq I4 I6 V) : V := deref s.first

/-- `ip-any-iterator.hpp:637-639, 816-818`, `back`. -/
def seqBack (s : AnySeq I4 I6 V) : Res V := do
  let x ← O.sub s.last (U128.ofI64 1#64)
  .ok (deref x)

end AnyItOps

/-- `ip-any-network.hpp:498-506`, `hosts`. -/
def anyNetHosts (c : Cfg) : AnyNet → Res (AnySeq (AIter (List (BitVec 8)) (BitVec 32)) (AIter V6 U128) AnyAddr)
  | .v4 n => do
    let s ← (fam4 c.le).hosts n
    .ok ⟨(anyHostsOps c).mk4 s.first, (anyHostsOps c).mk4 s.last⟩
  | .v6 n => do
    let s ← (fam6 c).hosts n
    .ok ⟨(anyHostsOps c).mk6 s.first, (anyHostsOps c).mk6 s.last⟩

/-- `ip-any-network.hpp:575-583`, `subnets` with `error_code`, when it succeeds; the throwing variant
(535-543) raises the code. -/
def anyNetSubnets (c : Cfg) (n : AnyNet) (diff : Nat) (newp : Option Nat) :
    Res (AnySeq (NIter (List (BitVec 8)) (BitVec 32)) (NIter V6 U128) AnyNet) :=
  match n with
  | .v4 n => do
    let s ← (fam4 c.le).subnets n diff newp
    .ok ⟨(anySubnetsOps c).mk4 s.first, (anySubnetsOps c).mk4 s.last⟩
  | .v6 n => do
    let s ← (fam6 c).subnets n diff newp
    .ok ⟨(anySubnetsOps c).mk6 s.first, (anySubnetsOps c).mk6 s.last⟩

/-- `ip-network-iterator.hpp:444-448`, the default constructor of `ip_network_iterator`. -/
def Fam.niDefault {A U : Type} (F : Fam A U) : Res (NIter A U) := do
  let d ← F.defaultNet
  .ok ⟨d, ⟨F.zero, F.ops.ofI64 0#64, 0⟩, F.ops.ofI64 0#64, 0⟩

/-- `ip-any-network.hpp:575-583` with `ip-network-base.hpp:1022-1049`: the sequence that `subnets` with
`error_code` returns, also when it fails, and the code it reports. -/
def anyNetSubnetsCode (c : Cfg) (n : AnyNet) (diff : Nat) (newp : Option Nat) :
    Res (AnySeq (NIter (List (BitVec 8)) (BitVec 32)) (NIter V6 U128) AnyNet × Option ErrorCode) :=
  match anyNetSubnets c n diff newp with
  | .ok s => .ok (s, none)
  | .err code _ =>
    match n with
    | .v4 _ => do
      let d ← (fam4 c.le).niDefault
      .ok (⟨(anySubnetsOps c).mk4 d, (anySubnetsOps c).mk4 d⟩, some code)
    | .v6 _ => do
      let d ← (fam6 c).niDefault
      .ok (⟨(anySubnetsOps c).mk6 d, (anySubnetsOps c).mk6 d⟩, some code)
  | .ub => .ub

/-! ### `address_exclude` -/

/-- The members of `ip_exclude_network_iterator<ip_network>` (`ip-network-iterator.hpp:660-663`). -/
structure AnyEx where
  other : AnyNet
  s1 : AnyNet
  s2 : AnyNet
  cur : AnyNet
deriving DecidableEq, Repr

/-- `ip-network-iterator.hpp:473` for `ip_network`. -/
def anyExDefault (c : Cfg) : Res AnyEx := do
  let d ← anyNetDefault c
  .ok ⟨d, d, d, d⟩

/-- `ip-network-iterator.hpp:482-484,516-518,525-527` for `ip_network`: the first two elements of
`subnets()`. -/
def anyHalves (c : Cfg) (n : AnyNet) : Res (AnyNet × AnyNet) := do
  let s ← anyNetSubnets c n 1 none
  let a ← (anySubnetsOps c).seqAt s (U128.ofI64 0#64)
  let b ← (anySubnetsOps c).seqAt s (U128.ofI64 1#64)
  .ok (a, b)

/-- `ip-network-iterator.hpp:511-556`, `++` for `ip_network`. -/
def anyExInc (c : Cfg) (x : AnyEx) : Res AnyEx := do
  if (!(← anyNetEq c x.s1 x.other)) && !(← anyNetEq c x.s2 x.other) then
    if ← anyNetSubnetOf c x.other x.s1 then
      if !(← anyNetEq c x.cur x.s2) then do
        let h ← anyHalves c x.s1
        .ok ⟨x.other, h.1, h.2, x.s2⟩
      else anyExDefault c
    else if ← anyNetSubnetOf c x.other x.s2 then
      if !(← anyNetEq c x.cur x.s1) then do
        let h ← anyHalves c x.s2
        .ok ⟨x.other, h.1, h.2, x.s1⟩
      else anyExDefault c
    else .ub
  else if ← anyNetEq c x.s1 x.other then
    if !(← anyNetEq c x.cur x.s2) then .ok ⟨x.other, x.s1, x.s2, x.s2⟩ else anyExDefault c
  else if ← anyNetEq c x.s2 x.other then
    if !(← anyNetEq c x.cur x.s1) then .ok ⟨x.other, x.s1, x.s2, x.s1⟩ else anyExDefault c
  else .ub

/-- `ip-network-iterator.hpp:481-486`, the constructor for `ip_network`. -/
def anyExMk (c : Cfg) (network other : AnyNet) : Res AnyEx := do
  let h ← anyHalves c network
  anyExInc c ⟨other, h.1, h.2, network⟩

/-- `ip-network-iterator.hpp:577-579`, `==` for `ip_network`. -/
def anyExEq (c : Cfg) (x y : AnyEx) : Res Bool := anyNetEq c x.cur y.cur

/-- `for (auto it = first; it != last; ++it) visit(*it)`; running out of fuel is the outcome `ub`. -/
def anyExVisit (c : Cfg) : Nat → AnyEx → AnyEx → Res (List AnyNet)
  | 0, _, _ => .ub
  | fuel + 1, first, last => do
    if ← anyExEq c first last then .ok []
    else do
      let next ← anyExInc c first
      let rest ← anyExVisit c fuel next last
      .ok (first.cur :: rest)

/-- `ip-network-iterator.hpp:963-965`, `empty` of `exclude_network_sequence<ip_network>`; the sequence is its two iterators. -/
def anyExSeqEmpty (c : Cfg) (s : AnyEx × AnyEx) : Res Bool := anyExEq c s.1 s.2

/-- `ip-any-network.hpp:651-654`: `addr.set_scope_id("")` and the throwing `from_address`. -/
def anyNetRemoveScope (c : Cfg) (n : AnyNet) : Res AnyNet := do
  let a ← anySetScope c.spaces c.M (anyNetAddress n) 0 []
  anyNetFromAddress c a.1 (anyNetPlen n) true

/-- `ip-any-network.hpp:644-668`, `address_exclude` with `error_code`, a `noexcept` function; the result is
the pair of iterators `begin()` and `end()`.  The throwing variant (608-615) raises the code. -/
def anyNetExclude (c : Cfg) : AnyNet → AnyNet → Res (AnyEx × AnyEx)
  | .v4 _, .v6 _ => .err .invalid_version 0
  | .v6 _, .v4 _ => .err .invalid_version 0
  | n, o => do
    let lhs ← Fam.noexcept (anyNetRemoveScope c n)
    let rhs ← Fam.noexcept (anyNetRemoveScope c o)
    if !(← anyNetSubnetOf c rhs lhs) then .err .not_contained_network 0
    else if ← anyNetEq c lhs rhs then do
      let d ← anyExDefault c
      .ok (d, d)
    else Fam.noexcept (do
      let x ← anyExMk c lhs rhs
      let d ← anyExDefault c
      .ok (x, d))

/-- `ip-any-network.hpp:608-615`, `address_exclude` without `error_code`. -/
def anyNetExcludeThrow (c : Cfg) (n o : AnyNet) : Thr (AnyEx × AnyEx) := orRaise0 (anyNetExclude c n o)

/-- The value of a call inside another expression; exceptions pass through. -/
def Thr.map {α β : Type} (f : α → β) : Thr α → Thr β
  | .ret a => .ret (f a)
  | .thrown e => .thrown e
  | .ub => .ub

/-- `ip-any-network.hpp:431-433`, `supernet` without `error_code`. -/
def anyNetSupernetThrow (c : Cfg) (n : AnyNet) (diff : Nat) (newp : Option Nat) : Thr AnyNet :=
  match n with
  | .v4 n => ((fam4 c.le).supernetThrow n diff newp).map .v4
  | .v6 n => ((fam6 c).supernetThrow n diff newp).map .v6

/-- `ip-any-network.hpp:535-543`, `subnets` without `error_code`. -/
def anyNetSubnetsThrow (c : Cfg) (n : AnyNet) (diff : Nat) (newp : Option Nat) :
    Thr (AnySeq (NIter (List (BitVec 8)) (BitVec 32)) (NIter V6 U128) AnyNet) :=
  match n with
  | .v4 n => ((fam4 c.le).subnetsThrow n diff newp).map fun s => ⟨(anySubnetsOps c).mk4 s.first, (anySubnetsOps c).mk4 s.last⟩
  | .v6 n => ((fam6 c).subnetsThrow n diff newp).map fun s => ⟨(anySubnetsOps c).mk6 s.first, (anySubnetsOps c).mk6 s.last⟩

end Ip
