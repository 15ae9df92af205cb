import Verif.Model.AnyNet
import Verif.Model.AnyAddr
import Verif.Model.Scope
/-
The unions inside `ip_address`, `ip_network` and `ip_any_iterator`.

`AnyAddr`, `AnyNet` and `AnyIt` cannot express an object whose tag `_version` disagrees with the active member of its
union.  Here the union and the tag are separate, reading the member that is not active is undefined behaviour, and the
member functions are written as in the headers: by tests of `_version`.
-/
set_option autoImplicit false

namespace Ip

/-- A union of two members, as in `ip-any-address.hpp:1343-1361`, `ip-any-network.hpp:1317-1329` and
`ip-any-iterator.hpp:452-464`: the active member. -/
inductive Union (A B : Type) where
  | first (a : A)
  | second (b : B)
deriving DecidableEq, Repr

/-- Reading the first member. -/
def Union.get1 {A B : Type} : Union A B → Res A
  | .first a => .ok a
  | .second _ => .ub

/-- Reading the second member. -/
def Union.get2 {A B : Type} : Union A B → Res B
  | .first _ => .ub
  | .second b => .ok b

/-- `ip-address-base.hpp:29-32`, `enum class ip_version`. -/
inductive IpVersion where
  | V4
  | V6
deriving DecidableEq, Repr

/-- `ip-address-base.hpp:30-31`, the values of the enumerators. -/
def IpVersion.num : IpVersion → Nat
  | .V4 => 4
  | .V6 => 6

/-- The union and the tag: `_ipv`, `_version` (`ip-any-address.hpp:1361-1362`), `_ipv_net`, `_version`
(`ip-any-network.hpp:1329-1330`), `_iter`, `_version` (`ip-any-iterator.hpp:464-465`). -/
structure Tagged (A B : Type) where
  mem : Union A B
  version : IpVersion
deriving DecidableEq, Repr

namespace Tagged
variable {A B R : Type}

/-- The constructors from the IPv4 class: `_version` keeps its default `V4`.  `ip-any-address.hpp:315-316, 335-336`,
`ip-any-network.hpp:713-714`, `ip-any-iterator.hpp:64-65`; with a default object also the default constructors
(`ip-any-address.hpp:305-306`, `ip-any-network.hpp:703-704`, `ip-any-iterator.hpp:57`). -/
def of1 (a : A) : Tagged A B := ⟨.first a, .V4⟩

/-- The constructors from the IPv6 class.  `ip-any-address.hpp:325-326, 345-346`, `ip-any-network.hpp:723-724`,
`ip-any-iterator.hpp:72-73`. -/
def of2 (b : B) : Tagged A B := ⟨.second b, .V6⟩

/-- `ip-any-address.hpp:183-185`, `ip-any-network.hpp:255-257`, `is_v4`. -/
def isV4 (x : Tagged A B) : Bool := x.version == .V4

/-- `ip-any-address.hpp:192-194`, `ip-any-network.hpp:264-266`, `is_v6`. -/
def isV6 (x : Tagged A B) : Bool := x.version == .V6

/-- `_version == ip_version::V4 ? f(first member) : g(second member)`, the form of most member functions. -/
def pick (f : A → Res R) (g : B → Res R) (x : Tagged A B) : Res R :=
  if x.isV4 then do
    let a ← x.mem.get1
    f a
  else do
    let b ← x.mem.get2
    g b

/-- The form of the binary functions: `other` for different versions, otherwise one of the functions. -/
def both (other : Res R) (f : A → A → Res R) (g : B → B → Res R) (x y : Tagged A B) : Res R :=
  if x.version ≠ y.version then other
  else if x.isV4 then do
    let a ← x.mem.get1
    let b ← y.mem.get1
    f a b
  else do
    let a ← x.mem.get2
    let b ← y.mem.get2
    g a b

/-- The form of `<=>`: the versions first. -/
def threeWay (f : A → A → Res Ordering) (g : B → B → Res Ordering) (x y : Tagged A B) : Res Ordering :=
  if compare x.version.num y.version.num = .eq then
    if x.isV4 then do
      let a ← x.mem.get1
      let b ← y.mem.get1
      f a b
    else do
      let a ← x.mem.get2
      let b ← y.mem.get2
      g a b
  else .ok (compare x.version.num y.version.num)

/-- The form of `<` of addresses and networks. -/
def less (f : A → A → Res Bool) (g : B → B → Res Bool) (x y : Tagged A B) : Res Bool :=
  if x.version.num < y.version.num then .ok true
  else if x.version.num > y.version.num then .ok false
  else if x.isV4 then do
    let a ← x.mem.get1
    let b ← y.mem.get1
    f a b
  else do
    let a ← x.mem.get2
    let b ← y.mem.get2
    g a b

end Tagged

/-! ### `ip_address` -/

/-- `ip-any-address.hpp:68, 1343-1362`, the members of `ip_address`. -/
abbrev RawAddr := Tagged (List (BitVec 8)) V6

namespace RawAddr

/-- `ip-any-address.hpp:305-306, 1344, 1362`, `ip_address()`. -/
def default : RawAddr := .of1 [0#8, 0#8, 0#8, 0#8]

/-- `ip-any-address.hpp:345-346, 1356-1357`, from sixteen bytes. -/
def ofBytes6 (M : Nat) (b : List (BitVec 8)) : RawAddr := .of2 ⟨b, emptyScope M⟩

/-- `ip-any-address.hpp:388-390`, `from_bytes(ptr, count, version)`. -/
def fromBytes (M : Nat) (src : List (BitVec 8)) (count : Nat) (version : IpVersion) : Res RawAddr :=
  if version = .V4 then do
    let b ← Ip.fromBytes 4 src count
    .ok (.of1 b)
  else do
    let b ← Ip.fromBytes 16 src count
    .ok (ofBytes6 M b)

/-- `ip-any-address.hpp:42-54, 665`, `parse`. -/
def parse (spaces : Bool) (M : Nat) (s : List Char) : Res RawAddr :=
  match v4FromEvents (readChars s) with
  | .ok b => .ok (.of1 b)
  | .err _ _ => do
    let a ← v6FromEvents spaces M (readChars s)
    .ok (.of2 a)
  | .ub => .ub

/-- `ip-any-address.hpp:97-99`. -/
def isMulticast (c : Cfg) (x : RawAddr) : Res Bool := x.pick (v4IsMulticast c.le) (v6IsMulticast c)

/-- `ip-any-address.hpp:108-110`. -/
def isPrivate (c : Cfg) (x : RawAddr) : Res Bool := x.pick (v4IsPrivate c.le) (v6IsPrivate c)

/-- `ip-any-address.hpp:119-121`. -/
def isGlobal (c : Cfg) (x : RawAddr) : Res Bool := x.pick (v4IsGlobal c.le) (v6IsGlobal c)

/-- `ip-any-address.hpp:128-130`. -/
def isReserved (c : Cfg) (x : RawAddr) : Res Bool := x.pick (v4IsReserved c.le) (v6IsReserved c)

/-- `ip-any-address.hpp:139-141`. -/
def isLoopback (c : Cfg) (x : RawAddr) : Res Bool := x.pick (v4IsLoopback c.le) v6IsLoopback

/-- `ip-any-address.hpp:148-150`. -/
def isLinkLocal (c : Cfg) (x : RawAddr) : Res Bool := x.pick (v4IsLinkLocal c.le) (v6IsLinkLocal c)

/-- `ip-any-address.hpp:163-165`. -/
def isUnspecified (x : RawAddr) : Res Bool :=
  x.pick (fun b => .ok (bytesUnspecified b)) (fun a => .ok (bytesUnspecified a.bytes))

/-- `ip-any-address.hpp:174-176`: the first member is not read. -/
def isSiteLocal (c : Cfg) (x : RawAddr) : Res Bool :=
  if x.isV4 then .ok false
  else do
    let a ← x.mem.get2
    v6IsSiteLocal c a

/-- `ip-any-address.hpp:203-205`; `size()` is static in both classes, but is called on the member. -/
def size (x : RawAddr) : Res Nat := x.pick (fun _ => .ok 4) (fun _ => .ok 16)

/-- `ip-any-address.hpp:215-217`. -/
def hash (conv : Char → BitVec 64) (x : RawAddr) : Res (BitVec 64) := x.pick (fun b => .ok (v4Hash b)) (v6Hash conv)

/-- `ip-any-address.hpp:227-229`. -/
def mapped (x : RawAddr) : Res (Option (List (BitVec 8))) :=
  if x.isV4 then .ok none
  else do
    let a ← x.mem.get2
    v6Mapped a.bytes

/-- `ip-any-address.hpp:240-242`. -/
def sixToFour (x : RawAddr) : Res (Option (List (BitVec 8))) :=
  if x.isV4 then .ok none
  else do
    let a ← x.mem.get2
    v6SixToFour a.bytes

/-- `ip-any-address.hpp:256-258`. -/
def teredo (x : RawAddr) : Res (Option (List (BitVec 8) × List (BitVec 8))) :=
  if x.isV4 then .ok none
  else do
    let a ← x.mem.get2
    v6Teredo a.bytes

/-- `ip-any-address.hpp:267-272`, `v4`. -/
def v4 (x : RawAddr) : Res (Option (List (BitVec 8))) :=
  if x.version = .V6 then .ok none
  else do
    let b ← x.mem.get1
    .ok (some b)

/-- `ip-any-address.hpp:281-286`, `v6`. -/
def v6 (x : RawAddr) : Res (Option V6) :=
  if x.version = .V4 then .ok none
  else do
    let a ← x.mem.get2
    .ok (some a)

/-- `ip-any-address.hpp:296-298`. -/
def data (x : RawAddr) : Res (List (BitVec 8)) := x.pick .ok (fun a => .ok a.bytes)

/-- `ip-any-address.hpp:423-425, 1209-1211`. -/
def toUint32 (le : Bool) (x : RawAddr) : Res (BitVec 32) :=
  x.pick (v4ToUint le) (fun a => do
    let n ← v6ToUint le a.bytes
    .ok (n.lower.setWidth 32))

/-- `ip-any-address.hpp:436-438, 1222-1224`. -/
def toUint128 (le : Bool) (x : RawAddr) : Res U128 :=
  x.pick (fun b => do
    let n ← v4ToUint le b
    .ok (U128.ofU64 (n.setWidth 64))) (fun a => v6ToUint le a.bytes)

/-- `ip-any-address.hpp:448-500`, `to_string` and the other character types. -/
def toString (M : Nat) (fmt : Format) (x : RawAddr) : Res (List Char) := x.pick v4ToString (fun a => v6ToString M a fmt)

/-- `ip-any-address.hpp:522-524`. -/
def reversePointer (le : Bool) (M : Nat) (x : RawAddr) : Res (List Char) :=
  x.pick (v4ReversePointer le) (fun a => v6ReversePointer M a.bytes)

/-- `ip-any-address.hpp:1193-1198`. -/
def getScope (M : Nat) (x : RawAddr) : Res Scope :=
  if x.version = .V4 then Scope.mk' (emptyScope M)
  else do
    let a ← x.mem.get2
    v6GetScope M a

/-- `ip-any-address.hpp:748-752, 1089-1093` and the other overloads: the object afterwards and the code. -/
def setScope (spaces : Bool) (M : Nat) (x : RawAddr) (size : Nat) (evs : List Ev) : Res (RawAddr × Option ErrorCode) :=
  if x.version = .V6 then do
    let a ← x.mem.get2
    let r ← v6SetScope spaces M a size evs
    .ok (⟨.second r.1, x.version⟩, r.2)
  else .ok (x, none)

/-- `ip-any-address.hpp:1247-1252`. -/
def eq (val : Char → Int) (x y : RawAddr) : Res Bool :=
  x.both (.ok false) (fun a b => .ok (bytesEq a b)) (v6Equals val) y

/-- `ip-any-address.hpp:1276-1282`. -/
def cmp (val : Char → Int) (x y : RawAddr) : Res Ordering :=
  x.threeWay (fun a b => .ok (bytesCmp a b)) (v6Compare val) y

/-- `ip-any-address.hpp:1294-1302`. -/
def lt (val : Char → Int) (x y : RawAddr) : Res Bool := x.less (fun a b => .ok (bytesLess a b)) (v6Less val) y

end RawAddr

/-! ### `ip_network` -/

/-- `ip-any-network.hpp:70, 1317-1330`, the members of `ip_network`. -/
abbrev RawNet := Tagged (Net (List (BitVec 8))) (Net V6)

namespace RawNet

/-- `ip-any-network.hpp:703-704`, `ip_network()`. -/
def default (c : Cfg) : Res RawNet := do
  let d ← (fam4 c.le).defaultNet
  .ok (.of1 d)

/-- `ip-any-network.hpp:44-56`, `parse`. -/
def parse (c : Cfg) (evs : List Ev) (strict : Bool) : Res RawNet :=
  match (fam4 c.le).parseNet evs strict with
  | .ok n => .ok (.of1 n)
  | .err _ _ => do
    let n ← (fam6 c).parseNet evs strict
    .ok (.of2 n)
  | .ub => .ub

/-- `ip-any-network.hpp:762-771`, `from_address`; `value()` of an empty optional is the member of the optional, here
undefined. -/
def fromAddress (c : Cfg) (a : RawAddr) (p : Nat) (strict : Bool) : Res RawNet :=
  if a.isV4 then do
    match ← a.v4 with
    | some b => do
      let n ← (fam4 c.le).fromAddress b p strict
      .ok (.of1 n)
    | none => .ub
  else do
    match ← a.v6 with
    | some b => do
      let n ← (fam6 c).fromAddress b p strict
      .ok (.of2 n)
    | none => .ub

/-- `ip-any-network.hpp:92-94`. -/
def prefixlen (x : RawNet) : Res Nat := x.pick (fun n => .ok n.plen) (fun n => .ok n.plen)

/-- `ip-any-network.hpp:103-105`. -/
def address (x : RawNet) : Res RawAddr := x.pick (fun n => .ok (.of1 n.addr)) (fun n => .ok (.of2 n.addr))

/-- `ip-any-network.hpp:115-117`. -/
def broadcast (c : Cfg) (x : RawNet) : Res RawAddr :=
  x.pick (fun n => do
    let b ← (fam4 c.le).broadcast n
    .ok (.of1 b)) (fun n => do
    let b ← (fam6 c).broadcast n
    .ok (.of2 b))

/-- `ip-any-network.hpp:127-129`. -/
def netmask (x : RawNet) : Res RawAddr := x.pick (fun n => .ok (.of1 n.mask)) (fun n => .ok (.of2 n.mask))

/-- `ip-any-network.hpp:138-140`. -/
def hostmask (c : Cfg) (x : RawNet) : Res RawAddr :=
  x.pick (fun n => .ok (.of1 ((fam4 c.le).hostmask n))) (fun n => .ok (.of2 ((fam6 c).hostmask n)))

/-- `ip-any-network.hpp:152-154`. -/
def isMulticast (c : Cfg) (x : RawNet) : Res Bool := x.pick (v4NetIsMulticast c.le) (v6NetIsMulticast c)

/-- `ip-any-network.hpp:166-168`. -/
def isPrivate (c : Cfg) (x : RawNet) : Res Bool := x.pick (v4NetIsPrivate c.le) (v6NetIsPrivate c)

/-- `ip-any-network.hpp:180-182`. -/
def isGlobal (c : Cfg) (x : RawNet) : Res Bool := x.pick (v4NetIsGlobal c.le) (v6NetIsGlobal c)

/-- `ip-any-network.hpp:192-194`. -/
def isReserved (c : Cfg) (x : RawNet) : Res Bool := x.pick (v4NetIsReserved c.le) (v6NetIsReserved c)

/-- `ip-any-network.hpp:206-208`. -/
def isLoopback (c : Cfg) (x : RawNet) : Res Bool := x.pick (v4NetIsLoopback c.le) (v6NetIsLoopback c)

/-- `ip-any-network.hpp:219-221`. -/
def isLinkLocal (c : Cfg) (x : RawNet) : Res Bool := x.pick (v4NetIsLinkLocal c.le) (v6NetIsLinkLocal c)

/-- `ip-any-network.hpp:233-235`. -/
def isUnspecified (c : Cfg) (x : RawNet) : Res Bool := x.pick (v4NetIsUnspecified c.le) (v6NetIsUnspecified c)

/-- `ip-any-network.hpp:246-248`. -/
def isSiteLocal (c : Cfg) (x : RawNet) : Res Bool :=
  if x.isV4 then .ok false
  else do
    let n ← x.mem.get2
    v6NetIsSiteLocal c n

/-- `ip-any-network.hpp:276-278`. -/
def size (x : RawNet) : Res Nat := x.pick (fun _ => .ok 4) (fun _ => .ok 16)

/-- `ip-any-network.hpp:288-290`. -/
def hash (c : Cfg) (x : RawNet) : Res (BitVec 64) := x.pick (fam4 c.le).netHash (fam6 c).netHash

/-- `ip-any-network.hpp:297-299`. -/
def count (c : Cfg) (x : RawNet) : Res U128 :=
  x.pick (fun n => do
    let k ← (fam4 c.le).addressesCount n
    .ok (U128.ofU64 (k.setWidth 64))) (fam6 c).addressesCount

/-- `ip-any-network.hpp:675-680`, `v4`. -/
def v4 (x : RawNet) : Res (Option (Net (List (BitVec 8)))) :=
  if x.version = .V4 then do
    let n ← x.mem.get1
    .ok (some n)
  else .ok none

/-- `ip-any-network.hpp:689-694`, `v6`. -/
def v6 (x : RawNet) : Res (Option (Net V6)) :=
  if x.version = .V6 then do
    let n ← x.mem.get2
    .ok (some n)
  else .ok none

/-- `ip-any-network.hpp:321-327`, `contains`. -/
def contains (c : Cfg) (x : RawNet) (a : RawAddr) : Res Bool :=
  if x.version = a.version then
    if x.isV4 then do
      let n ← x.mem.get1
      match ← a.v4 with
      | some b => (fam4 c.le).contains n b
      | none => .ub
    else do
      let n ← x.mem.get2
      match ← a.v6 with
      | some b => (fam6 c).contains n b
      | none => .ub
  else .ok false

/-- The form of `overlaps`, `subnet_of` and `supernet_of`: `f(other.v4().value())` or `g(other.v6().value())`. -/
def relation (f : Net (List (BitVec 8)) → Net (List (BitVec 8)) → Res Bool) (g : Net V6 → Net V6 → Res Bool)
    (x other : RawNet) : Res Bool :=
  if x.version = other.version then
    if x.isV4 then do
      let n ← x.mem.get1
      match ← other.v4 with
      | some o => f n o
      | none => .ub
    else do
      let n ← x.mem.get2
      match ← other.v6 with
      | some o => g n o
      | none => .ub
  else .ok false

/-- `ip-any-network.hpp:348-354`. -/
def overlaps (c : Cfg) (x y : RawNet) : Res Bool := relation (fam4 c.le).overlaps (fam6 c).overlaps x y

/-- `ip-any-network.hpp:375-381`. -/
def subnetOf (c : Cfg) (x y : RawNet) : Res Bool := relation (fam4 c.le).subnetOf (fam6 c).subnetOf x y

/-- `ip-any-network.hpp:402-408`. -/
def supernetOf (c : Cfg) (x y : RawNet) : Res Bool := relation (fam4 c.le).supernetOf (fam6 c).supernetOf x y

/-- `ip-any-network.hpp:459-461`. -/
def supernet (c : Cfg) (x : RawNet) (diff : Nat) (newp : Option Nat) : Res RawNet :=
  x.pick (fun n => do
    let n ← (fam4 c.le).supernet n diff newp
    .ok (.of1 n)) (fun n => do
    let n ← (fam6 c).supernet n diff newp
    .ok (.of2 n))

/-- `ip-any-network.hpp:782-838`, `to_string` and the other character types. -/
def toString (c : Cfg) (fmt : Format) (x : RawNet) : Res (List Char) :=
  x.pick ((fam4 c.le).netToString fmt) ((fam6 c).netToString fmt)

/-- `ip-any-network.hpp:1221-1226`. -/
def eq (c : Cfg) (x y : RawNet) : Res Bool := x.both (.ok false) (fam4 c.le).netEq (fam6 c).netEq y

/-- `ip-any-network.hpp:1250-1256`. -/
def cmp (c : Cfg) (x y : RawNet) : Res Ordering := x.threeWay (fam4 c.le).netCmp (fam6 c).netCmp y

/-- `ip-any-network.hpp:1268-1276`. -/
def lt (c : Cfg) (x y : RawNet) : Res Bool := x.less (fam4 c.le).netLt (fam6 c).netLt y

end RawNet

/-! ### `ip_any_iterator` -/

/-- `ip-any-iterator.hpp:452-466`, the members of `ip_any_iterator`. -/
structure RawIt (I4 I6 V : Type) where
  iter : Tagged I4 I6
  cur : V
deriving DecidableEq, Repr

namespace RawIt
variable {I4 V4 I6 V6 V : Type} (O : AnyItOps I4 V4 I6 V6 V)

/-- `ip-any-iterator.hpp:64-65`. -/
def of4 (x : I4) : RawIt I4 I6 V := ⟨.of1 x, O.emb4 (O.o4.deref x)⟩

/-- `ip-any-iterator.hpp:72-73`. -/
def of6 (x : I6) : RawIt I4 I6 V := ⟨.of2 x, O.emb6 (O.o6.deref x)⟩

/-- `ip-any-iterator.hpp:95-106`, `operator*` and `operator->`. -/
def deref (x : RawIt I4 I6 V) : V := x.cur

/-- `ip-any-iterator.hpp:83-88`. -/
def uintDiff (x y : RawIt I4 I6 V) : Res U128 :=
  x.iter.both (.ok (U128.ofU64 0)) (fun a b => do
    let d ← O.diff4 a b
    .ok (U128.ofU64 (d.setWidth 64))) O.diff6 y.iter

/-- `ip-any-iterator.hpp:125-127`. -/
def at_ (n : U128) (x : RawIt I4 I6 V) : Res V :=
  x.iter.pick (fun a => do
    let v ← O.at4 a (lo32 n)
    .ok (O.emb4 v)) (fun a => do
    let v ← O.at6 a n
    .ok (O.emb6 v))

/-- `ip-any-iterator.hpp:429-437`: both members are assigned, `_version` stays. -/
def add (x : RawIt I4 I6 V) (n : U128) : Res (RawIt I4 I6 V) :=
  if x.iter.version = .V4 then do
    let a ← x.iter.mem.get1
    let b ← O.o4.add a (lo32 n)
    .ok ⟨⟨.first b, x.iter.version⟩, O.emb4 (O.o4.deref b)⟩
  else do
    let a ← x.iter.mem.get2
    let b ← O.o6.add a n
    .ok ⟨⟨.second b, x.iter.version⟩, O.emb6 (O.o6.deref b)⟩

/-- `ip-any-iterator.hpp:439-447`. -/
def sub (x : RawIt I4 I6 V) (n : U128) : Res (RawIt I4 I6 V) :=
  if x.iter.version = .V4 then do
    let a ← x.iter.mem.get1
    let b ← O.o4.sub a (lo32 n)
    .ok ⟨⟨.first b, x.iter.version⟩, O.emb4 (O.o4.deref b)⟩
  else do
    let a ← x.iter.mem.get2
    let b ← O.o6.sub a n
    .ok ⟨⟨.second b, x.iter.version⟩, O.emb6 (O.o6.deref b)⟩

/-- `ip-any-iterator.hpp:313-318`. -/
def diff (x y : RawIt I4 I6 V) : Res (BitVec 64) :=
  x.iter.both (.ok 0#64) (fun a b => .ok (O.o4.diff a b)) (fun a b => .ok (O.o6.diff a b)) y.iter

/-- `ip-any-iterator.hpp:328-333`. -/
def eq (x y : RawIt I4 I6 V) : Res Bool := x.iter.both (.ok false) O.o4.eq O.o6.eq y.iter

/-- `ip-any-iterator.hpp:357-363`. -/
def cmp (x y : RawIt I4 I6 V) : Res Ordering := x.iter.threeWay O.cmp4 O.cmp6 y.iter

/-- `ip-any-iterator.hpp:375-380`. -/
def lt (x y : RawIt I4 I6 V) : Res Bool := x.iter.both (.ok false) O.lt4 O.lt6 y.iter

/-- `ip-any-iterator.hpp:421-423`. -/
def base (x : RawIt I4 I6 V) : Res (RawIt I4 I6 V) :=
  x.iter.pick (fun a => do
    let b ← O.o4.base a
    .ok (of4 O b)) (fun a => do
    let b ← O.o6.base a
    .ok (of6 O b))

/-- `ip-any-iterator.hpp:425-427`. -/
def reverse (x : RawIt I4 I6 V) : Res (RawIt I4 I6 V) :=
  x.iter.pick (fun a => do
    let b ← O.o4.reverse a
    .ok (of4 O b)) (fun a => do
    let b ← O.o6.reverse a
    .ok (of6 O b))

end RawIt

/-! ### Programs -/

/-- The statements that create or change the objects of a program; objects are numbered in the order of their
creation. -/
inductive ObjStmt where
  /-- `ip_address()` -/
  | default
  /-- from an `ipv4_address` or four bytes -/
  | of4 (b : List (BitVec 8))
  /-- from an `ipv6_address` -/
  | of6 (a : V6)
  /-- from sixteen bytes -/
  | bytes6 (b : List (BitVec 8))
  /-- `parse`; a program that continues after an error has the default object -/
  | parse (s : List Char)
  /-- `from_bytes(ptr, count, version)` -/
  | fromBytes (src : List (BitVec 8)) (count : Nat) (version : IpVersion)
  /-- the copy constructor -/
  | copy (i : Nat)
  /-- the copy assignment `x_i = x_j` -/
  | assign (i j : Nat)
  /-- `x_i.swap(x_j)` -/
  | swap (i j : Nat)
  /-- `x_i.set_scope_id(text, code)` -/
  | setScope (i : Nat) (s : List Char)

/-- One statement.  The copy constructor and the copy assignment of `ip_address` are the defaulted ones, which copy the
union and the tag; `ip-any-address.hpp:533-537` is `swap`. -/
def RawAddr.step (c : Cfg) (store : List RawAddr) : ObjStmt → Res (List RawAddr)
  | .default => .ok (store ++ [RawAddr.default])
  | .of4 b => .ok (store ++ [.of1 b])
  | .of6 a => .ok (store ++ [.of2 a])
  | .bytes6 b => .ok (store ++ [RawAddr.ofBytes6 c.M b])
  | .parse s =>
    match RawAddr.parse c.spaces c.M s with
    | .ok x => .ok (store ++ [x])
    | .err _ _ => .ok (store ++ [RawAddr.default])
    | .ub => .ub
  | .fromBytes src count version => do
    let x ← RawAddr.fromBytes c.M src count version
    .ok (store ++ [x])
  | .copy i => do
    let x ← rd store i
    .ok (store ++ [x])
  | .assign i j => do
    let x ← rd store j
    wr store i x
  | .swap i j => do
    let tmp ← rd store i
    let y ← rd store j
    let store ← wr store i y
    wr store j tmp
  | .setScope i s => do
    let x ← rd store i
    let r ← RawAddr.setScope c.spaces c.M x s.length (readChars s)
    wr store i r.1

/-- A program: its statements in order. -/
def RawAddr.run (c : Cfg) : List RawAddr → List ObjStmt → Res (List RawAddr)
  | store, [] => .ok store
  | store, s :: ss => do
    let store ← RawAddr.step c store s
    RawAddr.run c store ss

end Ip
