import Verif.Model.Any
import Verif.Model.Class
/-
The accessors and factories of `ip_address`, `include/ipaddress/ip-any-address.hpp`.
-/
set_option autoImplicit false

namespace Ip

/-- `ip-any-address.hpp:305-306, 1361-1362`, the default constructor: version 4, all bytes zero
(`ipv4()` in line 1344). -/
def anyDefault : AnyAddr := .v4 [0#8, 0#8, 0#8, 0#8]

/-- `ip-any-address.hpp:86-88`, `version`: the enumerators are 4 and 6. -/
def anyVersion : AnyAddr → Nat
  | .v4 _ => 4
  | .v6 _ => 6

/-- `ip-any-address.hpp:183-185`, `is_v4`. -/
def anyIsV4 (a : AnyAddr) : Bool := anyVersion a == 4

/-- `ip-any-address.hpp:192-194`, `is_v6`. -/
def anyIsV6 (a : AnyAddr) : Bool := anyVersion a == 6

/-- `ip-any-address.hpp:97-99`, `is_multicast`. -/
def anyIsMulticast (c : Cfg) : AnyAddr → Res Bool
  | .v4 b => v4IsMulticast c.le b
  | .v6 a => v6IsMulticast c a

/-- `ip-any-address.hpp:108-110`, `is_private`. -/
def anyIsPrivate (c : Cfg) : AnyAddr → Res Bool
  | .v4 b => v4IsPrivate c.le b
  | .v6 a => v6IsPrivate c a

/-- `ip-any-address.hpp:119-121`, `is_global`. -/
def anyIsGlobal (c : Cfg) : AnyAddr → Res Bool
  | .v4 b => v4IsGlobal c.le b
  | .v6 a => v6IsGlobal c a

/-- `ip-any-address.hpp:128-130`, `is_reserved`. -/
def anyIsReserved (c : Cfg) : AnyAddr → Res Bool
  | .v4 b => v4IsReserved c.le b
  | .v6 a => v6IsReserved c a

/-- `ip-any-address.hpp:139-141`, `is_loopback`. -/
def anyIsLoopback (c : Cfg) : AnyAddr → Res Bool
  | .v4 b => v4IsLoopback c.le b
  | .v6 a => v6IsLoopback a

/-- `ip-any-address.hpp:148-150`, `is_link_local`. -/
def anyIsLinkLocal (c : Cfg) : AnyAddr → Res Bool
  | .v4 b => v4IsLinkLocal c.le b
  | .v6 a => v6IsLinkLocal c a

/-- `ip-any-address.hpp:163-165`, `is_unspecified`. -/
def anyIsUnspecified : AnyAddr → Bool
  | .v4 b => bytesUnspecified b
  | .v6 a => bytesUnspecified a.bytes

/-- `ip-any-address.hpp:174-176`, `is_site_local`: false for IPv4. -/
def anyIsSiteLocal (c : Cfg) : AnyAddr → Res Bool
  | .v4 _ => .ok false
  | .v6 a => v6IsSiteLocal c a

/-- `ip-any-address.hpp:203-205`, `size`, the sizes of the two classes (`base-v4.hpp:55-57`, `base-v6.hpp:66-68`). -/
def anySize : AnyAddr → Nat
  | .v4 _ => 4
  | .v6 _ => 16

/-- `ip-any-address.hpp:296-298`, `data`: the memory the pointer refers to. -/
def anyData : AnyAddr → List (BitVec 8)
  | .v4 b => b
  | .v6 a => a.bytes

/-- `ip-any-address.hpp:227-229`, `ipv4_mapped`. -/
def anyMapped : AnyAddr → Res (Option (List (BitVec 8)))
  | .v4 _ => .ok none
  | .v6 a => v6Mapped a.bytes

/-- `ip-any-address.hpp:240-242`, `sixtofour`. -/
def anySixToFour : AnyAddr → Res (Option (List (BitVec 8)))
  | .v4 _ => .ok none
  | .v6 a => v6SixToFour a.bytes

/-- `ip-any-address.hpp:256-258`, `teredo`. -/
def anyTeredo : AnyAddr → Res (Option (List (BitVec 8) × List (BitVec 8)))
  | .v4 _ => .ok none
  | .v6 a => v6Teredo a.bytes

/-- `ip-any-address.hpp:267-272`, `v4`. -/
def anyV4 : AnyAddr → Option (List (BitVec 8))
  | .v6 _ => none
  | .v4 b => some b

/-- `ip-any-address.hpp:281-286`, `v6`. -/
def anyV6 : AnyAddr → Option V6
  | .v4 _ => none
  | .v6 a => some a

/-- `ip-any-address.hpp:1193-1198`, `get_scope_id`: the string inside the returned `scope`. -/
def anyGetScope (M : Nat) : AnyAddr → FStr
  | .v4 _ => emptyScope M
  | .v6 a => a.scope

/-- `ip-any-address.hpp:335-336, 354-356`, from four bytes. -/
def anyOfBytes4 (b : List (BitVec 8)) : AnyAddr := .v4 b

/-- `ip-any-address.hpp:345-346, 364-366`, from sixteen bytes: no scope id. -/
def anyOfBytes6 (M : Nat) (b : List (BitVec 8)) : AnyAddr := .v6 ⟨b, emptyScope M⟩

/-- `ip-any-address.hpp:399-401`, `from_uint(uint32_t)`. -/
def anyFromUint32 (le : Bool) (n : BitVec 32) : AnyAddr := .v4 (v4FromUint le n)

/-- `ip-any-address.hpp:410-412`, `from_uint(const uint128_t&)`. -/
def anyFromUint128 (le : Bool) (M : Nat) (n : U128) : Res AnyAddr := do
  let b ← v6FromUint le n
  .ok (.v6 ⟨b, emptyScope M⟩)

end Ip
