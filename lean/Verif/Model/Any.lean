import Verif.Model.V6Addr
/-
Version agnostic addresses, `include/ipaddress/ip-any-address.hpp`.
-/
set_option autoImplicit false

namespace Ip

/-- `ip-any-address.hpp:1343-1362`: the union `_ipv` together with its tag `_version`.
Simplification: reading the member that is not active is not expressible; every function of the
class selects the member by `_version`, which the constructors (lines 305-346) set consistently. -/
inductive AnyAddr where
  | v4 (bytes : List (BitVec 8))
  | v6 (a : V6)
deriving DecidableEq, Repr

/-- `ip-any-address.hpp:42-54`, `ip_any_parser::parse` on the events of a text: the IPv4 parser first,
and the IPv6 parser if that reports an error (its code replaces the first one). -/
def anyFromEvents (spaces : Bool) (M : Nat) (evs : List Ev) : Res AnyAddr :=
  match v4FromEvents evs with
  | .ok b => .ok (.v4 b)
  | .err _ _ => do
    let a ← v6FromEvents spaces M evs
    .ok (.v6 a)
  | .ub => .ub

/-- `ip-any-address.hpp:665`, `ip_address::parse` of a `char` text. -/
def anyParse (spaces : Bool) (M : Nat) (s : List Char) : Res AnyAddr := anyFromEvents spaces M (readChars s)

/-- `ip-any-address.hpp:448-450`, `to_string`. -/
def anyToString (M : Nat) (fmt : Format) : AnyAddr → Res (List Char)
  | .v4 b => v4ToString b
  | .v6 a => v6ToString M a fmt

/-- `ip-any-address.hpp:215-217`, `hash`. -/
def anyHash (conv : Char → BitVec 64) : AnyAddr → Res (BitVec 64)
  | .v4 b => .ok (v4Hash b)
  | .v6 a => v6Hash conv a

/-- `ip-any-address.hpp:1247-1252`, `operator==`. -/
def anyEquals (val : Char → Int) : AnyAddr → AnyAddr → Res Bool
  | .v4 a, .v4 b => .ok (bytesEq a b)
  | .v6 a, .v6 b => v6Equals val a b
  | _, _ => .ok false

/-- `ip-any-address.hpp:1276-1282`, `operator<=>`; the versions compare as 4 and 6. -/
def anyCompare (val : Char → Int) : AnyAddr → AnyAddr → Res Ordering
  | .v4 a, .v4 b => .ok (bytesCmp a b)
  | .v6 a, .v6 b => v6Compare val a b
  | .v4 _, .v6 _ => .ok .lt
  | .v6 _, .v4 _ => .ok .gt

/-- `ip-any-address.hpp:1294-1302`, `operator<` (without `<=>`). -/
def anyLess (val : Char → Int) : AnyAddr → AnyAddr → Res Bool
  | .v4 a, .v4 b => .ok (bytesLess a b)
  | .v6 a, .v6 b => v6Less val a b
  | .v4 _, .v6 _ => .ok true
  | .v6 _, .v4 _ => .ok false

/-- `ip-any-address.hpp:423-425`, `to_uint32`; the conversion of `uint128_t` keeps the low 32 bits. -/
def anyToUint32 (le : Bool) : AnyAddr → Res (BitVec 32)
  | .v4 b => v4ToUint le b
  | .v6 a => do
    let n ← v6ToUint le a.bytes
    .ok (n.lower.setWidth 32)

/-- `ip-any-address.hpp:436-438`, `to_uint128`. -/
def anyToUint128 (le : Bool) : AnyAddr → Res U128
  | .v4 b => do
    let n ← v4ToUint le b
    .ok (U128.ofU64 (n.setWidth 64))
  | .v6 a => v6ToUint le a.bytes

/-- `ip-any-address.hpp:522-524`, `reverse_pointer`. -/
def anyReversePointer (le : Bool) (M : Nat) : AnyAddr → Res (List Char)
  | .v4 b => v4ReversePointer le b
  | .v6 a => v6ReversePointer M a.bytes

/-- `ip-any-address.hpp:388-390`, `from_bytes(ptr, count, version)`; `six` is `version != V4`. -/
def anyFromBytes (M : Nat) (src : List (BitVec 8)) (count : Nat) (six : Bool) : Res AnyAddr :=
  if six then do
    let b ← fromBytes 16 src count
    .ok (.v6 ⟨b, emptyScope M⟩)
  else do
    let b ← fromBytes 4 src count
    .ok (.v4 b)

/-- `ip-any-address.hpp:533-537`, `swap`: copies of the whole objects. -/
def anySwap (a b : AnyAddr) : AnyAddr × AnyAddr :=
  let tmp := a
  let a := b
  let b := tmp
  (a, b)

/-- `ip-any-address.hpp:748-752, 1089-1093`, `set_scope_id`: ignored for IPv4. -/
def anySetScope (spaces : Bool) (M : Nat) (a : AnyAddr) (size : Nat) (evs : List Ev) :
    Res (AnyAddr × Option ErrorCode) :=
  match a with
  | .v4 b => .ok (.v4 b, none)
  | .v6 a => do
    let r ← v6SetScope spaces M a size evs
    .ok (.v6 r.1, r.2)

end Ip
