import Verif.Model.Report
import Verif.Model.Compare
import Verif.Model.Containers

/-!
The class `scope`, and `set_scope_id` of arrays in all character types.
-/

set_option autoImplicit false

namespace Ip

/-- `ipv6-address.hpp:260-262`, the members of `scope`. -/
structure Scope where
  id : FStr
  value : BitVec 32
  has : Bool
deriving DecidableEq, Repr

namespace Scope

/-- `ipv6-address.hpp:96-100`, the constructor. -/
def mk' (id : FStr) : Res Scope := do
  let (has, value) ← scopeValue id
  .ok ⟨id, value, has⟩

/-- `ipv6-address.hpp:107-109, 152-154`, `get_string` and the conversion to `std::string`. -/
def getString (s : Scope) : Res (List Char) := s.id.forward

/-- `ipv6-address.hpp:125-127, 143-145`, `has_string` and the conversion to `bool`. -/
def hasString (s : Scope) : Bool := !s.id.empty

/-- `ipv6-address.hpp:116-118, 161-163`, `get_uint32` and the conversion to `uint32_t`. -/
def getUint32 (s : Scope) : BitVec 32 := s.value

/-- `ipv6-address.hpp:134-136`, `has_uint32`. -/
def hasUint32 (s : Scope) : Bool := s.has

/-- `ipv6-address.hpp:171-238`, the comparison operators. -/
def cmpOps' (spaceship : Bool) (val : Char → Int) (a b : Scope) : Res CmpOps := fstrCmpOps spaceship val a.id b.id

end Scope

/-- `ipv6-address.hpp:285-293`, `get_scope_id`. -/
def v6GetScope (M : Nat) (a : V6) : Res Scope := Scope.mk' (if M = 0 then ⟨[], 0⟩ else a.scope)

/-- `ip-any-address.hpp:1193-1198`, `get_scope_id`. -/
def anyScopeObject (M : Nat) : AnyAddr → Res Scope
  | .v4 _ => Scope.mk' (emptyScope M)
  | .v6 a => v6GetScope M a

/-- `ipv6-address.hpp:307-321`, `set_scope_id` of an array without `error_code`: the address afterwards.  The array
is `units` followed by one NUL; `units.length ≤ M` is a `static_assert`. -/
def v6ScopeArrayThrow {U : Type} (c : Cfg) (enc : Enc U) (a : V6) (units : List U) : Thr V6 :=
  if c.M = 0 then .ret a
  else match makeFixed enc units with
    | .ok f => v6SetScopeThrow c encChar a f.contents
    | .err code sym => raise enc code sym units
    | .ub => .ub

/-- `ipv6-address.hpp:336-344`, with `error_code`. -/
def v6ScopeArrayCode {U : Type} (c : Cfg) (enc : Enc U) (a : V6) (units : List U) (code : Code) : Res (Code × V6) :=
  if c.M = 0 then .ok (code, a)
  else do
    let (code, f) ← makeFixedCode enc units code
    if code = none then v6ScopeCode c a f.contents.length (readChars f.contents) code else .ok (code, a)

/-- `ipv6-address.hpp:310-315`, without `error_code` and with `IPADDRESS_NO_EXCEPTIONS`; `change` without `error_code`
(23-37) then uses an own variable and `raise_error` returns. -/
def v6ScopeArrayQuiet {U : Type} (c : Cfg) (enc : Enc U) (a : V6) (units : List U) : Res V6 :=
  if c.M = 0 then .ok a
  else do
    let (code, f) ← makeFixedCode enc units none
    if code = none then quiet (v6ScopeCode c a f.contents.length (readChars f.contents)) else .ok a

/-- `ip-any-address.hpp:1178-1182`, `set_scope_id` of an array. -/
def anyScopeArrayThrow {U : Type} (c : Cfg) (enc : Enc U) (a : AnyAddr) (units : List U) : Thr AnyAddr :=
  match a with
  | .v4 b => .ret (.v4 b)
  | .v6 a => (v6ScopeArrayThrow c enc a units).map .v6

end Ip
