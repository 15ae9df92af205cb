import Verif.Model.AnyNet
/-
Parsing during compilation (`IPADDRESS_NONTYPE_TEMPLATE_PARAMETER`, C++20): the functions `parse<"...">()` and
the literals defined by them, and the integer literals.
-/
set_option autoImplicit false

namespace Ip

/-- A `consteval` function: the program compiles with the value, or it does not compile (`none`).  An
evaluation that throws (`errors.hpp:315-382`), divides by zero (`errors.hpp:384-386`, builds without exceptions) or has
undefined behaviour is not a constant expression. -/
def constant {α : Type} : Thr α → Option α
  | .ret a => some a
  | .thrown _ => none
  | .ub => none

/-- `fixed-string.hpp:59-70, 380-403, 664-673`: the `fixed_string` of a literal with the code units `units`. -/
def constFixed {U : Type} (enc : Enc U) (units : List U) : Option FStr :=
  match makeFixed enc units with
  | .ok f => some f
  | .err code sym => constant (raise enc code sym units)
  | .ub => none

/-- `ip-address-base.hpp:122-132`, `ip-network-base.hpp:64-74`: `parse<FixedString>()`, where `parse` is the
parser of a range of `char`. -/
def constParse {α : Type} (parse : List Ev → Res α) (str : FStr) : Option α :=
  constant (orRaise encChar str.contents (parse (readChars str.contents)))

/-- `ip-any-address.hpp:550-565`, `ip-any-network.hpp:870-885`: the copy of the text in an array, the version 4 parser of
arrays, and `parse<FixedString>()` of version 6. -/
def constAny {α β γ : Type} (f4 : α → γ) (f6 : β → γ) (parse4 : List Ev → Res α) (parse6 : List Ev → Res β) (str : FStr) : Option γ :=
  match literalCopy str.data str.length 0 (List.replicate (str.length + 1) '\x00') with
  | .ok ip =>
    match arrayParse encChar parse4 (ip.take str.length) with
    | .ok a => some (f4 a)
    | .err _ _ => (constParse parse6 str).map f6
    | .ub => none
  | _ => none

/-- `ip-address-base.hpp:122-132`, `ipv4-address.hpp:129-132`: `ipv4_address::parse<"...">()` and `"..."_ipv4`. -/
def v4Const {U : Type} (enc : Enc U) (units : List U) : Option (List (BitVec 8)) :=
  (constFixed enc units).bind (constParse v4FromEvents)

/-- `ip-address-base.hpp:122-132`, `ipv6-address.hpp:889-892`: `ipv6_address::parse<"...">()` and `"..."_ipv6`. -/
def v6Const {U : Type} (c : Cfg) (enc : Enc U) (units : List U) : Option V6 :=
  (constFixed enc units).bind (constParse (v6FromEvents c.spaces c.M))

/-- `ip-any-address.hpp:549-565, 1373-1376`: `ip_address::parse<"...">()` and `"..."_ip`. -/
def anyConst {U : Type} (c : Cfg) (enc : Enc U) (units : List U) : Option AnyAddr :=
  (constFixed enc units).bind (constAny AnyAddr.v4 AnyAddr.v6 v4FromEvents (v6FromEvents c.spaces c.M))

/-- `ip-network-base.hpp:64-74`, `ipv4-network.hpp:63-66`: `ipv4_network::parse<"...", strict>()`; `"..."_ipv4_net` is
strict. -/
def v4NetConst {U : Type} (le : Bool) (enc : Enc U) (strict : Bool) (units : List U) : Option (Net (List (BitVec 8))) :=
  (constFixed enc units).bind (constParse fun evs => (fam4 le).parseNet evs strict)

/-- `ip-network-base.hpp:64-74`, `ipv6-network.hpp:79-82`: `ipv6_network::parse<"...", strict>()`; `"..."_ipv6_net` is
strict. -/
def v6NetConst {U : Type} (c : Cfg) (enc : Enc U) (strict : Bool) (units : List U) : Option (Net V6) :=
  (constFixed enc units).bind (constParse fun evs => (fam6 c).parseNet evs strict)

/-- `ip-any-network.hpp:869-885, 1344-1347`: `ip_network::parse<"...", strict>()`; `"..."_net` is strict. -/
def anyNetConst {U : Type} (c : Cfg) (enc : Enc U) (strict : Bool) (units : List U) : Option AnyNet :=
  (constFixed enc units).bind
    (constAny AnyNet.v4 AnyNet.v6 (fun evs => (fam4 c.le).parseNet evs strict) (fun evs => (fam6 c).parseNet evs strict))

/-- `ipv4-address.hpp:140-143`, `_ipv4` of an integer in C++20; `debug` is the absence of `NDEBUG`: then `assert`
makes the evaluation not constant. -/
def v4IntConst (le debug : Bool) (value : BitVec 64) : Option (List (BitVec 8)) :=
  if debug ∧ ¬ value ≤ 0xFFFFFFFF#64 then none else some (v4FromUint le (value.setWidth 32))

/-- `ipv4-address.hpp:197-199`, `_ipv4` of an integer before C++20. -/
def v4IntLiteral (le : Bool) (value : BitVec 64) : List (BitVec 8) := v4FromUint le (value.setWidth 32)

end Ip
