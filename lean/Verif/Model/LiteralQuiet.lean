import Verif.Model.LiteralEnv
import Verif.Model.Report
/-
Literals in builds with `IPADDRESS_NO_EXCEPTIONS`: where `raise_error` is called, and what follows when it returns.
-/
set_option autoImplicit false

namespace Ip
namespace Env

/-- `auto result = f(code); if (code != no_error) raise_error(...); return result;` (`ip-address-base.hpp:122-132, 763-771`,
`ip-network-base.hpp:64-74, 1246-1254`) when `raise_error` may return. -/
def orRaiseNoExc {α : Type} (e : Env) (ph : Phase) (f : Code → Res (Code × α)) : Res α := do
  let (code, a) ← f none
  if code = none then .ok a
  else do
    e.raiseNoExc ph
    .ok a

/-- `ip-address-base.hpp:403-414`, `ip-network-base.hpp:378-389`: `parse(const T(&)[N])`.  For text that cannot be read there
is no `raise_error`: the result is the object `d`. -/
def arrayNoExc {α U : Type} (e : Env) (ph : Phase) (enc : Enc U) (d : Res α) (parse : List Ev → Code → Res (Code × α))
    (units : List U) : Res α := do
  let (code, f) ← makeFixedCode enc units none
  if code = none then e.orRaiseNoExc ph (parse (readChars f.contents)) else d

/-- `ip-address-base.hpp:785-795`, `ip-network-base.hpp:1327-1337`, `ip-any-address.hpp:1387-1450`,
`ip-any-network.hpp:1361-1437`: the literals that are functions. -/
def literalNoExc {α U : Type} (e : Env) (ph : Phase) (enc : Enc U) (maxLen : Nat) (parse : List U → Res α) (address : List U) :
    Res α := do
  if address.length > maxLen then e.raiseNoExc ph
  let str ← literalCopy address (min address.length maxLen) 0 (List.replicate (maxLen + 1) enc.zero)
  parse (str.take maxLen)

/-- `fixed-string.hpp:59-70`, `unicode.hpp:27-35`: the argument of the template, made by the compiler.  When `raise_error`
returns, the character that could not be read is NUL, and ends the string.  Simplification: the loop is that of
`makeFixedCode` (`fixed-string.hpp:82-94`), which stops at the same place. -/
def fixedNoExc {U : Type} (e : Env) (enc : Enc U) (units : List U) : Option FStr :=
  match makeFixedCode enc units none with
  | .ok (none, f) => some f
  | .ok (some _, f) =>
    match e.raiseNoExc .compile with
    | .ok _ => some f
    | _ => none
  | _ => none

end Env

/-- A call, in such a build, of a function declared as `kind` whose body does `body`. -/
def FnKind.callNoExc {α : Type} (kind : FnKind) (ph : Phase) (body : Phase → Res α) : LitOut α :=
  let compiled : LitOut α := match body .compile with
    | .ok a => .value a
    | _ => .refused
  match kind, ph with
  | .consteval, _ => compiled
  | .constexpr, .compile => compiled
  | .plain, .compile => .refused
  | _, .run known =>
    match body (.run known) with
    | .ok a => .value a
    | _ => .undefined

/-- `ip-any-address.hpp:550-565`, `ip-any-network.hpp:870-885`: `parse<FixedString>()` of the version agnostic classes. -/
def templateAnyNoExc {α β γ : Type} (f4 : α → γ) (f6 : β → γ) (d4 : Res α) (parse4 : List Ev → Code → Res (Code × α))
    (parse6 : FStr → Res β) (str : FStr) : Res γ := do
  let ip ← literalCopy str.data str.length 0 (List.replicate (str.length + 1) '\x00')
  let (code, a) ← arrayCode encChar d4 parse4 (ip.take str.length) none
  if code = none then .ok (f4 a)
  else do
    let b ← parse6 str
    .ok (f6 b)

/-- A literal operator (`ipv4-address.hpp:121-132, 145-190`). -/
def Env.literalOpNoExc {α U : Type} (e : Env) (ph : Phase) (enc : Enc U) (units : List U) (template : Phase → FStr → Res α)
    (function : Phase → List U → Res α) : LitOut α :=
  if e.nontype then
    match e.fixedNoExc enc units with
    | some f => e.constevalKind.callNoExc ph (fun ph => template ph f)
    | none => .refused
  else e.constexprKind.callNoExc ph (fun ph => function ph units)

/-- `ipv4-address.hpp:121-132, 145-190`: `"..."_ipv4`. -/
def v4LiteralOpNoExc {U : Type} (e : Env) (ph : Phase) (enc : Enc U) (s : List U) : LitOut (List (BitVec 8)) :=
  e.literalOpNoExc ph enc s (fun ph f => e.orRaiseNoExc ph (v4Code (readChars f.contents)))
    (fun ph => e.literalNoExc ph enc 15 (e.arrayNoExc ph enc (.ok (List.replicate 4 0#8)) v4Code))

/-- `ipv6-address.hpp:881-940`: `"..."_ipv6`. -/
def v6LiteralOpNoExc {U : Type} (e : Env) (ph : Phase) (c : Cfg) (enc : Enc U) (s : List U) : LitOut V6 :=
  e.literalOpNoExc ph enc s (fun ph f => e.orRaiseNoExc ph (v6Code c (readChars f.contents)))
    (fun ph => e.literalNoExc ph enc (41 + c.M) (e.arrayNoExc ph enc (.ok (fam6 c).zero) (v6Code c)))

/-- `ip-any-address.hpp:1365-1452`: `"..."_ip`. -/
def anyLiteralOpNoExc {U : Type} (e : Env) (ph : Phase) (c : Cfg) (enc : Enc U) (s : List U) : LitOut AnyAddr :=
  e.literalOpNoExc ph enc s
    (fun ph => templateAnyNoExc AnyAddr.v4 AnyAddr.v6 (.ok (List.replicate 4 0#8)) v4Code
      (fun f => e.orRaiseNoExc ph (v6Code c (readChars f.contents))))
    (fun ph => e.literalNoExc ph enc (41 + c.M) fun units =>
      anyQuiet AnyAddr.v4 AnyAddr.v6 (arrayCode enc (.ok (List.replicate 4 0#8)) v4Code units)
        (e.arrayNoExc ph enc (.ok (fam6 c).zero) (v6Code c) units))

/-- `ipv4-network.hpp:52-126`: `"..."_ipv4_net`. -/
def v4NetLiteralOpNoExc {U : Type} (e : Env) (ph : Phase) (le : Bool) (enc : Enc U) (s : List U) : LitOut (Net (List (BitVec 8))) :=
  e.literalOpNoExc ph enc s (fun ph f => e.orRaiseNoExc ph ((fam4 le).parseNetCode true (readChars f.contents)))
    (fun ph => e.literalNoExc ph enc (15 * 2 + 1) (e.arrayNoExc ph enc (fam4 le).defaultNet ((fam4 le).parseNetCode true)))

/-- `ipv6-network.hpp:68-142`: `"..."_ipv6_net`. -/
def v6NetLiteralOpNoExc {U : Type} (e : Env) (ph : Phase) (c : Cfg) (enc : Enc U) (s : List U) : LitOut (Net V6) :=
  e.literalOpNoExc ph enc s (fun ph f => e.orRaiseNoExc ph ((fam6 c).parseNetCode true (readChars f.contents)))
    (fun ph => e.literalNoExc ph enc (41 + c.M + 4) (e.arrayNoExc ph enc (fam6 c).defaultNet ((fam6 c).parseNetCode true)))

/-- `ip-any-network.hpp:1333-1439`: `"..."_net`. -/
def anyNetLiteralOpNoExc {U : Type} (e : Env) (ph : Phase) (c : Cfg) (enc : Enc U) (s : List U) : LitOut AnyNet :=
  e.literalOpNoExc ph enc s
    (fun ph => templateAnyNoExc AnyNet.v4 AnyNet.v6 (fam4 c.le).defaultNet ((fam4 c.le).parseNetCode true)
      (fun f => e.orRaiseNoExc ph ((fam6 c).parseNetCode true (readChars f.contents))))
    (fun ph => e.literalNoExc ph enc ((41 + c.M) * 2 + 1) fun units =>
      anyQuiet AnyNet.v4 AnyNet.v6 (arrayCode enc (fam4 c.le).defaultNet ((fam4 c.le).parseNetCode true) units)
        (e.arrayNoExc ph enc (fam6 c).defaultNet ((fam6 c).parseNetCode true) units))

end Ip
