import Verif.Model.AnyNet
/-
The `error_code&` argument as a variable of the caller that a call reads and writes, and the functions
without that argument in a program built with `IPADDRESS_NO_EXCEPTIONS`.
-/
set_option autoImplicit false

namespace Ip

/-- The variable behind an `error_code&`; `none` is `no_error` (`errors.hpp:53`). -/
abbrev Code := Option ErrorCode

/-- The end of a function with an `error_code&` that holds `code`: an error is stored and the object `d`
returned, a success leaves the variable alone. -/
def setCode {α : Type} (d : Res α) (r : Res α) (code : Code) : Res (Code × α) :=
  match r with
  | .ok a => .ok (code, a)
  | .err e _ => do
    let x ← d
    .ok (some e, x)
  | .ub => .ub

/-! ### Parsing with `error_code` -/

/-- `ip-address-base.hpp:774-778` for IPv4: `code` is set to `no_error` first. -/
def v4Code (evs : List Ev) (_code : Code) : Res (Code × List (BitVec 8)) :=
  setCode (.ok (List.replicate 4 0#8)) (v4FromEvents evs) none

/-- `ip-address-base.hpp:774-778` for IPv6. -/
def v6Code (c : Cfg) (evs : List Ev) (_code : Code) : Res (Code × V6) :=
  setCode (.ok (fam6 c).zero) (v6FromEvents c.spaces c.M evs) none

/-- `ip-network-base.hpp:1257-1314`. -/
def Fam.parseNetCode {A U : Type} (F : Fam A U) (strict : Bool) (evs : List Ev) (_code : Code) : Res (Code × Net A) :=
  setCode F.defaultNet (F.parseNet evs strict) none

/-- `ip-any-address.hpp:42-54` and `ip-any-network.hpp:44-56`; `p4`, `p6` are the parsers of the versions,
`d` is `T()`. -/
def anyCode {α β γ : Type} (f : α → γ) (g : β → γ) (d : Res γ) (p4 : Code → Res (Code × α)) (p6 : Code → Res (Code × β))
    (_code : Code) : Res (Code × γ) := do
  let (code, a) ← p4 none
  if code = none then .ok (code, f a)
  else do
    let (code, b) ← p6 code
    if code = none then .ok (code, g b)
    else do
      let d ← d
      .ok (code, d)

/-- `fixed-string.hpp:87-93`, the loop; the reader writes `code` for every character (`unicode.hpp`).  The
simplification of `FStr.ofEventsLoop` applies: after the last event the reader finds NUL. -/
def fixedCodeLoop : Nat → List Ev → Code → List Char → Nat → Res (Code × FStr)
  | 0, _, code, data, len => .ok (code, ⟨data, len⟩)
  | _ + 1, [], _, data, len => .ok (none, ⟨data, len⟩)
  | _ + 1, .bad e _ :: _, _, data, len => do
    let data ← wr data len '\x00'
    .ok (some e, ⟨data, len⟩)
  | n + 1, .ch x :: rest, _, data, len => do
    let data ← wr data len x
    if x = '\x00' then .ok (none, ⟨data, len⟩) else fixedCodeLoop n rest none data (len + 1)

/-- `fixed-string.hpp:82-94`, and `405-427` for `fixed_string<0>`: `make_fixed_string` with `error_code`. -/
def makeFixedCode {U : Type} (enc : Enc U) (units : List U) (code : Code) : Res (Code × FStr) :=
  if units.length = 0 then .ok (none, ⟨[], 0⟩)
  else fixedCodeLoop units.length (enc.events units) code (List.replicate units.length '\x00') 0

/-- `ip-address-base.hpp:429-432`, `ip-network-base.hpp:405-409`: `parse(const T(&)[N], error_code&)`. -/
def arrayCode {α U : Type} (enc : Enc U) (d : Res α) (parse : List Ev → Code → Res (Code × α)) (units : List U) (code : Code) :
    Res (Code × α) := do
  let (code, f) ← makeFixedCode enc units code
  if code = none then parse (readChars f.contents) code
  else do
    let d ← d
    .ok (code, d)

/-- `ip-any-address.hpp:42-54` of a string. -/
def anyAddrCode (c : Cfg) (evs : List Ev) : Code → Res (Code × AnyAddr) :=
  anyCode .v4 .v6 (.ok (.v4 (List.replicate 4 0#8))) (v4Code evs) (v6Code c evs)

/-- `ip-any-address.hpp:42-54` of an array (1162). -/
def anyAddrArrayCode {U : Type} (c : Cfg) (enc : Enc U) (units : List U) : Code → Res (Code × AnyAddr) :=
  anyCode .v4 .v6 (.ok (.v4 (List.replicate 4 0#8))) (arrayCode enc (.ok (List.replicate 4 0#8)) v4Code units)
    (arrayCode enc (.ok (fam6 c).zero) (v6Code c) units)

/-- `ip-any-network.hpp:44-56` of a string. -/
def anyNetCode (c : Cfg) (strict : Bool) (evs : List Ev) : Code → Res (Code × AnyNet) :=
  anyCode .v4 .v6 (anyNetDefault c) ((fam4 c.le).parseNetCode strict evs) ((fam6 c).parseNetCode strict evs)

/-- `ip-any-network.hpp:44-56` of an array (1198). -/
def anyNetArrayCode {U : Type} (c : Cfg) (strict : Bool) (enc : Enc U) (units : List U) : Code → Res (Code × AnyNet) :=
  anyCode .v4 .v6 (anyNetDefault c) (arrayCode enc (fam4 c.le).defaultNet ((fam4 c.le).parseNetCode strict) units)
    (arrayCode enc (fam6 c).defaultNet ((fam6 c).parseNetCode strict) units)

/-! ### Other functions with `error_code` -/

namespace Fam
variable {A U : Type} (F : Fam A U)

/-- `ip-network-base.hpp:452-472`, `from_address`: `code` is set to `no_error` first; on an error
`strict_netmask` has returned the zero address (`base-v4.hpp:230-233`, `base-v6.hpp:283-286`) and the other members
are those of the default network. -/
def fromAddressCode (address : A) (prefixlen : Nat) (strict : Bool) (_code : Code) : Res (Code × Net A) :=
  setCode F.defaultNet (F.fromAddress address prefixlen strict) none

/-- `ip-network-base.hpp:1105-1132`, `supernet`: `code` is set to `no_error` first. -/
def supernetCode (n : Net A) (diff : Nat) (newp : Option Nat) (_code : Code) : Res (Code × Net A) :=
  setCode F.defaultNet (F.supernet n diff newp) none

/-- `ip-network-iterator.hpp:705, 872-874`, the default `subnets_sequence`. -/
def subnetsDefault : Res (SubnetsSeq A U) := do
  let d ← F.niDefault
  .ok ⟨d, d, F.ops.ofI64 0#64⟩

/-- `ip-network-base.hpp:1022-1049`, `subnets`: `code` is written only when there is an error. -/
def subnetsCode (n : Net A) (diff : Nat) (newp : Option Nat) (code : Code) : Res (Code × SubnetsSeq A U) :=
  setCode F.subnetsDefault (F.subnets n diff newp) code

/-- `ip-network-base.hpp:940-954`, `address_exclude`: `code` is written only when there is an error. -/
def excludeCode (n other : Net A) (code : Code) : Res (Code × ExSeq A) :=
  setCode F.exSeqDefault (F.addressExclude n other) code

end Fam

/-- The second component of the result of a call. -/
def Res.onValue {α β : Type} (f : α → β) (r : Res (Code × α)) : Res (Code × β) := do
  let (code, a) ← r
  .ok (code, f a)

/-- `ip-any-network.hpp:762-771`, `from_address`. -/
def anyFromAddressCode (c : Cfg) (a : AnyAddr) (p : Nat) (strict : Bool) (code : Code) : Res (Code × AnyNet) :=
  match a with
  | .v4 a => ((fam4 c.le).fromAddressCode a p strict code).onValue .v4
  | .v6 a => ((fam6 c).fromAddressCode a p strict code).onValue .v6

/-- `ip-any-network.hpp:740-748`, `from_address` without `error_code`. -/
def anyFromAddressThrow (c : Cfg) (a : AnyAddr) (p : Nat) (strict : Bool) : Thr AnyNet :=
  match a with
  | .v4 a => ((fam4 c.le).fromAddressThrow a p strict).map .v4
  | .v6 a => ((fam6 c).fromAddressThrow a p strict).map .v6

/-- `ip-any-network.hpp:459-461`, `supernet`. -/
def anySupernetCode (c : Cfg) (n : AnyNet) (diff : Nat) (newp : Option Nat) (code : Code) : Res (Code × AnyNet) :=
  match n with
  | .v4 n => ((fam4 c.le).supernetCode n diff newp code).onValue .v4
  | .v6 n => ((fam6 c).supernetCode n diff newp code).onValue .v6

/-- `ip-any-network.hpp:575-583`, `subnets`. -/
def anySubnetsCode (c : Cfg) (n : AnyNet) (diff : Nat) (newp : Option Nat) (code : Code) :
    Res (Code × AnySeq (NIter (List (BitVec 8)) (BitVec 32)) (NIter V6 U128) AnyNet) :=
  match n with
  | .v4 n => ((fam4 c.le).subnetsCode n diff newp code).onValue fun s => ⟨(anySubnetsOps c).mk4 s.first, (anySubnetsOps c).mk4 s.last⟩
  | .v6 n => ((fam6 c).subnetsCode n diff newp code).onValue fun s => ⟨(anySubnetsOps c).mk6 s.first, (anySubnetsOps c).mk6 s.last⟩

/-- `ip-any-network.hpp:644-668`, `address_exclude`: `code` is set to `no_error` first. -/
def anyExcludeCode (c : Cfg) (n o : AnyNet) (_code : Code) : Res (Code × (AnyEx × AnyEx)) :=
  setCode (do let d ← anyExDefault c; .ok (d, d)) (anyNetExclude c n o) none

/-- `ipv6-address.hpp:40-77`, `set_scope_id` of a string with `error_code`: the variable and the address
afterwards.  With `M = 0` the body is compiled out; otherwise `code` is written on every path. -/
def v6ScopeCode (c : Cfg) (a : V6) (size : Nat) (evs : List Ev) (code : Code) : Res (Code × V6) :=
  if c.M = 0 then .ok (code, a)
  else match scopeChange c.spaces c.M size evs with
    | .ok f => .ok (none, ⟨a.bytes, f⟩)
    | .err e _ => .ok (some e, a)
    | .ub => .ub

/-- `ip-any-address.hpp:856-943, 1089-1129`, `set_scope_id` of a string with `error_code`: nothing for IPv4. -/
def anyScopeCode (c : Cfg) (a : AnyAddr) (size : Nat) (evs : List Ev) (code : Code) : Res (Code × AnyAddr) :=
  match a with
  | .v4 b => .ok (code, .v4 b)
  | .v6 a => (v6ScopeCode c a size evs code).onValue .v6

/-- `ip-any-address.hpp:748-839, 1041-1081`, `set_scope_id` of a string without `error_code`. -/
def anyScopeThrow {U : Type} (c : Cfg) (enc : Enc U) (a : AnyAddr) (s : List U) : Thr AnyAddr :=
  match a with
  | .v4 b => .ret (.v4 b)
  | .v6 a => (v6SetScopeThrow c enc a s).map .v6

/-! ### Functions without `error_code` in a program built with `IPADDRESS_NO_EXCEPTIONS`

At run time `raise_error` does nothing (`errors.hpp:384-388`) and returns. -/

/-- `auto code = no_error; auto result = f(code); raise_error(...); return result;`:
`ip-address-base.hpp:763-771`, `ip-network-base.hpp:426-437, 905-910, 984-989, 1073-1078, 1246-1254`,
`ip-any-network.hpp:608-615`. -/
def quiet {α : Type} (f : Code → Res (Code × α)) : Res α := do
  let (_, a) ← f none
  .ok a

/-- `ip-any-address.hpp:33-40`, `ip-any-network.hpp:34-42`; `q6` is the parser of IPv6 without
`error_code`. -/
def anyQuiet {α β γ : Type} (f : α → γ) (g : β → γ) (p4 : Code → Res (Code × α)) (q6 : Res β) : Res γ := do
  let (code, a) ← p4 none
  if code = none then .ok (f a)
  else do
    let b ← q6
    .ok (g b)

/-- `ip-address-base.hpp:403-414`, `ip-network-base.hpp:378-389`: `parse(const T(&)[N])`. -/
def arrayQuiet {α U : Type} (enc : Enc U) (d : Res α) (parse : List Ev → Code → Res (Code × α)) (units : List U) : Res α := do
  let (code, f) ← makeFixedCode enc units none
  if code = none then quiet (parse (readChars f.contents)) else d

/-- `ip-address-base.hpp:785-795`, `ip-network-base.hpp:1327-1337`, `ip-any-address.hpp:1387-1450`,
`ip-any-network.hpp:1361-1437`: a literal.  `raise_error` returns, and at most `maxLen` units are copied. -/
def literalQuiet {α U : Type} (enc : Enc U) (maxLen : Nat) (parse : List U → Res α) (address : List U) : Res α := do
  let str ← literalCopy address (min address.length maxLen) 0 (List.replicate (maxLen + 1) enc.zero)
  parse (str.take maxLen)

/-- `ip-any-address.hpp:33-40` of an array. -/
def anyAddrArrayQuiet {U : Type} (c : Cfg) (enc : Enc U) (units : List U) : Res AnyAddr :=
  anyQuiet .v4 .v6 (arrayCode enc (.ok (List.replicate 4 0#8)) v4Code units) (arrayQuiet enc (.ok (fam6 c).zero) (v6Code c) units)

/-- `ip-any-network.hpp:34-42` of an array. -/
def anyNetArrayQuiet {U : Type} (c : Cfg) (strict : Bool) (enc : Enc U) (units : List U) : Res AnyNet :=
  anyQuiet .v4 .v6 (arrayCode enc (fam4 c.le).defaultNet ((fam4 c.le).parseNetCode strict) units)
    (arrayQuiet enc (fam6 c).defaultNet ((fam6 c).parseNetCode strict) units)

/-- `ipv4-address.hpp:155-188`, `operator""_ipv4`. -/
def v4LiteralQuiet {U : Type} (enc : Enc U) (s : List U) : Res (List (BitVec 8)) :=
  literalQuiet enc 15 (arrayQuiet enc (.ok (List.replicate 4 0#8)) v4Code) s

/-- `ipv6-address.hpp:904-937`, `operator""_ipv6`. -/
def v6LiteralQuiet {U : Type} (c : Cfg) (enc : Enc U) (s : List U) : Res V6 :=
  literalQuiet enc (41 + c.M) (arrayQuiet enc (.ok (fam6 c).zero) (v6Code c)) s

/-- `ip-any-address.hpp:1387-1450`, `operator""_ip`. -/
def anyLiteralQuiet {U : Type} (c : Cfg) (enc : Enc U) (s : List U) : Res AnyAddr :=
  literalQuiet enc (41 + c.M) (anyAddrArrayQuiet c enc) s

/-- `ipv4-network.hpp:81-123`, `operator""_ipv4_net`. -/
def v4NetLiteralQuiet {U : Type} (le : Bool) (enc : Enc U) (s : List U) : Res (Net (List (BitVec 8))) :=
  literalQuiet enc (15 * 2 + 1) (arrayQuiet enc (fam4 le).defaultNet ((fam4 le).parseNetCode true)) s

/-- `ipv6-network.hpp:97-139`, `operator""_ipv6_net`. -/
def v6NetLiteralQuiet {U : Type} (c : Cfg) (enc : Enc U) (s : List U) : Res (Net V6) :=
  literalQuiet enc (41 + c.M + 4) (arrayQuiet enc (fam6 c).defaultNet ((fam6 c).parseNetCode true)) s

/-- `ip-any-network.hpp:1361-1437`, `operator""_net`. -/
def anyNetLiteralQuiet {U : Type} (c : Cfg) (enc : Enc U) (s : List U) : Res AnyNet :=
  literalQuiet enc ((41 + c.M) * 2 + 1) (anyNetArrayQuiet c true enc) s

end Ip
