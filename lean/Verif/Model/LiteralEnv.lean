import Verif.Model.Config
import Verif.Model.Const
/-
Which literal operators the preprocessor chooses (`config.hpp:65-95, 115-138`), and what a literal does with each choice:
refused by the compiler, a value, an exception, or `std::terminate` when an exception leaves a `noexcept` function.
Builds with exceptions; C72 is about builds without them.
-/
set_option autoImplicit false

namespace Ip

/-- How a function is declared. -/
inductive FnKind where
  | plain
  | constexpr
  | consteval
deriving DecidableEq, Repr

namespace Env

/-- `config.hpp:53-63, 65-78, 86-95`: whether the header compiles, and defines `IPADDRESS_NOEXCEPT_WHEN_NO_EXCEPTIONS`,
which every class uses. -/
def configOk (e : Env) : Bool :=
  e.cppVersion.isSome && e.defd "__cpp_constexpr" && !(e.defd "_MSC_VER" && decide (e.val "_MSC_VER" ≤ 1800))

/-- `config.hpp:65-70`, `IPADDRESS_CONSTEXPR`. -/
def constexprKind (e : Env) : FnKind := if e.val "__cpp_constexpr" ≥ 201304 then .constexpr else .plain

/-- `config.hpp:80-84`, `IPADDRESS_CONSTEVAL`. -/
def constevalKind (e : Env) : FnKind :=
  if e.defd "__cpp_consteval" && decide (e.val "__cpp_consteval" ≥ 201811) then .consteval else e.constexprKind

/-- `config.hpp:115-122`, whether `IPADDRESS_HAS_SPACESHIP_OPERATOR` is defined. -/
def hasSpaceship (e : Env) : Bool :=
  if !e.defd "IPADDRESS_NO_SPACESHIP_OPERATOR" && e.defd "__has_include" then
    decide (e.val "__cpp_lib_three_way_comparison" ≥ 201907) && e.headers "<compare>"
  else false

/-- `config.hpp:124-138`, whether `IPADDRESS_NONTYPE_TEMPLATE_PARAMETER` is defined. -/
def nontype (e : Env) : Bool :=
  if e.defd "__cpp_nontype_template_parameter_class" then true
  else if e.defd "__cpp_nontype_template_args" then
    if e.val "__cpp_nontype_template_args" ≥ 201911 then true
    else if e.val "__cpp_nontype_template_args" ≥ 201411 ∧ 20 ≤ e.cppVersion.getD 0 then
      if e.defd "__apple_build_version__" then
        if e.defd "__clang_major__" && decide (e.val "__clang_major__" ≥ 13) then true else false
      else if e.defd "__clang_major__" && decide (e.val "__clang_major__" ≥ 12) then true
      else false
    else false
  else false

end Env

/-- What becomes of a literal in a program. -/
inductive LitOut (α : Type) where
  | refused
  | value (a : α)
  | throws (x : Exn)
  | terminates
  | undefined
deriving DecidableEq, Repr

/-- A call of a function declared as `kind`, with or without `noexcept`, whose body does `r`.  In the phase `compile` the
call initialises a constant. -/
def FnKind.call {α : Type} (kind : FnKind) (nothrow : Bool) (ph : Phase) (r : Thr α) : LitOut α :=
  let compiled : LitOut α := match constant r with
    | some a => .value a
    | none => .refused
  let ran : LitOut α := match r with
    | .ret a => .value a
    | .thrown x => if nothrow then .terminates else .throws x
    | .ub => .undefined
  match kind, ph with
  | .consteval, _ => compiled
  | .constexpr, .compile => compiled
  | .plain, .compile => .refused
  | .constexpr, .run _ => ran
  | .plain, .run _ => ran

/-- `ip-address-base.hpp:122-132`, `ip-network-base.hpp:64-74`: the body of `parse<FixedString>()`. -/
def templateParse {α : Type} (parse : List Ev → Res α) (str : FStr) : Thr α :=
  orRaise encChar str.contents (parse (readChars str.contents))

/-- `ip-any-address.hpp:550-565`, `ip-any-network.hpp:870-885`: the body of `parse<FixedString>()` of the version agnostic
classes; the call of `parse<FixedString>()` of version 6 is inside a `noexcept` function as well. -/
def templateAny {α β γ : Type} (f4 : α → γ) (f6 : β → γ) (parse4 : List Ev → Res α) (parse6 : List Ev → Res β) (str : FStr) : Thr γ :=
  match literalCopy str.data str.length 0 (List.replicate (str.length + 1) '\x00') with
  | .ok ip =>
    match arrayParse encChar parse4 (ip.take str.length) with
    | .ok a => .ret (f4 a)
    | .err _ _ =>
      match templateParse parse6 str with
      | .ret b => .ret (f6 b)
      | .thrown x => .thrown x
      | .ub => .ub
    | .ub => .ub
  | _ => .ub

/-- A literal operator: with `IPADDRESS_NONTYPE_TEMPLATE_PARAMETER` the template, whose argument is made by the compiler
(`ipv4-address.hpp:121-132` and the like), otherwise the function of pointer and length (`ipv4-address.hpp:145-190`). -/
def Env.literalOp {α U : Type} (e : Env) (ph : Phase) (enc : Enc U) (units : List U) (template : FStr → Thr α)
    (function : List U → Thr α) : LitOut α :=
  if e.nontype then
    match constFixed enc units with
    | some f => e.constevalKind.call true ph (template f)
    | none => .refused
  else e.constexprKind.call false ph (function units)

/-- `ipv4-address.hpp:121-132, 145-190`: `"..."_ipv4`. -/
def v4LiteralOp {U : Type} (e : Env) (ph : Phase) (enc : Enc U) (s : List U) : LitOut (List (BitVec 8)) :=
  e.literalOp ph enc s (templateParse v4FromEvents) (v4Literal enc)

/-- `ipv6-address.hpp:881-940`: `"..."_ipv6`. -/
def v6LiteralOp {U : Type} (e : Env) (ph : Phase) (c : Cfg) (enc : Enc U) (s : List U) : LitOut V6 :=
  e.literalOp ph enc s (templateParse (v6FromEvents c.spaces c.M)) (v6Literal c enc)

/-- `ip-any-address.hpp:1365-1452`: `"..."_ip`. -/
def anyLiteralOp {U : Type} (e : Env) (ph : Phase) (c : Cfg) (enc : Enc U) (s : List U) : LitOut AnyAddr :=
  e.literalOp ph enc s (templateAny AnyAddr.v4 AnyAddr.v6 v4FromEvents (v6FromEvents c.spaces c.M)) (anyLiteral c enc)

/-- `ipv4-network.hpp:52-126`: `"..."_ipv4_net`. -/
def v4NetLiteralOp {U : Type} (e : Env) (ph : Phase) (le : Bool) (enc : Enc U) (s : List U) : LitOut (Net (List (BitVec 8))) :=
  e.literalOp ph enc s (templateParse fun evs => (fam4 le).parseNet evs true) (v4NetLiteral le enc)

/-- `ipv6-network.hpp:68-142`: `"..."_ipv6_net`. -/
def v6NetLiteralOp {U : Type} (e : Env) (ph : Phase) (c : Cfg) (enc : Enc U) (s : List U) : LitOut (Net V6) :=
  e.literalOp ph enc s (templateParse fun evs => (fam6 c).parseNet evs true) (v6NetLiteral c enc)

/-- `ip-any-network.hpp:1333-1439`: `"..."_net`. -/
def anyNetLiteralOp {U : Type} (e : Env) (ph : Phase) (c : Cfg) (enc : Enc U) (s : List U) : LitOut AnyNet :=
  e.literalOp ph enc s
    (templateAny AnyNet.v4 AnyNet.v6 (fun evs => (fam4 c.le).parseNet evs true) (fun evs => (fam6 c).parseNet evs true))
    (anyNetLiteral c enc)

/-- `ipv4-address.hpp:140-143, 197-199`: `_ipv4` of an integer; `debug` is the absence of `NDEBUG`.  A failing `assert` ends
the program; during compilation it makes the evaluation not constant. -/
def v4IntLiteralOp (e : Env) (ph : Phase) (le debug : Bool) (value : BitVec 64) : LitOut (List (BitVec 8)) :=
  if e.nontype then
    if debug ∧ ¬ value ≤ 0xFFFFFFFF#64 then
      match e.constevalKind, ph with
      | .consteval, _ => .refused
      | _, .compile => .refused
      | _, .run _ => .terminates
    else e.constevalKind.call true ph (.ret (v4FromUint le (value.setWidth 32)))
  else e.constexprKind.call true ph (.ret (v4IntLiteral le value))

end Ip
