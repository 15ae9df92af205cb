import Verif.Model.Basic
/-
The decisions that the preprocessor takes: `endian.hpp:32-118`, `config.hpp:47-63, 140-148, 154-167`, and what
follows from them in `errors.hpp:383-387` and `uint128.hpp:122-130, 1657-1667`.
-/
set_option autoImplicit false

namespace Ip

/-- The macros at the point where the headers are included, and the headers that exist.  A macro has a number as its
value; the value of a macro without a value is never used by the code.  Simplification: the macros that `<endian.h>`
defines (`endian.hpp:57`) are in the environment from the start. -/
structure Env where
  macros : String → Option Int
  headers : String → Bool

namespace Env

/-- `defined(name)`. -/
def defd (e : Env) (name : String) : Bool := (e.macros name).isSome

/-- The value of an identifier in `#if`: one that is not a macro is 0. -/
def val (e : Env) (name : String) : Int := (e.macros name).getD 0

/-- `defined(a) || defined(b) || ...` -/
def anyOf (e : Env) (names : List String) : Bool := names.any e.defd

/-- `config.hpp:47-51`, `IPADDRESS_CPLUSPLUS`. -/
def cplusplus (e : Env) : Int := if e.defd "_MSVC_LANG" then e.val "_MSVC_LANG" else e.val "__cplusplus"

/-- `config.hpp:53-63`, `IPADDRESS_CPP_VERSION`; none is `#error`. -/
def cppVersion (e : Env) : Option Nat :=
  if 201703 < e.cplusplus then some 20
  else if 201402 < e.cplusplus then some 17
  else if 201103 < e.cplusplus then some 14
  else if 199711 < e.cplusplus then some 11
  else none

/-- `endian.hpp:34-41`, whether `IPADDRESS_HAS_STD_ENDIAN` is defined. -/
def stdEndian (e : Env) : Bool :=
  match e.cppVersion with
  | some v => decide (20 ≤ v) && e.defd "__has_include" && e.headers "<bit>"
  | none => false

/-- `endian.hpp:71-75`: the condition of `#elif` ends with line 75. -/
def bigNames : List String := ["__hppa", "__hpux", "__powerpc__", "__ppc__", "__s390__"]

/-- `endian.hpp:76-79`: these lines have no effect on the condition. -/
def strayNames : List String := ["__sparc__", "__sparc", "_MIPSEB", "_POWER"]

/-- `endian.hpp:81-94`. -/
def littleNames : List String :=
  ["__alpha__", "__amd64__", "__amd64", "__bfin__", "__i386__", "__ia64__", "__ia64", "__x86_64__", "__x86_64",
    "_M_ALPHA", "_M_AMD64", "_M_IA64", "_M_IX86", "_M_X64"]

/-- `endian.hpp:46-101`: `IPADDRESS_ENDIAN` afterwards, `some none` if it is not defined; `none` if the header does not
compile.  In the group of lines 71-80 the lines 76-79 are program text that is not a declaration. -/
def endian (e : Env) : Option (Option Int) :=
  if e.defd "IPADDRESS_ENDIAN" then some (e.macros "IPADDRESS_ENDIAN")
  else if e.defd "__BYTE_ORDER__" then
    if e.val "__BYTE_ORDER__" = e.val "__ORDER_LITTLE_ENDIAN__" then some (some 0)
    else if e.val "__BYTE_ORDER__" = e.val "__ORDER_BIG_ENDIAN__" then some (some 1)
    else none
  else if e.defd "__GLIBC__" && !e.defd "IPADDRESS_MODULE" then
    if e.val "__BYTE_ORDER" = e.val "__LITTLE_ENDIAN" then some (some 0)
    else if e.val "__BYTE_ORDER" = e.val "__BIG_ENDIAN" then some (some 1)
    else none
  else if e.defd "_LITTLE_ENDIAN" && !e.defd "_BIG_ENDIAN" then some (some 0)
  else if e.defd "_BIG_ENDIAN" && !e.defd "_LITTLE_ENDIAN" then some (some 1)
  else if e.anyOf bigNames then none
  else if e.anyOf littleNames then some (some 0)
  else if e.defd "_MSC_VER" && (e.defd "_M_ARM" || e.defd "_M_ARM64") then some (some 0)
  else if !e.stdEndian then none
  else some none

end Env

/-- `std::endian::native`; `mixed` is neither `little` nor `big`. -/
inductive ByteOrder where
  | little
  | big
  | mixed
deriving DecidableEq, Repr

namespace Env

/-- `endian.hpp:110-118`, `is_little_endian`; `none` if it does not compile. -/
def isLittle (e : Env) (native : ByteOrder) : Option Bool :=
  match e.endian with
  | none => none
  | some v =>
    if e.stdEndian then some (native == .little)
    else match v with
      | some v => some (v == 0)
      | none => none

/-- `uint128.hpp:122, 187, 1657`: whether `_upper` is the first member of `uint128_t`. -/
def upperFirst (e : Env) : Option Bool :=
  match e.endian with
  | none => none
  | some v => some (v.getD 0 == 1)

/-- `config.hpp:154-167`, the value of `IPADDRESS_IPV6_SCOPE_MAX_LENGTH`. -/
def scopeMax (e : Env) : Int :=
  if e.defd "IPADDRESS_NO_IPV6_SCOPE" then 0
  else if e.defd "IPADDRESS_IPV6_SCOPE_MAX_LENGTH" then
    if e.val "IPADDRESS_IPV6_SCOPE_MAX_LENGTH" < 0 then 0
    else if e.val "IPADDRESS_IPV6_SCOPE_MAX_LENGTH" > 64 then 64
    else e.val "IPADDRESS_IPV6_SCOPE_MAX_LENGTH"
  else 16

end Env

/-- When an expression is evaluated: by the compiler, or by the program, where the compiler may know the value of the
argument. -/
inductive Phase where
  | compile
  | run (known : Bool)
deriving DecidableEq, Repr

/-- `config.hpp:140-148`, the value of `IPADDRESS_IS_CONST_EVALUATED(x)`: `__builtin_constant_p` is true whenever the
compiler knows the argument. -/
def Env.constEvaluated (e : Env) (ph : Phase) : Bool :=
  if e.val "__cpp_lib_is_constant_evaluated" ≥ 201811 then ph == .compile
  else if e.val "__GNUC__" ≥ 9 then ph == .compile
  else if e.val "__GNUC__" ≥ 6 then
    match ph with
    | .compile => true
    | .run known => known
  else false

/-- `errors.hpp:299-301, 383-387`: `raise_error` in a build without exceptions.  The division by zero is undefined
behaviour when the program runs, and an error when the compiler evaluates it. -/
def Env.raiseNoExc (e : Env) (ph : Phase) : Res Unit := if e.constEvaluated ph then .ub else .ok ()

/-- The functions that parse without `error_code` in such a build (`ip-address-base.hpp:122-132, 761-771`,
`ip-network-base.hpp:64-74, 1246-1255`): `raise_error`, then the default constructed result. -/
def Env.parseNoExc {α : Type} (e : Env) (ph : Phase) (dflt : α) : Res α → Res α
  | .ok a => .ok a
  | .err _ _ => do
    e.raiseNoExc ph
    .ok dflt
  | .ub => .ub

/-- A constant initialised by such a call: the program compiles with the value, or does not compile. -/
def Env.constantNoExc {α : Type} (e : Env) (dflt : α) (r : Res α) : Option α :=
  match e.parseNoExc .compile dflt r with
  | .ok a => some a
  | _ => none

end Ip
