import Verif.Model.Config
/-
Specification for the decisions of the preprocessor.
-/
set_option autoImplicit false

namespace Ip
namespace Spec

/-- The number by which `IPADDRESS_ENDIAN` names a byte order. -/
def orderNumber : ByteOrder → Option Int
  | .little => some 0
  | .big => some 1
  | .mixed => none

/-- What a platform says about its byte order is true.  (A platform may say nothing.) -/
structure Truthful (e : Env) (native : ByteOrder) : Prop where
  user : ∀ v, e.macros "IPADDRESS_ENDIAN" = some v → orderNumber native = some v
  gnu : ∀ v, e.macros "__BYTE_ORDER__" = some v →
    (v = e.val "__ORDER_LITTLE_ENDIAN__" ↔ native = .little) ∧ (v = e.val "__ORDER_BIG_ENDIAN__" ↔ native = .big)
  glibc : e.defd "__GLIBC__" = true →
    (e.val "__BYTE_ORDER" = e.val "__LITTLE_ENDIAN" ↔ native = .little) ∧ (e.val "__BYTE_ORDER" = e.val "__BIG_ENDIAN" ↔ native = .big)
  posixLittle : e.defd "_LITTLE_ENDIAN" = true → e.defd "_BIG_ENDIAN" = false → native = .little
  posixBig : e.defd "_BIG_ENDIAN" = true → e.defd "_LITTLE_ENDIAN" = false → native = .big
  littleArch : ∀ n ∈ ["__alpha__", "__amd64__", "__amd64", "__bfin__", "__i386__", "__ia64__", "__ia64", "__x86_64__",
    "__x86_64", "_M_ALPHA", "_M_AMD64", "_M_IA64", "_M_IX86", "_M_X64"], e.defd n = true → native = .little
  bigArch : ∀ n ∈ ["__hppa", "__hpux", "__powerpc__", "__ppc__", "__s390__", "__sparc__", "__sparc", "_MIPSEB", "_POWER"],
    e.defd n = true → native = .big
  arm : e.defd "_MSC_VER" = true → e.defd "_M_ARM" = true ∨ e.defd "_M_ARM64" = true → native = .little

/-- The platform says nothing about its byte order but the name of its architecture. -/
structure OnlyArch (e : Env) : Prop where
  user : e.defd "IPADDRESS_ENDIAN" = false
  gnu : e.defd "__BYTE_ORDER__" = false
  glibc : e.defd "__GLIBC__" = false
  posix : e.defd "_LITTLE_ENDIAN" = e.defd "_BIG_ENDIAN"

end Spec
end Ip
