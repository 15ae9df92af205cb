import Verif.Model.AnyNet
import Verif.Spec.Net
/-
Specification for version agnostic networks.
-/
set_option autoImplicit false

namespace Ip
namespace Spec

/-- The addresses of a network of either version: pairs of a version (`true` for IPv6) and a value. -/
def InAnyNet (n : AnyNet) (six : Bool) (x : Nat) : Prop :=
  match n with
  | .v4 n => six = false ∧ InNet 32 n.plen (beValue n.addr) x
  | .v6 n => six = true ∧ InNet 128 n.plen (beValue n.addr.bytes) x

/-- The version and the value of an address. -/
def anyAddrValue : AnyAddr → Bool × Nat
  | .v4 a => (false, beValue a)
  | .v6 a => (true, beValue a.bytes)

/-- The version, value and prefix length of a network. -/
def anyNetValue : AnyNet → Bool × Nat × Nat
  | .v4 n => (false, beValue n.addr, n.plen)
  | .v6 n => (true, beValue n.addr.bytes, n.plen)

/-- The text of the scope id. -/
def anyNetScope : AnyNet → List Char
  | .v4 _ => []
  | .v6 n => n.addr.scope.contents

/-- The number of bits of an address. -/
def anyNetWidth : AnyNet → Nat
  | .v4 _ => 32
  | .v6 _ => 128

end Spec
end Ip
