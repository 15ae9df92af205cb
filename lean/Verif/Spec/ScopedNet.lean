import Verif.Model.Net
import Verif.Spec.Addr
import Verif.Spec.Net
/-
Specification of the role of scope ids in IPv6 networks.
-/
set_option autoImplicit false

namespace Ip.Spec

/-- Networks that differ at most in the scope id of the address. -/
structure SameButScope (n m : Net V6) : Prop where
  addr : n.addr.bytes = m.addr.bytes
  mask : n.mask = m.mask
  plen : n.plen = m.plen

/-- Every address of the first network is one of the second. -/
def Covers (n m : Net V6) : Prop :=
  ∀ x, InNet 128 n.plen (beValue n.addr.bytes) x → InNet 128 m.plen (beValue m.addr.bytes) x

/-- The scope ids keep a network from being a subnet of another: with `<=>` only if both begin at the same
address. -/
def ScopeForbids (c : Cfg) (n m : Net V6) : Prop :=
  ScopeLt c.val n.addr.scope.contents m.addr.scope.contents ∧ (c.spaceship = true → n.addr.bytes = m.addr.bytes)

end Ip.Spec
