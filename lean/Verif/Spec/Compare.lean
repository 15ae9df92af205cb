import Verif.Model.Compare
import Verif.Spec.Addr
import Verif.Spec.AnyNet
import Verif.Spec.Class
/-
What the comparison operators and the accessors of version agnostic addresses should return.
-/
set_option autoImplicit false

namespace Ip
namespace Spec

/-- The results of the six operators for operands of which the first is less than, equal to or greater than
the second one. -/
structure Describes (o : CmpOps) (L E G : Prop) : Prop where
  eq : o.eq = true ↔ E
  ne : o.ne = true ↔ ¬ E
  lt : o.lt = true ↔ L
  gt : o.gt = true ↔ G
  le : o.le = true ↔ L ∨ E
  ge : o.ge = true ↔ G ∨ E

/-- Exactly one of the three. -/
def OneOf (L E G : Prop) : Prop := (L ∨ E ∨ G) ∧ ¬ (L ∧ E) ∧ ¬ (L ∧ G) ∧ ¬ (E ∧ G)

/-- What an address of either version means: the version (`true` for IPv6), the value and the scope id. -/
def anyMeaning : AnyAddr → Bool × Nat × List Char
  | .v4 b => (false, beValue b, [])
  | .v6 a => (true, beValue a.bytes, a.scope.contents)

/-- The order of addresses of either version: IPv4 before IPv6, then by value, then by scope id. -/
def AnyLt (val : Char → Int) (p q : Bool × Nat × List Char) : Prop :=
  (p.1 = false ∧ q.1 = true) ∨ (p.1 = q.1 ∧ V6Lt val p.2.1 p.2.2 q.2.1 q.2.2)

/-- The order of networks: by address, then by prefix length. -/
def NetBefore {K : Type} (lt : K → K → Prop) (a : K) (p : Nat) (b : K) (q : Nat) : Prop := lt a b ∨ (a = b ∧ p < q)

/-- What a network of either version means: the address and the prefix length. -/
def anyNetMeaning : AnyNet → (Bool × Nat × List Char) × Nat
  | .v4 n => ((false, beValue n.addr, []), n.plen)
  | .v6 n => ((true, beValue n.addr.bytes, n.addr.scope.contents), n.plen)

/-- A predicate of addresses given by one for each version. -/
def byVersion (p4 p6 : Nat → Prop) (a : Bool × Nat × List Char) : Prop := if a.1 then p6 a.2.1 else p4 a.2.1

end Spec
end Ip
