import Verif.Spec.Compare
/-
The relation computed by `operator<` on IPv6 addresses in builds without `<=>`.
-/
set_option autoImplicit false

namespace Ip.Spec

/-- Smaller value or smaller scope id. -/
def LooseLt (val : Char → Int) (v : Nat) (s : List Char) (w : Nat) (t : List Char) : Prop := v < w ∨ ScopeLt val s t

/-- The same for addresses of either version: IPv4 before IPv6. -/
def AnyLoose (val : Char → Int) (p q : Bool × Nat × List Char) : Prop :=
  (p.1 = false ∧ q.1 = true) ∨ (p.1 = q.1 ∧ LooseLt val p.2.1 p.2.2 q.2.1 q.2.2)

/-- For networks: the prefix length decides between equal addresses. -/
def NetLoose {K : Type} (lt : K → K → Prop) (a : K) (p : Nat) (b : K) (q : Nat) : Prop :=
  (a ≠ b ∧ lt a b) ∨ (a = b ∧ p < q)

/-- Two addresses of the same version whose values and scope ids are ordered against each other. -/
def Crossed (val : Char → Int) (p q : Bool × Nat × List Char) : Prop :=
  p.1 = q.1 ∧ ((p.2.1 < q.2.1 ∧ ScopeLt val q.2.2 p.2.2) ∨ (q.2.1 < p.2.1 ∧ ScopeLt val p.2.2 q.2.2))

/-- The results of the six operators when `<` is the relation `L` from left to right and `G` from right to
left, and `==` is `E`: `<=` is "not greater", `>=` is "not less". -/
structure ByLess (o : CmpOps) (L E G : Prop) : Prop where
  eq : o.eq = true ↔ E
  ne : o.ne = true ↔ ¬ E
  lt : o.lt = true ↔ L
  gt : o.gt = true ↔ G
  le : o.le = true ↔ ¬ G
  ge : o.ge = true ↔ ¬ L

end Ip.Spec
