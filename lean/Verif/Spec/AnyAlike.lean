import Verif.Model.AnyAsk
import Verif.Spec.Alike
/-
Objects of the version agnostic classes that a user cannot tell apart.
-/
set_option autoImplicit false

namespace Ip.Spec

/-- The same version, the same bytes and the same scope id. -/
def AlikeAnyAddr : AnyAddr → AnyAddr → Prop
  | .v4 a, .v4 b => a = b
  | .v6 a, .v6 b => Alike a b
  | _, _ => False

/-- The same version and the same members, up to that. -/
def AlikeAnyNet : AnyNet → AnyNet → Prop
  | .v4 n, .v4 m => n = m
  | .v6 n, .v6 m => AlikeNet n m
  | _, _ => False

/-- The same members, up to that. -/
def AlikeAnyHostIt : AnyHostIt → AnyHostIt → Prop
  | .v4 x a, .v4 y b => x = y ∧ AlikeAnyAddr a b
  | .v6 x a, .v6 y b => AlikeAit x y ∧ AlikeAnyAddr a b
  | _, _ => False

/-- The same members, up to that. -/
def AlikeAnyNetIt : AnyNetIt → AnyNetIt → Prop
  | .v4 x n, .v4 y m => x = y ∧ AlikeAnyNet n m
  | .v6 x n, .v6 y m => AlikeNit x y ∧ AlikeAnyNet n m
  | _, _ => False

/-- The same members, up to that. -/
def AlikeAnyEx (x y : AnyEx) : Prop :=
  AlikeAnyNet x.other y.other ∧ AlikeAnyNet x.s1 y.s1 ∧ AlikeAnyNet x.s2 y.s2 ∧ AlikeAnyNet x.cur y.cur

/-- Objects of the same type with the same members, up to that. -/
def AlikeAnyObj : AnyObj → AnyObj → Prop
  | .addr a, .addr b => AlikeAnyAddr a b
  | .net n, .net m => AlikeAnyNet n m
  | .ait x, .ait y => AlikeAnyHostIt x y
  | .rait x, .rait y => AlikeAnyHostIt x.it y.it
  | .nit x, .nit y => AlikeAnyNetIt x y
  | .rnit x, .rnit y => AlikeAnyNetIt x.it y.it
  | .hosts s, .hosts t => AlikeAnyHostIt s.first t.first ∧ AlikeAnyHostIt s.last t.last
  | .subs s, .subs t => AlikeAnyNetIt s.first t.first ∧ AlikeAnyNetIt s.last t.last
  | .exit x, .exit y => AlikeAnyEx x y
  | .exs x y, .exs z w => AlikeAnyEx x z ∧ AlikeAnyEx y w
  | _, _ => False

/-- Two runs that tell a program the same and leave objects that cannot be told apart. -/
def AsIfAny {T : Type} : Res (T × List AnyObj) → Res (T × List AnyObj) → Prop
  | .ok x, .ok y => x.1 = y.1 ∧ List.Forall₂ AlikeAnyObj x.2 y.2
  | .err e v, .err e' v' => e = e' ∧ v = v'
  | .ub, .ub => True
  | _, _ => False

/-- The step and the prefix length of iterators over networks of the same version. -/
def SameStep : AnyNetIt → AnyNetIt → Prop
  | .v4 x _, .v4 y _ => x.step = y.step ∧ x.plen = y.plen
  | .v6 x _, .v6 y _ => x.step = y.step ∧ x.plen = y.plen
  | _, _ => True

/-- The members that `==` does not look at: the step and the prefix length of an iterator over networks, and the three networks
by which an iterator over excluded networks goes on. -/
def SameHiddenAny : AnyObj → AnyObj → Prop
  | .nit x, .nit y => SameStep x y
  | .rnit x, .rnit y => SameStep x.it y.it
  | .exit x, .exit y => AlikeAnyNet x.other y.other ∧ AlikeAnyNet x.s1 y.s1 ∧ AlikeAnyNet x.s2 y.s2
  | _, _ => True

/-- Iterators over networks come from `subnets()`, called with numbers below `2^63`. -/
def deedFromSubnets : AnyDeed → Bool
  | .stmt s => stmtFromSubnets s
  | _ => true

/-- Objects that have `==` and are no iterators over excluded networks. -/
def steadyAny : AnyObj → Bool
  | .addr _ | .net _ | .ait _ | .rait _ | .nit _ | .rnit _ => true
  | _ => false

end Ip.Spec
