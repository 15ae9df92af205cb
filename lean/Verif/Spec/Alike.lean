import Mathlib.Data.List.Forall2
import Verif.Model.Ask
/-
Objects that a user cannot tell apart.
-/
set_option autoImplicit false

namespace Ip.Spec

/-- The same bytes and the same scope id. -/
def Alike (a b : V6) : Prop := a.bytes = b.bytes ∧ a.scope.contents = b.scope.contents

/-- The same members, up to that. -/
def AlikeNet (n m : Net V6) : Prop := Alike n.addr m.addr ∧ Alike n.mask m.mask ∧ n.plen = m.plen

/-- The same members, up to that. -/
def AlikeAit (x y : AIter V6 U128) : Prop := Alike x.cur y.cur ∧ x.off = y.off ∧ x.carry = y.carry

/-- The same members, up to that. -/
def AlikeNit (x y : NIter V6 U128) : Prop := AlikeNet x.cur y.cur ∧ AlikeAit x.it y.it ∧ x.step = y.step ∧ x.plen = y.plen

/-- The same members, up to that. -/
def AlikeExit (x y : ExIter V6) : Prop := AlikeNet x.other y.other ∧ AlikeNet x.s1 y.s1 ∧ AlikeNet x.s2 y.s2 ∧ AlikeNet x.cur y.cur

/-- Objects of the same type with the same members, up to that. -/
def AlikeObj : Obj V6 U128 → Obj V6 U128 → Prop
  | .addr a, .addr b => Alike a b
  | .net n, .net m => AlikeNet n m
  | .ait x, .ait y => AlikeAit x y
  | .rait x, .rait y => AlikeAit x.it y.it
  | .nit x, .nit y => AlikeNit x y
  | .rnit x, .rnit y => AlikeNit x.it y.it
  | .hosts s, .hosts t => AlikeAit s.first t.first ∧ AlikeAit s.last t.last
  | .subs s, .subs t => AlikeNit s.first t.first ∧ AlikeNit s.last t.last ∧ s.size = t.size
  | .exit x, .exit y => AlikeExit x y
  | .exs s, .exs t => AlikeExit s.first t.first ∧ AlikeExit s.last t.last
  | _, _ => False

/-- Two runs that tell a program the same and leave objects that cannot be told apart. -/
def AsIf {T : Type} : Res (T × List (Obj V6 U128)) → Res (T × List (Obj V6 U128)) → Prop
  | .ok x, .ok y => x.1 = y.1 ∧ List.Forall₂ AlikeObj x.2 y.2
  | .err e v, .err e' v' => e = e' ∧ v = v'
  | .ub, .ub => True
  | _, _ => False


/-- The members that `==` does not look at: the step and the prefix length of an iterator over networks, and the three networks
by which an iterator over excluded networks goes on. -/
def SameHidden : Obj V6 U128 → Obj V6 U128 → Prop
  | .nit x, .nit y => x.step = y.step ∧ x.plen = y.plen
  | .rnit x, .rnit y => x.it.step = y.it.step ∧ x.it.plen = y.it.plen
  | .exit x, .exit y => AlikeNet x.other y.other ∧ AlikeNet x.s1 y.s1 ∧ AlikeNet x.s2 y.s2
  | _, _ => True

/-- The same for IPv4. -/
def SameHidden4 : Obj (List (BitVec 8)) (BitVec 32) → Obj (List (BitVec 8)) (BitVec 32) → Prop
  | .nit x, .nit y => x.step = y.step ∧ x.plen = y.plen
  | .rnit x, .rnit y => x.it.step = y.it.step ∧ x.it.plen = y.it.plen
  | .exit x, .exit y => x.other = y.other ∧ x.s1 = y.s1 ∧ x.s2 = y.s2
  | _, _ => True

/-- Iterators over networks come from `subnets()`, called with numbers below `2^63`, and are not constructed by hand. -/
def fromSubnets {U : Type} : Expr U → Bool
  | .defNit | .defSubs | .subnetsCode _ _ _ | .subnetsMk1 _ _ | .subnetsMk _ _ _ _ _ | .nitMk _ _ _ _ => false
  | .subnets _ d newp => decide (d < 2 ^ 63) && newp.all (fun p => decide (p < 2 ^ 63))
  | _ => true

/-- The same for statements. -/
def stmtFromSubnets {U : Type} : Stmt U → Bool
  | .new e => fromSubnets e
  | .put _ e => fromSubnets e
  | .swap _ _ => true

/-- Objects that have `==` and are no iterators over excluded networks. -/
def steady {A U : Type} : Obj A U → Bool
  | .addr _ | .net _ | .ait _ | .rait _ | .nit _ | .rnit _ => true
  | _ => false

end Ip.Spec
