import Verif.Spec.Program
/-
The calls that end in undefined behaviour or in `std::terminate`.
-/
set_option autoImplicit false

namespace Ip.Spec

/-- The constructors of iterators and sequences over networks that take addresses and numbers which need not fit
together.  A user does not need them: `subnets` and `address_exclude` call them. -/
def directConstructor {U : Type} : Expr U → Bool
  | .subnetsMk1 _ _ => true
  | .subnetsMk _ _ _ _ _ => true
  | .exitMk _ _ => true
  | .exsMk _ _ => true
  | .nitMk _ _ _ _ => true
  | _ => false

/-- The arguments of type `size_t` of `subnets` are below `2^64`. -/
def sizeArgs {U : Type} : Expr U → Prop
  | .subnets _ d newp => d < 2 ^ 64 ∧ ∀ p, newp = some p → p < 2 ^ 64
  | .subnetsCode _ d newp => d < 2 ^ 64 ∧ ∀ p, newp = some p → p < 2 ^ 64
  | _ => True

/-- Expressions that use only the functions of networks, iterators and sequences. -/
def Usual {U : Type} (e : Expr U) : Prop := directConstructor e = false ∧ sizeArgs e

/-- The same for statements. -/
def UsualStmt {U : Type} : Stmt U → Prop
  | .new e => Usual e
  | .put _ e => Usual e
  | .swap _ _ => True

/-- By how many bits `subnets(d, newp)` of a network with prefix length `plen` extends the prefix, when the
arguments are consistent. -/
def Extends (plen d : Nat) (newp : Option Nat) (k : Nat) : Prop :=
  (newp = none ∧ k = d) ∨ ∃ p, newp = some p ∧ d = 1 ∧ plen ≤ p ∧ k = p - plen

/-- The expressions without a defined value, when the objects are `st` and addresses have `w` bits: networks with
a prefix length above `w`, the IPv4 netmask text `0.0.0.0` after at most 15 characters, the supernet of prefix
length 0 of a network of one address; for networks of more than one address the subnets when the sum of prefix
length and difference exceeds `size_t`, the subnets of one address of the whole address space, and (IPv4) the
whole address space as its own subnet. -/
def Undefined {A U : Type} (w : Nat) (six : Bool) (st : List (Obj A U)) : Expr U → Prop
  | .fromAddress i p _ => (∃ a, st[i]? = some (.addr a)) ∧ w < p
  | .fromAddressCode i p _ => (∃ a, st[i]? = some (.addr a)) ∧ w < p
  | .parse evs _ => six = false ∧ ∃ a, evs = readChars (a ++ '/' :: ['0', '.', '0', '.', '0', '.', '0']) ∧ '/' ∉ a ∧ a.length ≤ 15
  | .supernet i d newp => ∃ n, st[i]? = some (.net n) ∧ n.plen = w ∧ ((newp = none ∧ d = w) ∨ (newp = some 0 ∧ d = 1))
  | .supernetCode i d newp => ∃ n, st[i]? = some (.net n) ∧ n.plen = w ∧ ((newp = none ∧ d = w) ∨ (newp = some 0 ∧ d = 1))
  | .subnets i d newp => ∃ n, st[i]? = some (.net n) ∧ n.plen < w ∧ ∃ k, Extends n.plen d newp k ∧
      (2 ^ 64 ≤ n.plen + k ∨ (n.plen = 0 ∧ k = w) ∨ (six = false ∧ n.plen = 0 ∧ k = 0))
  | .subnetsCode i d newp => ∃ n, st[i]? = some (.net n) ∧ n.plen < w ∧ ∃ k, Extends n.plen d newp k ∧
      (2 ^ 64 ≤ n.plen + k ∨ (n.plen = 0 ∧ k = w) ∨ (six = false ∧ n.plen = 0 ∧ k = 0))
  | _ => False

/-- The same for statements. -/
def UndefinedStmt {A U : Type} (w : Nat) (six : Bool) (st : List (Obj A U)) : Stmt U → Prop
  | .new e => Undefined w six st e
  | .put _ e => Undefined w six st e
  | .swap _ _ => False

/-- A rule that can be checked without running the program: prefix lengths not above `w`, no netmask text
`0.0.0.0`, no supernet by `w` bits or of prefix length 0 as a new prefix, no subnets by 0 or by `w` or more bits,
no prefix length 0 or `w` as a new prefix of subnets. -/
def Careful {U : Type} (w : Nat) (six : Bool) : Expr U → Prop
  | .fromAddress _ p _ => p ≤ w
  | .fromAddressCode _ p _ => p ≤ w
  | .parse evs _ => six = true ∨ ∀ a, evs ≠ readChars (a ++ '/' :: ['0', '.', '0', '.', '0', '.', '0'])
  | .supernet _ d newp => (newp = none → d ≠ w) ∧ newp ≠ some 0
  | .supernetCode _ d newp => (newp = none → d ≠ w) ∧ newp ≠ some 0
  | .subnets _ d newp => (newp = none → 0 < d ∧ d < w) ∧ ∀ p, newp = some p → 0 < p ∧ p < w
  | .subnetsCode _ d newp => (newp = none → 0 < d ∧ d < w) ∧ ∀ p, newp = some p → 0 < p ∧ p < w
  | _ => True

/-- The same for statements. -/
def CarefulStmt {U : Type} (w : Nat) (six : Bool) : Stmt U → Prop
  | .new e => Careful w six e
  | .put _ e => Careful w six e
  | .swap _ _ => True

end Ip.Spec
