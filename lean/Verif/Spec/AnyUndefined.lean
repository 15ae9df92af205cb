import Verif.Spec.Undefined
import Verif.Spec.AnyProgram
/-
The calls of the version agnostic classes that end in undefined behaviour or in `std::terminate`.
-/
set_option autoImplicit false

namespace Ip.Spec

/-- The number of bits of an address. -/
def bitsOf : AnyAddr → Nat
  | .v4 _ => 32
  | .v6 _ => 128

/-- The prefix length of a network. -/
def lengthOf : AnyNet → Nat
  | .v4 n => n.plen
  | .v6 n => n.plen

/-- The supernet of prefix length 0 of a network of one address. -/
def SupernetUndefined (n : AnyNet) (d : Nat) (newp : Option Nat) : Prop :=
  lengthOf n = bitsOf (netAt n) ∧ ((newp = none ∧ d = bitsOf (netAt n)) ∨ (newp = some 0 ∧ d = 1))

/-- For networks of more than one address the subnets when the sum of prefix length and difference exceeds `size_t`, the
subnets of one address of the whole address space, and (IPv4) the whole address space as its own subnet. -/
def SubnetsUndefined (n : AnyNet) (d : Nat) (newp : Option Nat) : Prop :=
  lengthOf n < bitsOf (netAt n) ∧ ∃ k, Extends (lengthOf n) d newp k ∧
    (2 ^ 64 ≤ lengthOf n + k ∨ (lengthOf n = 0 ∧ k = bitsOf (netAt n)) ∨ (bitsOf (netAt n) = 32 ∧ lengthOf n = 0 ∧ k = 0))

/-- The expressions without a defined value, when the objects are `st`; of texts those with the IPv4 netmask `0.0.0.0`
after at most 15 characters. -/
def AnyUndefined (st : List AnyObj) : Expr U128 → Prop
  | .fromAddress i p _ => ∃ a, st[i]? = some (.addr a) ∧ bitsOf a < p
  | .fromAddressCode i p _ => ∃ a, st[i]? = some (.addr a) ∧ bitsOf a < p
  | .parse evs _ => ∃ a, evs = readChars (a ++ '/' :: ['0', '.', '0', '.', '0', '.', '0']) ∧ '/' ∉ a ∧ a.length ≤ 15
  | .supernet i d newp => ∃ n, st[i]? = some (.net n) ∧ SupernetUndefined n d newp
  | .supernetCode i d newp => ∃ n, st[i]? = some (.net n) ∧ SupernetUndefined n d newp
  | .subnets i d newp => ∃ n, st[i]? = some (.net n) ∧ SubnetsUndefined n d newp
  | .subnetsCode i d newp => ∃ n, st[i]? = some (.net n) ∧ SubnetsUndefined n d newp
  | _ => False

/-- The same for statements. -/
def AnyUndefinedStmt (st : List AnyObj) : Stmt U128 → Prop
  | .new e => AnyUndefined st e
  | .put _ e => AnyUndefined st e
  | .swap _ _ => False

/-- A rule that can be checked without running the program: prefix lengths not above 32, no netmask text `0.0.0.0`, no
supernet by 32 or 128 bits or of prefix length 0 as a new prefix, no subnets by 0 or by 32 or more bits, no prefix length 0,
32, 128 or more as a new prefix of subnets. -/
def AnyCareful : Expr U128 → Prop
  | .fromAddress _ p _ => p ≤ 32
  | .fromAddressCode _ p _ => p ≤ 32
  | .parse evs _ => ∀ a, evs ≠ readChars (a ++ '/' :: ['0', '.', '0', '.', '0', '.', '0'])
  | .supernet _ d newp => (newp = none → d ≠ 32 ∧ d ≠ 128) ∧ newp ≠ some 0
  | .supernetCode _ d newp => (newp = none → d ≠ 32 ∧ d ≠ 128) ∧ newp ≠ some 0
  | .subnets _ d newp => (newp = none → 0 < d ∧ d < 32) ∧ ∀ p, newp = some p → 0 < p ∧ p ≠ 32 ∧ p < 128
  | .subnetsCode _ d newp => (newp = none → 0 < d ∧ d < 32) ∧ ∀ p, newp = some p → 0 < p ∧ p ≠ 32 ∧ p < 128
  | _ => True

/-- The same for statements. -/
def AnyCarefulStmt : Stmt U128 → Prop
  | .new e => AnyCareful e
  | .put _ e => AnyCareful e
  | .swap _ _ => True

end Ip.Spec
