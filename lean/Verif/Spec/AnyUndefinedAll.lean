import Verif.Spec.AnyUndefined
import Verif.Spec.UndefinedAll
/-
The calls of the version agnostic classes that end in undefined behaviour, in `std::terminate` or with
`std::out_of_range`, in programs that also use the constructors of excluding iterators and sequences.
-/
set_option autoImplicit false

namespace Ip.Spec

/-- The value of an IPv6 address. -/
def value6 (a : V6) : Nat := beValue a.bytes

/-- The constructor of an excluding iterator can be used with the networks `n` and `o`: they are of the same version
and `o` is strictly inside `n`, or `n` has one address and `o` is `n` or the network of the next address. -/
def CanExclude : AnyNet → AnyNet → Prop
  | .v4 n, .v4 o => StrictlyInside 32 o.plen (beValue o.addr) n.plen (beValue n.addr) ∨
      SelfOrNext 32 o.plen (beValue o.addr) n.plen (beValue n.addr)
  | .v6 n, .v6 o => StrictlyInside 128 o.plen (value6 o.addr) n.plen (value6 n.addr) ∨
      SelfOrNext 128 o.plen (value6 o.addr) n.plen (value6 n.addr)
  | _, _ => False

/-- Not all addresses of the network `o` belong to the network `m`; networks of different versions have no common
addresses. -/
def AnyLeaves : AnyNet → AnyNet → Prop
  | .v4 o, .v4 m => Leaves 32 beValue o m
  | .v6 o, .v6 m => Leaves 128 value6 o m
  | _, _ => True

/-- The expressions without a defined value, when the objects are `st`.  Beyond those of `AnyUndefined`: excluding
iterators and sequences for networks that do not fit together, and increments of excluding iterators when the
excluded network is in none of the halves. -/
def AnyUndefinedAll (st : List AnyObj) : Expr U128 → Prop
  | .exitMk i j => ∃ n o, st[i]? = some (.net n) ∧ st[j]? = some (.net o) ∧ ¬ CanExclude n o
  | .exsMk i j => ∃ n o, st[i]? = some (.net n) ∧ st[j]? = some (.net o) ∧ ¬ CanExclude n o
  | .move i _ => ∃ x, st[i]? = some (.exit x) ∧ AnyLeaves x.other x.s1 ∧ AnyLeaves x.other x.s2
  | e => AnyUndefined st e

/-- The same for statements. -/
def AnyUndefinedAllStmt (st : List AnyObj) : Stmt U128 → Prop
  | .new e => AnyUndefinedAll st e
  | .put _ e => AnyUndefinedAll st e
  | .swap _ _ => False

end Ip.Spec
