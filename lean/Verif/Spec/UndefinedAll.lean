import Verif.Spec.Undefined
import Verif.Spec.ExcludeCtor
/-
The calls that end in undefined behaviour, in `std::terminate` or with `std::out_of_range`, in programs that also
use the constructors of iterators and sequences with arguments that need not fit together.
-/
set_option autoImplicit false

namespace Ip.Spec

section
variable {A U : Type}

/-- By how many steps an operator moves an iterator. -/
def moveCount (num : U → Nat) : Move U → Int
  | .inc => 1
  | .dec => 1
  | .add n => num n
  | .sub n => num n
  | .addI n => n.toInt
  | .subI n => n.toInt

/-- `k` steps of the iterator, forwards or backwards, lead from the first address of a network to an address that is
not the first address of a network. -/
def Misfit (w : Nat) (num : U → Nat) (x : NIter A U) (k : Int) : Prop :=
  ¬ (2 : Int) ^ (w - x.plen) ∣ num x.step * k

/-- Not all addresses of the network `o` belong to the network `m`. -/
def Leaves (w : Nat) (v : A → Nat) (o m : Net A) : Prop := ∃ t, InNet w o.plen (v o.addr) t ∧ ¬ InNet w m.plen (v m.addr) t

/-- The expressions without a defined value, when the objects are `st` and addresses have `w` bits.  Beyond those
of `Undefined`: network iterators with a prefix length above `w`, or at an address that is not the first one of a
network; moves of network iterators that lead to such addresses; the sequence of one subnet with a prefix length
other than `w`; sequences of subnets whose first or last address does not fit the prefix length, whose difference
of prefix lengths cannot be used to shift, or (IPv4) whose step is zero; and excluding iterators and sequences for
networks that are not strictly inside, see C89, and increments of excluding iterators when the excluded network is
in none of the halves. -/
def UndefinedAny (w : Nat) (six : Bool) (num : U → Nat) (v : A → Nat) (st : List (Obj A U)) : Expr U → Prop
  | .nitMk i _ p _ => ∃ a, st[i]? = some (.addr a) ∧ (w < p ∨ ¬ 2 ^ (w - p) ∣ v a)
  | .subnetsMk1 i p => (∃ a, st[i]? = some (.addr a)) ∧ p ≠ w
  | .subnetsMk i j k d p => ∃ a b h, st[i]? = some (.addr a) ∧ st[j]? = some (.addr b) ∧ st[k]? = some (.addr h) ∧
      (w < p ∨ ¬ 2 ^ (w - p) ∣ v a ∨ ¬ 2 ^ (w - p) ∣ v b + 1 ∨ d = w ∨
        (six = false ∧ (w < d ∨ (d = 0 ∧ v h + 1 = 2 ^ w))))
  | .exitMk i j => ∃ n o, st[i]? = some (.net n) ∧ st[j]? = some (.net o) ∧
      ¬ (StrictlyInside w o.plen (v o.addr) n.plen (v n.addr) ∨ SelfOrNext w o.plen (v o.addr) n.plen (v n.addr))
  | .exsMk i j => ∃ n o, st[i]? = some (.net n) ∧ st[j]? = some (.net o) ∧
      ¬ (StrictlyInside w o.plen (v o.addr) n.plen (v n.addr) ∨ SelfOrNext w o.plen (v o.addr) n.plen (v n.addr))
  | .reverse i => ∃ x, st[i]? = some (.nit x) ∧ Misfit w num x 1
  | .base i => ∃ r, st[i]? = some (.rnit r) ∧ Misfit w num r.it 1
  | .move i m => (∃ x, st[i]? = some (.nit x) ∧ Misfit w num x (moveCount num m)) ∨
      (∃ r, st[i]? = some (.rnit r) ∧ Misfit w num r.it (moveCount num m)) ∨
      (∃ x, st[i]? = some (.exit x) ∧ Leaves w v x.other x.s1 ∧ Leaves w v x.other x.s2)
  | .index i n => (∃ x, st[i]? = some (.nit x) ∧ Misfit w num x (num n)) ∨
      (∃ r, st[i]? = some (.rnit r) ∧ Misfit w num r.it (num n))
  | .back i => ∃ s, st[i]? = some (.subs s) ∧ Misfit w num s.last 1
  | .elem i n => ∃ s, st[i]? = some (.subs s) ∧ Misfit w num s.first (num n)
  | e => Undefined w six st e

/-- The same for statements. -/
def UndefinedAnyStmt (w : Nat) (six : Bool) (num : U → Nat) (v : A → Nat) (st : List (Obj A U)) : Stmt U → Prop
  | .new e => UndefinedAny w six num v st e
  | .put _ e => UndefinedAny w six num v st e
  | .swap _ _ => False

/-- The arguments of type `size_t` of `subnets` in a statement are below `2^64`. -/
def sizeStmt : Stmt U → Prop
  | .new e => sizeArgs e
  | .put _ e => sizeArgs e
  | .swap _ _ => True

end
end Ip.Spec
