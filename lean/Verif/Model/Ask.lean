import Verif.Model.Program
/-
Programs that look at the objects they hold, and decide by what they see.  The functions are those of the other model
files; this file only says which of them a program can call on what.
-/
set_option autoImplicit false

namespace Ip

/-- What a program can ask; the numbers are the places of objects in the store. -/
inductive Ask (U : Type) where
  /-- whether an expression raises an exception, and which -/
  | outcome (e : Expr U)
  /-- `to_string`, `operator<<` -/
  | text (i : Nat) (f : Format)
  /-- `std::hash` -/
  | hash (i : Nat)
  /-- `bytes`, `to_uint` -/
  | bytes (i : Nat)
  | uint (i : Nat)
  /-- `prefixlen`, `addresses_count` -/
  | plen (i : Nat)
  | count (i : Nat)
  /-- `==`, `<`, `<=`, `<=>` -/
  | eq (i j : Nat)
  | lt (i j : Nat)
  | le (i j : Nat)
  | cmp (i j : Nat)
  /-- `contains`, `overlaps`, `subnet_of`, `supernet_of` -/
  | contains (i j : Nat)
  | overlaps (i j : Nat)
  | subnetOf (i j : Nat)
  | supernetOf (i j : Nat)
  /-- `uint_diff` and the difference of iterators -/
  | uintDiff (i j : Nat)
  | diff (i j : Nat)
  /-- `size`, `empty` of a sequence -/
  | size (i : Nat)
  | empty (i : Nat)

/-- What it is told. -/
inductive Answer (U : Type) where
  | done
  | text (t : List Char)
  | hash (h : BitVec 64)
  | bytes (b : List (BitVec 8))
  | uint (u : U)
  | num (n : Nat)
  | bool (b : Bool)
  | order (o : Ordering)
  | diff (d : BitVec 64)
deriving DecidableEq, Repr

namespace Fam

variable {A U : Type} (F : Fam A U)

/-- The answer; `none` when the operands do not have the types it needs, which a compiler rejects.  Addresses:
`ip-address-base.hpp:142-144, 527-531, 585-620`, `ipv4-address.hpp:84-86`, `ipv6-address.hpp:788-837`.  Networks:
`ip-network-base.hpp:494-587, 669-671, 713-715, 838-840, 1153-1204`.  Iterators: `ip-address-iterator.hpp:456-458,
691-749`, `ip-network-iterator.hpp:69-71, 305-363, 577-579`, reverse iterators `ip-address-iterator.hpp:307-321`.
Sequences: `ip-address-iterator.hpp:985-996`, `ip-network-iterator.hpp:820-831, 963-965`. -/
def ask (st : List (Obj A U)) : Ask U → Option (Res (Answer U))
  | .outcome e =>
    match F.eval st e with
    | some r => some (do let _ ← r; .ok .done)
    | none => none
  | .text i f =>
    match st[i]? with
    | some (.addr a) => some (do let t ← F.toText f a; .ok (.text t))
    | some (.net n) => some (do let t ← F.netToString f n; .ok (.text t))
    | _ => none
  | .hash i =>
    match st[i]? with
    | some (.addr a) => some (do let h ← F.hash a; .ok (.hash h))
    | some (.net n) => some (do let h ← F.netHash n; .ok (.hash h))
    | _ => none
  | .bytes i =>
    match st[i]? with
    | some (.addr a) => some (.ok (.bytes (F.bytes a)))
    | _ => none
  | .uint i =>
    match st[i]? with
    | some (.addr a) => some (do let u ← F.toUint a; .ok (.uint u))
    | _ => none
  | .plen i =>
    match st[i]? with
    | some (.net n) => some (.ok (.num n.plen))
    | _ => none
  | .count i =>
    match st[i]? with
    | some (.net n) => some (do let u ← F.addressesCount n; .ok (.uint u))
    | _ => none
  | .eq i j =>
    match st[i]?, st[j]? with
    | some (.addr a), some (.addr b) => some (do let r ← F.eq a b; .ok (.bool r))
    | some (.net n), some (.net m) => some (do let r ← F.netEq n m; .ok (.bool r))
    | some (.ait x), some (.ait y) => some (do let r ← F.aiEq x y; .ok (.bool r))
    | some (.nit x), some (.nit y) => some (do let r ← F.niEq x y; .ok (.bool r))
    | some (.rait x), some (.rait y) => some (do let r ← F.aiEq y.it x.it; .ok (.bool r))
    | some (.rnit x), some (.rnit y) => some (do let r ← F.niEq y.it x.it; .ok (.bool r))
    | some (.exit x), some (.exit y) => some (do let r ← F.exEq x y; .ok (.bool r))
    | _, _ => none
  | .lt i j =>
    match st[i]?, st[j]? with
    | some (.addr a), some (.addr b) => some (do let r ← F.lt a b; .ok (.bool r))
    | some (.net n), some (.net m) => some (do let r ← F.netLt n m; .ok (.bool r))
    | some (.ait x), some (.ait y) => some (do let r ← F.aiLt x y; .ok (.bool r))
    | some (.nit x), some (.nit y) => some (do let r ← F.niLt x y; .ok (.bool r))
    | some (.rait x), some (.rait y) => some (do let r ← F.aiLt y.it x.it; .ok (.bool r))
    | some (.rnit x), some (.rnit y) => some (do let r ← F.niLt y.it x.it; .ok (.bool r))
    | _, _ => none
  | .le i j =>
    match st[i]?, st[j]? with
    | some (.addr a), some (.addr b) => some (do let r ← F.le a b; .ok (.bool r))
    | _, _ => none
  | .cmp i j =>
    match st[i]?, st[j]? with
    | some (.addr a), some (.addr b) => some (do let r ← F.cmp a b; .ok (.order r))
    | some (.net n), some (.net m) => some (do let r ← F.netCmp n m; .ok (.order r))
    | some (.ait x), some (.ait y) => some (do let r ← F.aiCmp x y; .ok (.order r))
    | some (.nit x), some (.nit y) => some (do let r ← F.niCmp x y; .ok (.order r))
    | some (.rait x), some (.rait y) => some (do let r ← F.aiCmp y.it x.it; .ok (.order r))
    | some (.rnit x), some (.rnit y) => some (do let r ← F.niCmp y.it x.it; .ok (.order r))
    | _, _ => none
  | .contains i j =>
    match st[i]?, st[j]? with
    | some (.net n), some (.addr a) => some (do let r ← F.contains n a; .ok (.bool r))
    | _, _ => none
  | .overlaps i j =>
    match st[i]?, st[j]? with
    | some (.net n), some (.net m) => some (do let r ← F.overlaps n m; .ok (.bool r))
    | _, _ => none
  | .subnetOf i j =>
    match st[i]?, st[j]? with
    | some (.net n), some (.net m) => some (do let r ← F.subnetOf n m; .ok (.bool r))
    | _, _ => none
  | .supernetOf i j =>
    match st[i]?, st[j]? with
    | some (.net n), some (.net m) => some (do let r ← F.supernetOf n m; .ok (.bool r))
    | _, _ => none
  | .uintDiff i j =>
    match st[i]?, st[j]? with
    | some (.ait x), some (.ait y) => some (.ok (.uint (F.aiUintDiff x y)))
    | some (.nit x), some (.nit y) => some (do let u ← F.niUintDiff x y; .ok (.uint u))
    | _, _ => none
  | .diff i j =>
    match st[i]?, st[j]? with
    | some (.ait x), some (.ait y) => some (.ok (.diff (F.aiDiff x y)))
    | some (.nit x), some (.nit y) => some (.ok (.diff (F.niDiff x y)))
    | some (.rait x), some (.rait y) => some (.ok (.diff (F.aiDiff y.it x.it)))
    | some (.rnit x), some (.rnit y) => some (.ok (.diff (F.niDiff y.it x.it)))
    | _, _ => none
  | .size i =>
    match st[i]? with
    | some (.hosts s) => some (.ok (.uint (F.hostsSize s)))
    | some (.subs s) => some (.ok (.uint s.size))
    | _ => none
  | .empty i =>
    match st[i]? with
    | some (.hosts s) => some (do let r ← F.hostsEmpty s; .ok (.bool r))
    | some (.subs s) => some (do let r ← F.subnetsEmpty s; .ok (.bool r))
    | some (.exs s) => some (do let r ← F.exSeqEmpty s; .ok (.bool r))
    | _ => none

end Fam

/-- A program that looks at what it holds: it ends, does something, or asks something and goes on as the answer says. -/
inductive Client (U : Type) where
  | stop
  | act (s : Stmt U) (rest : Client U)
  | ask (q : Ask U) (next : Option (Res (Answer U)) → Client U)

/-- Its run from a store: what it is told, and the objects at the end.  A question whose answer is undefined behaviour
ends the program. -/
def Fam.play {A U : Type} (F : Fam A U) : Client U → List (Obj A U) → Res (List (Option (Res (Answer U))) × List (Obj A U))
  | .stop, st => .ok ([], st)
  | .act s rest, st => do
    let st ← F.exec st s
    F.play rest st
  | .ask q next, st =>
    match F.ask st q with
    | some .ub => .ub
    | r => do
      let x ← F.play (next r) st
      .ok (r :: x.1, x.2)

end Ip
