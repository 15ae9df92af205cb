import Verif.Model.AnyAddr
import Verif.Model.AnyProgram
import Verif.Model.Ask
/-
Programs that look at the version agnostic objects they hold, and decide by what they see.  The functions are those of the
other model files; this file only says which of them a program can call on what.
-/
set_option autoImplicit false

namespace Ip

/-- The classes of addresses and networks. -/
inductive Trait where
  | multicast | private_ | global | reserved | loopback | linkLocal | unspecified | siteLocal
deriving DecidableEq, Repr

/-- `ip-any-address.hpp:97-176`. -/
def anyAddrIs (c : Cfg) : Trait → AnyAddr → Res Bool
  | .multicast, a => anyIsMulticast c a
  | .private_, a => anyIsPrivate c a
  | .global, a => anyIsGlobal c a
  | .reserved, a => anyIsReserved c a
  | .loopback, a => anyIsLoopback c a
  | .linkLocal, a => anyIsLinkLocal c a
  | .unspecified, a => .ok (anyIsUnspecified a)
  | .siteLocal, a => anyIsSiteLocal c a

/-- `ip-any-network.hpp:152-248`. -/
def anyNetIs (c : Cfg) : Trait → AnyNet → Res Bool
  | .multicast, n => anyNetIsMulticast c n
  | .private_, n => anyNetIsPrivate c n
  | .global, n => anyNetIsGlobal c n
  | .reserved, n => anyNetIsReserved c n
  | .loopback, n => anyNetIsLoopback c n
  | .linkLocal, n => anyNetIsLinkLocal c n
  | .unspecified, n => anyNetIsUnspecified c n
  | .siteLocal, n => anyNetIsSiteLocal c n

/-- `ip-any-network.hpp:80-82`, `version`. -/
def anyNetVersion : AnyNet → Nat
  | .v4 _ => 4
  | .v6 _ => 6

/-- What a program can ask; the numbers are the places of objects in the store. -/
inductive AnyAsk where
  /-- whether an expression raises an exception, and which -/
  | outcome (e : Expr U128)
  /-- whether a text is an address, and which error it gives -/
  | reading (evs : List Ev)
  /-- whether a text can become the scope id of an address, and which error it gives -/
  | scoping (i size : Nat) (evs : List Ev)
  /-- `to_string`, `operator<<` -/
  | text (i : Nat) (f : Format)
  /-- `std::hash` -/
  | hash (i : Nat)
  /-- `version`, `is_v4`, `is_v6` -/
  | version (i : Nat)
  /-- `data` up to `size`, `to_uint32`, `to_uint128` -/
  | bytes (i : Nat)
  | uint32 (i : Nat)
  | uint128 (i : Nat)
  /-- `get_scope_id`: the text, and the number -/
  | scope (i : Nat)
  | scopeNumber (i : Nat)
  /-- `reverse_pointer` -/
  | pointer (i : Nat)
  /-- `ipv4_mapped`, `sixtofour`, `teredo` -/
  | mapped (i : Nat)
  | sixToFour (i : Nat)
  | teredo (i : Nat)
  /-- `is_multicast` and the others -/
  | is (t : Trait) (i : Nat)
  /-- `prefixlen`, `addresses_count` -/
  | plen (i : Nat)
  | count (i : Nat)
  /-- `==`, `<`, `<=>` -/
  | eq (i j : Nat)
  | lt (i j : Nat)
  | cmp (i j : Nat)
  /-- `contains`, `overlaps`, `subnet_of`, `supernet_of` -/
  | contains (i j : Nat)
  | overlaps (i j : Nat)
  | subnetOf (i j : Nat)
  | supernetOf (i j : Nat)
  /-- `uint_diff` and the difference of iterators -/
  | uintDiff (i j : Nat)
  | diff (i j : Nat)
  /-- `size`, `empty` of a sequence -/
  | size (i : Nat)
  | empty (i : Nat)

/-- What it is told. -/
inductive AnyAnswer where
  | done
  | code (e : Option ErrorCode)
  | text (t : List Char)
  | hash (h : BitVec 64)
  | num (n : Nat)
  | bytes (b : List (BitVec 8))
  | uint32 (u : BitVec 32)
  | uint (u : U128)
  | number (has : Bool) (u : BitVec 32)
  | embedded (b : Option (List (BitVec 8)))
  | two (b : Option (List (BitVec 8) × List (BitVec 8)))
  | bool (b : Bool)
  | order (o : Ordering)
  | diff (d : BitVec 64)
deriving DecidableEq, Repr

/-- The answer; `none` when the operands do not have the types it needs, which a compiler rejects.  Addresses:
`ip-any-address.hpp:86-88, 97-258, 296-298, 423-450, 522-524, 748-752, 1193-1198, 1247-1302`.  Networks:
`ip-any-network.hpp:80-94, 152-248, 288-299, 321-408, 782-784, 1221-1276`.  Iterators: `ip-any-iterator.hpp:83-88, 313-380`,
reverse iterators `ip-address-iterator.hpp:307-321`, iterators over excluded networks `ip-network-iterator.hpp:577-579`.
Sequences: `ip-any-iterator.hpp:590-601, 769-780`, `ip-network-iterator.hpp:963-965`. -/
def anyAsk (c : Cfg) (st : List AnyObj) : AnyAsk → Option (Res AnyAnswer)
  | .outcome e =>
    match anyEval c st e with
    | some r => some (do let _ ← r; .ok .done)
    | none => none
  | .reading evs => some (do let _ ← anyFromEvents c.spaces c.M evs; .ok .done)
  | .scoping i size evs =>
    match st[i]? with
    | some (.addr a) => some (do let r ← anySetScope c.spaces c.M a size evs; .ok (.code r.2))
    | _ => none
  | .text i f =>
    match st[i]? with
    | some (.addr a) => some (do let t ← anyToString c.M f a; .ok (.text t))
    | some (.net n) => some (do let t ← anyNetToString c f n; .ok (.text t))
    | _ => none
  | .hash i =>
    match st[i]? with
    | some (.addr a) => some (do let h ← anyHash c.conv a; .ok (.hash h))
    | some (.net n) => some (do let h ← anyNetHash c n; .ok (.hash h))
    | _ => none
  | .version i =>
    match st[i]? with
    | some (.addr a) => some (.ok (.num (anyVersion a)))
    | some (.net n) => some (.ok (.num (anyNetVersion n)))
    | _ => none
  | .bytes i =>
    match st[i]? with
    | some (.addr a) => some (.ok (.bytes (anyData a)))
    | _ => none
  | .uint32 i =>
    match st[i]? with
    | some (.addr a) => some (do let u ← anyToUint32 c.le a; .ok (.uint32 u))
    | _ => none
  | .uint128 i =>
    match st[i]? with
    | some (.addr a) => some (do let u ← anyToUint128 c.le a; .ok (.uint u))
    | _ => none
  | .scope i =>
    match st[i]? with
    | some (.addr a) => some (.ok (.text (anyGetScope c.M a).contents))
    | _ => none
  | .scopeNumber i =>
    match st[i]? with
    | some (.addr a) => some (do let v ← scopeValue (anyGetScope c.M a); .ok (.number v.1 v.2))
    | _ => none
  | .pointer i =>
    match st[i]? with
    | some (.addr a) => some (do let t ← anyReversePointer c.le c.M a; .ok (.text t))
    | _ => none
  | .mapped i =>
    match st[i]? with
    | some (.addr a) => some (do let b ← anyMapped a; .ok (.embedded b))
    | _ => none
  | .sixToFour i =>
    match st[i]? with
    | some (.addr a) => some (do let b ← anySixToFour a; .ok (.embedded b))
    | _ => none
  | .teredo i =>
    match st[i]? with
    | some (.addr a) => some (do let b ← anyTeredo a; .ok (.two b))
    | _ => none
  | .is t i =>
    match st[i]? with
    | some (.addr a) => some (do let b ← anyAddrIs c t a; .ok (.bool b))
    | some (.net n) => some (do let b ← anyNetIs c t n; .ok (.bool b))
    | _ => none
  | .plen i =>
    match st[i]? with
    | some (.net n) => some (.ok (.num (anyNetPlen n)))
    | _ => none
  | .count i =>
    match st[i]? with
    | some (.net n) => some (do let u ← anyNetCount c n; .ok (.uint u))
    | _ => none
  | .eq i j =>
    match st[i]?, st[j]? with
    | some (.addr a), some (.addr b) => some (do let r ← anyEquals c.val a b; .ok (.bool r))
    | some (.net n), some (.net m) => some (do let r ← anyNetEq c n m; .ok (.bool r))
    | some (.ait x), some (.ait y) => some (do let r ← (anyHostsOps c).eq x y; .ok (.bool r))
    | some (.nit x), some (.nit y) => some (do let r ← (anySubnetsOps c).eq x y; .ok (.bool r))
    | some (.rait x), some (.rait y) => some (do let r ← (anyHostsOps c).eq y.it x.it; .ok (.bool r))
    | some (.rnit x), some (.rnit y) => some (do let r ← (anySubnetsOps c).eq y.it x.it; .ok (.bool r))
    | some (.exit x), some (.exit y) => some (do let r ← anyExEq c x y; .ok (.bool r))
    | _, _ => none
  | .lt i j =>
    match st[i]?, st[j]? with
    | some (.addr a), some (.addr b) => some (do let r ← anyLess c.val a b; .ok (.bool r))
    | some (.net n), some (.net m) => some (do let r ← anyNetLt c n m; .ok (.bool r))
    | some (.ait x), some (.ait y) => some (do let r ← (anyHostsOps c).lt x y; .ok (.bool r))
    | some (.nit x), some (.nit y) => some (do let r ← (anySubnetsOps c).lt x y; .ok (.bool r))
    | some (.rait x), some (.rait y) => some (do let r ← (anyHostsOps c).lt y.it x.it; .ok (.bool r))
    | some (.rnit x), some (.rnit y) => some (do let r ← (anySubnetsOps c).lt y.it x.it; .ok (.bool r))
    | _, _ => none
  | .cmp i j =>
    match st[i]?, st[j]? with
    | some (.addr a), some (.addr b) => some (do let r ← anyCompare c.val a b; .ok (.order r))
    | some (.net n), some (.net m) => some (do let r ← anyNetCmp c n m; .ok (.order r))
    | some (.ait x), some (.ait y) => some (do let r ← (anyHostsOps c).cmp x y; .ok (.order r))
    | some (.nit x), some (.nit y) => some (do let r ← (anySubnetsOps c).cmp x y; .ok (.order r))
    | some (.rait x), some (.rait y) => some (do let r ← (anyHostsOps c).cmp y.it x.it; .ok (.order r))
    | some (.rnit x), some (.rnit y) => some (do let r ← (anySubnetsOps c).cmp y.it x.it; .ok (.order r))
    | _, _ => none
  | .contains i j =>
    match st[i]?, st[j]? with
    | some (.net n), some (.addr a) => some (do let r ← anyNetContains c n a; .ok (.bool r))
    | _, _ => none
  | .overlaps i j =>
    match st[i]?, st[j]? with
    | some (.net n), some (.net m) => some (do let r ← anyNetOverlaps c n m; .ok (.bool r))
    | _, _ => none
  | .subnetOf i j =>
    match st[i]?, st[j]? with
    | some (.net n), some (.net m) => some (do let r ← anyNetSubnetOf c n m; .ok (.bool r))
    | _, _ => none
  | .supernetOf i j =>
    match st[i]?, st[j]? with
    | some (.net n), some (.net m) => some (do let r ← anyNetSupernetOf c n m; .ok (.bool r))
    | _, _ => none
  | .uintDiff i j =>
    match st[i]?, st[j]? with
    | some (.ait x), some (.ait y) => some (do let u ← (anyHostsOps c).uintDiff x y; .ok (.uint u))
    | some (.nit x), some (.nit y) => some (do let u ← (anySubnetsOps c).uintDiff x y; .ok (.uint u))
    | _, _ => none
  | .diff i j =>
    match st[i]?, st[j]? with
    | some (.ait x), some (.ait y) => some (.ok (.diff ((anyHostsOps c).diff x y)))
    | some (.nit x), some (.nit y) => some (.ok (.diff ((anySubnetsOps c).diff x y)))
    | some (.rait x), some (.rait y) => some (.ok (.diff ((anyHostsOps c).diff y.it x.it)))
    | some (.rnit x), some (.rnit y) => some (.ok (.diff ((anySubnetsOps c).diff y.it x.it)))
    | _, _ => none
  | .size i =>
    match st[i]? with
    | some (.hosts s) => some (do let u ← (anyHostsOps c).seqSize s; .ok (.uint u))
    | some (.subs s) => some (do let u ← (anySubnetsOps c).seqSize s; .ok (.uint u))
    | _ => none
  | .empty i =>
    match st[i]? with
    | some (.hosts s) => some (do let r ← (anyHostsOps c).seqEmpty s; .ok (.bool r))
    | some (.subs s) => some (do let r ← (anySubnetsOps c).seqEmpty s; .ok (.bool r))
    | some (.exs x y) => some (do let r ← anyExSeqEmpty c (x, y); .ok (.bool r))
    | _ => none

/-- What a program does: a statement, reading an address from a text, or changing the scope id of an address. -/
inductive AnyDeed where
  | stmt (s : Stmt U128)
  | read (evs : List Ev)
  | setScope (i size : Nat) (evs : List Ev)

/-- Doing it; `parse` and `set_scope_id` with an error leave the objects as they are (`ip-any-address.hpp:665, 748-752`). -/
def anyDo (c : Cfg) (st : List AnyObj) : AnyDeed → Res (List AnyObj)
  | .stmt s => anyExec c st s
  | .read evs => anyAfter st (some (do let a ← anyFromEvents c.spaces c.M evs; .ok (.addr a))) (fun o => st ++ [o])
  | .setScope i size evs =>
    match st[i]? with
    | some (.addr a) => do
      let r ← anySetScope c.spaces c.M a size evs
      .ok (st.set i (.addr r.1))
    | _ => .ok st

/-- What a program does, one after the other. -/
def anyDoAll (c : Cfg) : List AnyDeed → List AnyObj → Res (List AnyObj)
  | [], st => .ok st
  | d :: rest, st => do
    let st ← anyDo c st d
    anyDoAll c rest st

/-- A program that looks at what it holds: it ends, does something, or asks something and goes on as the answer says. -/
inductive AnyClient where
  | stop
  | act (d : AnyDeed) (rest : AnyClient)
  | ask (q : AnyAsk) (next : Option (Res AnyAnswer) → AnyClient)

/-- Its run from a store: what it is told, and the objects at the end.  A question whose answer is undefined behaviour
ends the program. -/
def anyPlay (c : Cfg) : AnyClient → List AnyObj → Res (List (Option (Res AnyAnswer)) × List AnyObj)
  | .stop, st => .ok ([], st)
  | .act d rest, st => do
    let st ← anyDo c st d
    anyPlay c rest st
  | .ask q next, st =>
    match anyAsk c st q with
    | some .ub => .ub
    | r => do
      let x ← anyPlay c (next r) st
      .ok (r :: x.1, x.2)

end Ip
