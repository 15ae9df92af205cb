import Verif.Model.Program
/-
Programs that use the version agnostic classes `ip_address`, `ip_network`, `ip_any_iterator`, `hosts_any_sequence`,
`subnets_any_sequence`, and the excluding sequences of `ip_network`: what objects they hold.  The functions are those of
the other model files; this file only says which of them a program can call on what.
-/
set_option autoImplicit false

namespace Ip

/-- `hosts_any_sequence::iterator`, `ip-any-iterator.hpp:488`. -/
abbrev AnyHostIt := AnyIt (AIter (List (BitVec 8)) (BitVec 32)) (AIter V6 U128) AnyAddr

/-- `subnets_any_sequence<ip_network>::iterator`, `ip-any-iterator.hpp:667`. -/
abbrev AnyNetIt := AnyIt (NIter (List (BitVec 8)) (BitVec 32)) (NIter V6 U128) AnyNet

/-- The objects a program holds: `ip_address`, `ip_network`, iterators over addresses and networks and reverse iterators
on them (`ip-any-iterator.hpp:31`, `ip-address-iterator.hpp:35`), `hosts_any_sequence` and `subnets_any_sequence`
(`ip-any-iterator.hpp:476, 655`), `ip_exclude_network_iterator<ip_network>` and `exclude_network_sequence<ip_network>`
(`ip-network-iterator.hpp:462, 890`; `first` and `last` are its members). -/
inductive AnyObj where
  | addr (a : AnyAddr)
  | net (n : AnyNet)
  | ait (x : AnyHostIt)
  | rait (x : RIter AnyHostIt)
  | nit (x : AnyNetIt)
  | rnit (x : RIter AnyNetIt)
  | hosts (s : AnySeq (AIter (List (BitVec 8)) (BitVec 32)) (AIter V6 U128) AnyAddr)
  | subs (s : AnySeq (NIter (List (BitVec 8)) (BitVec 32)) (NIter V6 U128) AnyNet)
  | exit (x : AnyEx)
  | exs (first last : AnyEx)

/-- `ip-any-iterator.hpp:134-303`: the operators that move an iterator. -/
def AnyItOps.move {I4 V4 I6 V6 V : Type} (O : AnyItOps I4 V4 I6 V6 V) : Move U128 → AnyIt I4 I6 V → Res (AnyIt I4 I6 V)
  | .inc, x => O.inc x
  | .dec, x => O.dec x
  | .add n, x => O.add x n
  | .sub n, x => O.sub x n
  | .addI n, x => O.addI x n
  | .subI n, x => O.subI x n

/-- The value of an expression; `none` when the operands do not have the types it needs, or when the classes have no such
function, which a compiler rejects.  The functions of the iterators and sequences are `noexcept`. -/
def anyEval (c : Cfg) (st : List AnyObj) : Expr U128 → Option (Res AnyObj)
  | .defNet => some (do let n ← anyNetDefault c; .ok (.net n))
  | .defAit => some (.ok (.ait ((anyHostsOps c).mk4 ⟨(fam4 c.le).zero, (fam4 c.le).ops.ofI64 0#64, 0⟩)))
  | .defNit => some (do let x ← (fam4 c.le).niDefault; .ok (.nit ((anySubnetsOps c).mk4 x)))
  | .defExit => some (do let x ← anyExDefault c; .ok (.exit x))
  | .defExs => some (do let x ← anyExDefault c; .ok (.exs x x))
  | .fromAddress i p s =>
    match st[i]? with
    | some (.addr a) => some (do let n ← anyNetFromAddress c a p s; .ok (.net n))
    | _ => none
  | .fromAddressCode i p s =>
    match st[i]? with
    | some (.addr a) => some (do let n ← anyFromAddressCode c a p s none; .ok (.net n.2))
    | _ => none
  | .parse evs s => some (do let n ← anyNetFromEvents c evs s; .ok (.net n))
  | .network i =>
    match st[i]? with
    | some (.net n) => some (.ok (.addr (anyNetAddress n)))
    | _ => none
  | .netmask i =>
    match st[i]? with
    | some (.net n) => some (.ok (.addr (anyNetMask n)))
    | _ => none
  | .hostmask i =>
    match st[i]? with
    | some (.net n) => some (.ok (.addr (anyNetHostmask c n)))
    | _ => none
  | .broadcast i =>
    match st[i]? with
    | some (.net n) => some (do let a ← anyNetBroadcast c n; .ok (.addr a))
    | _ => none
  | .supernet i d newp =>
    match st[i]? with
    | some (.net n) => some (do let r ← anyNetSupernet c n d newp; .ok (.net r))
    | _ => none
  | .supernetCode i d newp =>
    match st[i]? with
    | some (.net n) => some (do let r ← anySupernetCode c n d newp none; .ok (.net r.2))
    | _ => none
  | .hosts i =>
    match st[i]? with
    | some (.net n) => some (do let s ← anyNetHosts c n; .ok (.hosts s))
    | _ => none
  | .subnets i d newp =>
    match st[i]? with
    | some (.net n) => some (do let s ← anyNetSubnets c n d newp; .ok (.subs s))
    | _ => none
  | .subnetsCode i d newp =>
    match st[i]? with
    | some (.net n) => some (do let s ← anySubnetsCode c n d newp none; .ok (.subs s.2))
    | _ => none
  | .exclude i j =>
    match st[i]?, st[j]? with
    | some (.net n), some (.net o) => some (do let s ← anyNetExclude c n o; .ok (.exs s.1 s.2))
    | _, _ => none
  | .excludeCode i j =>
    match st[i]?, st[j]? with
    | some (.net n), some (.net o) => some (do let s ← anyExcludeCode c n o none; .ok (.exs s.2.1 s.2.2))
    | _, _ => none
  | .exitMk i j =>
    match st[i]?, st[j]? with
    | some (.net n), some (.net o) => some (do let x ← anyExMk c n o; .ok (.exit x))
    | _, _ => none
  | .exsMk i j =>
    match st[i]?, st[j]? with
    | some (.net n), some (.net o) => some (do let x ← anyExMk c n o; let d ← anyExDefault c; .ok (.exs x d))
    | _, _ => none
  | .first i =>
    match st[i]? with
    | some (.hosts s) => some (.ok (.ait s.first))
    | some (.subs s) => some (.ok (.nit s.first))
    | some (.exs x _) => some (.ok (.exit x))
    | _ => none
  | .last i =>
    match st[i]? with
    | some (.hosts s) => some (.ok (.ait s.last))
    | some (.subs s) => some (.ok (.nit s.last))
    | some (.exs _ y) => some (.ok (.exit y))
    | _ => none
  | .reverse i =>
    match st[i]? with
    | some (.ait x) => some (do let r ← (anyHostsOps c).ops.rMk x; .ok (.rait r))
    | some (.nit x) => some (do let r ← Fam.noexcept ((anySubnetsOps c).ops.rMk x); .ok (.rnit r))
    | _ => none
  | .base i =>
    match st[i]? with
    | some (.rait r) => some (do let x ← (anyHostsOps c).ops.rBase r; .ok (.ait x))
    | some (.rnit r) => some (do let x ← Fam.noexcept ((anySubnetsOps c).ops.rBase r); .ok (.nit x))
    | _ => none
  | .move i m =>
    match st[i]? with
    | some (.ait x) => some (do let y ← (anyHostsOps c).move m x; .ok (.ait y))
    | some (.nit x) => some (do let y ← Fam.noexcept ((anySubnetsOps c).move m x); .ok (.nit y))
    | some (.rait r) => some (do let y ← (anyHostsOps c).move m.opposite r.it; .ok (.rait ⟨y⟩))
    | some (.rnit r) => some (do let y ← Fam.noexcept ((anySubnetsOps c).move m.opposite r.it); .ok (.rnit ⟨y⟩))
    | some (.exit x) => some (do let y ← anyExInc c x; .ok (.exit y))
    | _ => none
  | .deref i =>
    match st[i]? with
    | some (.ait x) => some (.ok (.addr (AnyItOps.deref x)))
    | some (.nit x) => some (.ok (.net (AnyItOps.deref x)))
    | some (.rait r) => some (.ok (.addr ((anyHostsOps c).ops.rDeref r)))
    | some (.rnit r) => some (.ok (.net ((anySubnetsOps c).ops.rDeref r)))
    | some (.exit x) => some (.ok (.net x.cur))
    | _ => none
  | .index i n =>
    match st[i]? with
    | some (.ait x) => some (do let a ← (anyHostsOps c).at_ n x; .ok (.addr a))
    | some (.nit x) => some (do let m ← Fam.noexcept ((anySubnetsOps c).at_ n x); .ok (.net m))
    | some (.rait r) => some (do let a ← (anyHostsOps c).ops.rAt r n; .ok (.addr a))
    | some (.rnit r) => some (do let m ← Fam.noexcept ((anySubnetsOps c).ops.rAt r n); .ok (.net m))
    | _ => none
  | .front i =>
    match st[i]? with
    | some (.hosts s) => some (.ok (.addr (AnyItOps.seqFront s)))
    | some (.subs s) => some (.ok (.net (AnyItOps.seqFront s)))
    | _ => none
  | .back i =>
    match st[i]? with
    | some (.hosts s) => some (do let a ← (anyHostsOps c).seqBack s; .ok (.addr a))
    | some (.subs s) => some (do let n ← Fam.noexcept ((anySubnetsOps c).seqBack s); .ok (.net n))
    | _ => none
  | .elem i n =>
    match st[i]? with
    | some (.hosts s) => some (do let a ← (anyHostsOps c).seqAt s n; .ok (.addr a))
    | some (.subs s) => some (do let m ← Fam.noexcept ((anySubnetsOps c).seqAt s n); .ok (.net m))
    | _ => none
  | .defSubs => none
  | .fromUint _ => none
  | .hostsMk _ _ _ _ => none
  | .subnetsMk1 _ _ => none
  | .subnetsMk _ _ _ _ _ => none
  | .aitMk _ _ => none
  | .nitMk _ _ _ _ => none

/-- The store after an expression has been evaluated: an exception is caught and leaves the objects as they are.
Undefined behaviour and `std::terminate` end the program without a store. -/
def anyAfter (st : List AnyObj) (r : Option (Res AnyObj)) (f : AnyObj → List AnyObj) : Res (List AnyObj) :=
  match r with
  | none => .ok st
  | some (.ok o) => .ok (f o)
  | some (.err _ _) => .ok st
  | some .ub => .ub

/-- One statement.  `swap` of networks is `ip-any-network.hpp:850-854`; all other objects are exchanged by `std::swap`. -/
def anyExec (c : Cfg) (st : List AnyObj) : Stmt U128 → Res (List AnyObj)
  | .new e => anyAfter st (anyEval c st e) (fun o => st ++ [o])
  | .put i e => anyAfter st (anyEval c st e) (fun o => st.set i o)
  | .swap i j =>
    match st[i]?, st[j]? with
    | some (.net n), some (.net m) => .ok ((st.set i (.net (anyNetSwap n m).1)).set j (.net (anyNetSwap n m).2))
    | some a, some b => .ok ((st.set i b).set j a)
    | _, _ => .ok st

/-- A program, from a store of given objects. -/
def anyRun (c : Cfg) : List (Stmt U128) → List AnyObj → Res (List AnyObj)
  | [], st => .ok st
  | s :: rest, st => do
    let st ← anyExec c st s
    anyRun c rest st

end Ip
