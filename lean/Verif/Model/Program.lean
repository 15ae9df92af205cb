import Verif.Model.Report
/-
Programs that use networks, iterators and sequences through the public interface: what objects they hold.  The
functions are those of the other model files; this file only says which of them a program can call on what.
-/
set_option autoImplicit false

namespace Ip

/-- The objects a program holds: addresses (`ip-address-base.hpp`), networks (`ip-network-base.hpp:38`), address
and network iterators and reverse iterators on them (`ip-address-iterator.hpp:35, 420`,
`ip-network-iterator.hpp:33`), the sequences `hosts_sequence`, `subnets_sequence`, `exclude_network_sequence`
(`ip-address-iterator.hpp:862`, `ip-network-iterator.hpp:678, 890`) and `ip_exclude_network_iterator`
(`ip-network-iterator.hpp:462`). -/
inductive Obj (A U : Type) where
  | addr (a : A)
  | net (n : Net A)
  | ait (x : AIter A U)
  | rait (x : RIter (AIter A U))
  | nit (x : NIter A U)
  | rnit (x : RIter (NIter A U))
  | hosts (s : HostsSeq A U)
  | subs (s : SubnetsSeq A U)
  | exit (x : ExIter A)
  | exs (s : ExSeq A)

/-- The operators that move an iterator: `++`, `--`, `+=`, `-=`, also with the results of `+` and `-`
(`ip-address-iterator.hpp:506-681`, `ip-network-iterator.hpp:120-295`, `ip-address-iterator.hpp:128-297`). -/
inductive Move (U : Type) where
  | inc
  | dec
  | add (n : U)
  | sub (n : U)
  | addI (n : BitVec 64)
  | subI (n : BitVec 64)

/-- What an expression does; the numbers are the places of objects in the store. -/
inductive Expr (U : Type) where
  /-- default constructors -/
  | defNet
  | defAit
  | defNit
  | defSubs
  | defExit
  | defExs
  /-- `from_uint` -/
  | fromUint (u : U)
  /-- `from_address`, throwing and with `error_code` -/
  | fromAddress (i p : Nat) (strict : Bool)
  | fromAddressCode (i p : Nat) (strict : Bool)
  /-- `parse` -/
  | parse (evs : List Ev) (strict : Bool)
  /-- `network_address`, `netmask`, `hostmask`, `broadcast_address` -/
  | network (i : Nat)
  | netmask (i : Nat)
  | hostmask (i : Nat)
  | broadcast (i : Nat)
  /-- `supernet`, throwing and with `error_code` -/
  | supernet (i d : Nat) (newp : Option Nat)
  | supernetCode (i d : Nat) (newp : Option Nat)
  /-- `hosts`, and the constructor of `hosts_sequence` -/
  | hosts (i : Nat)
  | hostsMk (i j p max : Nat)
  /-- `subnets`, throwing and with `error_code`, and the constructors of `subnets_sequence` -/
  | subnets (i d : Nat) (newp : Option Nat)
  | subnetsCode (i d : Nat) (newp : Option Nat)
  | subnetsMk1 (i p : Nat)
  | subnetsMk (i j k d p : Nat)
  /-- `address_exclude`, throwing and with `error_code`, and the constructors of its classes -/
  | exclude (i j : Nat)
  | excludeCode (i j : Nat)
  | exitMk (i j : Nat)
  | exsMk (i j : Nat)
  /-- constructors of iterators; the carry is 0 or 1 -/
  | aitMk (i : Nat) (carry : Bool)
  | nitMk (i : Nat) (step : U) (p : Nat) (carry : Bool)
  /-- `begin`, `end`, `rbegin`, `rend`, and the reverse iterator of an iterator -/
  | first (i : Nat)
  | last (i : Nat)
  | reverse (i : Nat)
  /-- `base` of a reverse iterator -/
  | base (i : Nat)
  /-- a moved copy of an iterator -/
  | move (i : Nat) (m : Move U)
  /-- `*it`, `it[n]` -/
  | deref (i : Nat)
  | index (i : Nat) (n : U)
  /-- `front`, `back`, `at` of a sequence -/
  | front (i : Nat)
  | back (i : Nat)
  | elem (i : Nat) (n : U)

/-- A statement: a new object, an assignment, the exchange of two objects. -/
inductive Stmt (U : Type) where
  | new (e : Expr U)
  | put (i : Nat) (e : Expr U)
  | swap (i j : Nat)

/-- `ip-address-iterator.hpp:506-681`: the operators that move an address iterator. -/
def Fam.aiMove {A U : Type} (F : Fam A U) : Move U → AIter A U → Res (AIter A U)
  | .inc, x => F.aiInc x
  | .dec, x => F.aiDec x
  | .add n, x => F.aiAdd x n
  | .sub n, x => F.aiSub x n
  | .addI n, x => F.aiAddI x n
  | .subI n, x => F.aiSubI x n

/-- `ip-network-iterator.hpp:120-295`: the operators that move a network iterator, `noexcept` functions. -/
def Fam.niMove {A U : Type} (F : Fam A U) (m : Move U) (x : NIter A U) : Res (NIter A U) :=
  Fam.noexcept (match m with
    | .inc => F.niInc x
    | .dec => F.niDec x
    | .add n => F.niAdd x n
    | .sub n => F.niSub x n
    | .addI n => F.niAddI x n
    | .subI n => F.niSubI x n)

/-- `ip-address-iterator.hpp:128-297`: the operators that move a reverse iterator. -/
def Move.opposite {U : Type} : Move U → Move U
  | .inc => .dec
  | .dec => .inc
  | .add n => .sub n
  | .sub n => .add n
  | .addI n => .subI n
  | .subI n => .addI n

namespace Fam

variable {A U : Type} (F : Fam A U)

/-- The value of an expression; `none` when the operands do not have the types it needs, which a compiler
rejects. -/
def eval (st : List (Obj A U)) : Expr U → Option (Res (Obj A U))
  | .defNet => some (do let n ← F.defaultNet; .ok (.net n))
  | .defAit => some (.ok (.ait ⟨F.zero, F.ops.ofI64 0#64, 0⟩))
  | .defNit => some (do let x ← F.niDefault; .ok (.nit x))
  | .defSubs => some (do let s ← F.subnetsDefault; .ok (.subs s))
  | .defExit => some (do let x ← F.exDefault; .ok (.exit x))
  | .defExs => some (do let s ← F.exSeqDefault; .ok (.exs s))
  | .fromUint u => some (do let a ← F.fromUint u; .ok (.addr a))
  | .fromAddress i p s =>
    match st[i]? with
    | some (.addr a) => some (do let n ← F.fromAddress a p s; .ok (.net n))
    | _ => none
  | .fromAddressCode i p s =>
    match st[i]? with
    | some (.addr a) => some (do let n ← F.fromAddressCode a p s none; .ok (.net n.2))
    | _ => none
  | .parse evs s => some (do let n ← F.parseNet evs s; .ok (.net n))
  | .network i =>
    match st[i]? with
    | some (.net n) => some (.ok (.addr n.addr))
    | _ => none
  | .netmask i =>
    match st[i]? with
    | some (.net n) => some (.ok (.addr n.mask))
    | _ => none
  | .hostmask i =>
    match st[i]? with
    | some (.net n) => some (.ok (.addr (F.hostmask n)))
    | _ => none
  | .broadcast i =>
    match st[i]? with
    | some (.net n) => some (do let a ← F.broadcast n; .ok (.addr a))
    | _ => none
  | .supernet i d newp =>
    match st[i]? with
    | some (.net n) => some (do let r ← F.supernet n d newp; .ok (.net r))
    | _ => none
  | .supernetCode i d newp =>
    match st[i]? with
    | some (.net n) => some (do let r ← F.supernetCode n d newp none; .ok (.net r.2))
    | _ => none
  | .hosts i =>
    match st[i]? with
    | some (.net n) => some (do let s ← F.hosts n; .ok (.hosts s))
    | _ => none
  | .hostsMk i j p max =>
    match st[i]?, st[j]? with
    | some (.addr a), some (.addr b) => some (do let s ← F.hostsMk a b p max; .ok (.hosts s))
    | _, _ => none
  | .subnets i d newp =>
    match st[i]? with
    | some (.net n) => some (do let s ← F.subnets n d newp; .ok (.subs s))
    | _ => none
  | .subnetsCode i d newp =>
    match st[i]? with
    | some (.net n) => some (do let s ← F.subnetsCode n d newp none; .ok (.subs s.2))
    | _ => none
  | .subnetsMk1 i p =>
    match st[i]? with
    | some (.addr a) => some (do let s ← noexcept (F.subnetsMk1 a p); .ok (.subs s))
    | _ => none
  | .subnetsMk i j k d p =>
    match st[i]?, st[j]?, st[k]? with
    | some (.addr a), some (.addr b), some (.addr h) =>
      some (do let s ← noexcept (F.subnetsMk a b h d p); .ok (.subs s))
    | _, _, _ => none
  | .exclude i j =>
    match st[i]?, st[j]? with
    | some (.net n), some (.net o) => some (do let s ← F.addressExclude n o; .ok (.exs s))
    | _, _ => none
  | .excludeCode i j =>
    match st[i]?, st[j]? with
    | some (.net n), some (.net o) => some (do let s ← F.excludeCode n o none; .ok (.exs s.2))
    | _, _ => none
  | .exitMk i j =>
    match st[i]?, st[j]? with
    | some (.net n), some (.net o) => some (do let x ← F.exMk n o; .ok (.exit x))
    | _, _ => none
  | .exsMk i j =>
    match st[i]?, st[j]? with
    | some (.net n), some (.net o) => some (do let s ← F.exSeqMk n o; .ok (.exs s))
    | _, _ => none
  | .aitMk i carry =>
    match st[i]? with
    | some (.addr a) => some (do let x ← F.aiMk a (if carry then 1 else 0); .ok (.ait x))
    | _ => none
  | .nitMk i step p carry =>
    match st[i]? with
    | some (.addr a) => some (do let x ← noexcept (F.niMk a step p (if carry then 1 else 0)); .ok (.nit x))
    | _ => none
  | .first i =>
    match st[i]? with
    | some (.hosts s) => some (.ok (.ait s.first))
    | some (.subs s) => some (.ok (.nit s.first))
    | some (.exs s) => some (.ok (.exit s.first))
    | _ => none
  | .last i =>
    match st[i]? with
    | some (.hosts s) => some (.ok (.ait s.last))
    | some (.subs s) => some (.ok (.nit s.last))
    | some (.exs s) => some (.ok (.exit s.last))
    | _ => none
  | .reverse i =>
    match st[i]? with
    | some (.ait x) => some (do let r ← F.aiOps.rMk x; .ok (.rait r))
    | some (.nit x) => some (do let r ← noexcept (F.niOps.rMk x); .ok (.rnit r))
    | _ => none
  | .base i =>
    match st[i]? with
    | some (.rait r) => some (do let x ← F.aiOps.rBase r; .ok (.ait x))
    | some (.rnit r) => some (do let x ← noexcept (F.niOps.rBase r); .ok (.nit x))
    | _ => none
  | .move i m =>
    match st[i]? with
    | some (.ait x) => some (do let y ← F.aiMove m x; .ok (.ait y))
    | some (.nit x) => some (do let y ← F.niMove m x; .ok (.nit y))
    | some (.rait r) => some (do let y ← F.aiMove m.opposite r.it; .ok (.rait ⟨y⟩))
    | some (.rnit r) => some (do let y ← F.niMove m.opposite r.it; .ok (.rnit ⟨y⟩))
    | some (.exit x) => some (do let y ← F.exInc x; .ok (.exit y))
    | _ => none
  | .deref i =>
    match st[i]? with
    | some (.ait x) => some (.ok (.addr (F.aiOps.deref x)))
    | some (.nit x) => some (.ok (.net (F.niOps.deref x)))
    | some (.rait r) => some (.ok (.addr (F.aiOps.rDeref r)))
    | some (.rnit r) => some (.ok (.net (F.niOps.rDeref r)))
    | some (.exit x) => some (.ok (.net x.cur))
    | _ => none
  | .index i n =>
    match st[i]? with
    | some (.ait x) => some (do let a ← F.aiAt x n; .ok (.addr a))
    | some (.nit x) => some (do let m ← noexcept (F.niAt x n); .ok (.net m))
    | some (.rait r) => some (do let a ← F.aiOps.rAt r n; .ok (.addr a))
    | some (.rnit r) => some (do let m ← noexcept (F.niOps.rAt r n); .ok (.net m))
    | _ => none
  | .front i =>
    match st[i]? with
    | some (.hosts s) => some (.ok (.addr s.front))
    | some (.subs s) => some (.ok (.net s.front))
    | _ => none
  | .back i =>
    match st[i]? with
    | some (.hosts s) => some (do let a ← F.hostsBack s; .ok (.addr a))
    | some (.subs s) => some (do let n ← noexcept (F.subnetsBack s); .ok (.net n))
    | _ => none
  | .elem i n =>
    match st[i]? with
    | some (.hosts s) => some (do let a ← F.hostsAt s n; .ok (.addr a))
    | some (.subs s) => some (do let m ← noexcept (F.subnetsAt s n); .ok (.net m))
    | _ => none

/-- The store after an expression has been evaluated: an exception is caught and leaves the objects as they are.
Undefined behaviour and `std::terminate` end the program without a store. -/
def after (st : List (Obj A U)) (r : Option (Res (Obj A U))) (f : Obj A U → List (Obj A U)) : Res (List (Obj A U)) :=
  match r with
  | none => .ok st
  | some (.ok o) => .ok (f o)
  | some (.err _ _) => .ok st
  | some .ub => .ub

/-- One statement.  `swap` of networks is `ip-network-base.hpp:653-659`; iterators and sequences are exchanged
by `std::swap`, that is, member by member. -/
def exec (st : List (Obj A U)) : Stmt U → Res (List (Obj A U))
  | .new e => after st (F.eval st e) (fun o => st ++ [o])
  | .put i e => after st (F.eval st e) (fun o => st.set i o)
  | .swap i j =>
    match st[i]?, st[j]? with
    | some (.net n), some (.net m) => do
      let r ← F.netSwap n m
      .ok ((st.set i (.net r.1)).set j (.net r.2))
    | some a, some b => .ok ((st.set i b).set j a)
    | _, _ => .ok st

/-- A program, from a store of given objects. -/
def run : List (Stmt U) → List (Obj A U) → Res (List (Obj A U))
  | [], st => .ok st
  | s :: rest, st => do
    let st ← F.exec st s
    run rest st

end Fam
end Ip
