import Verif.Model.AnyProgram
import Verif.Spec.Program
/-
What a user sees of the version agnostic objects that a program holds, and how they correspond to the objects of the
classes for one version.
-/
set_option autoImplicit false

namespace Ip.Spec

/-- The IPv4 object in the version agnostic classes. -/
def as4 : Obj (List (BitVec 8)) (BitVec 32) → AnyObj
  | .addr a => .addr (.v4 a)
  | .net n => .net (.v4 n)
  | .ait x => .ait (.v4 x (.v4 x.cur))
  | .rait r => .rait ⟨.v4 r.it (.v4 r.it.cur)⟩
  | .nit x => .nit (.v4 x (.v4 x.cur))
  | .rnit r => .rnit ⟨.v4 r.it (.v4 r.it.cur)⟩
  | .hosts s => .hosts ⟨.v4 s.first (.v4 s.first.cur), .v4 s.last (.v4 s.last.cur)⟩
  | .subs s => .subs ⟨.v4 s.first (.v4 s.first.cur), .v4 s.last (.v4 s.last.cur)⟩
  | .exit x => .exit ⟨.v4 x.other, .v4 x.s1, .v4 x.s2, .v4 x.cur⟩
  | .exs s => .exs ⟨.v4 s.first.other, .v4 s.first.s1, .v4 s.first.s2, .v4 s.first.cur⟩
      ⟨.v4 s.last.other, .v4 s.last.s1, .v4 s.last.s2, .v4 s.last.cur⟩

/-- The IPv6 object in the version agnostic classes. -/
def as6 : Obj V6 U128 → AnyObj
  | .addr a => .addr (.v6 a)
  | .net n => .net (.v6 n)
  | .ait x => .ait (.v6 x (.v6 x.cur))
  | .rait r => .rait ⟨.v6 r.it (.v6 r.it.cur)⟩
  | .nit x => .nit (.v6 x (.v6 x.cur))
  | .rnit r => .rnit ⟨.v6 r.it (.v6 r.it.cur)⟩
  | .hosts s => .hosts ⟨.v6 s.first (.v6 s.first.cur), .v6 s.last (.v6 s.last.cur)⟩
  | .subs s => .subs ⟨.v6 s.first (.v6 s.first.cur), .v6 s.last (.v6 s.last.cur)⟩
  | .exit x => .exit ⟨.v6 x.other, .v6 x.s1, .v6 x.s2, .v6 x.cur⟩
  | .exs s => .exs ⟨.v6 s.first.other, .v6 s.first.s1, .v6 s.first.s2, .v6 s.first.cur⟩
      ⟨.v6 s.last.other, .v6 s.last.s1, .v6 s.last.s2, .v6 s.last.cur⟩

/-- The operator with a number of the other type. -/
def Move.on {U V : Type} (f : U → V) : Move U → Move V
  | .inc => .inc
  | .dec => .dec
  | .add n => .add (f n)
  | .sub n => .sub (f n)
  | .addI n => .addI n
  | .subI n => .subI n

/-- The expression with numbers of the other type. -/
def Expr.on {U V : Type} (f : U → V) : Expr U → Expr V
  | .defNet => .defNet
  | .defAit => .defAit
  | .defNit => .defNit
  | .defSubs => .defSubs
  | .defExit => .defExit
  | .defExs => .defExs
  | .fromUint u => .fromUint (f u)
  | .fromAddress i p s => .fromAddress i p s
  | .fromAddressCode i p s => .fromAddressCode i p s
  | .parse evs s => .parse evs s
  | .network i => .network i
  | .netmask i => .netmask i
  | .hostmask i => .hostmask i
  | .broadcast i => .broadcast i
  | .supernet i d q => .supernet i d q
  | .supernetCode i d q => .supernetCode i d q
  | .hosts i => .hosts i
  | .hostsMk i j p m => .hostsMk i j p m
  | .subnets i d q => .subnets i d q
  | .subnetsCode i d q => .subnetsCode i d q
  | .subnetsMk1 i p => .subnetsMk1 i p
  | .subnetsMk i j k d p => .subnetsMk i j k d p
  | .exclude i j => .exclude i j
  | .excludeCode i j => .excludeCode i j
  | .exitMk i j => .exitMk i j
  | .exsMk i j => .exsMk i j
  | .aitMk i b => .aitMk i b
  | .nitMk i s p b => .nitMk i (f s) p b
  | .first i => .first i
  | .last i => .last i
  | .reverse i => .reverse i
  | .base i => .base i
  | .move i m => .move i (Move.on f m)
  | .deref i => .deref i
  | .index i n => .index i (f n)
  | .front i => .front i
  | .back i => .back i
  | .elem i n => .elem i (f n)

/-- The statement with numbers of the other type. -/
def Stmt.on {U V : Type} (f : U → V) : Stmt U → Stmt V
  | .new e => .new (Expr.on f e)
  | .put i e => .put i (Expr.on f e)
  | .swap i j => .swap i j

/-- Functions that the version agnostic classes have too, and that do not choose a version themselves. -/
def bothHave {U : Type} : Expr U → Bool
  | .defSubs | .fromUint _ | .hostsMk _ _ _ _ | .subnetsMk1 _ _ | .subnetsMk _ _ _ _ _ | .aitMk _ _ | .nitMk _ _ _ _ |
    .parse _ _ => false
  | _ => true

/-- The functions of which the version agnostic ones do not use the default objects of IPv4. -/
def noDefault {U : Type} : Expr U → Bool
  | .defNet | .defAit | .defNit | .defExit | .defExs | .exclude _ _ | .excludeCode _ _ | .exitMk _ _ | .exsMk _ _ => false
  | _ => true

/-- Programs over the classes of both kinds. -/
def SharedStmt {U : Type} : Stmt U → Prop
  | .new e | .put _ e => bothHave e = true
  | .swap _ _ => True

/-- The same, for IPv6: without default objects, exclusions and exchanges. -/
def SharedStmt6 {U : Type} : Stmt U → Prop
  | .new e | .put _ e => bothHave e = true ∧ noDefault e = true
  | .swap _ _ => False

/-- The same with exchanges. -/
def SharedStmt6Swap {U : Type} : Stmt U → Prop
  | .new e | .put _ e => bothHave e = true ∧ noDefault e = true
  | .swap _ _ => True

/-- A number of 128 bits in the arithmetic of 32 bits. -/
def cut (n : U128) : BitVec 32 := BitVec.ofNat 32 n.val

/-- The networks that can be seen in an object. -/
def anyNetsIn : AnyObj → List AnyNet
  | .net n => [n]
  | .nit (.v4 x cur) => [cur, .v4 x.cur]
  | .nit (.v6 x cur) => [cur, .v6 x.cur]
  | .rnit ⟨.v4 x cur⟩ => [cur, .v4 x.cur]
  | .rnit ⟨.v6 x cur⟩ => [cur, .v6 x.cur]
  | .subs s => (match s.first with | .v4 x cur => [cur, .v4 x.cur] | .v6 x cur => [cur, .v6 x.cur]) ++
      (match s.last with | .v4 x cur => [cur, .v4 x.cur] | .v6 x cur => [cur, .v6 x.cur])
  | .exit x => [x.cur]
  | .exs x y => [x.cur, y.cur]
  | _ => []

/-- A network of its version. -/
def AnyIsNetwork : AnyNet → Prop
  | .v4 n => IsNetwork 32 n.plen n.addr n.mask
  | .v6 n => IsNetwork 128 n.plen n.addr.bytes n.mask.bytes

/-- An iterator over addresses shows the address of the iterator that it holds. -/
def HostItShows : AnyHostIt → Prop
  | .v4 x cur => cur = .v4 x.cur ∧ x.off.toNat = beValue x.cur
  | .v6 x cur => cur = .v6 x.cur ∧ x.off.val = beValue x.cur.bytes

/-- An iterator over networks shows the network of the iterator that it holds, which is at the address with which that
computes. -/
def NetItShows : AnyNetIt → Prop
  | .v4 x cur => cur = .v4 x.cur ∧ x.it.off.toNat = beValue x.cur.addr
  | .v6 x cur => cur = .v6 x.cur ∧ x.it.off.val = beValue x.cur.addr.bytes

/-- The iterators over addresses in an object. -/
def hostItsIn : AnyObj → List AnyHostIt
  | .ait x => [x]
  | .rait r => [r.it]
  | .hosts s => [s.first, s.last]
  | _ => []

/-- The iterators over networks in an object. -/
def netItsIn : AnyObj → List AnyNetIt
  | .nit x => [x]
  | .rnit r => [r.it]
  | .subs s => [s.first, s.last]
  | _ => []

/-- The address `b` is the one `k` further than `a`, modulo the number of addresses of the version. -/
def AddrMoved (k : Int) : AnyAddr → AnyAddr → Prop
  | .v4 a, .v4 b => (beValue b : Int) = (beValue a + k) % 2 ^ 32
  | .v6 a, .v6 b => (beValue b.bytes : Int) = (beValue a.bytes + k) % 2 ^ 128
  | _, _ => False

/-- The address that an iterator shows. -/
def hostItShown : AnyHostIt → AnyAddr
  | .v4 _ cur => cur
  | .v6 _ cur => cur

/-- The network that an iterator shows. -/
def netItShown : AnyNetIt → AnyNet
  | .v4 _ cur => cur
  | .v6 _ cur => cur

/-- The address of a network. -/
def netAt : AnyNet → AnyAddr
  | .v4 n => .v4 n.addr
  | .v6 n => .v6 n.addr

/-- The step of an iterator over networks. -/
def netItStep : AnyNetIt → Nat
  | .v4 x _ => x.step.toNat
  | .v6 x _ => x.step.val

/-- The object `o'` is `o` moved by `k`: an iterator over addresses shows the address `k` further, one over networks the
network `k` steps further, and a reverse iterator stands the same distance back. -/
def AnyMovedBy (k : Int) : AnyObj → AnyObj → Prop
  | .ait x, .ait y => AddrMoved k (hostItShown x) (hostItShown y)
  | .rait x, .rait y => AddrMoved (-k) (hostItShown x.it) (hostItShown y.it)
  | .nit x, .nit y => AddrMoved (netItStep x * k) (netAt (netItShown x)) (netAt (netItShown y)) ∧ netItStep y = netItStep x
  | .rnit x, .rnit y => AddrMoved (netItStep x.it * -k) (netAt (netItShown x.it)) (netAt (netItShown y.it)) ∧
      netItStep y.it = netItStep x.it
  | .exit _, .exit _ => True
  | _, _ => False

end Ip.Spec
