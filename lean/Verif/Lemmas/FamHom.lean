import Verif.Lemmas.AnyProgram
import Verif.Model.Ask
/-
Programs do the same with objects that differ in nothing that the primitive functions of addresses can see.
-/
set_option autoImplicit false

namespace Ip
open Spec

theorem image_of_bind {α β γ : Type} (f : β → γ) (r : Res α) (g : α → Res β) :
    (r >>= g).image f = r >>= fun a => (g a).image f := by cases r <;> rfl
theorem bind_of_image {α β γ : Type} (e : α → β) (r : Res α) (g : β → Res γ) :
    (r.image e >>= g) = r >>= fun a => g (e a) := by cases r <;> rfl
theorem image_at_ok {α β : Type} (f : α → β) (a : α) : (Res.ok a).image f = .ok (f a) := rfl
theorem image_at_err {α β : Type} (f : α → β) (e : ErrorCode) (v : Nat) : (Res.err e v : Res α).image f = .err e v := rfl
theorem image_at_ub {α β : Type} (f : α → β) : (Res.ub : Res α).image f = .ub := rfl
theorem image_at_ite {α β : Type} (f : α → β) (p : Prop) [Decidable p] (x y : Res α) :
    (if p then x else y).image f = if p then x.image f else y.image f := by split <;> rfl
theorem withValue_image {α β : Type} (f : α → β) (v : Nat) (r : Res α) : withValue v (r.image f) = (withValue v r).image f := by
  cases r <;> rfl

theorem noexcept_bind_image {α β γ : Type} (f : β → γ) (r : Res α) (g : α → Res β) :
    Fam.noexcept (r >>= fun a => (g a).image f) = (Fam.noexcept (r >>= g)).image f := by
  rw [← image_of_bind, image_noexcept]

section maps
variable {A B U : Type} (h : A → B)

/-- The network with other addresses. -/
def mapNet (n : Net A) : Net B := ⟨h n.addr, h n.mask, n.plen⟩
/-- The iterator with another address. -/
def mapAit (x : AIter A U) : AIter B U := ⟨h x.cur, x.off, x.carry⟩
/-- The iterator with another network. -/
def mapNit (x : NIter A U) : NIter B U := ⟨mapNet h x.cur, mapAit h x.it, x.step, x.plen⟩
/-- The sequence with other iterators. -/
def mapHosts (s : HostsSeq A U) : HostsSeq B U := ⟨mapAit h s.first, mapAit h s.last⟩
/-- The sequence with other iterators. -/
def mapSubs (s : SubnetsSeq A U) : SubnetsSeq B U := ⟨mapNit h s.first, mapNit h s.last, s.size⟩
/-- The iterator with other networks. -/
def mapExit (x : ExIter A) : ExIter B := ⟨mapNet h x.other, mapNet h x.s1, mapNet h x.s2, mapNet h x.cur⟩
/-- The sequence with other iterators. -/
def mapExs (s : ExSeq A) : ExSeq B := ⟨mapExit h s.first, mapExit h s.last⟩
/-- The object with other addresses. -/
def mapObj : Obj A U → Obj B U
  | .addr a => .addr (h a)
  | .net n => .net (mapNet h n)
  | .ait x => .ait (mapAit h x)
  | .rait x => .rait ⟨mapAit h x.it⟩
  | .nit x => .nit (mapNit h x)
  | .rnit x => .rnit ⟨mapNit h x.it⟩
  | .hosts s => .hosts (mapHosts h s)
  | .subs s => .subs (mapSubs h s)
  | .exit x => .exit (mapExit h x)
  | .exs s => .exs (mapExs h s)
end maps

/-- The primitive functions of one kind of addresses do what those of the other do. -/
structure FamHom {A B U : Type} (F : Fam A U) (G : Fam B U) (h : A → B) : Prop where
  ops : G.ops = F.ops
  maxPrefix : G.maxPrefix = F.maxPrefix
  maxLen : G.maxLen = F.maxLen
  isV6 : G.isV6 = F.isV6
  bytes : ∀ a, G.bytes (h a) = F.bytes a
  ofBytes : ∀ b, G.ofBytes b = h (F.ofBytes b)
  zero : G.zero = h F.zero
  toUint : ∀ a, G.toUint (h a) = F.toUint a
  fromUint : ∀ u, G.fromUint u = (F.fromUint u).image h
  fromPrefix : ∀ p, G.fromPrefix p = (F.fromPrefix p).image h
  strict : ∀ a m s, G.strict (h a) (h m) s = (F.strict a m s).image h
  eq : ∀ a b, G.eq (h a) (h b) = F.eq a b
  lt : ∀ a b, G.lt (h a) (h b) = F.lt a b
  le : ∀ a b, G.le (h a) (h b) = F.le a b
  cmp : ∀ a b, G.cmp (h a) (h b) = F.cmp a b
  hash : ∀ a, G.hash (h a) = F.hash a
  swap : ∀ a b, G.swap (h a) (h b) = (F.swap a b).image (Prod.map h h)
  removeScope : ∀ a, G.removeScope (h a) = (F.removeScope a).image h
  parseArray : ∀ s, G.parseArray s = (F.parseArray s).image h
  parseNetmask : ∀ evs, G.parseNetmask evs = (F.parseNetmask evs).image (fun m => (h m.1, m.2))
  toText : ∀ f a, G.toText f (h a) = F.toText f a

namespace FamHom
variable {A B U : Type} {F : Fam A U} {G : Fam B U} {h : A → B} (H : FamHom F G h)
include H

theorem defaultNet : G.defaultNet = F.defaultNet.image (mapNet h) := by
  simp only [Fam.defaultNet, H.maxPrefix, H.fromPrefix, H.zero, image_of_bind, bind_of_image, image_at_ok, mapNet]

theorem fromAddress (a : A) (p : Nat) (s : Bool) : G.fromAddress (h a) p s = (F.fromAddress a p s).image (mapNet h) := by
  simp only [Fam.fromAddress, H.fromPrefix, H.strict, image_of_bind, bind_of_image, image_at_ok, mapNet]

theorem contains (n : Net A) (a : A) : G.contains (mapNet h n) (h a) = F.contains n a := by
  simp only [Fam.contains, mapNet, H.bytes]

theorem hostmask (n : Net A) : G.hostmask (mapNet h n) = h (F.hostmask n) := by
  simp only [Fam.hostmask, mapNet, H.bytes, H.ofBytes]

theorem broadcast (n : Net A) : G.broadcast (mapNet h n) = (F.broadcast n).image h := by
  simp only [Fam.broadcast, H.hostmask, H.bytes, H.ofBytes, image_of_bind, image_at_ok]
  simp only [mapNet, H.bytes]

theorem netAddr (n : Net A) : (mapNet h n).addr = h n.addr := rfl
theorem netMask (n : Net A) : (mapNet h n).mask = h n.mask := rfl
theorem netPlen (n : Net A) : (mapNet h n).plen = n.plen := rfl

theorem overlaps (n o : Net A) : G.overlaps (mapNet h n) (mapNet h o) = F.overlaps n o := by
  simp only [Fam.overlaps, H.netAddr, H.contains, H.broadcast, bind_of_image]

theorem isSubnetOf (n o : Net A) : G.isSubnetOf (mapNet h n) (mapNet h o) = F.isSubnetOf n o := by
  simp only [Fam.isSubnetOf, H.netAddr, H.le, H.broadcast, bind_of_image]

theorem netToString (f : Format) (n : Net A) : G.netToString f (mapNet h n) = F.netToString f n := by
  simp only [Fam.netToString, H.netAddr, H.toText, H.netPlen]

theorem netSwap (n m : Net A) : G.netSwap (mapNet h n) (mapNet h m) = (F.netSwap n m).image (Prod.map (mapNet h) (mapNet h)) := by
  simp only [Fam.netSwap, H.netAddr, H.netMask, H.netPlen, H.swap, bind_of_image, image_of_bind, image_at_ok, Prod.map, mapNet]

theorem netHash (n : Net A) : G.netHash (mapNet h n) = F.netHash n := by
  simp only [Fam.netHash, H.netAddr, H.netMask, H.hash]

theorem addressesCount (n : Net A) : G.addressesCount (mapNet h n) = F.addressesCount n := by
  simp only [Fam.addressesCount, H.netAddr, H.broadcast, bind_of_image, H.toUint, H.ops]

theorem supernet (n : Net A) (d : Nat) (q : Option Nat) : G.supernet (mapNet h n) d q = (F.supernet n d q).image (mapNet h) := by
  cases q <;>
  simp only [Fam.supernet, H.netAddr, H.netMask, H.netPlen, H.toUint, H.ops, H.fromUint, bind_of_image, image_of_bind, image_at_ite, image_at_ok,
    image_at_err, H.fromAddress, image_noexcept]

theorem netEq (n m : Net A) : G.netEq (mapNet h n) (mapNet h m) = F.netEq n m := by
  simp only [Fam.netEq, H.netAddr, H.netMask, H.eq]

theorem netCmp (n m : Net A) : G.netCmp (mapNet h n) (mapNet h m) = F.netCmp n m := by
  simp only [Fam.netCmp, H.netAddr, H.netMask, H.cmp]

theorem netLt (n m : Net A) : G.netLt (mapNet h n) (mapNet h m) = F.netLt n m := by
  simp only [Fam.netLt, H.netAddr, H.netMask, H.eq, H.lt]

theorem parseLoop : ∀ (evs : List Ev) (st : Fam.ParseSt), G.parseLoop evs st = F.parseLoop evs st
  | [], st => rfl
  | .bad code sym :: rest, st => rfl
  | .ch c :: rest, st => by
    have k : ∀ c s, G.storeChar c s = F.storeChar c s := by intro c s; simp only [Fam.storeChar, H.maxLen]
    simp only [Fam.parseLoop, k, parseLoop rest]

theorem parseNet (evs : List Ev) (s : Bool) : G.parseNet evs s = (F.parseNet evs s).image (mapNet h) := by
  simp only [Fam.parseNet, H.parseLoop, H.maxLen, H.parseNetmask, H.parseArray, H.strict, withValue_image, bind_of_image, image_of_bind, image_at_ok, mapNet]

theorem removeScopeNet (n : Net A) : G.removeScopeNet (mapNet h n) = (F.removeScopeNet n).image (mapNet h) := by
  simp only [Fam.removeScopeNet, H.isV6, H.netAddr, H.netPlen, H.removeScope, H.fromAddress, bind_of_image, image_of_bind, image_at_ite, image_at_ok]

/-! ### Iterators -/

theorem aiMk (a : A) (c : Int) : G.aiMk (h a) c = (F.aiMk a c).image (mapAit h) := by
  simp only [Fam.aiMk, H.toUint, image_of_bind, image_at_ok, mapAit]

theorem aiUintDiff (x y : AIter A U) : G.aiUintDiff (mapAit h x) (mapAit h y) = F.aiUintDiff x y := by
  simp only [Fam.aiUintDiff, mapAit, H.ops]

theorem aiAt (x : AIter A U) (n : U) : G.aiAt (mapAit h x) n = (F.aiAt x n).image h := by
  simp only [Fam.aiAt, mapAit, H.ops, H.fromUint]

theorem aiAdd (x : AIter A U) (n : U) : G.aiAdd (mapAit h x) n = (F.aiAdd x n).image (mapAit h) := by
  simp only [Fam.aiAdd, H.ops, H.fromUint, bind_of_image, image_of_bind, image_at_ite, image_at_ok]
  rfl

theorem aiSub (x : AIter A U) (n : U) : G.aiSub (mapAit h x) n = (F.aiSub x n).image (mapAit h) := by
  simp only [Fam.aiSub, H.ops, H.fromUint, bind_of_image, image_of_bind, image_at_ite, image_at_ok]
  rfl

theorem aiEq (x y : AIter A U) : G.aiEq (mapAit h x) (mapAit h y) = F.aiEq x y := by
  simp only [Fam.aiEq, mapAit, H.eq]

theorem aiCmp (x y : AIter A U) : G.aiCmp (mapAit h x) (mapAit h y) = F.aiCmp x y := by
  simp only [Fam.aiCmp, mapAit, H.cmp]

theorem aiLt (x y : AIter A U) : G.aiLt (mapAit h x) (mapAit h y) = F.aiLt x y := by
  simp only [Fam.aiLt, mapAit, H.lt]

theorem aiDiff (x y : AIter A U) : G.aiDiff (mapAit h x) (mapAit h y) = F.aiDiff x y := by
  simp only [Fam.aiDiff, mapAit, H.ops]

theorem aiBase (x : AIter A U) : G.aiBase (mapAit h x) = (F.aiBase x).image (mapAit h) := by
  simp only [Fam.aiBase, H.ops, H.fromUint, bind_of_image, image_of_bind, image_at_ok]
  rfl

theorem aiReverse (x : AIter A U) : G.aiReverse (mapAit h x) = (F.aiReverse x).image (mapAit h) := by
  simp only [Fam.aiReverse, H.ops, H.fromUint, bind_of_image, image_of_bind, image_at_ok]
  rfl

theorem aiMove (m : Move U) (x : AIter A U) : G.aiMove m (mapAit h x) = (F.aiMove m x).image (mapAit h) := by
  cases m <;> simp only [Fam.aiMove, Fam.aiInc, Fam.aiDec, Fam.aiAddI, Fam.aiSubI, H.ops, H.aiAdd, H.aiSub]

theorem nitCur (x : NIter A U) : (mapNit h x).cur = mapNet h x.cur := rfl
theorem nitIt (x : NIter A U) : (mapNit h x).it = mapAit h x.it := rfl
theorem nitStep (x : NIter A U) : (mapNit h x).step = x.step := rfl
theorem nitPlen (x : NIter A U) : (mapNit h x).plen = x.plen := rfl
theorem aitCur (x : AIter A U) : (mapAit h x).cur = h x.cur := rfl
theorem aitOff (x : AIter A U) : (mapAit h x).off = x.off := rfl
theorem aitCarry (x : AIter A U) : (mapAit h x).carry = x.carry := rfl

theorem niMk (a : A) (step : U) (p : Nat) (c : Int) : G.niMk (h a) step p c = (F.niMk a step p c).image (mapNit h) := by
  simp only [Fam.niMk, H.fromAddress, H.aiMk, bind_of_image, image_of_bind, image_at_ok, mapNit]

theorem niAt (x : NIter A U) (n : U) : G.niAt (mapNit h x) n = (F.niAt x n).image (mapNet h) := by
  simp only [Fam.niAt, H.ops, H.nitIt, H.nitStep, H.nitPlen, H.aiAdd, H.aitCur, H.fromAddress, bind_of_image, image_of_bind]

theorem niAdd (x : NIter A U) (n : U) : G.niAdd (mapNit h x) n = (F.niAdd x n).image (mapNit h) := by
  simp only [Fam.niAdd, H.ops, H.nitIt, H.nitStep, H.nitPlen, H.aiAdd, H.aitCur, H.fromAddress, bind_of_image, image_of_bind, image_at_ok, mapNit]

theorem niSub (x : NIter A U) (n : U) : G.niSub (mapNit h x) n = (F.niSub x n).image (mapNit h) := by
  simp only [Fam.niSub, H.ops, H.nitIt, H.nitStep, H.nitPlen, H.aiSub, H.aitCur, H.fromAddress, bind_of_image, image_of_bind, image_at_ok, mapNit]

theorem niDiff (x y : NIter A U) : G.niDiff (mapNit h x) (mapNit h y) = F.niDiff x y := by
  simp only [Fam.niDiff, H.nitIt, H.aiDiff]

theorem niUintDiff (x y : NIter A U) : G.niUintDiff (mapNit h x) (mapNit h y) = F.niUintDiff x y := by
  simp only [Fam.niUintDiff, H.nitIt, H.nitStep, H.aiUintDiff, H.ops]

theorem niEq (x y : NIter A U) : G.niEq (mapNit h x) (mapNit h y) = F.niEq x y := by
  simp only [Fam.niEq, H.nitIt, H.nitCur, H.aitCarry, H.netEq]

theorem niCmp (x y : NIter A U) : G.niCmp (mapNit h x) (mapNit h y) = F.niCmp x y := by
  simp only [Fam.niCmp, H.nitIt, H.nitCur, H.aitCarry, H.netCmp]

theorem niLt (x y : NIter A U) : G.niLt (mapNit h x) (mapNit h y) = F.niLt x y := by
  simp only [Fam.niLt, H.nitIt, H.nitCur, H.aitCarry, H.netLt]

theorem niBase (x : NIter A U) : G.niBase (mapNit h x) = (F.niBase x).image (mapNit h) := by
  simp only [Fam.niBase, H.ops, H.nitIt, H.nitStep, H.nitPlen, H.aitOff, H.aitCarry, H.fromUint, H.fromAddress, bind_of_image, image_of_bind, image_at_ok,
    mapNit, mapAit]

theorem niReverse (x : NIter A U) : G.niReverse (mapNit h x) = (F.niReverse x).image (mapNit h) := by
  simp only [Fam.niReverse, H.ops, H.nitIt, H.nitStep, H.nitPlen, H.aitOff, H.aitCarry, H.fromUint, H.fromAddress, bind_of_image, image_of_bind, image_at_ok,
    mapNit, mapAit]

theorem niMove (m : Move U) (x : NIter A U) : G.niMove m (mapNit h x) = (F.niMove m x).image (mapNit h) := by
  cases m <;> simp only [Fam.niMove, Fam.niInc, Fam.niDec, Fam.niAddI, Fam.niSubI, H.ops, H.niAdd, H.niSub, image_noexcept]

/-! ### Sequences -/

theorem hostsMk (a b : A) (p m : Nat) : G.hostsMk (h a) (h b) p m = (F.hostsMk a b p m).image (mapHosts h) := by
  simp only [Fam.hostsMk, H.ops, H.isV6, H.toUint, H.fromUint, H.aiMk, H.lt, bind_of_image, image_of_bind, image_at_ite, image_at_ok, mapHosts]

theorem hosts (n : Net A) : G.hosts (mapNet h n) = (F.hosts n).image (mapHosts h) := by
  simp only [Fam.hosts, H.broadcast, H.netAddr, H.netPlen, H.maxPrefix, H.hostsMk, bind_of_image, image_of_bind]

theorem hostsEmpty (s : HostsSeq A U) : G.hostsEmpty (mapHosts h s) = F.hostsEmpty s := by
  simp only [Fam.hostsEmpty, mapHosts, H.aiEq]

theorem hostsSize (s : HostsSeq A U) : G.hostsSize (mapHosts h s) = F.hostsSize s := by
  simp only [Fam.hostsSize, mapHosts, H.aiUintDiff]

theorem hostsAt (s : HostsSeq A U) (n : U) : G.hostsAt (mapHosts h s) n = (F.hostsAt s n).image h := by
  simp only [Fam.hostsAt, mapHosts, H.aiAdd, H.aitCur, bind_of_image, image_of_bind, image_at_ok]

theorem hostsBack (s : HostsSeq A U) : G.hostsBack (mapHosts h s) = (F.hostsBack s).image h := by
  simp only [Fam.hostsBack, mapHosts, H.ops, H.aiSub, H.aitCur, bind_of_image, image_of_bind, image_at_ok]

theorem subnetsMk1 (a : A) (p : Nat) : G.subnetsMk1 (h a) p = (F.subnetsMk1 a p).image (mapSubs h) := by
  simp only [Fam.subnetsMk1, H.bytes, H.ofBytes, H.ops, H.toUint, H.fromUint, H.niMk, H.lt, bind_of_image, image_of_bind, image_at_ok, mapSubs]

theorem subnetsMk (a b k : A) (d p : Nat) : G.subnetsMk (h a) (h b) (h k) d p = (F.subnetsMk a b k d p).image (mapSubs h) := by
  simp only [Fam.subnetsMk, H.ops, H.toUint, H.fromUint, H.niMk, H.eq, bind_of_image, image_of_bind, image_at_ok, mapSubs]

theorem subnets (n : Net A) (d : Nat) (q : Option Nat) : G.subnets (mapNet h n) d q = (F.subnets n d q).image (mapSubs h) := by
  cases q <;>
  simp only [Fam.subnets, H.netAddr, H.netPlen, H.maxPrefix, H.removeScope, H.subnetsMk1, H.subnetsMk, H.broadcast, H.hostmask,
    image_noexcept, bind_of_image, image_of_bind, noexcept_bind_image, image_at_ite, image_at_err]

theorem subnetsEmpty (s : SubnetsSeq A U) : G.subnetsEmpty (mapSubs h s) = F.subnetsEmpty s := by
  simp only [Fam.subnetsEmpty, mapSubs, H.niEq]

theorem subnetsAt (s : SubnetsSeq A U) (n : U) : G.subnetsAt (mapSubs h s) n = (F.subnetsAt s n).image (mapNet h) := by
  simp only [Fam.subnetsAt, mapSubs, H.niAdd, H.nitCur, bind_of_image, image_of_bind, image_at_ok]

theorem subnetsBack (s : SubnetsSeq A U) : G.subnetsBack (mapSubs h s) = (F.subnetsBack s).image (mapNet h) := by
  simp only [Fam.subnetsBack, mapSubs, H.ops, H.niSub, H.nitCur, bind_of_image, image_of_bind, image_at_ok]

theorem exDefault : G.exDefault = F.exDefault.image (mapExit h) := by
  simp only [Fam.exDefault, H.defaultNet, bind_of_image, image_of_bind, image_at_ok, mapExit]

theorem halves (n : Net A) : G.halves (mapNet h n) = (F.halves n).image (Prod.map (mapNet h) (mapNet h)) := by
  simp only [Fam.halves, H.ops, H.subnets, H.subnetsAt, bind_of_image, image_of_bind, image_at_ok, Prod.map]

theorem exInc (x : ExIter A) : G.exInc (mapExit h x) = (F.exInc x).image (mapExit h) := by
  simp only [Fam.exInc, Fam.subnetOf, mapExit, H.netEq, H.isSubnetOf, H.halves, H.exDefault, bind_of_image, image_of_bind, image_at_ite, image_at_ok, image_at_ub,
    Prod.map]

theorem exMk (n o : Net A) : G.exMk (mapNet h n) (mapNet h o) = (F.exMk n o).image (mapExit h) := by
  have k : ∀ p : Net A × Net A, (⟨mapNet h o, mapNet h p.1, mapNet h p.2, mapNet h n⟩ : ExIter B) = mapExit h ⟨o, p.1, p.2, n⟩ := fun _ => rfl
  simp only [Fam.exMk, H.halves, bind_of_image, image_of_bind, Prod.map, k, H.exInc]

theorem exEq (x y : ExIter A) : G.exEq (mapExit h x) (mapExit h y) = F.exEq x y := by
  simp only [Fam.exEq, mapExit, H.netEq]

theorem exSeqDefault : G.exSeqDefault = F.exSeqDefault.image (mapExs h) := by
  simp only [Fam.exSeqDefault, H.exDefault, bind_of_image, image_of_bind, image_at_ok, mapExs]

theorem exSeqMk (n o : Net A) : G.exSeqMk (mapNet h n) (mapNet h o) = (F.exSeqMk n o).image (mapExs h) := by
  simp only [Fam.exSeqMk, H.exMk, H.exDefault, bind_of_image, image_of_bind, image_at_ok, mapExs]

theorem addressExclude (n o : Net A) : G.addressExclude (mapNet h n) (mapNet h o) = (F.addressExclude n o).image (mapExs h) := by
  simp only [Fam.addressExclude, Fam.subnetOf, H.removeScopeNet, image_noexcept, H.isSubnetOf, H.netEq, H.exSeqDefault, H.exSeqMk, bind_of_image,
    image_of_bind, image_at_ite, image_at_err]

theorem exSeqEmpty (s : ExSeq A) : G.exSeqEmpty (mapExs h s) = F.exSeqEmpty s := by
  simp only [Fam.exSeqEmpty, mapExs, H.exEq]

/-! ### Programs -/

theorem niDefault : G.niDefault = F.niDefault.image (mapNit h) := by
  simp only [Fam.niDefault, H.defaultNet, H.zero, H.ops, bind_of_image, image_of_bind, image_at_ok, mapNit, mapAit]

theorem subnetsDefault : G.subnetsDefault = F.subnetsDefault.image (mapSubs h) := by
  simp only [Fam.subnetsDefault, H.niDefault, H.ops, bind_of_image, image_of_bind, image_at_ok, mapSubs]

omit H in
theorem setCode_image {α β : Type} (f : α → β) (d r : Res α) (code : Code) :
    setCode (d.image f) (r.image f) code = (setCode d r code).image (fun p => (p.1, f p.2)) := by
  cases r with
  | ok a => rfl
  | err e v => cases d <;> rfl
  | ub => rfl

theorem aRMk (x : AIter A U) : G.aiOps.rMk (mapAit h x) = (F.aiOps.rMk x).image (fun r => ⟨mapAit h r.it⟩) := by
  simp only [IterOps.rMk, Fam.aiOps, H.aiReverse, bind_of_image, image_of_bind, image_at_ok]
theorem nRMk (x : NIter A U) : G.niOps.rMk (mapNit h x) = (F.niOps.rMk x).image (fun r => ⟨mapNit h r.it⟩) := by
  simp only [IterOps.rMk, Fam.niOps, H.niReverse, bind_of_image, image_of_bind, image_at_ok]
theorem aRBase (x : AIter A U) : G.aiOps.rBase ⟨mapAit h x⟩ = (F.aiOps.rBase ⟨x⟩).image (mapAit h) := H.aiBase x
theorem nRBase (x : NIter A U) : G.niOps.rBase ⟨mapNit h x⟩ = (F.niOps.rBase ⟨x⟩).image (mapNit h) := H.niBase x
theorem aRAt (x : AIter A U) (n : U) : G.aiOps.rAt ⟨mapAit h x⟩ n = (F.aiOps.rAt ⟨x⟩ n).image h := by
  simp only [IterOps.rAt, Fam.aiOps, H.aiSub, bind_of_image, image_of_bind, image_at_ok, H.aitCur]
theorem nRAt (x : NIter A U) (n : U) : G.niOps.rAt ⟨mapNit h x⟩ n = (F.niOps.rAt ⟨x⟩ n).image (mapNet h) := by
  simp only [IterOps.rAt, Fam.niOps, H.niSub, bind_of_image, image_of_bind, image_at_ok, H.nitCur]

theorem get (st : List (Obj A U)) (i : Nat) : (st.map (mapObj h))[i]? = st[i]?.map (mapObj h) := by simp

set_option hygiene false in
/-- The last step: the calls on both sides. -/
local macro "calls" : tactic => `(tactic| first
  | rfl
  | simp only [Option.map_some, Option.map_none, mapObj, Fam.fromAddressCode, Fam.supernetCode, Fam.subnetsCode, Fam.excludeCode, H.fromAddress, H.supernet,
      H.subnets, H.defaultNet, H.subnetsDefault, setCode_image, H.netAddr, H.netMask, H.hostmask, H.broadcast, H.hosts, H.subnetsMk1, H.aiMk, H.niMk,
      image_noexcept, H.aRMk, H.nRMk, H.aRBase, H.nRBase, H.aRAt, H.nRAt, H.aiMove, H.niMove,
      H.exInc, H.aiAt, H.niAt, H.aiSub, H.niSub, H.hostsBack, H.subnetsBack, H.hostsAt, H.subnetsAt, H.hostsMk, H.subnetsMk, H.addressExclude,
      H.exSeqDefault, H.exMk, H.exSeqMk, H.exDefault, H.niDefault, H.zero, H.ops, H.fromUint, H.parseNet, H.aitCur, H.nitCur, bind_of_image, image_of_bind,
      noexcept_bind_image, image_at_ok, mapObj])

theorem eval (st : List (Obj A U)) (e : Expr U) :
    G.eval (st.map (mapObj h)) e = (F.eval st e).map (Res.image (mapObj h)) := by
  have hg := fun i => H.get st i
  cases e with
  | defNet | defNit | defSubs | defExit | defExs => simp only [Fam.eval]; calls
  | defAit => simp only [Fam.eval, H.zero, H.ops, Option.map_some, image_at_ok, mapObj, mapAit]
  | fromUint u => simp only [Fam.eval]; calls
  | parse evs s => simp only [Fam.eval]; calls
  | hostsMk i j p m =>
    simp only [Fam.eval, hg]
    rcases st[i]? with _ | o <;> [rfl; cases o] <;> first | rfl | skip
    rcases st[j]? with _ | o <;> [rfl; cases o] <;> calls
  | subnetsMk i j k d p =>
    simp only [Fam.eval, hg]
    rcases st[i]? with _ | o <;> [rfl; cases o] <;> first | rfl | skip
    rcases st[j]? with _ | o <;> [rfl; cases o] <;> first | rfl | skip
    rcases st[k]? with _ | o <;> [rfl; cases o] <;> calls
  | exclude i j | excludeCode i j | exitMk i j | exsMk i j =>
    simp only [Fam.eval, hg]
    rcases st[i]? with _ | o <;> [rfl; cases o] <;> first | rfl | skip
    rcases st[j]? with _ | o <;> [rfl; cases o] <;> calls
  | fromAddress i p s | fromAddressCode i p s | supernet i p s | supernetCode i p s | subnets i p s | subnetsCode i p s =>
    simp only [Fam.eval, hg]
    rcases st[i]? with _ | o <;> [rfl; cases o] <;> calls
  | subnetsMk1 i p | aitMk i p | move i p | index i p | elem i p =>
    simp only [Fam.eval, hg]
    rcases st[i]? with _ | o <;> [rfl; cases o] <;> calls
  | nitMk i p s t =>
    simp only [Fam.eval, hg]
    rcases st[i]? with _ | o <;> [rfl; cases o] <;> calls
  | network i | netmask i | hostmask i | broadcast i | hosts i | first i | last i | reverse i | base i | deref i | front i | back i =>
    simp only [Fam.eval, hg]
    rcases st[i]? with _ | o <;> [rfl; cases o] <;> calls

theorem after (st : List (Obj A U)) (r : Option (Res (Obj A U))) (f : Obj A U → List (Obj A U)) (g : Obj B U → List (Obj B U))
    (hf : ∀ o, g (mapObj h o) = (f o).map (mapObj h)) :
    Fam.after (st.map (mapObj h)) (r.map (Res.image (mapObj h))) g = (Fam.after st r f).image (List.map (mapObj h)) := by
  rcases r with _ | r
  · rfl
  · cases r with
    | ok o => exact congrArg Res.ok (hf o)
    | err e v => rfl
    | ub => rfl

theorem exec (st : List (Obj A U)) (s : Stmt U) : G.exec (st.map (mapObj h)) s = (F.exec st s).image (List.map (mapObj h)) := by
  cases s with
  | new e => simp only [Fam.exec, H.eval]; exact H.after st _ _ _ (fun o => by simp)
  | put i e => simp only [Fam.exec, H.eval]; exact H.after st _ _ _ (fun o => by simp)
  | swap i j =>
    simp only [Fam.exec, H.get]
    rcases hi : st[i]? with _ | o
    · rfl
    rcases hj : st[j]? with _ | o'
    · cases o <;> rfl
    cases o <;> cases o' <;> first
      | exact congrArg Res.ok (by simp only [List.map_set]; rfl)
      | simp only [Option.map_some, mapObj, H.netSwap, bind_of_image, image_of_bind, image_at_ok, List.map_set, Prod.map]

theorem run : ∀ (prog : List (Stmt U)) (st : List (Obj A U)), G.run prog (st.map (mapObj h)) = (F.run prog st).image (List.map (mapObj h))
  | [], st => rfl
  | s :: rest, st => by
    simp only [Fam.run, H.exec, bind_of_image, image_of_bind, run rest]

theorem ask (st : List (Obj A U)) (q : Ask U) : G.ask (st.map (mapObj h)) q = F.ask st q := by
  cases q with
  | outcome e =>
    simp only [Fam.ask, H.eval]
    rcases F.eval st e with _ | r
    · rfl
    · simp only [Option.map_some, bind_of_image]
  | text i f | hash i | bytes i | uint i | plen i | count i | size i | empty i =>
    simp only [Fam.ask, H.get]
    rcases st[i]? with _ | o <;> [rfl; cases o] <;> first
      | rfl
      | simp only [Option.map_some, mapObj, H.toText, H.netToString, H.hash, H.netHash, H.bytes, H.toUint, H.addressesCount, H.hostsSize,
          H.hostsEmpty, H.subnetsEmpty, H.exSeqEmpty]
  | eq i j | lt i j | le i j | cmp i j | contains i j | overlaps i j | subnetOf i j | supernetOf i j | uintDiff i j | diff i j =>
    simp only [Fam.ask, H.get]
    rcases st[i]? with _ | o <;> [rfl; cases o] <;> first | rfl | skip
    all_goals
      rcases st[j]? with _ | o' <;> [rfl; cases o'] <;> first
      | rfl
      | simp only [Option.map_some, mapObj, H.eq, H.netEq, H.aiEq, H.niEq, H.exEq, H.lt, H.netLt, H.aiLt, H.niLt, H.le, H.cmp, H.netCmp, H.aiCmp,
          H.niCmp, H.contains, H.overlaps, Fam.subnetOf, Fam.supernetOf, H.isSubnetOf, H.aiUintDiff, H.niUintDiff, H.aiDiff, H.niDiff]

theorem play : ∀ (p : Client U) (st : List (Obj A U)),
    G.play p (st.map (mapObj h)) = (F.play p st).image (fun x => (x.1, x.2.map (mapObj h)))
  | .stop, st => rfl
  | .act s rest, st => by
    simp only [Fam.play, H.exec, bind_of_image, image_of_bind, play rest]
  | .ask q next, st => by
    simp only [Fam.play, H.ask]
    split
    · rfl
    · simp only [play (next _), bind_of_image, image_of_bind, image_at_ok]

end FamHom
end Ip
