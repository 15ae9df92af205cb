import Verif.Lemmas.Leftover
import Verif.Model.AnyAsk
/-
The characters that an exchange leaves behind the end of a scope id: no function of the version agnostic classes sees them.
-/
set_option autoImplicit false

namespace Ip
open Spec

/-- The address without leftovers. -/
def AnyAddr.norm : AnyAddr → AnyAddr
  | .v4 b => .v4 b
  | .v6 a => .v6 a.norm

/-- The network without leftovers. -/
def AnyNet.norm : AnyNet → AnyNet
  | .v4 n => .v4 n
  | .v6 n => .v6 (mapNet V6.norm n)

/-- The iterator without leftovers. -/
def normHost : AnyHostIt → AnyHostIt
  | .v4 x a => .v4 x a.norm
  | .v6 x a => .v6 (mapAit V6.norm x) a.norm

/-- The iterator without leftovers. -/
def normSub : AnyNetIt → AnyNetIt
  | .v4 x n => .v4 x n.norm
  | .v6 x n => .v6 (mapNit V6.norm x) n.norm

/-- The iterator without leftovers. -/
def normEx (x : AnyEx) : AnyEx := ⟨x.other.norm, x.s1.norm, x.s2.norm, x.cur.norm⟩

/-- The sequence without leftovers. -/
def normHosts (s : AnySeq (AIter (List (BitVec 8)) (BitVec 32)) (AIter V6 U128) AnyAddr) :
    AnySeq (AIter (List (BitVec 8)) (BitVec 32)) (AIter V6 U128) AnyAddr := ⟨normHost s.first, normHost s.last⟩

/-- The sequence without leftovers. -/
def normSubs (s : AnySeq (NIter (List (BitVec 8)) (BitVec 32)) (NIter V6 U128) AnyNet) :
    AnySeq (NIter (List (BitVec 8)) (BitVec 32)) (NIter V6 U128) AnyNet := ⟨normSub s.first, normSub s.last⟩

/-- The object without leftovers. -/
def AnyObj.norm : AnyObj → AnyObj
  | .addr a => .addr a.norm
  | .net n => .net n.norm
  | .ait x => .ait (normHost x)
  | .rait x => .rait ⟨normHost x.it⟩
  | .nit x => .nit (normSub x)
  | .rnit x => .rnit ⟨normSub x.it⟩
  | .hosts s => .hosts (normHosts s)
  | .subs s => .subs (normSubs s)
  | .exit x => .exit (normEx x)
  | .exs x y => .exs (normEx x) (normEx y)

section
variable (c : Cfg)

theorem nHosts_mk4 (x : AIter (List (BitVec 8)) (BitVec 32)) : normHost ((anyHostsOps c).mk4 x) = (anyHostsOps c).mk4 x := rfl
theorem nHosts_mk6 (x : AIter V6 U128) : (anyHostsOps c).mk6 (mapAit V6.norm x) = normHost ((anyHostsOps c).mk6 x) := rfl
theorem nSubs_mk4 (x : NIter (List (BitVec 8)) (BitVec 32)) : normSub ((anySubnetsOps c).mk4 x) = (anySubnetsOps c).mk4 x := rfl
theorem nSubs_mk6 (x : NIter V6 U128) : (anySubnetsOps c).mk6 (mapNit V6.norm x) = normSub ((anySubnetsOps c).mk6 x) := rfl

/-! ### Networks -/

theorem nDefault : (anyNetDefault c).image AnyNet.norm = anyNetDefault c := by
  simp only [anyNetDefault, image_of_bind, image_at_ok, AnyNet.norm]

theorem nNetAddress (n : AnyNet) : anyNetAddress n.norm = (anyNetAddress n).norm := by cases n <;> rfl
theorem nNetMask (n : AnyNet) : anyNetMask n.norm = (anyNetMask n).norm := by cases n <;> rfl
theorem nNetPlen (n : AnyNet) : anyNetPlen n.norm = anyNetPlen n := by cases n <;> rfl
theorem nNetVersion (n : AnyNet) : anyNetVersion n.norm = anyNetVersion n := by cases n <;> rfl
theorem nNetHostmask (n : AnyNet) : anyNetHostmask c n.norm = (anyNetHostmask c n).norm := by
  cases n with
  | v4 n => rfl
  | v6 n => simp only [anyNetHostmask, AnyNet.norm, (normHom c).hostmask, AnyAddr.norm]
theorem nNetBroadcast (n : AnyNet) : anyNetBroadcast c n.norm = (anyNetBroadcast c n).image AnyAddr.norm := by
  cases n <;> simp only [anyNetBroadcast, AnyNet.norm, (normHom c).broadcast, bind_of_image, image_of_bind, image_at_ok, AnyAddr.norm]
theorem nNetHash (n : AnyNet) : anyNetHash c n.norm = anyNetHash c n := by
  cases n <;> simp only [anyNetHash, AnyNet.norm, (normHom c).netHash]
theorem nNetCount (n : AnyNet) : anyNetCount c n.norm = anyNetCount c n := by
  cases n <;> simp only [anyNetCount, AnyNet.norm, (normHom c).addressesCount]
theorem nNetText (f : Format) (n : AnyNet) : anyNetToString c f n.norm = anyNetToString c f n := by
  cases n <;> simp only [anyNetToString, AnyNet.norm, (normHom c).netToString]
theorem nNetContains (n : AnyNet) (a : AnyAddr) : anyNetContains c n.norm a.norm = anyNetContains c n a := by
  cases n <;> cases a <;> simp only [anyNetContains, AnyNet.norm, AnyAddr.norm, (normHom c).contains]
theorem nNetOverlaps (n m : AnyNet) : anyNetOverlaps c n.norm m.norm = anyNetOverlaps c n m := by
  cases n <;> cases m <;> simp only [anyNetOverlaps, AnyNet.norm, (normHom c).overlaps]
theorem nNetSubnetOf (n m : AnyNet) : anyNetSubnetOf c n.norm m.norm = anyNetSubnetOf c n m := by
  cases n <;> cases m <;> simp only [anyNetSubnetOf, Fam.subnetOf, AnyNet.norm, (normHom c).isSubnetOf]
theorem nNetSupernetOf (n m : AnyNet) : anyNetSupernetOf c n.norm m.norm = anyNetSupernetOf c n m := by
  cases n <;> cases m <;> simp only [anyNetSupernetOf, Fam.supernetOf, AnyNet.norm, (normHom c).isSubnetOf]
theorem nNetEq (n m : AnyNet) : anyNetEq c n.norm m.norm = anyNetEq c n m := by
  cases n <;> cases m <;> simp only [anyNetEq, AnyNet.norm, (normHom c).netEq]
theorem nNetCmp (n m : AnyNet) : anyNetCmp c n.norm m.norm = anyNetCmp c n m := by
  cases n <;> cases m <;> simp only [anyNetCmp, AnyNet.norm, (normHom c).netCmp]
theorem nNetLt (n m : AnyNet) : anyNetLt c n.norm m.norm = anyNetLt c n m := by
  cases n <;> cases m <;> simp only [anyNetLt, AnyNet.norm, (normHom c).netLt]
theorem nFromAddress (a : AnyAddr) (p : Nat) (s : Bool) : anyNetFromAddress c a.norm p s = (anyNetFromAddress c a p s).image AnyNet.norm := by
  cases a <;> simp only [anyNetFromAddress, AnyAddr.norm, (normHom c).fromAddress, bind_of_image, image_of_bind, image_at_ok, AnyNet.norm]
theorem nSupernet (n : AnyNet) (d : Nat) (q : Option Nat) : anyNetSupernet c n.norm d q = (anyNetSupernet c n d q).image AnyNet.norm := by
  cases n <;> simp only [anyNetSupernet, AnyNet.norm, (normHom c).supernet, bind_of_image, image_of_bind, image_at_ok]
theorem nParse (evs : List Ev) (s : Bool) : (anyNetFromEvents c evs s).image AnyNet.norm = anyNetFromEvents c evs s := by
  unfold anyNetFromEvents
  cases (fam4 c.le).parseNet evs s with
  | ok n => rfl
  | err e v =>
    have k := (normHom c).parseNet evs s
    show ((fam6 c).parseNet evs s >>= fun n => Res.ok (AnyNet.v6 n)).image _ = _
    conv_rhs => rw [k]
    simp only [image_of_bind, bind_of_image, image_at_ok, AnyNet.norm]
  | ub => rfl

/-! ### Addresses -/

theorem nAddrText (f : Format) (a : AnyAddr) : anyToString c.M f a.norm = anyToString c.M f a := by
  cases a with
  | v4 b => rfl
  | v6 a => exact (normHom c).toText f a
theorem nAddrHash (a : AnyAddr) : anyHash c.conv a.norm = anyHash c.conv a := by
  cases a with
  | v4 b => rfl
  | v6 a => exact (normHom c).hash a
theorem nVersion (a : AnyAddr) : anyVersion a.norm = anyVersion a := by cases a <;> rfl
theorem nData (a : AnyAddr) : anyData a.norm = anyData a := by cases a <;> rfl
theorem nUint32 (a : AnyAddr) : anyToUint32 c.le a.norm = anyToUint32 c.le a := by cases a <;> rfl
theorem nUint128 (a : AnyAddr) : anyToUint128 c.le a.norm = anyToUint128 c.le a := by cases a <;> rfl
theorem nPointer (a : AnyAddr) : anyReversePointer c.le c.M a.norm = anyReversePointer c.le c.M a := by cases a <;> rfl
theorem nMapped (a : AnyAddr) : anyMapped a.norm = anyMapped a := by cases a <;> rfl
theorem nSixToFour (a : AnyAddr) : anySixToFour a.norm = anySixToFour a := by cases a <;> rfl
theorem nTeredo (a : AnyAddr) : anyTeredo a.norm = anyTeredo a := by cases a <;> rfl

theorem contents_norm (f : FStr) : f.norm.contents = f.contents := by
  apply List.ext_getElem?
  intro i
  simp only [FStr.contents, FStr.norm, blank, List.getElem?_take, List.getElem?_mapIdx]
  split
  · next h => cases f.data[i]? <;> simp [h]
  · rfl

theorem scopeValueLoop_norm (s : FStr) : ∀ (n i : Nat) (v : BitVec 32), scopeValueLoop s.norm n i v = scopeValueLoop s n i v
  | 0, _, _ => rfl
  | n + 1, i, v => by
    simp only [scopeValueLoop, show s.norm.length = s.length from rfl]
    split
    · next h =>
      rw [show rd s.norm.data i = rd s.data i from rd_blank _ _ _ h]
      simp only [scopeValueLoop_norm s n (i + 1)]
    · rfl

theorem nScope (a : AnyAddr) : (anyGetScope c.M a.norm).contents = (anyGetScope c.M a).contents := by
  cases a with
  | v4 b => rfl
  | v6 a => exact contents_norm a.scope
theorem nScopeValue (a : AnyAddr) : scopeValue (anyGetScope c.M a.norm) = scopeValue (anyGetScope c.M a) := by
  cases a with
  | v4 b => rfl
  | v6 a =>
    show scopeValue a.scope.norm = scopeValue a.scope
    unfold scopeValue
    simp only [show a.scope.norm.length = a.scope.length from rfl, scopeValueLoop_norm]

theorem nAddrEq (a b : AnyAddr) : anyEquals c.val a.norm b.norm = anyEquals c.val a b := by
  cases a <;> cases b <;> first | rfl | exact (normHom c).eq _ _
theorem nAddrCmp (a b : AnyAddr) : anyCompare c.val a.norm b.norm = anyCompare c.val a b := by
  cases a <;> cases b <;> first | rfl | exact (normHom c).cmp _ _
theorem nAddrLt (a b : AnyAddr) : anyLess c.val a.norm b.norm = anyLess c.val a b := by
  cases a <;> cases b <;> first | rfl | simp only [anyLess, AnyAddr.norm, v6Less, V6.norm, compare_norm]
theorem nSetScope (a : AnyAddr) (size : Nat) (evs : List Ev) :
    anySetScope c.spaces c.M a.norm size evs = (anySetScope c.spaces c.M a size evs).image fun r => (r.1.norm, r.2) := by
  cases a with
  | v4 b => rfl
  | v6 a => simp only [anySetScope, AnyAddr.norm, setScope_norm, bind_of_image, image_of_bind, image_at_ok]
theorem nRead (evs : List Ev) : (anyFromEvents c.spaces c.M evs).image AnyAddr.norm = anyFromEvents c.spaces c.M evs := by
  unfold anyFromEvents
  cases v4FromEvents evs with
  | ok n => rfl
  | err e v =>
    show (v6FromEvents c.spaces c.M evs >>= fun n => Res.ok (AnyAddr.v6 n)).image _ = v6FromEvents c.spaces c.M evs >>= _
    conv_rhs => rw [← fromEvents_norm]
    simp only [image_of_bind, bind_of_image, image_at_ok, AnyAddr.norm]
  | ub => rfl

theorem textContains_norm (t : List Char) (a : V6) : (fam6 c).textContains t a.norm = (fam6 c).textContains t a := by
  simp only [Fam.textContains, Fam.contains]
  rfl
theorem tableContains_norm (a : V6) : ∀ ts : List (List Char), (fam6 c).tableContains ts a.norm = (fam6 c).tableContains ts a
  | [] => rfl
  | t :: ts => by simp only [Fam.tableContains, textContains_norm, tableContains_norm a ts]
theorem tableContainsBoth_norm (a b : V6) : ∀ ts : List (List Char), (fam6 c).tableContainsBoth ts a.norm b.norm = (fam6 c).tableContainsBoth ts a b
  | [] => rfl
  | t :: ts => by simp only [Fam.tableContainsBoth, Fam.textContainsBoth, textContains_norm, tableContainsBoth_norm a b ts]
theorem bothEnds_norm (p : V6 → Res Bool) (hp : ∀ a, p a.norm = p a) (n : Net V6) : (fam6 c).bothEnds p (mapNet V6.norm n) = (fam6 c).bothEnds p n := by
  simp only [Fam.bothEnds, (normHom c).broadcast, (normHom c).netAddr, bind_of_image, hp]

theorem v6Is_norm (a : V6) : v6IsPrivate c a.norm = v6IsPrivate c a ∧ v6IsMulticast c a.norm = v6IsMulticast c a ∧
    v6IsReserved c a.norm = v6IsReserved c a ∧ v6IsLoopback a.norm = v6IsLoopback a ∧ v6IsLinkLocal c a.norm = v6IsLinkLocal c a ∧
    v6IsSiteLocal c a.norm = v6IsSiteLocal c a := by
  refine ⟨?_, textContains_norm c _ a, tableContains_norm c a _, rfl, textContains_norm c _ a, rfl⟩
  simp only [v6IsPrivate, tableContains_norm]
  rfl

theorem nAddrIs (t : Trait) (a : AnyAddr) : anyAddrIs c t a.norm = anyAddrIs c t a := by
  cases a with
  | v4 b => rfl
  | v6 a =>
    obtain ⟨h1, h2, h3, h4, h5, h6⟩ := v6Is_norm c a
    cases t with
    | multicast => exact h2
    | private_ => exact h1
    | global => simp only [anyAddrIs, anyIsGlobal, AnyAddr.norm, v6IsGlobal, h1]
    | reserved => exact h3
    | loopback => exact h4
    | linkLocal => exact h5
    | unspecified => rfl
    | siteLocal => exact h6

theorem nNetIs (t : Trait) (n : AnyNet) : anyNetIs c t n.norm = anyNetIs c t n := by
  cases n with
  | v4 b => rfl
  | v6 n =>
    have hp : v6NetIsPrivate c (mapNet V6.norm n) = v6NetIsPrivate c n := by
      simp only [v6NetIsPrivate, (normHom c).broadcast, (normHom c).netAddr, bind_of_image, tableContainsBoth_norm]
    cases t with
    | multicast => exact bothEnds_norm c _ (fun a => (v6Is_norm c a).2.1) n
    | private_ => exact hp
    | global => simp only [anyNetIs, anyNetIsGlobal, AnyNet.norm, v6NetIsGlobal, hp]
    | reserved => exact bothEnds_norm c _ (fun a => (v6Is_norm c a).2.2.1) n
    | loopback => exact bothEnds_norm c _ (fun a => (v6Is_norm c a).2.2.2.1) n
    | linkLocal => exact bothEnds_norm c _ (fun a => (v6Is_norm c a).2.2.2.2.1) n
    | unspecified => exact bothEnds_norm c (fun a => .ok (bytesUnspecified a.bytes)) (fun a => rfl) n
    | siteLocal => exact bothEnds_norm c _ (fun a => (v6Is_norm c a).2.2.2.2.2) n

/-! ### Iterators -/

theorem nHostDeref (x : AnyHostIt) : AnyItOps.deref (normHost x) = (AnyItOps.deref x).norm := by cases x <;> rfl
theorem nSubDeref (x : AnyNetIt) : AnyItOps.deref (normSub x) = (AnyItOps.deref x).norm := by cases x <;> rfl

theorem nHostAdd (x : AnyHostIt) (n : U128) : (anyHostsOps c).add (normHost x) n = ((anyHostsOps c).add x n).image normHost := by
  cases x with
  | v4 x a => show (anyHostsOps c).add (.v4 x a.norm) n = _; simp only [AnyItOps.add, image_of_bind, image_at_ok, nHosts_mk4]
  | v6 x a => simp only [AnyItOps.add, normHost, anyHostsOps, Fam.aiOps, (normHom c).aiAdd, image_of_bind, bind_of_image, image_at_ok]; rfl
theorem nHostSub (x : AnyHostIt) (n : U128) : (anyHostsOps c).sub (normHost x) n = ((anyHostsOps c).sub x n).image normHost := by
  cases x with
  | v4 x a => show (anyHostsOps c).sub (.v4 x a.norm) n = _; simp only [AnyItOps.sub, image_of_bind, image_at_ok, nHosts_mk4]
  | v6 x a => simp only [AnyItOps.sub, normHost, anyHostsOps, Fam.aiOps, (normHom c).aiSub, image_of_bind, bind_of_image, image_at_ok]; rfl
theorem nSubAdd (x : AnyNetIt) (n : U128) : (anySubnetsOps c).add (normSub x) n = ((anySubnetsOps c).add x n).image normSub := by
  cases x with
  | v4 x a => show (anySubnetsOps c).add (.v4 x a.norm) n = _; simp only [AnyItOps.add, image_of_bind, image_at_ok, nSubs_mk4]
  | v6 x a => simp only [AnyItOps.add, normSub, anySubnetsOps, Fam.niOps, (normHom c).niAdd, image_of_bind, bind_of_image, image_at_ok]; rfl
theorem nSubSub (x : AnyNetIt) (n : U128) : (anySubnetsOps c).sub (normSub x) n = ((anySubnetsOps c).sub x n).image normSub := by
  cases x with
  | v4 x a => show (anySubnetsOps c).sub (.v4 x a.norm) n = _; simp only [AnyItOps.sub, image_of_bind, image_at_ok, nSubs_mk4]
  | v6 x a => simp only [AnyItOps.sub, normSub, anySubnetsOps, Fam.niOps, (normHom c).niSub, image_of_bind, bind_of_image, image_at_ok]; rfl

theorem nHostMove (m : Move U128) (x : AnyHostIt) : (anyHostsOps c).move m (normHost x) = ((anyHostsOps c).move m x).image normHost := by
  cases m <;> simp only [AnyItOps.move, AnyItOps.inc, AnyItOps.dec, AnyItOps.addI, AnyItOps.subI, nHostAdd, nHostSub]
theorem nSubMove (m : Move U128) (x : AnyNetIt) : (anySubnetsOps c).move m (normSub x) = ((anySubnetsOps c).move m x).image normSub := by
  cases m <;> simp only [AnyItOps.move, AnyItOps.inc, AnyItOps.dec, AnyItOps.addI, AnyItOps.subI, nSubAdd, nSubSub]

theorem nHostAt (x : AnyHostIt) (n : U128) : (anyHostsOps c).at_ n (normHost x) = ((anyHostsOps c).at_ n x).image AnyAddr.norm := by
  cases x <;> simp only [AnyItOps.at_, normHost, anyHostsOps, (normHom c).aiAt, image_of_bind, bind_of_image, image_at_ok, AnyAddr.norm]
theorem nSubAt (x : AnyNetIt) (n : U128) : (anySubnetsOps c).at_ n (normSub x) = ((anySubnetsOps c).at_ n x).image AnyNet.norm := by
  cases x <;> simp only [AnyItOps.at_, normSub, anySubnetsOps, (normHom c).niAt, image_of_bind, bind_of_image, image_at_ok, AnyNet.norm]

theorem nHostReverse (x : AnyHostIt) : (anyHostsOps c).reverse (normHost x) = ((anyHostsOps c).reverse x).image normHost := by
  cases x with
  | v4 x a => show (anyHostsOps c).reverse (.v4 x a.norm) = _; simp only [AnyItOps.reverse, image_of_bind, image_at_ok, nHosts_mk4]
  | v6 x a => simp only [AnyItOps.reverse, normHost, anyHostsOps, Fam.aiOps, (normHom c).aiReverse, image_of_bind, bind_of_image, image_at_ok]; rfl
theorem nHostBase (x : AnyHostIt) : (anyHostsOps c).base (normHost x) = ((anyHostsOps c).base x).image normHost := by
  cases x with
  | v4 x a => show (anyHostsOps c).base (.v4 x a.norm) = _; simp only [AnyItOps.base, image_of_bind, image_at_ok, nHosts_mk4]
  | v6 x a => simp only [AnyItOps.base, normHost, anyHostsOps, Fam.aiOps, (normHom c).aiBase, image_of_bind, bind_of_image, image_at_ok]; rfl
theorem nSubReverse (x : AnyNetIt) : (anySubnetsOps c).reverse (normSub x) = ((anySubnetsOps c).reverse x).image normSub := by
  cases x with
  | v4 x a => show (anySubnetsOps c).reverse (.v4 x a.norm) = _; simp only [AnyItOps.reverse, image_of_bind, image_at_ok, nSubs_mk4]
  | v6 x a => simp only [AnyItOps.reverse, normSub, anySubnetsOps, Fam.niOps, (normHom c).niReverse, image_of_bind, bind_of_image, image_at_ok]; rfl
theorem nSubBase (x : AnyNetIt) : (anySubnetsOps c).base (normSub x) = ((anySubnetsOps c).base x).image normSub := by
  cases x with
  | v4 x a => show (anySubnetsOps c).base (.v4 x a.norm) = _; simp only [AnyItOps.base, image_of_bind, image_at_ok, nSubs_mk4]
  | v6 x a => simp only [AnyItOps.base, normSub, anySubnetsOps, Fam.niOps, (normHom c).niBase, image_of_bind, bind_of_image, image_at_ok]; rfl

theorem nHostEq (x y : AnyHostIt) : (anyHostsOps c).eq (normHost x) (normHost y) = (anyHostsOps c).eq x y := by
  cases x <;> cases y <;> simp only [AnyItOps.eq, normHost, anyHostsOps, Fam.aiOps, (normHom c).aiEq]
theorem nSubEq (x y : AnyNetIt) : (anySubnetsOps c).eq (normSub x) (normSub y) = (anySubnetsOps c).eq x y := by
  cases x <;> cases y <;> simp only [AnyItOps.eq, normSub, anySubnetsOps, Fam.niOps, (normHom c).niEq]
theorem nHostLt (x y : AnyHostIt) : (anyHostsOps c).lt (normHost x) (normHost y) = (anyHostsOps c).lt x y := by
  cases x <;> cases y <;> simp only [AnyItOps.lt, normHost, anyHostsOps, (normHom c).aiLt]
theorem nSubLt (x y : AnyNetIt) : (anySubnetsOps c).lt (normSub x) (normSub y) = (anySubnetsOps c).lt x y := by
  cases x <;> cases y <;> simp only [AnyItOps.lt, normSub, anySubnetsOps, (normHom c).niLt]
theorem nHostCmp (x y : AnyHostIt) : (anyHostsOps c).cmp (normHost x) (normHost y) = (anyHostsOps c).cmp x y := by
  cases x <;> cases y <;> simp only [AnyItOps.cmp, normHost, anyHostsOps, (normHom c).aiCmp]
theorem nSubCmp (x y : AnyNetIt) : (anySubnetsOps c).cmp (normSub x) (normSub y) = (anySubnetsOps c).cmp x y := by
  cases x <;> cases y <;> simp only [AnyItOps.cmp, normSub, anySubnetsOps, (normHom c).niCmp]
theorem nHostDiff (x y : AnyHostIt) : (anyHostsOps c).diff (normHost x) (normHost y) = (anyHostsOps c).diff x y := by
  cases x <;> cases y <;> simp only [AnyItOps.diff, normHost, anyHostsOps, Fam.aiOps, (normHom c).aiDiff]
theorem nSubDiff (x y : AnyNetIt) : (anySubnetsOps c).diff (normSub x) (normSub y) = (anySubnetsOps c).diff x y := by
  cases x <;> cases y <;> simp only [AnyItOps.diff, normSub, anySubnetsOps, Fam.niOps, (normHom c).niDiff]
theorem nHostUintDiff (x y : AnyHostIt) : (anyHostsOps c).uintDiff (normHost x) (normHost y) = (anyHostsOps c).uintDiff x y := by
  cases x <;> cases y <;> simp only [AnyItOps.uintDiff, normHost, anyHostsOps, (normHom c).aiUintDiff]
theorem nSubUintDiff (x y : AnyNetIt) : (anySubnetsOps c).uintDiff (normSub x) (normSub y) = (anySubnetsOps c).uintDiff x y := by
  cases x <;> cases y <;> simp only [AnyItOps.uintDiff, normSub, anySubnetsOps, (normHom c).niUintDiff]

/-! ### Sequences -/

theorem nHosts (n : AnyNet) : anyNetHosts c n.norm = (anyNetHosts c n).image normHosts := by
  cases n <;> simp only [anyNetHosts, AnyNet.norm, (normHom c).hosts, image_of_bind, bind_of_image, image_at_ok, mapHosts, normHosts, nHosts_mk4, nHosts_mk6]
theorem nSubnets (n : AnyNet) (d : Nat) (q : Option Nat) : anyNetSubnets c n.norm d q = (anyNetSubnets c n d q).image normSubs := by
  cases n <;> simp only [anyNetSubnets, AnyNet.norm, (normHom c).subnets, image_of_bind, bind_of_image, image_at_ok, mapSubs, normSubs, nSubs_mk4, nSubs_mk6]

theorem nSeqAt (s : AnySeq (NIter (List (BitVec 8)) (BitVec 32)) (NIter V6 U128) AnyNet) (n : U128) :
    (anySubnetsOps c).seqAt (normSubs s) n = ((anySubnetsOps c).seqAt s n).image AnyNet.norm := by
  simp only [AnyItOps.seqAt, normSubs, nSubAdd, image_of_bind, bind_of_image, image_at_ok, nSubDeref]
theorem nSeqBack (s : AnySeq (NIter (List (BitVec 8)) (BitVec 32)) (NIter V6 U128) AnyNet) :
    (anySubnetsOps c).seqBack (normSubs s) = ((anySubnetsOps c).seqBack s).image AnyNet.norm := by
  simp only [AnyItOps.seqBack, normSubs, nSubSub, image_of_bind, bind_of_image, image_at_ok, nSubDeref]
theorem nHostsAt (s : AnySeq (AIter (List (BitVec 8)) (BitVec 32)) (AIter V6 U128) AnyAddr) (n : U128) :
    (anyHostsOps c).seqAt (normHosts s) n = ((anyHostsOps c).seqAt s n).image AnyAddr.norm := by
  simp only [AnyItOps.seqAt, normHosts, nHostAdd, image_of_bind, bind_of_image, image_at_ok, nHostDeref]
theorem nHostsBack (s : AnySeq (AIter (List (BitVec 8)) (BitVec 32)) (AIter V6 U128) AnyAddr) :
    (anyHostsOps c).seqBack (normHosts s) = ((anyHostsOps c).seqBack s).image AnyAddr.norm := by
  simp only [AnyItOps.seqBack, normHosts, nHostSub, image_of_bind, bind_of_image, image_at_ok, nHostDeref]

/-! ### Exclusions -/

theorem nExDefault : (anyExDefault c).image normEx = anyExDefault c := by
  unfold anyExDefault
  conv_rhs => rw [← nDefault]
  simp only [image_of_bind, bind_of_image, image_at_ok, normEx]
theorem nHalves (n : AnyNet) : anyHalves c n.norm = (anyHalves c n).image (Prod.map AnyNet.norm AnyNet.norm) := by
  simp only [anyHalves, nSubnets, nSeqAt, image_of_bind, bind_of_image, image_at_ok, Prod.map]
theorem nExInc (x : AnyEx) : anyExInc c (normEx x) = (anyExInc c x).image normEx := by
  simp only [anyExInc, normEx, nNetEq, nNetSubnetOf, nHalves, bind_of_image, image_of_bind, image_at_ite, image_at_ok, image_at_ub, nExDefault, Prod.map]
theorem nExMk (n o : AnyNet) : anyExMk c n.norm o.norm = (anyExMk c n o).image normEx := by
  have k : ∀ p : AnyNet × AnyNet, (⟨o.norm, p.1.norm, p.2.norm, n.norm⟩ : AnyEx) = normEx ⟨o, p.1, p.2, n⟩ := fun _ => rfl
  simp only [anyExMk, nHalves, bind_of_image, image_of_bind, Prod.map, k, nExInc]
theorem nExEq (x y : AnyEx) : anyExEq c (normEx x) (normEx y) = anyExEq c x y := by
  simp only [anyExEq, normEx, nNetEq]
theorem nRemoveScope (n : AnyNet) : anyNetRemoveScope c n.norm = (anyNetRemoveScope c n).image AnyNet.norm := by
  simp only [anyNetRemoveScope, nNetAddress, nNetPlen, nSetScope, nFromAddress, bind_of_image, image_of_bind]
theorem nExclude (n o : AnyNet) : anyNetExclude c n.norm o.norm = (anyNetExclude c n o).image (Prod.map normEx normEx) := by
  have key : (do
      let lhs ← Fam.noexcept (anyNetRemoveScope c n.norm)
      let rhs ← Fam.noexcept (anyNetRemoveScope c o.norm)
      if !(← anyNetSubnetOf c rhs lhs) then Res.err .not_contained_network 0
      else if ← anyNetEq c lhs rhs then do
        let d ← anyExDefault c
        .ok (d, d)
      else Fam.noexcept (do
        let x ← anyExMk c lhs rhs
        let d ← anyExDefault c
        .ok (x, d))) = Res.image (Prod.map normEx normEx) (do
      let lhs ← Fam.noexcept (anyNetRemoveScope c n)
      let rhs ← Fam.noexcept (anyNetRemoveScope c o)
      if !(← anyNetSubnetOf c rhs lhs) then Res.err .not_contained_network 0
      else if ← anyNetEq c lhs rhs then do
        let d ← anyExDefault c
        .ok (d, d)
      else Fam.noexcept (do
        let x ← anyExMk c lhs rhs
        let d ← anyExDefault c
        .ok (x, d))) := by
    have e1 : (do let d ← anyExDefault c; Res.ok (d, d)) = Res.image (Prod.map normEx normEx) (do let d ← anyExDefault c; Res.ok (d, d)) := by
      conv_lhs => rw [← nExDefault]
      simp only [image_of_bind, bind_of_image, image_at_ok, Prod.map]
    have e2 : ∀ l r : AnyNet, (do let x ← anyExMk c l.norm r.norm; let d ← anyExDefault c; Res.ok (x, d)) =
        Res.image (Prod.map normEx normEx) (do let x ← anyExMk c l r; let d ← anyExDefault c; Res.ok (x, d)) := by
      intro l r
      conv_lhs => rw [← nExDefault]
      simp only [nExMk, image_of_bind, bind_of_image, image_at_ok, Prod.map]
    simp only [nRemoveScope, image_noexcept, bind_of_image, nNetSubnetOf, nNetEq, e2]
    conv_lhs => rw [e1]
    simp only [image_of_bind, image_at_ite, image_at_err, image_noexcept]
  cases n with
  | v4 n =>
    cases o with
    | v4 o => exact key
    | v6 o => rfl
  | v6 n =>
    cases o with
    | v4 o => rfl
    | v6 o => exact key

/-! ### Calls with `error_code` -/

theorem nFromAddressCode (a : AnyAddr) (p : Nat) (s : Bool) (code : Code) :
    anyFromAddressCode c a.norm p s code = (anyFromAddressCode c a p s code).image fun r => (r.1, r.2.norm) := by
  cases a <;> simp only [anyFromAddressCode, AnyAddr.norm, onValue_image, image_image, AnyNet.norm, Fam.fromAddressCode, (normHom c).fromAddress]
  conv_lhs => rw [(normHom c).defaultNet]
  simp only [FamHom.setCode_image, image_image]

theorem nSupernetCode (n : AnyNet) (d : Nat) (q : Option Nat) (code : Code) :
    anySupernetCode c n.norm d q code = (anySupernetCode c n d q code).image fun r => (r.1, r.2.norm) := by
  cases n <;> simp only [anySupernetCode, AnyNet.norm, onValue_image, image_image, Fam.supernetCode, (normHom c).supernet]
  conv_lhs => rw [(normHom c).defaultNet]
  simp only [FamHom.setCode_image, image_image]

theorem nSubnetsCode (n : AnyNet) (d : Nat) (q : Option Nat) (code : Code) :
    anySubnetsCode c n.norm d q code = (anySubnetsCode c n d q code).image fun r => (r.1, normSubs r.2) := by
  cases n <;> simp only [anySubnetsCode, AnyNet.norm, onValue_image, image_image, Fam.subnetsCode, (normHom c).subnets, normSubs, nSubs_mk4]
  conv_lhs => rw [(normHom c).subnetsDefault]
  simp only [FamHom.setCode_image, image_image, mapSubs, nSubs_mk6]

theorem nExcludeCode (n o : AnyNet) (code : Code) :
    anyExcludeCode c n.norm o.norm code = (anyExcludeCode c n o code).image fun r => (r.1, Prod.map normEx normEx r.2) := by
  have e1 : (do let d ← anyExDefault c; Res.ok (d, d)) = Res.image (Prod.map normEx normEx) (do let d ← anyExDefault c; Res.ok (d, d)) := by
    conv_lhs => rw [← nExDefault]
    simp only [image_of_bind, bind_of_image, image_at_ok, Prod.map]
  unfold anyExcludeCode
  conv_lhs => rw [e1, nExclude]
  simp only [FamHom.setCode_image]

/-! ### Programs -/

theorem nHostRMk (x : AnyHostIt) : (anyHostsOps c).ops.rMk (normHost x) = ((anyHostsOps c).ops.rMk x).image (fun r => ⟨normHost r.it⟩) := by
  simp only [IterOps.rMk, AnyItOps.ops, nHostReverse, bind_of_image, image_of_bind, image_at_ok]
theorem nSubRMk (x : AnyNetIt) : (anySubnetsOps c).ops.rMk (normSub x) = ((anySubnetsOps c).ops.rMk x).image (fun r => ⟨normSub r.it⟩) := by
  simp only [IterOps.rMk, AnyItOps.ops, nSubReverse, bind_of_image, image_of_bind, image_at_ok]
theorem nHostRBase (x : AnyHostIt) : (anyHostsOps c).ops.rBase ⟨normHost x⟩ = ((anyHostsOps c).ops.rBase ⟨x⟩).image normHost := nHostBase c x
theorem nSubRBase (x : AnyNetIt) : (anySubnetsOps c).ops.rBase ⟨normSub x⟩ = ((anySubnetsOps c).ops.rBase ⟨x⟩).image normSub := nSubBase c x
theorem nHostRAt (x : AnyHostIt) (n : U128) : (anyHostsOps c).ops.rAt ⟨normHost x⟩ n = ((anyHostsOps c).ops.rAt ⟨x⟩ n).image AnyAddr.norm := by
  simp only [IterOps.rAt, AnyItOps.ops, nHostSub, nHostDeref, bind_of_image, image_of_bind, image_at_ok]
theorem nSubRAt (x : AnyNetIt) (n : U128) : (anySubnetsOps c).ops.rAt ⟨normSub x⟩ n = ((anySubnetsOps c).ops.rAt ⟨x⟩ n).image AnyNet.norm := by
  simp only [IterOps.rAt, AnyItOps.ops, nSubSub, nSubDeref, bind_of_image, image_of_bind, image_at_ok]
theorem nHostRDeref (x : AnyHostIt) : (anyHostsOps c).ops.rDeref ⟨normHost x⟩ = ((anyHostsOps c).ops.rDeref ⟨x⟩).norm := nHostDeref x
theorem nSubRDeref (x : AnyNetIt) : (anySubnetsOps c).ops.rDeref ⟨normSub x⟩ = ((anySubnetsOps c).ops.rDeref ⟨x⟩).norm := nSubDeref x
theorem nHostsFront (s : AnySeq (AIter (List (BitVec 8)) (BitVec 32)) (AIter V6 U128) AnyAddr) :
    AnyItOps.seqFront (normHosts s) = (AnyItOps.seqFront s).norm := nHostDeref s.first
theorem nSubsFront (s : AnySeq (NIter (List (BitVec 8)) (BitVec 32)) (NIter V6 U128) AnyNet) :
    AnyItOps.seqFront (normSubs s) = (AnyItOps.seqFront s).norm := nSubDeref s.first

theorem nGet (st : List AnyObj) (i : Nat) : (st.map AnyObj.norm)[i]? = st[i]?.map AnyObj.norm := by simp

/-- The last step: the calls on both sides. -/
local macro "calls" : tactic => `(tactic| first
  | rfl
  | simp only [Option.map_some, Option.map_none, AnyObj.norm, nFromAddress, nFromAddressCode, nNetAddress, nNetMask, nNetHostmask, nNetBroadcast, nSupernet,
      nSupernetCode, nHosts, nSubnets, nSubnetsCode, nExclude, nExcludeCode, nExMk, nHostRMk, nSubRMk, nHostRBase, nSubRBase, nHostMove, nSubMove, nExInc,
      nHostDeref, nSubDeref, nHostRDeref, nSubRDeref, nHostAt, nSubAt, nHostRAt, nSubRAt, nHostsFront, nSubsFront, nHostsBack, nSeqBack, nHostsAt, nSeqAt,
      image_noexcept, bind_of_image, image_of_bind, image_at_ok, Prod.map])

theorem nEval (st : List AnyObj) (e : Expr U128) : anyEval c (st.map AnyObj.norm) e = (anyEval c st e).map (Res.image AnyObj.norm) := by
  have hg := fun i => nGet st i
  cases e with
  | defNet =>
    simp only [anyEval, Option.map_some, image_of_bind, image_at_ok, AnyObj.norm]
    conv_lhs => rw [← nDefault]
    simp only [bind_of_image]
  | defExit =>
    simp only [anyEval, Option.map_some, image_of_bind, image_at_ok, AnyObj.norm]
    conv_lhs => rw [← nExDefault]
    simp only [bind_of_image]
  | defExs =>
    simp only [anyEval, Option.map_some, image_of_bind, image_at_ok, AnyObj.norm]
    conv_lhs => rw [← nExDefault]
    simp only [bind_of_image]
  | defAit => rfl
  | defNit => simp only [anyEval, Option.map_some, image_of_bind, image_at_ok, AnyObj.norm, nSubs_mk4]
  | parse evs s =>
    simp only [anyEval, Option.map_some, image_of_bind, image_at_ok, AnyObj.norm]
    conv_lhs => rw [← nParse]
    simp only [bind_of_image]
  | defSubs | fromUint _ | hostsMk _ _ _ _ | subnetsMk1 _ _ | subnetsMk _ _ _ _ _ | aitMk _ _ | nitMk _ _ _ _ => rfl
  | exclude i j | excludeCode i j | exitMk i j =>
    simp only [anyEval, hg]
    rcases st[i]? with _ | o <;> [rfl; cases o] <;> first | rfl | skip
    rcases st[j]? with _ | o <;> [rfl; cases o] <;> calls
  | exsMk i j =>
    simp only [anyEval, hg]
    rcases st[i]? with _ | o <;> [rfl; cases o] <;> first | rfl | skip
    rcases st[j]? with _ | o <;> [rfl; cases o] <;> first | rfl | skip
    simp only [Option.map_some, AnyObj.norm, nExMk, image_of_bind, bind_of_image, image_at_ok]
    conv_lhs => rw [← nExDefault]
    simp only [bind_of_image]
  | fromAddress i p s | fromAddressCode i p s | supernet i p s | supernetCode i p s | subnets i p s | subnetsCode i p s =>
    simp only [anyEval, hg]
    rcases st[i]? with _ | o <;> [rfl; cases o] <;> calls
  | move i p | index i p | elem i p =>
    simp only [anyEval, hg]
    rcases st[i]? with _ | o <;> [rfl; cases o] <;> calls
  | network i | netmask i | hostmask i | broadcast i | hosts i | first i | last i | reverse i | base i | deref i | front i | back i =>
    simp only [anyEval, hg]
    rcases st[i]? with _ | o <;> [rfl; cases o] <;> calls

theorem nAfter (st : List AnyObj) (r : Option (Res AnyObj)) (f g : AnyObj → List AnyObj) (hf : ∀ o, g o.norm = (f o).map AnyObj.norm) :
    anyAfter (st.map AnyObj.norm) (r.map (Res.image AnyObj.norm)) g = (anyAfter st r f).image (List.map AnyObj.norm) := by
  rcases r with _ | r
  · rfl
  · cases r with
    | ok o => exact congrArg Res.ok (hf o)
    | err e v => rfl
    | ub => rfl

theorem nNetSwap (n m : AnyNet) : anyNetSwap n.norm m.norm = ((anyNetSwap n m).1.norm, (anyNetSwap n m).2.norm) := by
  cases n <;> cases m <;> rfl

theorem nExec (st : List AnyObj) (s : Stmt U128) : anyExec c (st.map AnyObj.norm) s = (anyExec c st s).image (List.map AnyObj.norm) := by
  cases s with
  | new e => simp only [anyExec, nEval]; exact nAfter st _ _ _ (fun o => by simp)
  | put i e => simp only [anyExec, nEval]; exact nAfter st _ _ _ (fun o => by simp)
  | swap i j =>
    simp only [anyExec, nGet]
    rcases hi : st[i]? with _ | o
    · rfl
    rcases hj : st[j]? with _ | o'
    · cases o <;> rfl
    cases o <;> cases o' <;> first
      | rfl
      | exact congrArg Res.ok (by simp only [List.map_set, AnyObj.norm, nNetSwap])

theorem nDo (st : List AnyObj) (d : AnyDeed) : anyDo c (st.map AnyObj.norm) d = (anyDo c st d).image (List.map AnyObj.norm) := by
  cases d with
  | stmt s => exact nExec c st s
  | read evs =>
    simp only [anyDo]
    rw [← nAfter st _ (fun o => st ++ [o]) (fun o => st.map AnyObj.norm ++ [o]) (fun o => by simp)]
    congr 1
    simp only [Option.map_some, image_of_bind, image_at_ok, AnyObj.norm]
    conv_lhs => rw [← nRead]
    simp only [bind_of_image]
  | setScope i size evs =>
    simp only [anyDo, nGet]
    rcases st[i]? with _ | o <;> [rfl; cases o] <;> first
      | rfl
      | simp only [Option.map_some, AnyObj.norm, nSetScope, bind_of_image, image_of_bind, image_at_ok, List.map_set]

theorem nAsk (st : List AnyObj) (q : AnyAsk) : anyAsk c (st.map AnyObj.norm) q = anyAsk c st q := by
  cases q with
  | outcome e =>
    simp only [anyAsk, nEval]
    rcases anyEval c st e with _ | r
    · rfl
    · simp only [Option.map_some, bind_of_image]
  | reading evs => rfl
  | scoping i n evs =>
    simp only [anyAsk, nGet]
    rcases st[i]? with _ | o <;> [rfl; cases o] <;> first
      | rfl
      | simp only [Option.map_some, AnyObj.norm, nSetScope, bind_of_image]
  | is t i =>
    simp only [anyAsk, nGet]
    rcases st[i]? with _ | o <;> [rfl; cases o] <;> first
      | rfl
      | simp only [Option.map_some, AnyObj.norm, nAddrIs, nNetIs]
  | text i f | hash i | version i | bytes i | uint32 i | uint128 i | scope i | scopeNumber i | pointer i | mapped i | sixToFour i | teredo i
  | plen i | count i | size i | empty i =>
    simp only [anyAsk, nGet]
    rcases st[i]? with _ | o <;> [rfl; cases o] <;> first
      | rfl
      | simp only [Option.map_some, AnyObj.norm, nAddrText, nNetText, nAddrHash, nNetHash, nVersion, nNetVersion, nData, nUint32, nUint128, nScope, nScopeValue,
          nPointer, nMapped, nSixToFour, nTeredo, nNetPlen, nNetCount, AnyItOps.seqSize, AnyItOps.seqEmpty, normHosts, normSubs, nHostUintDiff, nSubUintDiff,
          nHostEq, nSubEq, anyExSeqEmpty, nExEq]
  | eq i j | lt i j | cmp i j | contains i j | overlaps i j | subnetOf i j | supernetOf i j | uintDiff i j | diff i j =>
    simp only [anyAsk, nGet]
    rcases st[i]? with _ | o <;> [rfl; cases o] <;> first | rfl | skip
    all_goals
      rcases st[j]? with _ | o' <;> [rfl; cases o'] <;> first
      | rfl
      | simp only [Option.map_some, AnyObj.norm, nAddrEq, nNetEq, nHostEq, nSubEq, nExEq, nAddrLt, nNetLt, nHostLt, nSubLt, nAddrCmp, nNetCmp, nHostCmp,
          nSubCmp, nNetContains, nNetOverlaps, nNetSubnetOf, nNetSupernetOf, nHostUintDiff, nSubUintDiff, nHostDiff, nSubDiff]

theorem nPlay : ∀ (p : AnyClient) (st : List AnyObj),
    anyPlay c p (st.map AnyObj.norm) = (anyPlay c p st).image (fun x => (x.1, x.2.map AnyObj.norm))
  | .stop, st => rfl
  | .act d rest, st => by
    simp only [anyPlay, nDo, bind_of_image, image_of_bind, nPlay rest]
  | .ask q next, st => by
    simp only [anyPlay, nAsk]
    split
    · rfl
    · simp only [nPlay (next _), bind_of_image, image_of_bind, image_at_ok]

end
end Ip
