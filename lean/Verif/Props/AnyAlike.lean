import Verif.Lemmas.AnySteps
import Verif.Props.Alike
import Verif.Props.AnyUndefined
/-
C99: equal objects of the version agnostic classes are interchangeable.  Little endian hosts.
-/
set_option autoImplicit false

namespace Ip
open Spec

theorem alikeAddr_of_norm (a b : AnyAddr) (h : a.norm = b.norm) : AlikeAnyAddr a b := by
  cases a <;> cases b <;> simp only [AnyAddr.norm, AnyAddr.v4.injEq, AnyAddr.v6.injEq, reduceCtorEq] at h
  · exact h
  · exact alike_of_norm _ _ h

theorem alikeAnyNet_of_norm (n m : AnyNet) (h : n.norm = m.norm) : AlikeAnyNet n m := by
  cases n <;> cases m <;> simp only [AnyNet.norm, AnyNet.v4.injEq, AnyNet.v6.injEq, reduceCtorEq] at h
  · exact h
  · exact alikeNet_of_norm _ _ h

theorem alikeHostIt_of_norm (x y : AnyHostIt) (h : normHost x = normHost y) : AlikeAnyHostIt x y := by
  cases x <;> cases y <;> simp only [normHost, AnyIt.v4.injEq, AnyIt.v6.injEq, reduceCtorEq] at h
  · exact ⟨h.1, alikeAddr_of_norm _ _ h.2⟩
  · exact ⟨alikeAit_of_norm _ _ h.1, alikeAddr_of_norm _ _ h.2⟩

theorem alikeNetIt_of_norm (x y : AnyNetIt) (h : normSub x = normSub y) : AlikeAnyNetIt x y := by
  cases x <;> cases y <;> simp only [normSub, AnyIt.v4.injEq, AnyIt.v6.injEq, reduceCtorEq] at h
  · exact ⟨h.1, alikeAnyNet_of_norm _ _ h.2⟩
  · exact ⟨alikeNit_of_norm _ _ h.1, alikeAnyNet_of_norm _ _ h.2⟩

theorem alikeEx_of_norm (x y : AnyEx) (h : normEx x = normEx y) : AlikeAnyEx x y := by
  simp only [normEx, AnyEx.mk.injEq] at h
  exact ⟨alikeAnyNet_of_norm _ _ h.1, alikeAnyNet_of_norm _ _ h.2.1, alikeAnyNet_of_norm _ _ h.2.2.1, alikeAnyNet_of_norm _ _ h.2.2.2⟩

theorem alikeAnyObj_of_norm (o o' : AnyObj) (h : o.norm = o'.norm) : AlikeAnyObj o o' := by
  cases o <;> cases o' <;> simp only [AnyObj.norm, normHosts, normSubs, AnyObj.addr.injEq, AnyObj.net.injEq, AnyObj.ait.injEq, AnyObj.rait.injEq,
    AnyObj.nit.injEq, AnyObj.rnit.injEq, AnyObj.hosts.injEq, AnyObj.subs.injEq, AnyObj.exit.injEq, AnyObj.exs.injEq, RIter.mk.injEq, AnySeq.mk.injEq,
    reduceCtorEq] at h
  · exact alikeAddr_of_norm _ _ h
  · exact alikeAnyNet_of_norm _ _ h
  · exact alikeHostIt_of_norm _ _ h
  · exact alikeHostIt_of_norm _ _ h
  · exact alikeNetIt_of_norm _ _ h
  · exact alikeNetIt_of_norm _ _ h
  · exact ⟨alikeHostIt_of_norm _ _ h.1, alikeHostIt_of_norm _ _ h.2⟩
  · exact ⟨alikeNetIt_of_norm _ _ h.1, alikeNetIt_of_norm _ _ h.2⟩
  · exact alikeEx_of_norm _ _ h
  · exact ⟨alikeEx_of_norm _ _ h.1, alikeEx_of_norm _ _ h.2⟩

theorem alikeAnyAll_of_norm : ∀ (st st' : List AnyObj), st.map AnyObj.norm = st'.map AnyObj.norm → List.Forall₂ AlikeAnyObj st st'
  | [], [], _ => .nil
  | o :: st, o' :: st', h => by
    simp only [List.map_cons, List.cons.injEq] at h
    exact .cons (alikeAnyObj_of_norm _ _ h.1) (alikeAnyAll_of_norm st st' h.2)
  | [], _ :: _, h => by simp at h
  | _ :: _, [], h => by simp at h

/-- Stores that differ in leftovers only. -/
theorem anyPlay_asIf (c : Cfg) (p : AnyClient) (st st' : List AnyObj) (h : st.map AnyObj.norm = st'.map AnyObj.norm) :
    AsIfAny (anyPlay c p st) (anyPlay c p st') := by
  have k := nPlay c p st
  rw [h, nPlay c p st'] at k
  rcases h1 : anyPlay c p st with x | ⟨e, v⟩ | _ <;> rcases h2 : anyPlay c p st' with y | ⟨e', v'⟩ | _ <;> rw [h1, h2] at k <;>
    simp only [Res.image, Res.ok.injEq, Res.err.injEq, Prod.mk.injEq, reduceCtorEq] at k
  · exact ⟨k.1.symm, alikeAnyAll_of_norm _ _ k.2.symm⟩
  · exact ⟨k.1.symm, k.2.symm⟩
  · trivial

theorem some_do_any {r : Res Bool} (h : some (do let b ← r; Res.ok (AnyAnswer.bool b)) = some (.ok (.bool true))) : r = .ok true := by
  obtain ⟨b, h1, h2⟩ := Res.bind_eq_ok.1 (Option.some.inj h)
  simp only [Res.ok.injEq, AnyAnswer.bool.injEq] at h2
  rw [h1, h2]

/-! ### What `==` says -/

theorem AnyHeld.ait {c : Cfg} {x : AnyHostIt} (h : AnyHeld c (.ait x)) :
    (∃ y, x = ha4 y ∧ ItOk (fam4 true) WF4 BitVec.toNat y) ∨ (∃ y, x = ha6 y ∧ ItOk (fam6 c) (·.WF c.M) U128.val y) := by
  rcases h with ⟨p, e, h⟩ | ⟨p, e, -, h⟩ | ⟨x, e, h⟩ | ⟨x, y, e, h⟩
  · cases p <;> cases e
    exact .inl ⟨_, rfl, h⟩
  · cases p <;> cases e
    exact .inr ⟨_, rfl, h⟩
  · cases e
  · cases e

theorem AnyHeld.rait {c : Cfg} {x : RIter AnyHostIt} (h : AnyHeld c (.rait x)) :
    (∃ y, x.it = ha4 y ∧ ItOk (fam4 true) WF4 BitVec.toNat y) ∨ (∃ y, x.it = ha6 y ∧ ItOk (fam6 c) (·.WF c.M) U128.val y) := by
  rcases h with ⟨p, e, h⟩ | ⟨p, e, -, h⟩ | ⟨x, e, h⟩ | ⟨x, y, e, h⟩
  · cases p <;> cases e
    exact .inl ⟨_, rfl, h⟩
  · cases p <;> cases e
    exact .inr ⟨_, rfl, h⟩
  · cases e
  · cases e

theorem AnyHeld.nit {c : Cfg} {x : AnyNetIt} (h : AnyHeld c (.nit x)) :
    (∃ y, x = na4 y ∧ NitOk (fam4 true) WF4 BitVec.toNat true y) ∨ (∃ y, x = na6 y ∧ NitOk (fam6 c) (·.WF c.M) U128.val true y) := by
  rcases h with ⟨p, e, h⟩ | ⟨p, e, -, h⟩ | ⟨x, e, h⟩ | ⟨x, y, e, h⟩
  · cases p <;> cases e
    exact .inl ⟨_, rfl, h⟩
  · cases p <;> cases e
    exact .inr ⟨_, rfl, h⟩
  · cases e
  · cases e

theorem AnyHeld.rnit {c : Cfg} {x : RIter AnyNetIt} (h : AnyHeld c (.rnit x)) :
    (∃ y, x.it = na4 y ∧ NitOk (fam4 true) WF4 BitVec.toNat true y) ∨ (∃ y, x.it = na6 y ∧ NitOk (fam6 c) (·.WF c.M) U128.val true y) := by
  rcases h with ⟨p, e, h⟩ | ⟨p, e, -, h⟩ | ⟨x, e, h⟩ | ⟨x, y, e, h⟩
  · cases p <;> cases e
    exact .inl ⟨_, rfl, h⟩
  · cases p <;> cases e
    exact .inr ⟨_, rfl, h⟩
  · cases e
  · cases e

theorem AnyHeld.exit {c : Cfg} {x : AnyEx} (h : AnyHeld c (.exit x)) : AnyExOk c x := by
  rcases h with ⟨p, e, h⟩ | ⟨p, e, k, h⟩ | ⟨x, e, h⟩ | ⟨x, y, e, h⟩
  · cases p <;> cases e
    exact ⟨h.other, h.s1, h.s2, h.cur⟩
  · cases p <;> cases e
    cases k
  · cases e; exact h
  · cases e

section
variable (c : Cfg) (hv : ∀ x y, c.val x = c.val y → x = y)
include hv

theorem anyEq_norm (a b : AnyAddr) (ha : AddrOkAny c a) (hb : AddrOkAny c b) (h : anyEquals c.val a b = .ok true) : a.norm = b.norm := by
  cases a <;> cases b
  · exact congrArg AnyAddr.v4 (eq4_same _ _ ha hb h)
  · cases h
  · cases h
  · exact congrArg AnyAddr.v6 (eq6_norm c hv _ _ ha hb h)

theorem anyNetEq_norm (hc : c.le = true) (n m : AnyNet) (hn : NetOkAny c n) (hm : NetOkAny c m) (h : anyNetEq c n m = .ok true) : n.norm = m.norm := by
  cases n <;> cases m
  · have h : (fam4 c.le).netEq _ _ = .ok true := h
    rw [hc] at h
    exact congrArg AnyNet.v4 (netEq4_same _ _ hn hm h)
  · cases h
  · cases h
  · exact congrArg AnyNet.v6 (netEq6_norm c hv _ _ hn hm h)

theorem hostEq_norm (hc : c.le = true) (x y : AnyHostIt)
    (hx : (∃ y, x = ha4 y ∧ ItOk (fam4 true) WF4 BitVec.toNat y) ∨ (∃ y, x = ha6 y ∧ ItOk (fam6 c) (·.WF c.M) U128.val y))
    (hy : (∃ z, y = ha4 z ∧ ItOk (fam4 true) WF4 BitVec.toNat z) ∨ (∃ z, y = ha6 z ∧ ItOk (fam6 c) (·.WF c.M) U128.val z))
    (h : (anyHostsOps c).eq x y = .ok true) : normHost x = normHost y := by
  rcases hx with ⟨x, rfl, hx⟩ | ⟨x, rfl, hx⟩ <;> rcases hy with ⟨y, rfl, hy⟩ | ⟨y, rfl, hy⟩
  · have h : (fam4 c.le).aiEq x y = .ok true := h
    rw [hc] at h
    rw [aiEq4_same x y hx hy h]
  · cases h
  · cases h
  · have k := aiEq6_norm c hv x y hx hy h
    have k1 : x.cur.norm = y.cur.norm := congrArg AIter.cur k
    simp only [ha6, normHost, AnyAddr.norm, k, k1]

theorem subEq_norm (hc : c.le = true) (x y : AnyNetIt)
    (hx : (∃ y, x = na4 y ∧ NitOk (fam4 true) WF4 BitVec.toNat true y) ∨ (∃ y, x = na6 y ∧ NitOk (fam6 c) (·.WF c.M) U128.val true y))
    (hy : (∃ z, y = na4 z ∧ NitOk (fam4 true) WF4 BitVec.toNat true z) ∨ (∃ z, y = na6 z ∧ NitOk (fam6 c) (·.WF c.M) U128.val true z))
    (sx : AnyStepOk c false x) (sy : AnyStepOk c false y) (hs : SameStep x y) (h : (anySubnetsOps c).eq x y = .ok true) : normSub x = normSub y := by
  rcases hx with ⟨x, rfl, hx⟩ | ⟨x, rfl, hx⟩ <;> rcases hy with ⟨y, rfl, hy⟩ | ⟨y, rfl, hy⟩
  · have h : (fam4 c.le).niEq x y = .ok true := h
    rw [hc] at h
    rw [niEq4_same x y hx hy sx.1 sy.1 hs h]
  · cases h
  · cases h
  · have k := niEq6_norm c hv x y hx hy sx.1 sy.1 hs h
    have k1 : mapNet V6.norm x.cur = mapNet V6.norm y.cur := congrArg NIter.cur k
    simp only [na6, normSub, AnyNet.norm, k, k1]

theorem exEq_norm (hc : c.le = true) (x y : AnyEx) (hx : AnyExOk c x) (hy : AnyExOk c y)
    (hs : AlikeAnyNet x.other y.other ∧ AlikeAnyNet x.s1 y.s1 ∧ AlikeAnyNet x.s2 y.s2) (h : anyExEq c x y = .ok true) : normEx x = normEx y := by
  have e : ∀ n m : AnyNet, NetOkAny c n → NetOkAny c m → AlikeAnyNet n m → n.norm = m.norm := by
    intro n m hn hm h
    cases n <;> cases m
    · exact congrArg AnyNet.v4 h
    · cases h
    · cases h
    · next n m => exact congrArg AnyNet.v6 (norm_of_alikeNet c.M n m hn.wf hm.wf (mask6_wf c n hn) (mask6_wf c m hm) h)
  simp only [normEx, anyNetEq_norm c hv hc _ _ hx.cur hy.cur h, e _ _ hx.other hy.other hs.1, e _ _ hx.s1 hy.s1 hs.2.1, e _ _ hx.s2 hy.s2 hs.2.2]

end

theorem sameStep_symm {x y : AnyNetIt} (h : SameStep x y) : SameStep y x := by
  cases x <;> cases y <;> first | trivial | exact ⟨h.1.symm, h.2.symm⟩

theorem eqAny_norm (c : Cfg) (hc : c.le = true) (hv : ∀ x y, c.val x = c.val y → x = y) (st : List AnyObj) (i j : Nat) (o o' : AnyObj)
    (hi : st[i]? = some o) (hj : st[j]? = some o') (ho : AnyHeld c o) (ho' : AnyHeld c o') (so : AnySteps c false o) (so' : AnySteps c false o')
    (hk : SameHiddenAny o o') (he : anyAsk c st (.eq i j) = some (.ok (.bool true))) : o'.norm = o.norm := by
  simp only [anyAsk, hi, hj] at he
  cases o <;> cases o' <;> simp only [reduceCtorEq] at he
  · exact congrArg AnyObj.addr (anyEq_norm c hv _ _ ho.addr ho'.addr (some_do_any he)).symm
  · exact congrArg AnyObj.net (anyNetEq_norm c hv hc _ _ ho.net ho'.net (some_do_any he)).symm
  · exact congrArg AnyObj.ait (hostEq_norm c hv hc _ _ ho.ait ho'.ait (some_do_any he)).symm
  · exact congrArg (fun x => AnyObj.rait ⟨x⟩) (hostEq_norm c hv hc _ _ ho'.rait ho.rait (some_do_any he))
  · exact congrArg AnyObj.nit (subEq_norm c hv hc _ _ ho.nit ho'.nit so so' hk (some_do_any he)).symm
  · exact congrArg (fun x => AnyObj.rnit ⟨x⟩) (subEq_norm c hv hc _ _ ho'.rnit ho.rnit so' so (sameStep_symm hk) (some_do_any he))
  · exact congrArg AnyObj.exit (exEq_norm c hv hc _ _ ho.exit ho'.exit hk (some_do_any he)).symm

theorem setAny_norm (st : List AnyObj) (i : Nat) (o o' : AnyObj) (hi : st[i]? = some o) (e : o'.norm = o.norm) :
    st.map AnyObj.norm = (st.set i o').map AnyObj.norm := by
  rw [List.map_set, e]
  apply List.ext_getElem?
  intro k
  simp only [List.getElem?_set, List.getElem?_map, List.length_map]
  split
  · next hik =>
    subst hik
    rw [hi, if_pos (List.getElem?_eq_some_iff.1 hi).1]
    rfl
  · rfl

/-- C99, every object with `==`: a program holds objects of both versions, made by statements, by reading texts and by changing
scope ids.  Replacing one by another that `==` says is equal and that agrees in the members that `==` does not look at makes
no difference to anything the program does later: every function of `ip_address` and `ip_network` tells it the same, it gets
the same errors, and the objects it ends with have the same versions, bytes, scope ids and members. -/
theorem C99_replace_partial (c : Cfg) (hc : c.le = true) (hv : ∀ x y, c.val x = c.val y → x = y) (ds : List AnyDeed) (addrs : List AnyAddr)
    (h : ∀ a ∈ addrs, AddrOkAny c a) (st : List AnyObj) (hr : anyDoAll c ds (addrs.map .addr) = .ok st) (i j : Nat) (o o' : AnyObj)
    (hi : st[i]? = some o) (hj : st[j]? = some o') (hk : SameHiddenAny o o') (he : anyAsk c st (.eq i j) = some (.ok (.bool true))) (p : AnyClient) :
    AsIfAny (anyPlay c p st) (anyPlay c p (st.set i o')) := by
  have ok := anyDoAll_held c hc false ds _ (anyStart c addrs h) (anyStart_steps c false addrs) (fun h => by cases h) st hr
  have k := ok o (List.mem_of_getElem? hi)
  have k' := ok o' (List.mem_of_getElem? hj)
  exact anyPlay_asIf c p _ _ (setAny_norm st i o o' hi (eqAny_norm c hc hv st i j o o' hi hj k.1 k'.1 k.2 k'.2 hk he))

/-- The step and the prefix length of an iterator of `subnets()` can be told from the network it shows. -/
theorem anySteps_hidden (c : Cfg) (hc : c.le = true) (hv : ∀ x y, c.val x = c.val y → x = y) (x y : AnyNetIt)
    (hx : (∃ y, x = na4 y ∧ NitOk (fam4 true) WF4 BitVec.toNat true y) ∨ (∃ y, x = na6 y ∧ NitOk (fam6 c) (·.WF c.M) U128.val true y))
    (hy : (∃ z, y = na4 z ∧ NitOk (fam4 true) WF4 BitVec.toNat true z) ∨ (∃ z, y = na6 z ∧ NitOk (fam6 c) (·.WF c.M) U128.val true z))
    (sx : AnyStepOk c true x) (sy : AnyStepOk c true y) (h : (anySubnetsOps c).eq x y = .ok true) : SameStep x y := by
  rcases hx with ⟨x, rfl, hx⟩ | ⟨x, rfl, hx⟩ <;> rcases hy with ⟨y, rfl, hy⟩ | ⟨y, rfl, hy⟩
  · have h : (fam4 c.le).niEq x y = .ok true := h
    rw [hc] at h
    unfold Fam.niEq at h
    split at h
    · have k : x.cur.plen = y.cur.plen := congrArg Net.plen (netEq4_same _ _ hx.net hy.net h)
      obtain ⟨x1, x2⟩ := sx.2 rfl
      obtain ⟨y1, y2⟩ := sy.2 rfl
      rw [x1, y1] at k
      refine ⟨BitVec.eq_of_toNat_eq ?_, k⟩
      rw [x2, y2, k]
    · cases h
  · trivial
  · trivial
  · exact steps_hidden c hv x y hx hy sx sy h

/-- C99, iterators of `subnets()`: if a program has its iterators over networks from `subnets()`, everything with `==` but the
iterators over excluded networks is interchangeable without a condition. -/
theorem C99_subnets_partial (c : Cfg) (hc : c.le = true) (hv : ∀ x y, c.val x = c.val y → x = y) (ds : List AnyDeed)
    (hd : ∀ d ∈ ds, deedFromSubnets d = true) (addrs : List AnyAddr) (h : ∀ a ∈ addrs, AddrOkAny c a) (st : List AnyObj)
    (hr : anyDoAll c ds (addrs.map .addr) = .ok st) (i j : Nat) (o' : AnyObj) (hj : st[j]? = some o') (hk : steadyAny o' = true)
    (he : anyAsk c st (.eq i j) = some (.ok (.bool true))) (p : AnyClient) : AsIfAny (anyPlay c p st) (anyPlay c p (st.set i o')) := by
  rcases hi : st[i]? with _ | o
  · simp [anyAsk, hi] at he
  have ok := anyDoAll_held c hc true ds _ (anyStart c addrs h) (anyStart_steps c true addrs) (fun _ => hd) st hr
  obtain ⟨ho, so⟩ := ok o (List.mem_of_getElem? hi)
  obtain ⟨ho', so'⟩ := ok o' (List.mem_of_getElem? hj)
  refine C99_replace_partial c hc hv ds addrs h st hr i j o o' hi hj ?_ he p
  simp only [anyAsk, hi, hj] at he
  cases o <;> cases o' <;> simp only [reduceCtorEq] at he <;> first | trivial | (simp [steadyAny] at hk; done) | skip
  · exact anySteps_hidden c hc hv _ _ ho.nit ho'.nit so so' (some_do_any he)
  · exact sameStep_symm (anySteps_hidden c hc hv _ _ ho'.rnit ho.rnit so' so (some_do_any he))

theorem anyStart_norm (c : Cfg) (hv : ∀ x y, c.val x = c.val y → x = y) : ∀ (as bs : List AnyAddr), (∀ a ∈ as, AddrOkAny c a) →
    (∀ b ∈ bs, AddrOkAny c b) → List.Forall₂ (fun a b => anyEquals c.val a b = .ok true) as bs →
    (as.map AnyObj.addr).map AnyObj.norm = (bs.map AnyObj.addr).map AnyObj.norm
  | [], [], _, _, _ => rfl
  | a :: as, b :: bs, ha, hb, h => by
    cases h with
    | cons h1 h2 =>
      have k := anyStart_norm c hv as bs (fun x hx => ha x (List.mem_cons_of_mem _ hx)) (fun x hx => hb x (List.mem_cons_of_mem _ hx)) h2
      simp only [List.map_cons, k, AnyObj.norm, anyEq_norm c hv a b (ha a (List.mem_cons_self ..)) (hb b (List.mem_cons_self ..)) h1]
  | [], _ :: _, _, _, h => by cases h
  | _ :: _, [], _, _, h => by cases h

/-- C99, programs: given equal addresses, of whatever versions, a program does the same.  For both byte orders. -/
theorem C99_programs (c : Cfg) (hv : ∀ x y, c.val x = c.val y → x = y) (p : AnyClient) (as bs : List AnyAddr) (ha : ∀ a ∈ as, AddrOkAny c a)
    (hb : ∀ b ∈ bs, AddrOkAny c b) (h : List.Forall₂ (fun a b => anyEquals c.val a b = .ok true) as bs) :
    AsIfAny (anyPlay c p (as.map .addr)) (anyPlay c p (bs.map .addr)) :=
  anyPlay_asIf c p _ _ (anyStart_norm c hv as bs ha hb h)

/-! ### Cases -/

/-- A program that looks at an address in many ways, changes its scope id, and makes a network only if it is link-local. -/
def exAnyClient : AnyClient :=
  .ask (.text 1 .compressed) fun _ => .ask (.scope 1) fun _ => .ask (.pointer 0) fun _ => .ask (.is .linkLocal 1) fun r =>
    if r = some (.ok (.bool true)) then
      .act (.setScope 1 2 (readChars ['e', '0'])) (.ask (.text 1 .full) fun _ => .act (.stmt (.new (.fromAddress 1 128 true))) (.ask (.contains 2 0) fun _ => .stop))
    else .stop

theorem exMixed_ok : ∀ a ∈ [AnyAddr.v4 [10, 1, 2, 3], .v6 exLeft], AddrOkAny exCfg a := by
  intro a ha
  simp only [List.mem_cons, List.not_mem_nil, or_false] at ha
  rcases ha with rfl | rfl
  · rfl
  · exact exLeft_ok

example := C99_programs exCfg exCfg_val exAnyClient [.v4 [10, 1, 2, 3], .v6 exScoped] [.v4 [10, 1, 2, 3], .v6 exLeft] exBoth_ok exMixed_ok
  (.cons (by decide +kernel) (.cons (by decide +kernel) .nil))

/-- It is told the texts. -/
example : (anyPlay exCfg exAnyClient [.addr (.v4 [10, 1, 2, 3]), .addr (.v6 exLeft)]).image Prod.fst =
    .ok [some (.ok (.text "fe80::1%a".toList)), some (.ok (.text ['a'])), some (.ok (.text "3.2.1.10.in-addr.arpa".toList)), some (.ok (.bool true)),
      some (.ok (.text "fe80:0000:0000:0000:0000:0000:0000:0001%e0".toList)), some (.ok (.bool false))] := by decide +kernel

/-- A program that reads the address that it was given, and one of IPv4, and makes networks of both. -/
def exReads : List AnyDeed :=
  [.read (readChars "fe80::1%a".toList), .read (readChars "10.1.2.3".toList), .stmt (.new (.fromAddress 0 24 false)), .stmt (.new (.fromAddress 3 24 false)),
    .setScope 3 1 (readChars ['x'])]

theorem exReads_runs : ∃ st o o', anyDoAll exCfg exReads ([AnyAddr.v4 [10, 1, 2, 3], .v6 exLeft].map .addr) = .ok st ∧ st[1]? = some o ∧ st[2]? = some o' ∧
    SameHiddenAny o o' ∧ anyAsk exCfg st (.eq 1 2) = some (.ok (.bool true)) ∧ anyAsk exCfg st (.eq 4 5) = some (.ok (.bool true)) :=
  ⟨_, _, _, rfl, rfl, rfl, trivial, by decide +kernel, by decide +kernel⟩

example (p : AnyClient) : ∃ st o', AsIfAny (anyPlay exCfg p st) (anyPlay exCfg p (st.set 1 o')) := by
  obtain ⟨st, o, o', h1, h2, h3, h4, h5, -⟩ := exReads_runs
  exact ⟨st, o', C99_replace_partial exCfg rfl exCfg_val exReads _ exMixed_ok st h1 1 2 o o' h2 h3 h4 h5 p⟩

/-- Two ways to the second quarter of `10.1.2.0/24`. -/
def exAnyWays : List AnyDeed :=
  [.stmt (.new (.fromAddress 0 24 false)), .stmt (.new (.subnets 2 2 none)), .stmt (.new (.first 3)), .stmt (.new (.move 4 .inc)), .stmt (.new (.last 3)),
    .stmt (.new (.move 6 (.sub ⟨0, 3⟩))), .stmt (.new (.reverse 7)), .stmt (.new (.base 8))]

example (p : AnyClient) : ∃ st o', AsIfAny (anyPlay exCfg p st) (anyPlay exCfg p (st.set 5 o')) := by
  obtain ⟨st, o', h1, h2, h3, h4⟩ : ∃ st o', anyDoAll exCfg exAnyWays ([AnyAddr.v4 [10, 1, 2, 3], .v6 exLeft].map .addr) = .ok st ∧ st[9]? = some o' ∧
    steadyAny o' = true ∧ anyAsk exCfg st (.eq 5 9) = some (.ok (.bool true)) := ⟨_, _, rfl, rfl, rfl, by decide +kernel⟩
  exact ⟨st, o', C99_subnets_partial exCfg rfl exCfg_val exAnyWays (by decide) _ exMixed_ok st h1 5 9 o' h2 h3 h4 p⟩

/-- C99, the claim fails for iterators over excluded networks: those of `10.1.2.0/24` without its first and without its
second quarter are equal, both show the second half, but after `++` they show different networks. -/
theorem C99_exclusions_violated :
    ∃ st o', anyDoAll exCfg [.stmt (.new (.fromAddress 0 24 false)), .stmt (.new (.subnets 1 2 none)), .stmt (.new (.elem 2 ⟨0, 0⟩)),
        .stmt (.new (.elem 2 ⟨0, 1⟩)), .stmt (.new (.exclude 1 3)), .stmt (.new (.exclude 1 4)), .stmt (.new (.first 5)), .stmt (.new (.first 6))]
        [.addr (.v4 [10, 1, 2, 3])] = .ok st ∧ st[8]? = some o' ∧ anyAsk exCfg st (.eq 7 8) = some (.ok (.bool true)) ∧
      (anyPlay exCfg (.act (.stmt (.put 7 (.move 7 .inc))) (.act (.stmt (.new (.deref 7))) (.ask (.text 9 .compressed) fun _ => .stop))) st).image Prod.fst =
        .ok [some (.ok (.text "10.1.2.64/26".toList))] ∧
      (anyPlay exCfg (.act (.stmt (.put 7 (.move 7 .inc))) (.act (.stmt (.new (.deref 7))) (.ask (.text 9 .compressed) fun _ => .stop)))
        (st.set 7 o')).image Prod.fst = .ok [some (.ok (.text "10.1.2.0/26".toList))] :=
  ⟨_, _, rfl, rfl, by decide +kernel, by decide +kernel, by decide +kernel⟩

end Ip
