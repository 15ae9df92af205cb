import Verif.Spec.Alike
import Verif.Lemmas.Leftover
import Verif.Lemmas.Steps
import Verif.Props.AnyProgram
import Verif.Props.ExcludeCtor
/-
C98: equal objects are interchangeable.  Little endian hosts.
-/
set_option autoImplicit false

namespace Ip
open Spec

theorem norm_contents (f : FStr) : f.norm.contents = f.contents := by
  apply List.ext_getElem?
  intro i
  simp only [FStr.contents, FStr.norm, blank, List.getElem?_take, List.getElem?_mapIdx]
  split
  · next h => cases f.data[i]? <;> simp [h]
  · rfl

theorem fstr_norm_eq (f g : FStr) (hf : f.WF) (hg : g.WF) (hl : f.data.length = g.data.length) (h : f.contents = g.contents) :
    f.norm = g.norm := by
  have e : f.length = g.length := by
    have := congrArg List.length h
    simp only [FStr.contents, List.length_take] at this
    simp only [FStr.WF] at hf hg
    omega
  simp only [FStr.norm, e, FStr.mk.injEq, and_true]
  apply List.ext_getElem?
  intro i
  simp only [blank, List.getElem?_mapIdx]
  by_cases hi : i < g.length
  · have k := congrArg (·[i]?) h
    simp only [FStr.contents, List.getElem?_take, e, hi, if_true] at k
    rw [k]
  · by_cases hj : i < g.data.length
    · rw [List.getElem?_eq_getElem hj, List.getElem?_eq_getElem (by omega)]
      simp [hi]
    · rw [List.getElem?_eq_none (by omega), List.getElem?_eq_none (by omega)]

theorem alike_of_norm (a b : V6) (h : a.norm = b.norm) : Alike a b := by
  have h1 := congrArg V6.bytes h
  have h2 := congrArg (fun a => a.scope.contents) h
  simp only [V6.norm, norm_contents] at h1 h2
  exact ⟨h1, h2⟩

theorem norm_of_alike (M : Nat) (a b : V6) (ha : a.WF M) (hb : b.WF M) (h : Alike a b) : a.norm = b.norm := by
  simp only [V6.norm, h.1, fstr_norm_eq a.scope b.scope ha.2.1 hb.2.1 (ha.2.2.trans hb.2.2.symm) h.2]

theorem alikeNet_of_norm (n m : Net V6) (h : mapNet V6.norm n = mapNet V6.norm m) : AlikeNet n m := by
  simp only [mapNet, Net.mk.injEq] at h
  exact ⟨alike_of_norm _ _ h.1, alike_of_norm _ _ h.2.1, h.2.2⟩

theorem alikeAit_of_norm (x y : AIter V6 U128) (h : mapAit V6.norm x = mapAit V6.norm y) : AlikeAit x y := by
  simp only [mapAit, AIter.mk.injEq] at h
  exact ⟨alike_of_norm _ _ h.1, h.2.1, h.2.2⟩

theorem alikeNit_of_norm (x y : NIter V6 U128) (h : mapNit V6.norm x = mapNit V6.norm y) : AlikeNit x y := by
  simp only [mapNit, NIter.mk.injEq] at h
  exact ⟨alikeNet_of_norm _ _ h.1, alikeAit_of_norm _ _ h.2.1, h.2.2.1, h.2.2.2⟩

theorem alikeExit_of_norm (x y : ExIter V6) (h : mapExit V6.norm x = mapExit V6.norm y) : AlikeExit x y := by
  simp only [mapExit, ExIter.mk.injEq] at h
  exact ⟨alikeNet_of_norm _ _ h.1, alikeNet_of_norm _ _ h.2.1, alikeNet_of_norm _ _ h.2.2.1, alikeNet_of_norm _ _ h.2.2.2⟩

theorem alikeObj_of_norm (o o' : Obj V6 U128) (h : mapObj V6.norm o = mapObj V6.norm o') : AlikeObj o o' := by
  cases o <;> cases o' <;> simp only [mapObj, mapHosts, mapSubs, mapExs, Obj.addr.injEq, Obj.net.injEq, Obj.ait.injEq, Obj.rait.injEq, Obj.nit.injEq,
    Obj.rnit.injEq, Obj.hosts.injEq, Obj.subs.injEq, Obj.exit.injEq, Obj.exs.injEq, RIter.mk.injEq, HostsSeq.mk.injEq, SubnetsSeq.mk.injEq, ExSeq.mk.injEq,
    reduceCtorEq] at h
  · exact alike_of_norm _ _ h
  · exact alikeNet_of_norm _ _ h
  · exact alikeAit_of_norm _ _ h
  · exact alikeAit_of_norm _ _ h
  · exact alikeNit_of_norm _ _ h
  · exact alikeNit_of_norm _ _ h
  · exact ⟨alikeAit_of_norm _ _ h.1, alikeAit_of_norm _ _ h.2⟩
  · exact ⟨alikeNit_of_norm _ _ h.1, alikeNit_of_norm _ _ h.2.1, h.2.2⟩
  · exact alikeExit_of_norm _ _ h
  · exact ⟨alikeExit_of_norm _ _ h.1, alikeExit_of_norm _ _ h.2⟩

theorem alikeAll_of_norm : ∀ (st st' : List (Obj V6 U128)), st.map (mapObj V6.norm) = st'.map (mapObj V6.norm) → List.Forall₂ AlikeObj st st'
  | [], [], _ => .nil
  | o :: st, o' :: st', h => by
    simp only [List.map_cons, List.cons.injEq] at h
    exact .cons (alikeObj_of_norm _ _ h.1) (alikeAll_of_norm st st' h.2)
  | [], _ :: _, h => by simp at h
  | _ :: _, [], h => by simp at h

/-- Stores that differ in leftovers only. -/
theorem play_asIf (c : Cfg) (p : Client U128) (st st' : List (Obj V6 U128)) (h : st.map (mapObj V6.norm) = st'.map (mapObj V6.norm)) :
    AsIf ((fam6 c).play p st) ((fam6 c).play p st') := by
  have k := (normHom c).play p st
  rw [h, (normHom c).play p st'] at k
  rcases h1 : (fam6 c).play p st with x | ⟨e, v⟩ | _ <;> rcases h2 : (fam6 c).play p st' with y | ⟨e', v'⟩ | _ <;> rw [h1, h2] at k <;>
    simp only [Res.image, Res.ok.injEq, Res.err.injEq, Prod.mk.injEq, reduceCtorEq] at k
  · exact ⟨k.1.symm, alikeAll_of_norm _ _ k.2.symm⟩
  · exact ⟨k.1.symm, k.2.symm⟩
  · trivial

/-! ### What `==` says -/

theorem eq6_norm (c : Cfg) (hv : ∀ x y, c.val x = c.val y → x = y) (a b : V6) (ha : a.WF c.M) (hb : b.WF c.M)
    (h : (fam6 c).eq a b = .ok true) : a.norm = b.norm := by
  refine norm_of_alike c.M a b ha hb ?_
  by_contra hn
  by_cases h1 : a.bytes = b.bytes
  · have h2 : a.scope.contents ≠ b.scope.contents := fun e => hn ⟨h1, e⟩
    rw [v6Equals_scope c hv a b ha hb h2] at h
    cases h
  · have h : v6Equals c.val a b = .ok true := h
    unfold v6Equals at h
    rw [if_neg (fun e => h1 ((bytesEq_iff _ _ (ha.1.trans hb.1.symm)).1 e))] at h
    cases h

theorem mask_plen {A U : Type} {F : Fam A U} {WF : A → Prop} (hF : ∀ b, F.bytes (F.ofBytes b) = b) (n m : Net A) (hn : NetOk F WF n) (hm : NetOk F WF m)
    (h : F.bytes n.mask = F.bytes m.mask) : n.plen = m.plen := by
  obtain ⟨x, hx, -, vx⟩ := hn.mask
  obtain ⟨y, hy, -, vy⟩ := hm.mask
  rw [hx, hy, hF, hF] at h
  rw [h, vy] at vx
  have l1 := hn.plen
  have l2 := hm.plen
  have p1 : 2 ^ (F.maxPrefix - n.plen) ≤ 2 ^ F.maxPrefix := Nat.pow_le_pow_right (by omega) (by omega)
  have p2 : 2 ^ (F.maxPrefix - m.plen) ≤ 2 ^ F.maxPrefix := Nat.pow_le_pow_right (by omega) (by omega)
  have k : 2 ^ (F.maxPrefix - n.plen) = 2 ^ (F.maxPrefix - m.plen) := by omega
  have := Nat.pow_right_injective (le_refl 2) k
  omega

theorem if_then_ok {r : Res Bool} {s : Res Bool} (h : (do if ← r then s else .ok false) = Res.ok true) : r = .ok true ∧ s = .ok true := by
  obtain ⟨b, h1, h2⟩ := Res.bind_eq_ok.1 h
  cases b with
  | true => exact ⟨h1, h2⟩
  | false => cases h2

theorem mask6_wf (c : Cfg) (n : Net V6) (hn : NetOk6 c n) : n.mask.WF c.M := by
  obtain ⟨x, hx, lx, -⟩ := hn.mask
  have lx : 8 * x.length = 128 := lx
  rw [hx]
  exact ⟨by show x.length = 16; omega, by simp [fam6, emptyScope, FStr.WF], by simp [fam6, emptyScope]⟩

theorem netEq6_norm (c : Cfg) (hv : ∀ x y, c.val x = c.val y → x = y) (n m : Net V6) (hn : NetOk6 c n) (hm : NetOk6 c m)
    (h : (fam6 c).netEq n m = .ok true) : mapNet V6.norm n = mapNet V6.norm m := by
  obtain ⟨h1, h2⟩ := if_then_ok h
  have k := eq6_norm c hv _ _ (mask6_wf c n hn) (mask6_wf c m hm) h2
  simp only [mapNet, eq6_norm c hv _ _ hn.wf hm.wf h1, k, mask_plen (F := fam6 c) (fun _ => rfl) n m hn hm (alike_of_norm _ _ k).1]

theorem aiEq6_norm (c : Cfg) (hv : ∀ x y, c.val x = c.val y → x = y) (x y : AIter V6 U128)
    (hx : ItOk (fam6 c) (·.WF c.M) U128.val x) (hy : ItOk (fam6 c) (·.WF c.M) U128.val y) (h : (fam6 c).aiEq x y = .ok true) :
    mapAit V6.norm x = mapAit V6.norm y := by
  unfold Fam.aiEq at h
  split at h
  · next hc =>
    have k := eq6_norm c hv _ _ hx.wf hy.wf h
    have e : x.off = y.off := by
      apply U128.val_inj
      rw [hx.off, hy.off]
      exact congrArg beValue (alike_of_norm _ _ k).1
    simp only [mapAit, k, e, hc]
  · cases h

theorem some_do_bool {r : Res Bool} {U : Type} (h : some (do let b ← r; Res.ok (Answer.bool (U := U) b)) = some (.ok (.bool true))) : r = .ok true := by
  obtain ⟨b, h1, h2⟩ := Res.bind_eq_ok.1 (Option.some.inj h)
  simp only [Res.ok.injEq, Answer.bool.injEq] at h2
  rw [h1, h2]

theorem norm_of_alikeNet (M : Nat) (n m : Net V6) (hn : n.addr.WF M) (hm : m.addr.WF M) (kn : n.mask.WF M) (km : m.mask.WF M) (h : AlikeNet n m) :
    mapNet V6.norm n = mapNet V6.norm m := by
  simp only [mapNet, norm_of_alike M _ _ hn hm h.1, norm_of_alike M _ _ kn km h.2.1, h.2.2]

theorem niEq6_norm (c : Cfg) (hv : ∀ x y, c.val x = c.val y → x = y) (x y : NIter V6 U128)
    (hx : NitOk (fam6 c) (·.WF c.M) U128.val true x) (hy : NitOk (fam6 c) (·.WF c.M) U128.val true y) (ex : x.cur.addr = x.it.cur)
    (ey : y.cur.addr = y.it.cur) (hs : x.step = y.step ∧ x.plen = y.plen) (h : (fam6 c).niEq x y = .ok true) :
    mapNit V6.norm x = mapNit V6.norm y := by
  unfold Fam.niEq at h
  split at h
  · next hc =>
    have k := netEq6_norm c hv _ _ hx.net hy.net h
    have ka : x.it.cur.norm = y.it.cur.norm := by rw [← ex, ← ey]; exact congrArg Net.addr k
    have e : x.it.off = y.it.off := by
      apply U128.val_inj
      rw [hx.it.off, hy.it.off]
      exact congrArg beValue (alike_of_norm _ _ ka).1
    simp only [mapNit, mapAit, k, ka, e, hc, hs.1, hs.2]
  · cases h

theorem exEq6_norm (c : Cfg) (hv : ∀ x y, c.val x = c.val y → x = y) (x y : ExIter V6) (hx : ExOk (fam6 c) (·.WF c.M) x)
    (hy : ExOk (fam6 c) (·.WF c.M) y) (hs : AlikeNet x.other y.other ∧ AlikeNet x.s1 y.s1 ∧ AlikeNet x.s2 y.s2)
    (h : (fam6 c).netEq x.cur y.cur = .ok true) : mapExit V6.norm x = mapExit V6.norm y := by
  have k := netEq6_norm c hv _ _ hx.cur hy.cur h
  have e : ∀ n m : Net V6, NetOk6 c n → NetOk6 c m → AlikeNet n m → mapNet V6.norm n = mapNet V6.norm m := fun n m hn hm h =>
    norm_of_alikeNet c.M n m hn.wf hm.wf (mask6_wf c n hn) (mask6_wf c m hm) h
  simp only [mapExit, k, e _ _ hx.other hy.other hs.1, e _ _ hx.s1 hy.s1 hs.2.1, e _ _ hx.s2 hy.s2 hs.2.2]

theorem eqObj6_norm (c : Cfg) (hv : ∀ x y, c.val x = c.val y → x = y) (st : List (Obj V6 U128)) (i j : Nat) (o o' : Obj V6 U128) (hi : st[i]? = some o)
    (hj : st[j]? = some o') (ho : HeldOk (fam6 c) (·.WF c.M) U128.val true o) (ho' : HeldOk (fam6 c) (·.WF c.M) U128.val true o')
    (so : StepsOk (fam6 c) U128.val false o) (so' : StepsOk (fam6 c) U128.val false o') (hk : SameHidden o o')
    (he : (fam6 c).ask st (.eq i j) = some (.ok (.bool true))) : mapObj V6.norm o' = mapObj V6.norm o := by
  simp only [Fam.ask, hi, hj] at he
  cases o <;> cases o' <;> simp only [reduceCtorEq] at he
  · exact congrArg Obj.addr (eq6_norm c hv _ _ ho ho' (some_do_bool he)).symm
  · exact congrArg Obj.net (netEq6_norm c hv _ _ ho ho' (some_do_bool he)).symm
  · exact congrArg Obj.ait (aiEq6_norm c hv _ _ ho ho' (some_do_bool he)).symm
  · exact congrArg (fun x => Obj.rait ⟨x⟩) (aiEq6_norm c hv _ _ ho' ho (some_do_bool he))
  · exact congrArg Obj.nit (niEq6_norm c hv _ _ ho ho' so.1 so'.1 hk (some_do_bool he)).symm
  · exact congrArg (fun x => Obj.rnit ⟨x⟩) (niEq6_norm c hv _ _ ho' ho so'.1 so.1 ⟨hk.1.symm, hk.2.symm⟩ (some_do_bool he))
  · exact congrArg Obj.exit (exEq6_norm c hv _ _ ho ho' hk (some_do_bool he)).symm

theorem set_norm (st : List (Obj V6 U128)) (i : Nat) (o o' : Obj V6 U128) (hi : st[i]? = some o) (e : mapObj V6.norm o' = mapObj V6.norm o) :
    st.map (mapObj V6.norm) = (st.set i o').map (mapObj V6.norm) := by
  rw [List.map_set, e]
  apply List.ext_getElem?
  intro k
  simp only [List.getElem?_set, List.getElem?_map, List.length_map]
  split
  · next hik =>
    subst hik
    rw [hi, if_pos (List.getElem?_eq_some_iff.1 hi).1]
    rfl
  · rfl

/-- C98, every object with `==`: in whatever state a program is, replacing an object by one that `==` says is equal and that
agrees in the members that `==` does not look at makes no difference to anything the program does later: it is told the
same, also about exceptions, and the objects it ends with have the same bytes, scope ids and members.  This holds for all
programs, also those that decide by what they are told.  For addresses, networks and iterators over addresses there are no
such members. -/
theorem C98_replace_partial (c : Cfg) (hc : c.le = true) (hv : ∀ x y, c.val x = c.val y → x = y) (prog : List (Stmt U128)) (addrs : List V6)
    (h : ∀ a ∈ addrs, a.WF c.M) (st : List (Obj V6 U128)) (hr : (fam6 c).run prog (addrs.map .addr) = .ok st) (i j : Nat) (o o' : Obj V6 U128)
    (hi : st[i]? = some o) (hj : st[j]? = some o') (hk : SameHidden o o') (he : (fam6 c).ask st (.eq i j) = some (.ok (.bool true))) (p : Client U128) :
    AsIf ((fam6 c).play p st) ((fam6 c).play p (st.set i o')) := by
  refine play_asIf c p _ _ (set_norm st i o o' hi ?_)
  have ok := run_ok (fam6Law c hc) (progLaw6 c hc) true prog _ (start_ok true addrs h) (fun _ _ _ => rfl) st hr
  have sk := run_steps (fam6Law c hc) (progLaw6 c hc) (by show 128 < _; decide) false prog _ (start_ok true addrs h) (start_steps false addrs)
    (fun h => by cases h) st hr
  exact eqObj6_norm c hv st i j o o' hi hj (ok o (List.mem_of_getElem? hi)) (ok o' (List.mem_of_getElem? hj)) (sk o (List.mem_of_getElem? hi))
    (sk o' (List.mem_of_getElem? hj)) hk he

/-- The step and the prefix length of an iterator of `subnets()` can be told from the network it shows. -/
theorem steps_hidden (c : Cfg) (hv : ∀ x y, c.val x = c.val y → x = y) (x y : NIter V6 U128)
    (hx : NitOk (fam6 c) (·.WF c.M) U128.val true x) (hy : NitOk (fam6 c) (·.WF c.M) U128.val true y) (ex : StepOk (fam6 c) U128.val true x)
    (ey : StepOk (fam6 c) U128.val true y) (h : (fam6 c).niEq x y = .ok true) : x.step = y.step ∧ x.plen = y.plen := by
  unfold Fam.niEq at h
  split at h
  · have k : x.cur.plen = y.cur.plen := (alikeNet_of_norm _ _ (netEq6_norm c hv _ _ hx.net hy.net h)).2.2
    obtain ⟨x1, x2⟩ := ex.2 rfl
    obtain ⟨y1, y2⟩ := ey.2 rfl
    rw [x1, y1] at k
    refine ⟨U128.val_inj ?_, k⟩
    rw [x2, y2, k]
  · cases h

/-- C98, iterators of `subnets()`: if a program has its iterators over networks from `subnets()`, everything with `==` but the
iterators over excluded networks is interchangeable without a condition. -/
theorem C98_subnets_partial (c : Cfg) (hc : c.le = true) (hv : ∀ x y, c.val x = c.val y → x = y) (prog : List (Stmt U128))
    (hp : ∀ s ∈ prog, stmtFromSubnets s = true) (addrs : List V6) (h : ∀ a ∈ addrs, a.WF c.M) (st : List (Obj V6 U128))
    (hr : (fam6 c).run prog (addrs.map .addr) = .ok st) (i j : Nat) (o' : Obj V6 U128) (hj : st[j]? = some o') (hk : steady o' = true)
    (he : (fam6 c).ask st (.eq i j) = some (.ok (.bool true))) (p : Client U128) :
    AsIf ((fam6 c).play p st) ((fam6 c).play p (st.set i o')) := by
  rcases hi : st[i]? with _ | o
  · simp [Fam.ask, hi] at he
  have ok := run_ok (fam6Law c hc) (progLaw6 c hc) true prog _ (start_ok true addrs h) (fun _ _ _ => rfl) st hr
  have sk := run_steps (fam6Law c hc) (progLaw6 c hc) (by show 128 < _; decide) true prog _ (start_ok true addrs h) (start_steps true addrs)
    (fun _ => hp) st hr
  have ho := ok o (List.mem_of_getElem? hi)
  have ho' := ok o' (List.mem_of_getElem? hj)
  have so := sk o (List.mem_of_getElem? hi)
  have so' := sk o' (List.mem_of_getElem? hj)
  refine C98_replace_partial c hc hv prog addrs h st hr i j o o' hi hj ?_ he p
  simp only [Fam.ask, hi, hj] at he
  cases o <;> cases o' <;> simp only [reduceCtorEq] at he <;> first | trivial | (simp [steady] at hk; done) | skip
  · exact steps_hidden c hv _ _ ho ho' so so' (some_do_bool he)
  · have k := steps_hidden c hv _ _ ho' ho so' so (some_do_bool he)
    exact ⟨k.1.symm, k.2.symm⟩

theorem start_norm (c : Cfg) (hv : ∀ x y, c.val x = c.val y → x = y) : ∀ (as bs : List V6), (∀ a ∈ as, a.WF c.M) → (∀ b ∈ bs, b.WF c.M) →
    List.Forall₂ (fun a b => (fam6 c).eq a b = .ok true) as bs →
    (as.map (Obj.addr (U := U128))).map (mapObj V6.norm) = (bs.map Obj.addr).map (mapObj V6.norm)
  | [], [], _, _, _ => rfl
  | a :: as, b :: bs, ha, hb, h => by
    cases h with
    | cons h1 h2 =>
      have k := start_norm c hv as bs (fun x hx => ha x (List.mem_cons_of_mem _ hx)) (fun x hx => hb x (List.mem_cons_of_mem _ hx)) h2
      simp only [List.map_cons, k, mapObj, eq6_norm c hv a b (ha a (List.mem_cons_self ..)) (hb b (List.mem_cons_self ..)) h1]
  | [], _ :: _, _, _, h => by cases h
  | _ :: _, [], _, _, h => by cases h

/-- C98, programs: given equal addresses, a program does the same.  For both byte orders. -/
theorem C98_programs (c : Cfg) (hv : ∀ x y, c.val x = c.val y → x = y) (p : Client U128) (as bs : List V6) (ha : ∀ a ∈ as, a.WF c.M)
    (hb : ∀ b ∈ bs, b.WF c.M) (h : List.Forall₂ (fun a b => (fam6 c).eq a b = .ok true) as bs) :
    AsIf ((fam6 c).play p (as.map .addr)) ((fam6 c).play p (bs.map .addr)) :=
  play_asIf c p _ _ (start_norm c hv as bs ha hb h)

theorem eq4_same (a b : List (BitVec 8)) (ha : a.length = 4) (hb : b.length = 4) (h : (fam4 true).eq a b = .ok true) : a = b :=
  (bytesEq_iff a b (ha.trans hb.symm)).1 (Res.ok.inj h)

theorem netEq4_same (n m : Net (List (BitVec 8))) (hn : NetOk4 n) (hm : NetOk4 m) (h : (fam4 true).netEq n m = .ok true) : n = m := by
  obtain ⟨h1, h2⟩ := if_then_ok h
  obtain ⟨x, hx, lx, -⟩ := hn.mask
  obtain ⟨y, hy, ly, -⟩ := hm.mask
  have lx : 8 * x.length = 32 := lx
  have ly : 8 * y.length = 32 := ly
  have hx : n.mask = x := hx
  have hy : m.mask = y := hy
  have k := eq4_same n.mask m.mask (by rw [hx]; omega) (by rw [hy]; omega) h2
  have e := mask_plen (F := fam4 true) (fun _ => rfl) n m hn hm k
  have f := eq4_same _ _ hn.wf hm.wf h1
  cases n; cases m
  simp only at k e f
  rw [k, e, f]

theorem aiEq4_same (x y : AIter (List (BitVec 8)) (BitVec 32)) (hx : ItOk (fam4 true) WF4 BitVec.toNat x) (hy : ItOk (fam4 true) WF4 BitVec.toNat y)
    (h : (fam4 true).aiEq x y = .ok true) : x = y := by
  unfold Fam.aiEq at h
  split at h
  · next hc =>
    have k := eq4_same _ _ hx.wf hy.wf h
    have e : x.off = y.off := by
      apply BitVec.eq_of_toNat_eq
      rw [hx.off, hy.off, k]
    cases x; cases y
    simp only at k e hc
    rw [k, e, hc]
  · cases h

theorem niEq4_same (x y : NIter (List (BitVec 8)) (BitVec 32)) (hx : NitOk (fam4 true) WF4 BitVec.toNat true x) (hy : NitOk (fam4 true) WF4 BitVec.toNat true y)
    (ex : x.cur.addr = x.it.cur) (ey : y.cur.addr = y.it.cur) (hs : x.step = y.step ∧ x.plen = y.plen) (h : (fam4 true).niEq x y = .ok true) : x = y := by
  unfold Fam.niEq at h
  split at h
  · next hc =>
    have k := netEq4_same _ _ hx.net hy.net h
    have ka : x.it.cur = y.it.cur := by rw [← ex, ← ey, k]
    have e : x.it.off = y.it.off := by
      apply BitVec.eq_of_toNat_eq
      rw [hx.it.off, hy.it.off, ka]
    rcases x with ⟨xc, ⟨xi, xo, xk⟩, xs, xp⟩
    rcases y with ⟨yc, ⟨yi, yo, yk⟩, ys, yp⟩
    simp only at k ka e hc hs
    rw [k, ka, e, hc, hs.1, hs.2]
  · cases h

theorem exEq4_same (x y : ExIter (List (BitVec 8))) (hx : ExOk (fam4 true) WF4 x) (hy : ExOk (fam4 true) WF4 y)
    (hs : x.other = y.other ∧ x.s1 = y.s1 ∧ x.s2 = y.s2) (h : (fam4 true).netEq x.cur y.cur = .ok true) : x = y := by
  have k := netEq4_same _ _ hx.cur hy.cur h
  cases x; cases y
  simp only at k hs
  rw [k, hs.1, hs.2.1, hs.2.2]

/-- C98, IPv4: such objects are the same, so that replacing one by the other changes nothing at all. -/
theorem C98_v4_partial (prog : List (Stmt (BitVec 32))) (addrs : List (List (BitVec 8))) (h : ∀ a ∈ addrs, a.length = 4)
    (st : List (Obj (List (BitVec 8)) (BitVec 32))) (hr : (fam4 true).run prog (addrs.map .addr) = .ok st) (i j : Nat)
    (o o' : Obj (List (BitVec 8)) (BitVec 32)) (hi : st[i]? = some o) (hj : st[j]? = some o') (hk : SameHidden4 o o')
    (he : (fam4 true).ask st (.eq i j) = some (.ok (.bool true))) : o = o' := by
  have ok := run_ok fam4Law progLaw4 true prog _ (start_ok true addrs h) (fun _ _ _ => rfl) st hr
  have sk := run_steps fam4Law progLaw4 (by show 32 < _; decide) false prog _ (start_ok true addrs h) (start_steps false addrs)
    (fun h => by cases h) st hr
  have ho := ok o (List.mem_of_getElem? hi)
  have ho' := ok o' (List.mem_of_getElem? hj)
  have so := sk o (List.mem_of_getElem? hi)
  have so' := sk o' (List.mem_of_getElem? hj)
  simp only [Fam.ask, hi, hj] at he
  cases o <;> cases o' <;> simp only [reduceCtorEq] at he
  · exact congrArg Obj.addr (eq4_same _ _ ho ho' (some_do_bool he))
  · exact congrArg Obj.net (netEq4_same _ _ ho ho' (some_do_bool he))
  · exact congrArg Obj.ait (aiEq4_same _ _ ho ho' (some_do_bool he))
  · next x y => exact congrArg (fun x => Obj.rait ⟨x⟩) (aiEq4_same y.it x.it ho' ho (some_do_bool he)).symm
  · exact congrArg Obj.nit (niEq4_same _ _ ho ho' so.1 so'.1 hk (some_do_bool he))
  · next x y =>
    exact congrArg (fun x => Obj.rnit ⟨x⟩) (niEq4_same y.it x.it ho' ho so'.1 so.1 ⟨hk.1.symm, hk.2.symm⟩ (some_do_bool he)).symm
  · exact congrArg Obj.exit (exEq4_same _ _ ho ho' hk (some_do_bool he))

/-- C98, IPv4, iterators of `subnets()`: the same without a condition. -/
theorem C98_v4_subnets_partial (prog : List (Stmt (BitVec 32))) (hp : ∀ s ∈ prog, stmtFromSubnets s = true) (addrs : List (List (BitVec 8)))
    (h : ∀ a ∈ addrs, a.length = 4) (st : List (Obj (List (BitVec 8)) (BitVec 32))) (hr : (fam4 true).run prog (addrs.map .addr) = .ok st) (i j : Nat)
    (o o' : Obj (List (BitVec 8)) (BitVec 32)) (hi : st[i]? = some o) (hj : st[j]? = some o') (hk : steady o' = true)
    (he : (fam4 true).ask st (.eq i j) = some (.ok (.bool true))) : o = o' := by
  have ok := run_ok fam4Law progLaw4 true prog _ (start_ok true addrs h) (fun _ _ _ => rfl) st hr
  have sk := run_steps fam4Law progLaw4 (by show 32 < _; decide) true prog _ (start_ok true addrs h) (start_steps true addrs)
    (fun _ => hp) st hr
  have ho := ok o (List.mem_of_getElem? hi)
  have ho' := ok o' (List.mem_of_getElem? hj)
  have so := sk o (List.mem_of_getElem? hi)
  have so' := sk o' (List.mem_of_getElem? hj)
  refine C98_v4_partial prog addrs h st hr i j o o' hi hj ?_ he
  have key : ∀ x y : NIter (List (BitVec 8)) (BitVec 32), NitOk (fam4 true) WF4 BitVec.toNat true x → NitOk (fam4 true) WF4 BitVec.toNat true y →
      StepOk (fam4 true) BitVec.toNat true x → StepOk (fam4 true) BitVec.toNat true y → (fam4 true).niEq x y = .ok true →
      x.step = y.step ∧ x.plen = y.plen := by
    intro x y hx hy ex ey h
    unfold Fam.niEq at h
    split at h
    · have k : x.cur.plen = y.cur.plen := congrArg Net.plen (netEq4_same _ _ hx.net hy.net h)
      obtain ⟨x1, x2⟩ := ex.2 rfl
      obtain ⟨y1, y2⟩ := ey.2 rfl
      rw [x1, y1] at k
      refine ⟨BitVec.eq_of_toNat_eq ?_, k⟩
      rw [x2, y2, k]
    · cases h
  simp only [Fam.ask, hi, hj] at he
  cases o <;> cases o' <;> simp only [reduceCtorEq] at he <;> first | trivial | (simp [steady] at hk; done) | skip
  · exact key _ _ ho ho' so so' (some_do_bool he)
  · next x y =>
    have k := key y.it x.it ho' ho so' so (some_do_bool he)
    exact ⟨k.1.symm, k.2.symm⟩

/-! ### Cases -/

/-- `fe80::1%a`, and the same with a character left behind the scope id. -/
def exLeft : V6 := ⟨exScoped.bytes, ⟨exScoped.scope.data.set 5 'z', exScoped.scope.length⟩⟩

theorem exLeft_ok : exLeft.WF exCfg.M := ⟨by decide, by unfold FStr.WF; decide, by decide⟩

/-- A program that compares, prints and hashes, and asks for a network only if two addresses are equal. -/
def exClient : Client U128 :=
  .ask (.hash 0) fun _ => .act (.new (.fromAddress 0 128 true)) (.ask (.text 1 .compressed) fun _ =>
    .ask (.eq 0 0) fun r => if r = some (.ok (.bool true)) then .act (.new (.network 1)) (.ask (.text 2 .full) fun _ => .stop) else .stop)

example : exLeft ≠ exScoped := by decide
example := C98_programs exCfg exCfg_val exClient [exScoped] [exLeft] exScoped_start
  (fun a ha => by rw [List.mem_singleton.1 ha]; exact exLeft_ok) (.cons (by decide +kernel) .nil)

/-- It is told the texts. -/
example : ((fam6 exCfg).play exClient [.addr exLeft]).image (fun x => x.1.drop 1) =
    .ok [some (.ok (.text "fe80::1%a/128".toList)), some (.ok (.bool true)),
      some (.ok (.text "fe80:0000:0000:0000:0000:0000:0000:0001%a".toList))] := by decide +kernel

/-- A program that exchanges a network with scope id and one without, twice, and makes the first network again: the
networks 1 and 4 are equal. -/
def exTwice : List (Stmt U128) :=
  [.new (.fromAddress 0 128 true), .new (.hosts 1), .new .defNet, .swap 1 3, .swap 1 3, .new (.fromAddress 0 128 true)]

theorem exTwice_runs : ∃ st o o', (fam6 exCfg).run exTwice ([exScoped].map .addr) = .ok st ∧ st[1]? = some o ∧ st[4]? = some o' ∧ SameHidden o o' ∧
    steady o' = true ∧ (fam6 exCfg).ask st (.eq 1 4) = some (.ok (.bool true)) := ⟨_, _, _, rfl, rfl, rfl, trivial, rfl, by decide +kernel⟩

example (p : Client U128) : ∃ st o', AsIf ((fam6 exCfg).play p st) ((fam6 exCfg).play p (st.set 1 o')) := by
  obtain ⟨st, o, o', h1, h2, h3, h4, -, h5⟩ := exTwice_runs
  exact ⟨st, o', C98_replace_partial exCfg rfl exCfg_val exTwice [exScoped] exScoped_start st h1 1 4 o o' h2 h3 h4 h5 p⟩

/-- Two ways to the second quarter of `fe80::/64`: by `++` from the first, and from the end by `- 3`, a reverse iterator, and its
`base()`. -/
def exWays : List (Stmt U128) :=
  [.new (.fromAddress 0 64 false), .new (.subnets 1 2 none), .new (.first 2), .new (.move 3 .inc), .new (.last 2), .new (.move 5 (.sub ⟨0, 3⟩)),
    .new (.reverse 6), .new (.base 7)]

example (p : Client U128) : ∃ st o', AsIf ((fam6 exCfg).play p st) ((fam6 exCfg).play p (st.set 4 o')) := by
  obtain ⟨st, o', h1, h2, h3, h4⟩ : ∃ st o', (fam6 exCfg).run exWays ([exPlain64.addr].map .addr) = .ok st ∧ st[8]? = some o' ∧ steady o' = true ∧
    (fam6 exCfg).ask st (.eq 4 8) = some (.ok (.bool true)) := ⟨_, _, rfl, rfl, rfl, by decide +kernel⟩
  exact ⟨st, o', C98_subnets_partial exCfg rfl exCfg_val exWays (by decide) [exPlain64.addr] 
    (fun a ha => by rw [List.mem_singleton.1 ha]; exact ⟨by decide, by unfold FStr.WF; decide, by decide⟩) st h1 4 8 o' h2 h3 h4 p⟩

example : ∃ st o o', (fam4 true).run [.new (.fromAddress 0 24 false), .new (.fromAddress 0 24 false)] ([[10, 1, 2, 3]].map .addr) = .ok st ∧
    st[1]? = some o ∧ st[2]? = some o' ∧ o = o' := by
  obtain ⟨st, o, o', h1, h0, h2, h3, h4⟩ : ∃ st o o', (fam4 true).run [.new (.fromAddress 0 24 false), .new (.fromAddress 0 24 false)] ([[10, 1, 2, 3]].map .addr) =
    .ok st ∧ st[1]? = some o ∧ st[2]? = some o' ∧ SameHidden4 o o' ∧ (fam4 true).ask st (.eq 1 2) = some (.ok (.bool true)) :=
    ⟨_, _, _, rfl, rfl, rfl, by simp only [SameHidden4], by decide +kernel⟩
  exact ⟨st, o, o', h1, h0, h2, C98_v4_partial _ [[10, 1, 2, 3]] (by decide) st h1 1 2 o o' h0 h2 h3 h4⟩

example : ∃ st o o', (fam4 true).run [.new (.fromAddress 0 24 false), .new (.subnets 1 2 none), .new (.first 2), .new (.move 3 .inc), .new (.move 4 .dec)]
    ([[10, 1, 2, 3]].map .addr) = .ok st ∧ st[3]? = some o ∧ st[5]? = some o' ∧ o = o' := by
  obtain ⟨st, o, o', h1, h0, h2, h3, h4⟩ : ∃ st o o', (fam4 true).run [.new (.fromAddress 0 24 false), .new (.subnets 1 2 none), .new (.first 2),
      .new (.move 3 .inc), .new (.move 4 .dec)] ([[10, 1, 2, 3]].map .addr) =
    .ok st ∧ st[3]? = some o ∧ st[5]? = some o' ∧ steady o' = true ∧ (fam4 true).ask st (.eq 3 5) = some (.ok (.bool true)) :=
    ⟨_, _, _, rfl, rfl, rfl, rfl, by decide +kernel⟩
  exact ⟨st, o, o', h1, h0, h2, C98_v4_subnets_partial _ (by decide) [[10, 1, 2, 3]] (by decide) st h1 3 5 o o' h0 h2 h3 h4⟩

/-- C98, the claim fails for iterators over excluded networks: those of `fe80::/64` without its first and without its
second quarter are equal, both show the second half, but after `++` they show different networks. -/
theorem C98_exclusions_violated :
    ∃ st o', (fam6 exCfg).run [.new (.fromAddress 0 64 false), .new (.subnets 1 2 none), .new (.first 2), .new (.deref 3), .new (.move 3 .inc),
        .new (.deref 5), .new (.exclude 1 4), .new (.exclude 1 6), .new (.first 7), .new (.first 8)] [.addr exPlain64.addr] = .ok st ∧ st[10]? = some o' ∧
      (fam6 exCfg).ask st (.eq 9 10) = some (.ok (.bool true)) ∧
      ((fam6 exCfg).play (.act (.put 9 (.move 9 .inc)) (.act (.new (.deref 9)) (.ask (.text 11 .compressed) fun _ => .stop))) st).image Prod.fst =
        .ok [some (.ok (.text "fe80::4000:0:0:0/66".toList))] ∧
      ((fam6 exCfg).play (.act (.put 9 (.move 9 .inc)) (.act (.new (.deref 9)) (.ask (.text 11 .compressed) fun _ => .stop))) (st.set 9 o')).image Prod.fst =
        .ok [some (.ok (.text "fe80::/66".toList))] :=
  ⟨_, _, rfl, rfl, by decide +kernel, by decide +kernel, by decide +kernel⟩

/-- C98, the claim fails for iterators over networks that a program makes itself with different steps: equal, but not after
`++`. -/
theorem C98_steps_violated :
    ∃ st o', (fam6 exCfg).run [.new (.nitMk 0 ⟨0, 1⟩ 128 false), .new (.nitMk 0 ⟨0, 2⟩ 128 false)] [.addr exPlain64.addr] = .ok st ∧ st[2]? = some o' ∧
      (fam6 exCfg).ask st (.eq 1 2) = some (.ok (.bool true)) ∧
      ((fam6 exCfg).play (.act (.put 1 (.move 1 .inc)) (.act (.new (.deref 1)) (.ask (.text 3 .compressed) fun _ => .stop))) st).image Prod.fst ≠
        ((fam6 exCfg).play (.act (.put 1 (.move 1 .inc)) (.act (.new (.deref 1)) (.ask (.text 3 .compressed) fun _ => .stop))) (st.set 1 o')).image Prod.fst :=
  ⟨_, _, rfl, rfl, by decide +kernel, by decide +kernel⟩

end Ip
