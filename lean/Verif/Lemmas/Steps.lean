import Verif.Lemmas.Program
import Verif.Lemmas.Subnets
import Verif.Spec.Alike
/-
Iterators over networks: the address they show is the one of their address iterator, and those of `subnets()` have the step of
their prefix length.
-/
set_option autoImplicit false

namespace Ip
open Spec

section
variable {A U : Type} {F : Fam A U} {WF : A → Prop} {val : U → Nat}

/-- The network shown is at the address of the address iterator; with `b`, prefix length and step fit. -/
def StepOk (F : Fam A U) (val : U → Nat) (b : Bool) (x : NIter A U) : Prop :=
  x.cur.addr = x.it.cur ∧ (b = true → x.cur.plen = x.plen ∧ val x.step = 2 ^ (F.maxPrefix - x.plen) % 2 ^ F.maxPrefix)

/-- The same for objects. -/
def StepsOk (F : Fam A U) (val : U → Nat) (b : Bool) : Obj A U → Prop
  | .nit x => StepOk F val b x
  | .rnit r => StepOk F val b r.it
  | .subs s => StepOk F val b s.first ∧ StepOk F val b s.last
  | _ => True

theorem fromAddress_same (L : F.Law WF val) (a : A) (ha : WF a) (p : Nat) (n : Net A) (h : F.fromAddress a p true = .ok n) :
    n.addr = a ∧ n.plen = p := by
  by_cases hp : p ≤ F.maxPrefix
  · obtain ⟨b, b1, b2, -⟩ := L.fromPrefix p hp
    obtain ⟨m, h1, h⟩ := Res.bind_eq_ok.1 h
    obtain ⟨r, h2, h⟩ := Res.bind_eq_ok.1 h
    cases h
    rw [b1] at h1
    cases h1
    obtain ⟨x, -, -, k⟩ := L.strict a (F.ofBytes b) true ha (L.wf_ofBytes b b2)
    rw [k] at h2
    split at h2
    · cases h2; exact ⟨rfl, rfl⟩
    · cases h2
  · rw [Fam.fromAddress, L.fromPrefix_ub p (by omega)] at h
    cases h

theorem niMk_steps (L : F.Law WF val) (b : Bool) (a : A) (ha : WF a) (step : U) (p : Nat) (c : Int) (x : NIter A U) (h : F.niMk a step p c = .ok x)
    (hs : b = true → val step = 2 ^ (F.maxPrefix - p) % 2 ^ F.maxPrefix) : StepOk F val b x := by
  obtain ⟨n, h1, h⟩ := Res.bind_eq_ok.1 h
  obtain ⟨i, h2, h⟩ := Res.bind_eq_ok.1 h
  obtain ⟨u, h3, h4⟩ := Res.bind_eq_ok.1 h2
  cases h
  cases h4
  obtain ⟨k1, k2⟩ := fromAddress_same L a ha p n h1
  exact ⟨k1, fun hb => ⟨k2, hs hb⟩⟩

theorem at_steps (L : F.Law WF val) (b : Bool) (x : NIter A U) (hx : StepOk F val b x) (i : AIter A U) (hi : WF i.cur) (n : Net A)
    (h : F.fromAddress i.cur x.plen true = .ok n) : StepOk F val b ⟨n, i, x.step, x.plen⟩ := by
  obtain ⟨k1, k2⟩ := fromAddress_same L _ hi _ n h
  exact ⟨k1, fun hb => ⟨k2, (hx.2 hb).2⟩⟩

theorem niAdd_steps (L : F.Law WF val) (b d : Bool) (x : NIter A U) (ho : NitOk F WF val d x) (hx : StepOk F val b x) (n : U) (y : NIter A U)
    (h : F.niAdd x n = .ok y) : StepOk F val b y := by
  obtain ⟨i, h1, h2⟩ := Res.bind_eq_ok.1 h
  obtain ⟨m, h3, h4⟩ := Res.bind_eq_ok.1 h2
  cases h4
  exact at_steps L b x hx i (aiAdd_it L _ ho.it _ i h1).wf m h3

theorem niSub_steps (L : F.Law WF val) (b d : Bool) (x : NIter A U) (ho : NitOk F WF val d x) (hx : StepOk F val b x) (n : U) (y : NIter A U)
    (h : F.niSub x n = .ok y) : StepOk F val b y := by
  obtain ⟨i, h1, h2⟩ := Res.bind_eq_ok.1 h
  obtain ⟨m, h3, h4⟩ := Res.bind_eq_ok.1 h2
  cases h4
  exact at_steps L b x hx i (aiSub_it L _ ho.it _ i h1).wf m h3

theorem niMove_steps (L : F.Law WF val) (b d : Bool) (m : Move U) (x : NIter A U) (ho : NitOk F WF val d x) (hx : StepOk F val b x) (y : NIter A U)
    (h : F.niMove m x = .ok y) : StepOk F val b y := by
  have h := noexcept_ok h
  cases m with
  | inc => exact niAdd_steps L b d x ho hx _ y h
  | dec => exact niSub_steps L b d x ho hx _ y h
  | add n => exact niAdd_steps L b d x ho hx _ y h
  | sub n => exact niSub_steps L b d x ho hx _ y h
  | addI n => exact niAdd_steps L b d x ho hx _ y h
  | subI n => exact niSub_steps L b d x ho hx _ y h

theorem niBase_steps (L : F.Law WF val) (b : Bool) (x : NIter A U) (hx : StepOk F val b x) (y : NIter A U) (h : F.niBase x = .ok y) :
    StepOk F val b y := by
  obtain ⟨a, h1, h2⟩ := Res.bind_eq_ok.1 h
  obtain ⟨n, h3, h4⟩ := Res.bind_eq_ok.1 h2
  cases h4
  exact at_steps L b x hx ⟨a, _, _⟩ (fromUint_ok L _ _ h1).1 n h3

theorem niReverse_steps (L : F.Law WF val) (b : Bool) (x : NIter A U) (hx : StepOk F val b x) (y : NIter A U) (h : F.niReverse x = .ok y) :
    StepOk F val b y := by
  obtain ⟨a, h1, h2⟩ := Res.bind_eq_ok.1 h
  obtain ⟨n, h3, h4⟩ := Res.bind_eq_ok.1 h2
  cases h4
  exact at_steps L b x hx ⟨a, _, _⟩ (fromUint_ok L _ _ h1).1 n h3

theorem niDefault_steps (x : NIter A U) (h : F.niDefault = .ok x) : StepOk F val false x := by
  obtain ⟨n, h1, h2⟩ := Res.bind_eq_ok.1 h
  obtain ⟨m, h3, h4⟩ := Res.bind_eq_ok.1 h1
  cases h2
  cases h4
  exact ⟨rfl, fun h => by cases h⟩

theorem subnetsMk1_steps (L : F.Law WF val) (b : Bool) (a : A) (ha : WF a) (p : Nat) (s : SubnetsSeq A U) (h : F.subnetsMk1 a p = .ok s)
    (hp : b = true → p = F.maxPrefix) : StepOk F val b s.first ∧ StepOk F val b s.last := by
  obtain ⟨n, h1, h⟩ := Res.bind_eq_ok.1 h
  obtain ⟨l, h2, h⟩ := Res.bind_eq_ok.1 h
  obtain ⟨x, h3, h⟩ := Res.bind_eq_ok.1 h
  obtain ⟨w, h4, h⟩ := Res.bind_eq_ok.1 h
  obtain ⟨y, h5, h⟩ := Res.bind_eq_ok.1 h
  cases h
  have hs : b = true → val (F.ops.ofI64 1#64) = 2 ^ (F.maxPrefix - p) % 2 ^ F.maxPrefix := by
    intro hb
    have := two_le_W L
    rw [val_one L, hp hb, Nat.sub_self, Nat.pow_zero, Nat.mod_eq_of_lt (by omega)]
  exact ⟨niMk_steps L b _ (L.wf_ofBytes _ (L.len a ha)) _ p _ x h3 hs, niMk_steps L b l (fromUint_ok L _ _ h2).1 _ p _ y h5 hs⟩

theorem subnetsMk_steps (L : F.Law WF val) (b : Bool) (n c k : A) (d p : Nat) (s : SubnetsSeq A U) (h : F.subnetsMk n c k d p = .ok s)
    (hp : b = true → ∀ u r, F.toUint k = .ok u → F.ops.shr u d = .ok r →
      val (F.ops.add r (F.ops.ofI64 1#64)) = 2 ^ (F.maxPrefix - p) % 2 ^ F.maxPrefix) : StepOk F val b s.first ∧ StepOk F val b s.last := by
  obtain ⟨nu, h1, h⟩ := Res.bind_eq_ok.1 h
  obtain ⟨bu, h2, h⟩ := Res.bind_eq_ok.1 h
  obtain ⟨f, h3, h⟩ := Res.bind_eq_ok.1 h
  obtain ⟨l, h4, h⟩ := Res.bind_eq_ok.1 h
  obtain ⟨hu, h5, h⟩ := Res.bind_eq_ok.1 h
  obtain ⟨r, h6, h⟩ := Res.bind_eq_ok.1 h
  obtain ⟨x, h7, h⟩ := Res.bind_eq_ok.1 h
  obtain ⟨e, h8, h⟩ := Res.bind_eq_ok.1 h
  obtain ⟨y, h9, h⟩ := Res.bind_eq_ok.1 h
  obtain ⟨q, h10, h⟩ := Res.bind_eq_ok.1 h
  cases h
  exact ⟨niMk_steps L b f (fromUint_ok L _ _ h3).1 _ p _ x h7 (fun hb => hp hb hu r h5 h6),
    niMk_steps L b l (fromUint_ok L _ _ h4).1 _ p _ y h9 (fun hb => hp hb hu r h5 h6)⟩

theorem subnets_steps (L : F.Law WF val) (hw : F.maxPrefix < 2 ^ 63) (b : Bool) (n : Net A) (hn : NetOk F WF n) (d : Nat) (q : Option Nat)
    (hq : b = true → d < 2 ^ 63 ∧ ∀ p, q = some p → p < 2 ^ 63) (s : SubnetsSeq A U) (h : F.subnets n d q = .ok s) :
    StepOk F val b s.first ∧ StepOk F val b s.last := by
  have hpl := hn.plen
  obtain ⟨a, h1, h⟩ := Res.bind_eq_ok.1 h
  have h1 := noexcept_ok h1
  rw [L.removeScope _ hn.wf] at h1
  cases h1
  have go : ∀ d, (b = true → n.plen + d < 2 ^ 64) → (if (n.plen + d) % 2 ^ 64 > F.maxPrefix then Res.err .invalid_prefixlen_diff 0
      else Fam.noexcept (do
        let b ← F.broadcast n
        F.subnetsMk (F.ofBytes (F.bytes n.addr)) b (F.hostmask n) d ((n.plen + d) % 2 ^ 64))) = Res.ok s →
      StepOk F val b s.first ∧ StepOk F val b s.last := by
    intro d hd h
    split at h
    · cases h
    · next hle =>
      obtain ⟨c, h2, h3⟩ := Res.bind_eq_ok.1 (noexcept_ok h)
      refine subnetsMk_steps L b _ _ _ _ _ s h3 (fun hb u r h4 h5 => ?_)
      rw [Nat.mod_eq_of_lt (hd hb)] at hle ⊢
      obtain ⟨m, m1, m2, m3⟩ := hostmask_eq L n hn
      have hm : IsAddr F (2 ^ (F.maxPrefix - n.plen) - 1) (F.hostmask n) := ⟨m, m1, m2, m3⟩
      obtain ⟨hu, k1, k2⟩ := hm.toUint L
      rw [k1] at h4
      cases h4
      have hlt : d < F.maxPrefix := by
        by_contra hge
        have : d = F.maxPrefix := by omega
        rw [this, L.ops.shr_ub] at h5
        cases h5
      obtain ⟨sh, s1, s2⟩ := L.ops.shr u d hlt
      rw [s1] at h5
      cases h5
      have hS := Nat.two_pow_pos (F.maxPrefix - (n.plen + d))
      rw [k2, ones_shr _ _ (by omega), Nat.sub_sub] at s2
      rw [L.ops.add, val_one L, s2, Nat.sub_add_cancel hS]
  split at h
  · next hp => exact subnetsMk1_steps L b _ (L.wf_ofBytes _ (L.len _ hn.wf)) _ s (noexcept_ok h) (fun _ => hp)
  · cases q with
    | none => exact go d (fun hb => by have := (hq hb).1; omega) h
    | some p =>
      simp only at h
      split at h
      · cases h
      · split at h
        · cases h
        · exact go (p - n.plen) (fun hb => by have := (hq hb).2 p rfl; omega) h

theorem rMk_steps (L : F.Law WF val) (b : Bool) (x : NIter A U) (hx : StepOk F val b x) (r : RIter (NIter A U)) (h : F.niOps.rMk x = .ok r) :
    StepOk F val b r.it := by
  obtain ⟨y, h1, h2⟩ := Res.bind_eq_ok.1 h
  cases h2
  exact niReverse_steps L b x hx y h1

theorem obj_bind {α : Type} {P : Obj A U → Prop} {r : Res α} {f : α → Obj A U} {o : Obj A U}
    (h : some (do let a ← r; Res.ok (f a)) = some (Res.ok o)) (hP : ∀ a, r = .ok a → P (f a)) : P o :=
  bind_obj hP o (Option.some.inj h)

set_option maxHeartbeats 1000000 in
theorem eval_steps (L : F.Law WF val) (hw : F.maxPrefix < 2 ^ 63) (b : Bool) (st : List (Obj A U)) (hst : ∀ o ∈ st, HeldOk F WF val true o)
    (hs : ∀ o ∈ st, StepsOk F val b o) (e : Expr U) (he : b = true → fromSubnets e = true) (o : Obj A U) (h : F.eval st e = some (.ok o)) :
    StepsOk F val b o := by
  have get : ∀ i o, st[i]? = some o → HeldOk F WF val true o := fun i o h => hst o (List.mem_of_getElem? h)
  have gets : ∀ i o, st[i]? = some o → StepsOk F val b o := fun i o h => hs o (List.mem_of_getElem? h)
  cases e with
  | defNet | defExit | defExs | fromUint _ | parse _ _ => exact obj_bind (P := StepsOk F val b) h (fun _ _ => trivial)
  | defAit => cases h; trivial
  | defNit =>
    cases b with
    | true => cases he rfl
    | false => exact obj_bind (P := StepsOk F val false) h (fun x hx => niDefault_steps x hx)
  | defSubs =>
    cases b with
    | true => cases he rfl
    | false =>
      refine obj_bind (P := StepsOk F val false) h (fun s hx => ?_)
      obtain ⟨y, h1, h2⟩ := Res.bind_eq_ok.1 hx
      cases h2
      exact ⟨niDefault_steps y h1, niDefault_steps y h1⟩
  | fromAddress _ _ _ | fromAddressCode _ _ _ | broadcast _ | supernet _ _ _ | supernetCode _ _ _ | hosts _ | aitMk _ _ | elem _ _ | back _ | index _ _ =>
    simp only [Fam.eval] at h
    split at h <;> first | cases h; done | exact obj_bind (P := StepsOk F val b) h (fun _ _ => trivial)
  | exclude _ _ | excludeCode _ _ | exitMk _ _ | exsMk _ _ | hostsMk _ _ _ _ =>
    simp only [Fam.eval] at h
    split at h <;> first | cases h; done | exact obj_bind (P := StepsOk F val b) h (fun _ _ => trivial)
  | network _ | netmask _ | hostmask _ | deref _ | front _ =>
    simp only [Fam.eval] at h
    split at h <;> cases h <;> trivial
  | subnets i d q =>
    simp only [Fam.eval] at h
    split at h
    · next n e1 =>
      refine obj_bind (P := StepsOk F val b) h (fun s hx => ?_)
      refine subnets_steps L hw b n (get i _ e1) d q (fun hb => ?_) s hx
      have k := he hb
      simp only [fromSubnets, Bool.and_eq_true, decide_eq_true_eq, Option.all_eq_true] at k
      exact ⟨k.1, fun p hp => by have := k.2 p hp; simpa using this⟩
    · cases h
  | subnetsCode i d q =>
    cases b with
    | true => cases he rfl
    | false =>
      simp only [Fam.eval] at h
      split at h
      · next n e1 =>
        refine obj_bind (P := StepsOk F val false) (r := F.subnetsCode n d q none) (f := fun n => .subs n.2) h (fun s hx => ?_)
        refine setCode_ok (fun s => StepOk F val false s.first ∧ StepOk F val false s.last) _ _ _ (fun x hx => ?_) (fun x hx => ?_) s hx
        · obtain ⟨y, h1, h2⟩ := Res.bind_eq_ok.1 hx
          cases h2
          exact ⟨niDefault_steps y h1, niDefault_steps y h1⟩
        · exact subnets_steps L hw false n (get i _ e1) d q (fun hb => by cases hb) x hx
      · cases h
  | subnetsMk1 i p =>
    cases b with
    | true => cases he rfl
    | false =>
      simp only [Fam.eval] at h
      split at h
      · next a e1 =>
        exact obj_bind (P := StepsOk F val false) h (fun s hx => subnetsMk1_steps L false a (get i _ e1) p s (noexcept_ok hx) (fun h => by cases h))
      · cases h
  | subnetsMk i j k d p =>
    cases b with
    | true => cases he rfl
    | false =>
      simp only [Fam.eval] at h
      split at h
      · exact obj_bind (P := StepsOk F val false) h (fun s hx => subnetsMk_steps L false _ _ _ d p s (noexcept_ok hx) (fun h => by cases h))
      · cases h
  | nitMk i step p c =>
    cases b with
    | true => cases he rfl
    | false =>
      simp only [Fam.eval] at h
      split at h
      · next a e1 =>
        exact obj_bind (P := StepsOk F val false) h (fun s hx => niMk_steps L false a (get i _ e1) step p _ s (noexcept_ok hx) (fun h => by cases h))
      · cases h
  | first i =>
    simp only [Fam.eval] at h
    split at h
    · cases h; trivial
    · next s e1 => cases h; exact (gets i _ e1).1
    · cases h; trivial
    · cases h
  | last i =>
    simp only [Fam.eval] at h
    split at h
    · cases h; trivial
    · next s e1 => cases h; exact (gets i _ e1).2
    · cases h; trivial
    · cases h
  | reverse i =>
    simp only [Fam.eval] at h
    split at h
    · exact obj_bind (P := StepsOk F val b) h (fun _ _ => trivial)
    · next x e1 => exact obj_bind (P := StepsOk F val b) h (fun r hr => rMk_steps L b x (gets i _ e1) r (noexcept_ok hr))
    · cases h
  | base i =>
    simp only [Fam.eval] at h
    split at h
    · exact obj_bind (P := StepsOk F val b) h (fun _ _ => trivial)
    · next x e1 => exact obj_bind (P := StepsOk F val b) h (fun r hr => niBase_steps L b x.it (gets i _ e1) r (noexcept_ok hr))
    · cases h
  | move i m =>
    simp only [Fam.eval] at h
    split at h
    · exact obj_bind (P := StepsOk F val b) h (fun _ _ => trivial)
    · next x e1 =>
      exact obj_bind (P := StepsOk F val b) h (fun y hy => niMove_steps L b true m x (get i _ e1) (gets i _ e1) y hy)
    · exact obj_bind (P := StepsOk F val b) (f := fun y => Obj.rait ⟨y⟩) h (fun _ _ => trivial)
    · next x e1 =>
      exact obj_bind (P := StepsOk F val b) (f := fun y => Obj.rnit ⟨y⟩) h (fun y hy => niMove_steps L b true m.opposite x.it (get i _ e1) (gets i _ e1) y hy)
    · exact obj_bind (P := StepsOk F val b) h (fun _ _ => trivial)
    · cases h

theorem exec_steps (L : F.Law WF val) (hw : F.maxPrefix < 2 ^ 63) (b : Bool) (st : List (Obj A U)) (hst : ∀ o ∈ st, HeldOk F WF val true o)
    (hs : ∀ o ∈ st, StepsOk F val b o) (s : Stmt U) (he : b = true → stmtFromSubnets s = true) (st' : List (Obj A U)) (h : F.exec st s = .ok st') :
    ∀ o ∈ st', StepsOk F val b o := by
  have key : ∀ (e : Expr U) (f : Obj A U → List (Obj A U)), (b = true → fromSubnets e = true) →
      (∀ o, StepsOk F val b o → ∀ x ∈ f o, StepsOk F val b x) → Fam.after st (F.eval st e) f = .ok st' → ∀ o ∈ st', StepsOk F val b o := by
    intro e f he hf h
    cases hev : F.eval st e with
    | none => rw [hev] at h; cases h; exact hs
    | some r =>
      rw [hev] at h
      cases r with
      | ok o => cases h; exact hf o (eval_steps L hw b st hst hs e he o hev)
      | err c v => cases h; exact hs
      | ub => cases h
  cases s with
  | new e =>
    refine key e _ he (fun o ho x hx => ?_) h
    rcases List.mem_append.1 hx with hx | hx
    · exact hs x hx
    · rw [List.mem_singleton.1 hx]; exact ho
  | put i e =>
    refine key e _ he (fun o ho x hx => ?_) h
    rcases mem_set_of hx with hx | hx
    · exact hs x hx
    · rw [hx]; exact ho
  | swap i j =>
    have get : ∀ i o, st[i]? = some o → StepsOk F val b o := fun i o h => hs o (List.mem_of_getElem? h)
    simp only [Fam.exec] at h
    split at h
    · obtain ⟨r, h1, h2⟩ := Res.bind_eq_ok.1 h
      cases h2
      intro o ho
      rcases mem_set_of ho with ho | rfl
      · rcases mem_set_of ho with ho | rfl
        · exact hs o ho
        · trivial
      · trivial
    · next a b _ e1 e2 =>
      cases h
      intro o ho
      rcases mem_set_of ho with ho | rfl
      · rcases mem_set_of ho with ho | rfl
        · exact hs o ho
        · exact get j _ e2
      · exact get i _ e1
    · cases h; exact hs

theorem run_steps (L : F.Law WF val) (G : ProgLaw F WF) (hw : F.maxPrefix < 2 ^ 63) (b : Bool) : ∀ (prog : List (Stmt U)) (st : List (Obj A U)),
    (∀ o ∈ st, HeldOk F WF val true o) → (∀ o ∈ st, StepsOk F val b o) → (b = true → ∀ s ∈ prog, stmtFromSubnets s = true) →
    ∀ st', F.run prog st = .ok st' → ∀ o ∈ st', StepsOk F val b o
  | [], st, _, hs, _, st', h => by cases h; exact hs
  | s :: rest, st, hst, hs, hp, st', h => by
    obtain ⟨st1, h1, h2⟩ := Res.bind_eq_ok.1 h
    exact run_steps L G hw b rest st1 (exec_ok L G true st hst s (fun _ => rfl) st1 h1)
      (exec_steps L hw b st hst hs s (fun hb => hp hb s (List.mem_cons_self ..)) st1 h1)
      (fun hb s hs => hp hb s (List.mem_cons_of_mem _ hs)) st' h2

theorem start_steps (b : Bool) (addrs : List A) : ∀ o ∈ addrs.map (Obj.addr (U := U)), StepsOk F val b o := by
  intro o ho
  obtain ⟨a, -, rfl⟩ := List.mem_map.1 ho
  trivial

end
end Ip
