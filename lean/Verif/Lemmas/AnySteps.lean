import Verif.Lemmas.AnyLeftover
import Verif.Lemmas.Steps
import Verif.Props.AnyProgram
import Verif.Spec.AnyAlike
/-
What programs over the version agnostic classes keep when they also read addresses and change scope ids, and the steps of
their iterators over networks.
-/
set_option autoImplicit false

namespace Ip
open Spec

theorem setScopeLoop_length (spaces : Bool) : ∀ (evs : List Ev) (i : Nat) (str s : List Char), setScopeLoop spaces evs i str = .ok s →
    s.length = str.length
  | [], _, _, _, h => by cases h; rfl
  | .bad _ _ :: _, _, _, _, h => by cases h
  | .ch c :: rest, i, str, s, h => by
    unfold setScopeLoop at h
    split at h
    · cases h
    · obtain ⟨t, h1, h2⟩ := Res.bind_eq_ok.1 h
      rw [setScopeLoop_length spaces rest _ t s h2]
      unfold wr at h1
      split at h1
      · cases h1; simp
      · cases h1

theorem setScope_wf (spaces : Bool) (M : Nat) (a : V6) (ha : a.WF M) (size : Nat) (evs : List Ev) (r : V6 × Option ErrorCode)
    (h : v6SetScope spaces M a size evs = .ok r) : r.1.WF M := by
  unfold v6SetScope at h
  split at h
  · cases h; exact ha
  · split at h
    · next f hf =>
      cases h
      unfold scopeChange at hf
      split at hf
      · cases hf
      · obtain ⟨s, h1, h2⟩ := Res.bind_eq_ok.1 hf
        have l := setScopeLoop_length spaces evs 0 _ s h1
        rw [List.length_replicate] at l
        obtain ⟨g, e1, e2, e3, -⟩ := mkFixed_eq s
        rw [e1] at h2
        cases h2
        exact ⟨ha.1, e2, by rw [e3, l]; rfl⟩
    · cases h; exact ha
    · cases h

theorem AnyHeld.addr {c : Cfg} {a : AnyAddr} (h : AnyHeld c (.addr a)) : AddrOkAny c a := by
  rcases h with ⟨p, e, h⟩ | ⟨p, e, -, h⟩ | ⟨x, e, h⟩ | ⟨x, y, e, h⟩
  · cases p <;> cases e
    exact h
  · cases p <;> cases e
    exact h
  · cases e
  · cases e

theorem anyHeld_addr (c : Cfg) (a : AnyAddr) (h : AddrOkAny c a) : AnyHeld c (.addr a) := by
  cases a with
  | v4 a => exact .inl ⟨.addr a, rfl, h⟩
  | v6 a => exact .inr (.inl ⟨.addr a, rfl, rfl, h⟩)

theorem anyRead_ok (c : Cfg) (evs : List Ev) (a : AnyAddr) (h : anyFromEvents c.spaces c.M evs = .ok a) : AddrOkAny c a := by
  unfold anyFromEvents at h
  split at h
  · next b hb =>
    cases h
    obtain ⟨w, x, y, z, rfl, -⟩ := v4FromEvents_ok hb
    rfl
  · obtain ⟨b, h1, h2⟩ := Res.bind_eq_ok.1 h
    cases h2
    exact ((v6FromEvents_safe c.spaces c.M evs).2 b h1).1
  · cases h

theorem anySetScope_ok (c : Cfg) (a : AnyAddr) (ha : AddrOkAny c a) (size : Nat) (evs : List Ev) (r : AnyAddr × Option ErrorCode)
    (h : anySetScope c.spaces c.M a size evs = .ok r) : AddrOkAny c r.1 := by
  cases a with
  | v4 b => cases h; exact ha
  | v6 a =>
    obtain ⟨q, h1, h2⟩ := Res.bind_eq_ok.1 h
    cases h2
    exact setScope_wf c.spaces c.M a ha size evs q h1

/-- What a deed keeps, if statements keep it and addresses have it. -/
theorem anyDo_keeps (c : Cfg) (P : AnyObj → Prop) (hP : ∀ a, AddrOkAny c a → P (.addr a)) (st : List AnyObj) (hh : ∀ o ∈ st, AnyHeld c o)
    (hst : ∀ o ∈ st, P o) (d : AnyDeed) (hs : ∀ s st', d = .stmt s → anyExec c st s = .ok st' → ∀ o ∈ st', P o) (st' : List AnyObj)
    (h : anyDo c st d = .ok st') : ∀ o ∈ st', P o := by
  cases d with
  | stmt s => exact hs s st' rfl h
  | read evs =>
    have h : anyAfter st (some (do let a ← anyFromEvents c.spaces c.M evs; .ok (.addr a))) (fun o => st ++ [o]) = .ok st' := h
    rcases hr : (do let a ← anyFromEvents c.spaces c.M evs; Res.ok (AnyObj.addr a)) with o | ⟨e, v⟩ | _
    · rw [hr] at h
      obtain ⟨a, h1, h2⟩ := Res.bind_eq_ok.1 hr
      cases h2
      cases h
      intro o ho
      rcases List.mem_append.1 ho with ho | ho
      · exact hst o ho
      · rw [List.mem_singleton.1 ho]; exact hP a (anyRead_ok c evs a h1)
    · rw [hr] at h; cases h; exact hst
    · rw [hr] at h; cases h
  | setScope i size evs =>
    simp only [anyDo] at h
    split at h
    · next a ha =>
      obtain ⟨r, h1, h2⟩ := Res.bind_eq_ok.1 h
      cases h2
      intro o ho
      rcases mem_set_of ho with ho | rfl
      · exact hst o ho
      · exact hP _ (anySetScope_ok c a (hh _ (List.mem_of_getElem? ha)).addr size evs r h1)
    · cases h; exact hst

/-- The network shown is at the address of the address iterator; with `b`, prefix length and step fit. -/
def AnyStepOk (c : Cfg) (b : Bool) : AnyNetIt → Prop
  | .v4 x _ => StepOk (fam4 true) BitVec.toNat b x
  | .v6 x _ => StepOk (fam6 c) U128.val b x

/-- The same for objects. -/
def AnySteps (c : Cfg) (b : Bool) : AnyObj → Prop
  | .nit x => AnyStepOk c b x
  | .rnit r => AnyStepOk c b r.it
  | .subs s => AnyStepOk c b s.first ∧ AnyStepOk c b s.last
  | _ => True

theorem as4_steps (c : Cfg) (b : Bool) (p : Obj (List (BitVec 8)) (BitVec 32)) : AnySteps c b (as4 p) ↔ StepsOk (fam4 true) BitVec.toNat b p := by
  cases p <;> rfl
theorem as6_steps (c : Cfg) (b : Bool) (p : Obj V6 U128) : AnySteps c b (as6 p) ↔ StepsOk (fam6 c) U128.val b p := by
  cases p <;> rfl

theorem fromSubnets_on (f : U128 → BitVec 32) (e : Expr U128) : fromSubnets (Expr.on f e) = fromSubnets e := by cases e <;> rfl

section
variable (c : Cfg) (hc : c.le = true)
include hc

theorem anyEval_place_steps (b : Bool) (e : Expr U128) (hs : b = true → fromSubnets e = true) (i : Nat) (h : place e = some i) (st : List AnyObj)
    (x : AnyObj) (hx : st[i]? = some x) (hok : AnyHeld c x) (hk : AnySteps c b x) (o : AnyObj) (ho : anyEval c st e = some (.ok o)) : AnySteps c b o := by
  rw [anyEval_local c e i h st (List.replicate (i + 1) x) (by rw [hx, rep_get])] at ho
  have hb := place_both e i h
  rcases hok with ⟨p, rfl, hp⟩ | ⟨p, rfl, hn, hp⟩ | ⟨x, rfl, hp⟩ | ⟨x, y, rfl, hp⟩
  · have hst : ∀ o ∈ List.replicate (i + 1) p, HeldOk (fam4 true) WF4 BitVec.toNat true o :=
      fun o ho => by rw [List.eq_of_mem_replicate ho]; exact hp
    have hks : ∀ o ∈ List.replicate (i + 1) p, StepsOk (fam4 true) BitVec.toNat b o :=
      fun o ho => by rw [List.eq_of_mem_replicate ho]; exact (as4_steps c b p).1 hk
    rw [← List.map_replicate, simEval4 c hc true _ hst e hb.1, hc] at ho
    obtain ⟨r, h1, h2⟩ := Option.map_eq_some_iff.1 ho
    obtain ⟨q, rfl, rfl⟩ := image_eq_ok h2
    exact (as4_steps c b q).2 (eval_steps fam4Law (by show 32 < _; decide) b _ hst hks _ (fun k => by rw [fromSubnets_on]; exact hs k) q h1)
  · have hst : ∀ o ∈ List.replicate (i + 1) p, HeldOk (fam6 c) (V6.WF c.M) U128.val true o :=
      fun o ho => by rw [List.eq_of_mem_replicate ho]; exact hp
    have hst' : ∀ o ∈ List.replicate (i + 1) p, noExclusion o = true :=
      fun o ho => by rw [List.eq_of_mem_replicate ho]; exact hn
    have hks : ∀ o ∈ List.replicate (i + 1) p, StepsOk (fam6 c) U128.val b o :=
      fun o ho => by rw [List.eq_of_mem_replicate ho]; exact (as6_steps c b p).1 hk
    rw [← List.map_replicate, simEval6 c _ hst' e hb.1 hb.2] at ho
    obtain ⟨r, h1, h2⟩ := Option.map_eq_some_iff.1 ho
    obtain ⟨q, rfl, rfl⟩ := image_eq_ok h2
    exact (as6_steps c b q).2 (eval_steps (fam6Law c hc) (by show 128 < _; decide) b _ hst hks _ hs q h1)
  · cases e <;> cases h <;> simp only [anyEval, rep_get, reduceCtorEq, Option.some.injEq] at ho
    · exact bind_any (P := AnySteps c b) (fun _ _ => by trivial) o ho
    · cases ho
      trivial
  · cases e <;> cases h <;> simp only [anyEval, rep_get, reduceCtorEq, Option.some.injEq] at ho
    · cases ho
      trivial
    · cases ho
      trivial

theorem anyEval_steps (b : Bool) (st : List AnyObj) (hst : ∀ o ∈ st, AnyHeld c o) (hks : ∀ o ∈ st, AnySteps c b o) (e : Expr U128)
    (hs : b = true → fromSubnets e = true) (o : AnyObj) (ho : anyEval c st e = some (.ok o)) : AnySteps c b o := by
  have get : ∀ i o, st[i]? = some o → AnyHeld c o := fun i o h => hst o (List.mem_of_getElem? h)
  cases hp : place e with
  | some i =>
    cases hx : st[i]? with
    | none =>
      exfalso
      cases e <;> cases hp <;> simp [anyEval, hx] at ho
    | some x => exact anyEval_place_steps c hc b e hs i hp st x hx (get i x hx) (hks x (List.mem_of_getElem? hx)) o ho
  | none =>
    cases e with
    | parse evs s => exact bind_any (P := AnySteps c b) (fun _ _ => by trivial) o (Option.some.inj ho)
    | exclude i j =>
      simp only [anyEval] at ho
      split at ho
      · exact bind_any (P := AnySteps c b) (fun _ _ => by trivial) o (Option.some.inj ho)
      · cases ho
    | excludeCode i j =>
      simp only [anyEval] at ho
      split at ho
      · next n m e1 e2 =>
        exact bind_any (P := AnySteps c b) (r := anyExcludeCode c n m none) (f := fun s => .exs s.2.1 s.2.2) (fun _ _ => by trivial) o (Option.some.inj ho)
      · cases ho
    | exitMk i j =>
      simp only [anyEval] at ho
      split at ho
      · exact bind_any (P := AnySteps c b) (fun _ _ => by trivial) o (Option.some.inj ho)
      · cases ho
    | exsMk i j =>
      simp only [anyEval] at ho
      split at ho
      · obtain ⟨x, h1, h2⟩ := Res.bind_eq_ok.1 (Option.some.inj ho)
        exact bind_any (P := AnySteps c b) (fun _ _ => by trivial) o h2
      · cases ho
    | defNet => exact bind_any (P := AnySteps c b) (fun _ _ => by trivial) o (Option.some.inj ho)
    | defAit => cases ho; trivial
    | defNit =>
      have e0 : b = false := by cases b with
        | true => cases hs rfl
        | false => rfl
      subst e0
      have hst : ∀ o ∈ ([] : List (Obj (List (BitVec 8)) (BitVec 32))), HeldOk (fam4 true) WF4 BitVec.toNat true o := fun o ho => nomatch ho
      have h4 := simEval4 c hc true [] hst .defNit rfl
      have ho : anyEval c ([].map as4) .defNit = some (.ok o) := ho
      rw [h4, hc] at ho
      obtain ⟨r, h1, h2⟩ := Option.map_eq_some_iff.1 ho
      obtain ⟨q, rfl, rfl⟩ := image_eq_ok h2
      exact (as4_steps c false q).2 (eval_steps fam4Law (by show 32 < _; decide) false [] hst (fun o ho => nomatch ho) .defNit (fun h => by cases h) q h1)
    | defExit => exact bind_any (P := AnySteps c b) (fun _ _ => by trivial) o (Option.some.inj ho)
    | defExs => exact bind_any (P := AnySteps c b) (fun _ _ => by trivial) o (Option.some.inj ho)
    | _ => first | cases ho | cases hp

theorem anyExec_steps (b : Bool) (st : List AnyObj) (hst : ∀ o ∈ st, AnyHeld c o) (hks : ∀ o ∈ st, AnySteps c b o) (s : Stmt U128)
    (hs : b = true → stmtFromSubnets s = true) (st' : List AnyObj) (h : anyExec c st s = .ok st') : ∀ o ∈ st', AnySteps c b o := by
  have key : ∀ (e : Expr U128) (f : AnyObj → List AnyObj), (b = true → fromSubnets e = true) → (∀ o, AnySteps c b o → ∀ x ∈ f o, AnySteps c b x) →
      anyAfter st (anyEval c st e) f = .ok st' → ∀ o ∈ st', AnySteps c b o := by
    intro e f he hf h
    cases hev : anyEval c st e with
    | none => rw [hev] at h; cases h; exact hks
    | some r =>
      rw [hev] at h
      cases r with
      | ok o => cases h; exact hf o (anyEval_steps c hc b st hst hks e he o hev)
      | err c v => cases h; exact hks
      | ub => cases h
  cases s with
  | new e =>
    refine key e _ hs (fun o ho x hx => ?_) h
    rcases List.mem_append.1 hx with hx | hx
    · exact hks x hx
    · rw [List.mem_singleton.1 hx]; exact ho
  | put i e =>
    refine key e _ hs (fun o ho x hx => ?_) h
    rcases mem_set_of hx with hx | hx
    · exact hks x hx
    · rw [hx]; exact ho
  | swap i j =>
    have get : ∀ i o, st[i]? = some o → AnySteps c b o := fun i o h => hks o (List.mem_of_getElem? h)
    have two : ∀ x y, AnySteps c b x → AnySteps c b y → ∀ o ∈ (st.set i x).set j y, AnySteps c b o := by
      intro x y ha hb o ho
      rcases mem_set_of ho with ho | rfl
      · rcases mem_set_of ho with ho | rfl
        · exact hks o ho
        · exact ha
      · exact hb
    simp only [anyExec] at h
    split at h
    · cases h; exact two _ _ trivial trivial
    · next a b _ e1 e2 => cases h; exact two _ _ (get j _ e2) (get i _ e1)
    · cases h; exact hks

theorem anyDo_held (st : List AnyObj) (hst : ∀ o ∈ st, AnyHeld c o) (d : AnyDeed) (st' : List AnyObj) (h : anyDo c st d = .ok st') :
    ∀ o ∈ st', AnyHeld c o :=
  anyDo_keeps c (AnyHeld c) (anyHeld_addr c) st hst hst d (fun s st' _ h => anyExec_held c hc st hst s st' h) st' h

theorem anyDo_steps (b : Bool) (st : List AnyObj) (hst : ∀ o ∈ st, AnyHeld c o) (hks : ∀ o ∈ st, AnySteps c b o) (d : AnyDeed)
    (hs : b = true → deedFromSubnets d = true) (st' : List AnyObj) (h : anyDo c st d = .ok st') : ∀ o ∈ st', AnySteps c b o :=
  anyDo_keeps c (AnySteps c b) (fun _ _ => trivial) st hst hks d
    (fun s st' e h => anyExec_steps c hc b st hst hks s (fun k => by have := hs k; rw [e] at this; exact this) st' h) st' h

theorem anyDoAll_held (b : Bool) : ∀ (ds : List AnyDeed) (st : List AnyObj), (∀ o ∈ st, AnyHeld c o) → (∀ o ∈ st, AnySteps c b o) →
    (b = true → ∀ d ∈ ds, deedFromSubnets d = true) → ∀ st', anyDoAll c ds st = .ok st' → ∀ o ∈ st', AnyHeld c o ∧ AnySteps c b o
  | [], st, hst, hks, _, st', h => by cases h; exact fun o ho => ⟨hst o ho, hks o ho⟩
  | d :: rest, st, hst, hks, hd, st', h => by
    obtain ⟨st1, h1, h2⟩ := Res.bind_eq_ok.1 h
    exact anyDoAll_held b rest st1 (anyDo_held c hc st hst d st1 h1)
      (anyDo_steps c hc b st hst hks d (fun k => hd k d (List.mem_cons_self ..)) st1 h1) (fun k d hm => hd k d (List.mem_cons_of_mem _ hm)) st' h2

end

theorem anyStart_steps (c : Cfg) (b : Bool) (addrs : List AnyAddr) : ∀ o ∈ addrs.map AnyObj.addr, AnySteps c b o := by
  intro o ho
  obtain ⟨a, -, rfl⟩ := List.mem_map.1 ho
  trivial

end Ip
