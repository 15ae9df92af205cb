import Verif.Spec.AnyUndefined
import Verif.Lemmas.AnyHeld
import Verif.Lemmas.Undefined
import Verif.Props.Undefined
/-
Which calls of programs over the version agnostic classes have no defined outcome.
-/
set_option autoImplicit false

namespace Ip
open Spec

section
variable {A U : Type} {F : Fam A U} {WF : A → Prop} {val : U → Nat} {c : Cfg} {e : Net A → AnyNet}

/-- An iterator over the networks of one version, or the default one. -/
def ExOr (F : Fam A U) (c : Cfg) (e : Net A → AnyNet) (y : AnyEx) : Prop :=
  (∃ p, y = anyEx e p ∧ ExAny F p) ∨ anyExDefault c = .ok y

theorem anyExInc_yields (L : F.Law WF val) (S : SafeLaw F WF val) (E : AnyEmb F c e) (d : AnyEx) (hd : anyExDefault c = .ok d)
    (x : ExIter A) (hx : ExAny F x) : Yields (ExOr F c e) (anyExInc c (anyEx e x)) := by
  obtain ⟨q, u, p, v, p', v', ho, h1, h2, ⟨pc, vc, hc⟩, hpart⟩ := hx
  have e1 := netEq_isNet L h1 ho
  have e2 := netEq_isNet L h2 ho
  have ec1 := netEq_isNet L hc h1
  have ec2 := netEq_isNet L hc h2
  have d1 := subnetOf_isNet L ho h1
  have d2 := subnetOf_isNet L ho h2
  have dflt : Yields (ExOr F c e) (anyExDefault c) := ⟨d, hd, .inr hd⟩
  unfold anyExInc
  simp only [anyEx, E.eq, E.sub, e1, e2, Res.ok_bind]
  by_cases c1 : v = u ∧ p = q
  · rw [decide_eq_true c1]
    simp only [Bool.not_true, Bool.false_and, Bool.false_eq_true, if_false, if_true, ec2, Res.ok_bind]
    split
    · exact ⟨_, rfl, .inl ⟨⟨x.other, x.s1, x.s2, x.s2⟩, rfl, q, u, p, v, p', v', ho, h1, h2, ⟨_, _, h2⟩, hpart⟩⟩
    · exact dflt
  · rw [decide_eq_false c1]
    by_cases c2 : v' = u ∧ p' = q
    · rw [decide_eq_true c2]
      simp only [Bool.not_true, Bool.not_false, Bool.and_false, Bool.false_eq_true, if_false, if_true, ec1, Res.ok_bind]
      split
      · exact ⟨_, rfl, .inl ⟨⟨x.other, x.s1, x.s2, x.s1⟩, rfl, q, u, p, v, p', v', ho, h1, h2, ⟨_, _, h1⟩, hpart⟩⟩
      · exact dflt
    · rw [decide_eq_false c2]
      simp only [Bool.not_false, Bool.and_self, if_true, d1, d2, Res.ok_bind, ec1, ec2]
      by_cases a1 : Part F.maxPrefix q u p v
      · rw [if_pos (decide_eq_true (show _ ∧ _ from a1))]
        split
        · obtain ⟨r, r1, r2⟩ := halves_part L S h1 ho a1 (a1.lt ho.le h1.le c1) x.s2 ⟨_, _, h2⟩
          exact ⟨_, by rw [E.halves _ r.1 r.2 r1, Res.ok_bind]; rfl, .inl ⟨_, rfl, r2⟩⟩
        · exact dflt
      · have a2 := hpart.resolve_left a1
        rw [if_neg (by rw [decide_eq_true_eq]; exact a1), if_pos (decide_eq_true (show _ ∧ _ from a2))]
        split
        · obtain ⟨r, r1, r2⟩ := halves_part L S h2 ho a2 (a2.lt ho.le h2.le c2) x.s1 ⟨_, _, h1⟩
          exact ⟨_, by rw [E.halves _ r.1 r.2 r1, Res.ok_bind]; rfl, .inl ⟨_, rfl, r2⟩⟩
        · exact dflt

theorem anyExclude_out (L : F.Law WF val) (S : SafeLaw F WF val) (E : AnyEmb F c e) (d : AnyEx) (hd : anyExDefault c = .ok d)
    (n o : Net A) (l r : Net A) (l1 : anyNetRemoveScope c (e n) = .ok (e l)) (l2 : IsNet F n.plen (F.v n.addr) l)
    (r1 : anyNetRemoveScope c (e o) = .ok (e r)) (r2 : IsNet F o.plen (F.v o.addr) r)
    (hx : anyNetExclude c (e n) (e o) = do
      let lhs ← Fam.noexcept (anyNetRemoveScope c (e n))
      let rhs ← Fam.noexcept (anyNetRemoveScope c (e o))
      if !(← anyNetSubnetOf c rhs lhs) then .err .not_contained_network 0
      else if ← anyNetEq c lhs rhs then do
        let d ← anyExDefault c
        .ok (d, d)
      else Fam.noexcept (do
        let x ← anyExMk c lhs rhs
        let d ← anyExDefault c
        .ok (x, d))) :
    Out False (fun s => ExOr F c e s.1 ∧ ExOr F c e s.2) (anyNetExclude c (e n) (e o)) := by
  have dd := subnetOf_isNet L r2 l2
  have ee := netEq_isNet L l2 r2
  rw [hx]
  simp only [l1, r1, Fam.noexcept, Res.ok_bind, E.eq, E.sub, dd, ee]
  by_cases a : Part F.maxPrefix o.plen (F.v o.addr) n.plen (F.v n.addr)
  · rw [decide_eq_true (show _ ∧ _ from a)]
    simp only [Bool.not_true, Bool.false_eq_true, if_false]
    by_cases b : F.v n.addr = F.v o.addr ∧ n.plen = o.plen
    · rw [if_pos (decide_eq_true b), hd]
      exact Yields.out ⟨(d, d), rfl, .inr hd, .inr hd⟩
    · rw [if_neg (by rw [decide_eq_true_eq]; exact b)]
      obtain ⟨t, t1, t2⟩ := halves_part L S l2 r2 a (a.lt r2.le l2.le b) l ⟨_, _, l2⟩
      obtain ⟨y, y1, y2⟩ := anyExInc_yields L S E d hd _ t2
      refine Yields.out ⟨(y, d), ?_, y2, .inr hd⟩
      have : anyExMk c (e l) (e r) = .ok y := by
        rw [anyExMk, E.halves _ t.1 t.2 t1, Res.ok_bind]
        exact y1
      simp only [this, hd, Res.ok_bind]
  · rw [decide_eq_false (show ¬ (_ ∧ _) from a)]
    exact ⟨⟨fun h => (by cases h), fun h => h.elim⟩, fun b hb => (by cases hb)⟩

end

/-- The invariant of excluding iterators over `ip_network`. -/
def AnyExSafe (c : Cfg) (x : AnyEx) : Prop :=
  (∃ p, x = anyEx .v4 p ∧ ExAny (fam4 true) p) ∨ (∃ p, x = anyEx .v6 p ∧ ExAny (fam6 c) p)

/-- The invariant of all objects. -/
def AnySafe (c : Cfg) (o : AnyObj) : Prop :=
  (∃ p, o = as4 p ∧ noExclusion p = true ∧ HeldOk (fam4 true) WF4 BitVec.toNat true p ∧ SafeObj (fam4 true) WF4 BitVec.toNat p) ∨
  (∃ p, o = as6 p ∧ noExclusion p = true ∧ SafeObj (fam6 c) (V6.WF c.M) U128.val p) ∨
  (∃ x, o = .exit x ∧ AnyExSafe c x) ∨
  (∃ x y, o = .exs x y ∧ AnyExSafe c x ∧ AnyExSafe c y)

/-- `bad` says when there is no defined value, and all values satisfy `P`. -/
def OutA (bad : Prop) (P : AnyObj → Prop) (r : Option (Res AnyObj)) : Prop :=
  (r = some .ub ↔ bad) ∧ ∀ o, r = some (.ok o) → P o

theorem OutA.none {bad : Prop} {P : AnyObj → Prop} (h : ¬ bad) : OutA bad P none :=
  ⟨⟨fun h => (by cases h), fun h' => (h h').elim⟩, fun o ho => (by cases ho)⟩

theorem Out.any {α : Type} {bad bad' : Prop} {P : α → Prop} {Q : AnyObj → Prop} {r : Res α} {f : α → AnyObj} (h : Out bad P r)
    (hf : ∀ a, P a → Q (f a)) (e : bad ↔ bad') : OutA bad' Q (Option.some (r >>= fun a => Res.ok (f a))) := by
  have h := h.bind hf
  exact ⟨⟨fun h' => e.1 (h.1.1 (Option.some.inj h')), fun h' => congrArg _ (h.1.2 (e.2 h'))⟩, fun o ho => h.2 o (Option.some.inj ho)⟩

theorem image_ub {α β : Type} {f : α → β} {r : Res α} : r.image f = .ub ↔ r = .ub := by cases r <;> simp [Res.image]

section
variable (c : Cfg) (hc : c.le = true)
include hc

omit hc in
theorem anySafe_net (n : AnyNet) (h : NetOkAny c n) : AnySafe c (.net n) := by
  cases n with
  | v4 n => exact .inl ⟨.net n, rfl, rfl, h, h⟩
  | v6 n => exact .inr (.inl ⟨.net n, rfl, rfl, h⟩)

omit hc in
theorem AnySafe.net {c : Cfg} {n : AnyNet} (h : AnySafe c (.net n)) : NetOkAny c n := by
  rcases h with ⟨p, e, -, -, h⟩ | ⟨p, e, -, h⟩ | ⟨x, e, h⟩ | ⟨x, y, e, h⟩
  · cases p <;> cases e
    exact h
  · cases p <;> cases e
    exact h
  · cases e
  · cases e

theorem anyExDefault_safe : ∃ d, anyExDefault c = .ok d ∧ AnyExSafe c d := by
  obtain ⟨d, h1, h2⟩ := exDefault_yields fam4Law
  exact ⟨anyEx .v4 d, by rw [anyExDefault4, hc, h1]; rfl, .inl ⟨d, rfl, h2⟩⟩

theorem exOr4 (y : AnyEx) (h : ExOr (fam4 true) c .v4 y) : AnyExSafe c y := by
  obtain ⟨d, d1, d2⟩ := anyExDefault_safe c hc
  rcases h with ⟨p, rfl, hp⟩ | h
  · exact .inl ⟨p, rfl, hp⟩
  · rw [d1] at h; cases h; exact d2

theorem exOr6 (y : AnyEx) (h : ExOr (fam6 c) c .v6 y) : AnyExSafe c y := by
  obtain ⟨d, d1, d2⟩ := anyExDefault_safe c hc
  rcases h with ⟨p, rfl, hp⟩ | h
  · exact .inr ⟨p, rfl, hp⟩
  · rw [d1] at h; cases h; exact d2

theorem anyExInc_safe (x : AnyEx) (hx : AnyExSafe c x) : Yields (AnyExSafe c) (anyExInc c x) := by
  obtain ⟨d, d1, -⟩ := anyExDefault_safe c hc
  rcases hx with ⟨p, rfl, hp⟩ | ⟨p, rfl, hp⟩
  · obtain ⟨y, h1, h2⟩ := anyExInc_yields fam4Law safeLaw4 (halvesEmb4 c hc) d d1 p hp
    exact ⟨y, h1, exOr4 c hc y h2⟩
  · obtain ⟨y, h1, h2⟩ := anyExInc_yields (fam6Law c hc) (safeLaw6 c hc) (halvesEmb6 c) d d1 p hp
    exact ⟨y, h1, exOr6 c hc y h2⟩

theorem anyExclude_safe (n o : AnyNet) (hn : NetOkAny c n) (ho : NetOkAny c o) :
    Out False (fun s => AnyExSafe c s.1 ∧ AnyExSafe c s.2) (anyNetExclude c n o) := by
  obtain ⟨d, d1, -⟩ := anyExDefault_safe c hc
  have err : Out False (fun s : AnyEx × AnyEx => AnyExSafe c s.1 ∧ AnyExSafe c s.2) (.err .invalid_version 0) :=
    ⟨⟨fun h => (by cases h), fun h => h.elim⟩, fun b hb => (by cases hb)⟩
  cases n with
  | v4 n =>
    cases o with
    | v4 o =>
      obtain ⟨l, l1, l2⟩ := anyRemoveScope4 c hc n hn
      obtain ⟨r, r1, r2⟩ := anyRemoveScope4 c hc o ho
      have h := anyExclude_out fam4Law safeLaw4 (halvesEmb4 c hc) d d1 n o l r l1 l2 r1 r2 rfl
      exact ⟨h.1, fun s hs => ⟨exOr4 c hc _ (h.2 s hs).1, exOr4 c hc _ (h.2 s hs).2⟩⟩
    | v6 o => exact err
  | v6 n =>
    cases o with
    | v4 o => exact err
    | v6 o =>
      obtain ⟨l, l1, l2⟩ := anyRemoveScope6 c hc n hn
      obtain ⟨r, r1, r2⟩ := anyRemoveScope6 c hc o ho
      have h := anyExclude_out (fam6Law c hc) (safeLaw6 c hc) (halvesEmb6 c) d d1 n o l r l1 l2 r1 r2 rfl
      exact ⟨h.1, fun s hs => ⟨exOr6 c hc _ (h.2 s hs).1, exOr6 c hc _ (h.2 s hs).2⟩⟩

omit hc in
theorem anyUndefined_as4 (e : Expr U128) (i : Nat) (h : place e = some i) (st : List AnyObj) (p : Obj (List (BitVec 8)) (BitVec 32))
    (hx : st[i]? = some (as4 p)) :
    Undefined 32 false (List.replicate (i + 1) p) (Expr.on cut e) ↔ AnyUndefined st e := by
  cases e <;> cases h <;> simp only [Undefined, AnyUndefined, Expr.on, rep_get, hx] <;> cases p <;>
    simp [as4, bitsOf, lengthOf, netAt, SupernetUndefined, SubnetsUndefined]

omit hc in
theorem anyUndefined_as6 (e : Expr U128) (i : Nat) (h : place e = some i) (st : List AnyObj) (p : Obj V6 U128)
    (hx : st[i]? = some (as6 p)) :
    Undefined 128 true (List.replicate (i + 1) p) e ↔ AnyUndefined st e := by
  cases e <;> cases h <;> simp only [Undefined, AnyUndefined, rep_get, hx] <;> cases p <;>
    simp [as6, bitsOf, lengthOf, netAt, SupernetUndefined, SubnetsUndefined]

omit hc in
theorem usual_on (e : Expr U128) (h : Usual e) : Usual (Expr.on cut e) := by
  obtain ⟨h1, h2⟩ := h
  cases e <;> first | exact ⟨rfl, h2⟩ | cases h1

omit hc in
theorem bothHave_on (e : Expr U128) (h : bothHave e = true) (h' : noDefault e = true) :
    bothHave (Expr.on cut e) = true ∧ noDefault (Expr.on cut e) = true := by
  cases e <;> first | exact ⟨rfl, rfl⟩ | (cases h; done) | (cases h'; done)

theorem anyEval_place_out (e : Expr U128) (he : Usual e) (i : Nat) (h : place e = some i) (st : List AnyObj) (x : AnyObj)
    (hx : st[i]? = some x) (hok : AnySafe c x) : OutA (AnyUndefined st e) (AnySafe c) (anyEval c st e) := by
  have hl := anyEval_local c e i h st (List.replicate (i + 1) x) (by rw [hx, rep_get])
  have hb := place_both e i h
  rcases hok with ⟨p, rfl, hn, hp, hs⟩ | ⟨p, rfl, hn, hs⟩ | ⟨x, rfl, hp⟩ | ⟨x, y, rfl, hp⟩
  · have hst : ∀ o ∈ List.replicate (i + 1) p, HeldOk (fam4 true) WF4 BitVec.toNat true o :=
      fun o ho => by rw [List.eq_of_mem_replicate ho]; exact hp
    have hst' : ∀ o ∈ List.replicate (i + 1) p, noExclusion o = true :=
      fun o ho => by rw [List.eq_of_mem_replicate ho]; exact hn
    have hss : ∀ o ∈ List.replicate (i + 1) p, SafeObj (fam4 true) WF4 BitVec.toNat o :=
      fun o ho => by rw [List.eq_of_mem_replicate ho]; exact hs
    rw [← List.map_replicate, simEval4 c hc true _ hst e hb.1, hc] at hl
    have out := eval_out fam4Law progLaw4 safeLaw4 _ hss (Expr.on cut e) (usual_on e he)
    rw [hl]
    refine ⟨?_, fun o ho => ?_⟩
    · rw [← anyUndefined_as4 e i h st p hx]
      refine Iff.trans ?_ out.1
      rw [Option.map_eq_some_iff]
      constructor
      · rintro ⟨r, h1, h2⟩
        rw [h1, image_ub.1 h2]
      · intro h
        exact ⟨.ub, h, rfl⟩
    · obtain ⟨r, h1, h2⟩ := Option.map_eq_some_iff.1 ho
      obtain ⟨q, rfl, rfl⟩ := image_eq_ok h2
      have hbo := bothHave_on e hb.1 hb.2
      exact .inl ⟨q, rfl, eval_noExclusion (fam4 true) _ hst' _ hbo.1 hbo.2 q h1,
        eval_ok fam4Law progLaw4 true _ hst _ (fun _ => rfl) q h1, out.2 q h1⟩
  · have hst' : ∀ o ∈ List.replicate (i + 1) p, noExclusion o = true :=
      fun o ho => by rw [List.eq_of_mem_replicate ho]; exact hn
    have hss : ∀ o ∈ List.replicate (i + 1) p, SafeObj (fam6 c) (V6.WF c.M) U128.val o :=
      fun o ho => by rw [List.eq_of_mem_replicate ho]; exact hs
    rw [← List.map_replicate, simEval6 c _ hst' e hb.1 hb.2] at hl
    have out := eval_out (fam6Law c hc) (progLaw6 c hc) (safeLaw6 c hc) _ hss e he
    rw [hl]
    refine ⟨?_, fun o ho => ?_⟩
    · rw [← anyUndefined_as6 e i h st p hx]
      refine Iff.trans ?_ out.1
      rw [Option.map_eq_some_iff]
      constructor
      · rintro ⟨r, h1, h2⟩
        rw [h1, image_ub.1 h2]
      · intro h
        exact ⟨.ub, h, rfl⟩
    · obtain ⟨r, h1, h2⟩ := Option.map_eq_some_iff.1 ho
      obtain ⟨q, rfl, rfl⟩ := image_eq_ok h2
      exact .inr (.inl ⟨q, rfl, eval_noExclusion (fam6 c) _ hst' _ hb.1 hb.2 q h1, out.2 q h1⟩)
  · have hbad : ¬ AnyUndefined st e := by
      cases e <;> cases h <;> simp [AnyUndefined, hx]
    rw [hl]
    cases e <;> cases h <;> simp only [anyEval, rep_get]
    case inr.inr.inl.move.refl => exact (anyExInc_safe c hc x hp).out.any (fun y hy => .inr (.inr (.inl ⟨y, rfl, hy⟩))) (iff_of_false id hbad)
    case inr.inr.inl.deref.refl =>
      refine ⟨iff_of_false (by simp) hbad, fun o ho => ?_⟩
      cases ho
      refine anySafe_net c _ ?_
      rcases hp with ⟨p, rfl, q, u, a, b, a', b', k⟩ | ⟨p, rfl, q, u, a, b, a', b', k⟩
      · obtain ⟨_, _, k⟩ := k.cur
        exact k.netOk fam4Law
      · obtain ⟨_, _, k⟩ := k.cur
        exact k.netOk (fam6Law c hc)
    all_goals exact OutA.none hbad
  · have hbad : ¬ AnyUndefined st e := by
      cases e <;> cases h <;> simp [AnyUndefined, hx]
    rw [hl]
    cases e <;> cases h <;> simp only [anyEval, rep_get]
    case inr.inr.inr.first.refl =>
      refine ⟨iff_of_false (by simp) hbad, fun o ho => ?_⟩
      cases ho
      exact .inr (.inr (.inl ⟨x, rfl, hp.1⟩))
    case inr.inr.inr.last.refl =>
      refine ⟨iff_of_false (by simp) hbad, fun o ho => ?_⟩
      cases ho
      exact .inr (.inr (.inl ⟨y, rfl, hp.2⟩))
    all_goals exact OutA.none hbad

omit hc in
theorem anyUndefined_nil (e : Expr U128) (st : List AnyObj) (h : place e = none) (h' : ∀ evs s, e ≠ .parse evs s) : ¬ AnyUndefined st e := by
  cases e <;> first | exact not_false | (cases h; done) | exact (h' _ _ rfl).elim

/-- The default objects. -/
theorem anyEval_default_out (e : Expr U128) (hs : bothHave e = true) (hu : Usual e) (st : List AnyObj) (hst : anyEval c st e = anyEval c [] e)
    (hn : ∀ o, (fam4 true).eval [] (Expr.on cut e) = some (.ok o) → noExclusion o = true)
    (hb : ¬ AnyUndefined st e) (hb' : ¬ Undefined 32 false ([] : List (Obj (List (BitVec 8)) (BitVec 32))) (Expr.on cut e)) :
    OutA (AnyUndefined st e) (AnySafe c) (anyEval c st e) := by
  have hst0 : ∀ o ∈ ([] : List (Obj (List (BitVec 8)) (BitVec 32))), HeldOk (fam4 true) WF4 BitVec.toNat true o := by simp
  have out := eval_out fam4Law progLaw4 safeLaw4 [] (by simp) (Expr.on cut e) (usual_on e hu)
  have hl := simEval4 c hc true [] hst0 e hs
  rw [hc] at hl
  have hl : anyEval c [] e = _ := hl
  rw [hst, hl]
  refine ⟨iff_of_false (fun h => hb' ?_) hb, fun o ho => ?_⟩
  · obtain ⟨r, h1, h2⟩ := Option.map_eq_some_iff.1 h
    rw [image_ub.1 h2] at h1
    exact out.1.1 h1
  · obtain ⟨r, h1, h2⟩ := Option.map_eq_some_iff.1 ho
    obtain ⟨q, rfl, rfl⟩ := image_eq_ok h2
    exact .inl ⟨q, rfl, hn q h1, eval_ok fam4Law progLaw4 true _ hst0 _ (fun _ => rfl) q h1, out.2 q h1⟩

theorem anyEval_out (st : List AnyObj) (hst : ∀ o ∈ st, AnySafe c o) (e : Expr U128) (he : Usual e) :
    OutA (AnyUndefined st e) (AnySafe c) (anyEval c st e) := by
  have get : ∀ i o, st[i]? = some o → AnySafe c o := fun i o h => hst o (List.mem_of_getElem? h)
  cases hp : place e with
  | some i =>
    cases hx : st[i]? with
    | none =>
      have : anyEval c st e = none := by cases e <;> cases hp <;> simp [anyEval, hx]
      rw [this]
      refine OutA.none ?_
      cases e <;> cases hp <;> simp [AnyUndefined, hx]
    | some x => exact anyEval_place_out c hc e he i hp st x hx (get i x hx)
  | none =>
    obtain ⟨d, d1, d2⟩ := anyExDefault_safe c hc
    cases e with
    | parse evs s =>
      refine Out.any (P := NetOkAny c) (bad := AnyUndefined st (.parse evs s)) ⟨?_, fun n hn => (C49_invariant c hc).1 evs s n hn⟩
        (fun n hn => anySafe_net c n hn) Iff.rfl
      exact (C49_parse c hc evs s).2.2.2.1.trans (C26_parser_safe c hc evs s).2
    | exclude i j =>
      have hb := anyUndefined_nil (.exclude i j) st rfl (by simp)
      simp only [anyEval]
      split
      · next n m e1 e2 =>
        exact (anyExclude_safe c hc n m (get i _ e1).net (get j _ e2).net).any (Q := AnySafe c) (f := fun s => .exs s.1 s.2)
          (fun s hs => .inr (.inr (.inr ⟨_, _, rfl, hs⟩))) (iff_of_false id hb)
      · exact OutA.none hb
    | excludeCode i j =>
      have hb := anyUndefined_nil (.excludeCode i j) st rfl (by simp)
      simp only [anyEval]
      split
      · next n m e1 e2 =>
        have k : Out False (fun s => AnyExSafe c s.2.1 ∧ AnyExSafe c s.2.2) (anyExcludeCode c n m none) := by
          refine Out.setCode (P := fun s : AnyEx × AnyEx => AnyExSafe c s.1 ∧ AnyExSafe c s.2) ⟨(d, d), ?_, d2, d2⟩
            (anyExclude_safe c hc n m (get i _ e1).net (get j _ e2).net) _
          rw [d1]; rfl
        exact k.any (Q := AnySafe c) (f := fun s => .exs s.2.1 s.2.2) (fun s hs => .inr (.inr (.inr ⟨_, _, rfl, hs⟩))) (iff_of_false id hb)
      · exact OutA.none hb
    | exitMk i j => cases he.1
    | exsMk i j => cases he.1
    | defNet =>
      refine anyEval_default_out c hc .defNet rfl he st rfl (fun o ho => ?_) not_false not_false
      obtain ⟨n, -, h⟩ := Res.bind_eq_ok.1 (Option.some.inj ho)
      cases h; rfl
    | defAit =>
      refine anyEval_default_out c hc .defAit rfl he st rfl (fun o ho => ?_) not_false not_false
      cases ho; rfl
    | defNit =>
      refine anyEval_default_out c hc .defNit rfl he st rfl (fun o ho => ?_) not_false not_false
      obtain ⟨n, -, h⟩ := Res.bind_eq_ok.1 (Option.some.inj ho)
      cases h; rfl
    | defExit =>
      refine ⟨iff_of_false ?_ not_false, fun o ho => ?_⟩ <;> simp only [anyEval, d1, Res.ok_bind] at *
      · simp
      · cases ho; exact .inr (.inr (.inl ⟨d, rfl, d2⟩))
    | defExs =>
      refine ⟨iff_of_false ?_ not_false, fun o ho => ?_⟩ <;> simp only [anyEval, d1, Res.ok_bind] at *
      · simp
      · cases ho; exact .inr (.inr (.inr ⟨d, d, rfl, d2, d2⟩))
    | _ => first | exact OutA.none not_false | cases hp

omit hc in
theorem anyAfter_out {bad : Prop} {st : List AnyObj} {r : Option (Res AnyObj)} {f : AnyObj → List AnyObj}
    (h : OutA bad (AnySafe c) r) (hst : ∀ o ∈ st, AnySafe c o) (hf : ∀ o, AnySafe c o → ∀ x ∈ f o, AnySafe c x) :
    (bad → anyAfter st r f = .ub) ∧ (¬ bad → Yields (fun st' => ∀ o ∈ st', AnySafe c o) (anyAfter st r f)) := by
  refine ⟨fun hb => by rw [h.1.2 hb]; rfl, fun hb => ?_⟩
  rcases r with _ | (o | ⟨e, v⟩ | _)
  · exact ⟨st, rfl, hst⟩
  · exact ⟨f o, rfl, hf o (h.2 o rfl)⟩
  · exact ⟨st, rfl, hst⟩
  · exact (hb (h.1.1 rfl)).elim

theorem anyExec_out (st : List AnyObj) (hst : ∀ o ∈ st, AnySafe c o) (s : Stmt U128) (hs : UsualStmt s) :
    (AnyUndefinedStmt st s → anyExec c st s = .ub) ∧
    (¬ AnyUndefinedStmt st s → Yields (fun st' => ∀ o ∈ st', AnySafe c o) (anyExec c st s)) := by
  cases s with
  | new e =>
    refine anyAfter_out c (anyEval_out c hc st hst e hs) hst fun o ho x hx => ?_
    rcases List.mem_append.1 hx with hx | hx
    · exact hst x hx
    · rw [List.mem_singleton.1 hx]; exact ho
  | put i e =>
    refine anyAfter_out c (anyEval_out c hc st hst e hs) hst fun o ho x hx => ?_
    rcases mem_set_of hx with hx | hx
    · exact hst x hx
    · rw [hx]; exact ho
  | swap i j =>
    refine ⟨fun h => h.elim, fun _ => ?_⟩
    have get : ∀ i o, st[i]? = some o → AnySafe c o := fun i o h => hst o (List.mem_of_getElem? h)
    have two : ∀ a b, AnySafe c a → AnySafe c b → ∀ o ∈ (st.set i a).set j b, AnySafe c o := by
      intro a b ha hb o ho
      rcases mem_set_of ho with ho | rfl
      · rcases mem_set_of ho with ho | rfl
        · exact hst o ho
        · exact ha
      · exact hb
    simp only [anyExec]
    split
    · next n m e1 e2 => exact ⟨_, rfl, two _ _ (get j _ e2) (get i _ e1)⟩
    · next a b _ e1 e2 => exact ⟨_, rfl, two _ _ (get j _ e2) (get i _ e1)⟩
    · exact ⟨_, rfl, hst⟩

/-- A program ends without a store exactly when it comes to an undefined statement. -/
theorem anyRun_out : ∀ (prog : List (Stmt U128)) (st : List AnyObj), (∀ o ∈ st, AnySafe c o) → (∀ s ∈ prog, UsualStmt s) →
    (anyRun c prog st = .ub ∧ ∃ before s rest st', prog = before ++ s :: rest ∧ anyRun c before st = .ok st' ∧ AnyUndefinedStmt st' s) ∨
    (Yields (fun st' => ∀ o ∈ st', AnySafe c o) (anyRun c prog st) ∧
      ∀ before s rest st', prog = before ++ s :: rest → anyRun c before st = .ok st' → ¬ AnyUndefinedStmt st' s)
  | [], st, hst, _ => .inr ⟨⟨st, rfl, hst⟩, fun before s rest st' h => (by cases before <;> cases h)⟩
  | s :: rest, st, hst, hp => by
    obtain ⟨h1, h2⟩ := anyExec_out c hc st hst s (hp s (List.mem_cons_self ..))
    by_cases hu : AnyUndefinedStmt st s
    · exact .inl ⟨by show (anyExec c st s >>= _) = _; rw [h1 hu]; rfl, [], s, rest, st, rfl, rfl, hu⟩
    · obtain ⟨st1, k1, k2⟩ := h2 hu
      have e : ∀ p, anyRun c (s :: p) st = anyRun c p st1 := fun p => by
        show (anyExec c st s >>= fun st => anyRun c p st) = _
        rw [k1]; rfl
      rcases anyRun_out rest st1 k2 (fun s hs => hp s (List.mem_cons_of_mem _ hs)) with ⟨r1, b, t, q, st', r2, r3, r4⟩ | ⟨r1, r2⟩
      · exact .inl ⟨by rw [e, r1], s :: b, t, q, st', by rw [r2]; rfl, by rw [e, r3], r4⟩
      · refine .inr ⟨by rw [e]; exact r1, ?_⟩
        intro b t q st' hb hr
        cases b with
        | nil => cases hb; cases hr; exact hu
        | cons x b =>
          cases hb
          rw [e] at hr
          exact r2 b t q st' rfl hr

end
end Ip
