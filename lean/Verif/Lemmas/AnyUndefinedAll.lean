import Verif.Spec.AnyUndefinedAll
import Verif.Lemmas.AnyUndefined
import Verif.Props.UndefinedAll
/-
Which calls of programs over the version agnostic classes have no defined outcome, with the constructors of
excluding iterators and sequences.
-/
set_option autoImplicit false

namespace Ip
open Spec

section
variable {A U : Type} {F : Fam A U} {WF : A → Prop} {val : U → Nat} {c : Cfg} {e : Net A → AnyNet}

/-- An iterator over the networks of one version, or the default one. -/
def ExOrHeld (F : Fam A U) (WF : A → Prop) (c : Cfg) (e : Net A → AnyNet) (y : AnyEx) : Prop :=
  (∃ p, y = anyEx e p ∧ ExHeld F WF p) ∨ anyExDefault c = .ok y

/-- `operator++` with halves without scope ids. -/
theorem anyExInc_any (L : F.Law WF val) (S : SafeLaw F WF val) (T : TameLaw F WF val) (E : AnyEmb F c e) (d : AnyEx)
    (hd : anyExDefault c = .ok d) (x : ExIter A) (ho : NetOk F WF x.other)
    (h1 : IsNet F x.s1.plen (F.v x.s1.addr) x.s1) (h2 : IsNet F x.s2.plen (F.v x.s2.addr) x.s2) (hc : NetOk F WF x.cur) :
    (anyExInc c (anyEx e x) = .ub ∧ ¬ Part F.maxPrefix x.other.plen (F.v x.other.addr) x.s1.plen (F.v x.s1.addr) ∧
      ¬ Part F.maxPrefix x.other.plen (F.v x.other.addr) x.s2.plen (F.v x.s2.addr)) ∨
    (Yields (ExOrHeld F WF c e) (anyExInc c (anyEx e x)) ∧
      (Part F.maxPrefix x.other.plen (F.v x.other.addr) x.s1.plen (F.v x.s1.addr) ∨
      Part F.maxPrefix x.other.plen (F.v x.other.addr) x.s2.plen (F.v x.s2.addr))) := by
  obtain ⟨same, H⟩ := T.tame x.other ho
  obtain ⟨e1, d1⟩ := H _ _ _ h1
  obtain ⟨e2, d2⟩ := H _ _ _ h2
  obtain ⟨r1, c1⟩ := netEq_total L T x.cur x.s1 hc (h1.netOk L)
  obtain ⟨r2, c2⟩ := netEq_total L T x.cur x.s2 hc (h2.netOk L)
  obtain ⟨a1, b1, g1, g1a, g1b⟩ := halves_total L S x.s1 (h1.netOk L)
  obtain ⟨a2, b2, g2, g2a, g2b⟩ := halves_total L S x.s2 (h2.netOk L)
  have dflt : Yields (ExOrHeld F WF c e) (anyExDefault c) := ⟨d, hd, .inr hd⟩
  have part : ∀ m : Net A, (decide (F.v m.addr = F.v x.other.addr ∧ m.plen = x.other.plen) && same) = true →
      Part F.maxPrefix x.other.plen (F.v x.other.addr) m.plen (F.v m.addr) := by
    intro m h
    rw [Bool.and_eq_true, decide_eq_true_iff] at h
    unfold Part
    rw [h.1.1, h.1.2]
    exact ⟨Nat.le_refl _, Nat.le_refl _⟩
  unfold anyExInc
  simp only [anyEx, E.eq, E.sub, e1, e2, Res.ok_bind]
  cases q1 : (decide (F.v x.s1.addr = F.v x.other.addr ∧ x.s1.plen = x.other.plen) && same) with
  | true =>
    refine .inr ⟨?_, .inl (part _ q1)⟩
    simp only [Bool.not_true, Bool.false_and, Bool.false_eq_true, if_false, if_true, c2, Res.ok_bind]
    cases r2
    · exact ⟨_, rfl, .inl ⟨⟨x.other, x.s1, x.s2, x.s2⟩, rfl, ho, h1, h2, h2.netOk L⟩⟩
    · exact dflt
  | false =>
    cases q2 : (decide (F.v x.s2.addr = F.v x.other.addr ∧ x.s2.plen = x.other.plen) && same) with
    | true =>
      refine .inr ⟨?_, .inr (part _ q2)⟩
      simp only [Bool.not_true, Bool.not_false, Bool.and_false, Bool.false_eq_true, if_false, if_true, c1, Res.ok_bind]
      cases r1
      · exact ⟨_, rfl, .inl ⟨⟨x.other, x.s1, x.s2, x.s1⟩, rfl, ho, h1, h2, h1.netOk L⟩⟩
      · exact dflt
    | false =>
      simp only [Bool.not_false, Bool.and_self, if_true, d1, d2, Res.ok_bind, c1, c2, E.halves _ _ _ g1, E.halves _ _ _ g2,
        decide_eq_true_eq]
      by_cases p1 : Part F.maxPrefix x.other.plen (F.v x.other.addr) x.s1.plen (F.v x.s1.addr)
      · refine .inr ⟨?_, .inl p1⟩
        rw [if_pos p1]
        cases r2
        · exact ⟨_, rfl, .inl ⟨⟨x.other, a1, b1, x.s2⟩, rfl, ho, g1a, g1b, h2.netOk L⟩⟩
        · exact dflt
      · rw [if_neg p1]
        by_cases p2 : Part F.maxPrefix x.other.plen (F.v x.other.addr) x.s2.plen (F.v x.s2.addr)
        · refine .inr ⟨?_, .inr p2⟩
          rw [if_pos p2]
          cases r1
          · exact ⟨_, rfl, .inl ⟨⟨x.other, a2, b2, x.s1⟩, rfl, ho, g2a, g2b, h1.netOk L⟩⟩
          · exact dflt
        · rw [if_neg p2]
          exact .inl ⟨rfl, p1, p2⟩

/-- The operator of the version agnostic iterator fails exactly when the one of the version fails. -/
theorem anyExInc_out (L : F.Law WF val) (S : SafeLaw F WF val) (T : TameLaw F WF val) (E : AnyEmb F c e) (d : AnyEx)
    (hd : anyExDefault c = .ok d) (x : ExIter A) (hx : ExHeld F WF x) :
    Out (Leaves F.maxPrefix F.v x.other x.s1 ∧ Leaves F.maxPrefix F.v x.other x.s2) (ExOrHeld F WF c e) (anyExInc c (anyEx e x)) := by
  rw [leaves_iff L _ _ hx.other (hx.s1.netOk L), leaves_iff L _ _ hx.other (hx.s2.netOk L)]
  rcases anyExInc_any L S T E d hd x hx.other hx.s1 hx.s2 hx.cur with ⟨h1, h2⟩ | ⟨h1, h2⟩
  · rw [h1]
    exact ⟨⟨fun _ => h2, fun _ => rfl⟩, fun y hy => (by cases hy)⟩
  · refine h1.out.congr ⟨False.elim, fun h => ?_⟩
    exact h2.elim h.1 h.2

theorem anyExMk_out (L : F.Law WF val) (S : SafeLaw F WF val) (T : TameLaw F WF val) (E : AnyEmb F c e) (d : AnyEx)
    (hd : anyExDefault c = .ok d) (n o : Net A) (hn : NetOk F WF n) (ho : NetOk F WF o) :
    Out (¬ (StrictlyInside F.maxPrefix o.plen (F.v o.addr) n.plen (F.v n.addr) ∨
        SelfOrNext F.maxPrefix o.plen (F.v o.addr) n.plen (F.v n.addr))) (ExOrHeld F WF c e) (anyExMk c (e n) (e o)) := by
  obtain ⟨a, b, h, ha, hb⟩ := halves_total L S n hn
  have key := (exMk_out L S T n o hn ho).1.1
  have hx := exInc_any L S T ⟨o, a, b, n⟩ ho ha hb hn
  have em : F.exMk n o = F.exInc ⟨o, a, b, n⟩ := by simp only [Fam.exMk, h, Res.ok_bind]
  have ea : anyExMk c (e n) (e o) = anyExInc c (anyEx e ⟨o, a, b, n⟩) := by rw [anyExMk, E.halves _ _ _ h, Res.ok_bind]; rfl
  rw [em] at key
  rw [ea]
  rcases anyExInc_any L S T E d hd ⟨o, a, b, n⟩ ho ha hb hn with ⟨h1, h2, h3⟩ | ⟨h1, h2⟩
  · rw [h1]
    refine ⟨⟨fun _ => key.1 ?_, fun _ => rfl⟩, fun y hy => (by cases hy)⟩
    rcases hx with ⟨k, -⟩ | ⟨-, k⟩
    · exact k
    · exact (k.elim h2 h3).elim
  · refine h1.out.congr ⟨False.elim, fun hb => ?_⟩
    rcases hx with ⟨-, k1, k2⟩ | ⟨⟨y, k, -⟩, -⟩
    · exact h2.elim k1 k2
    · rw [key.2 hb] at k; cases k

end

/-- The invariant of excluding iterators over `ip_network`. -/
def AnyExHeld (c : Cfg) (x : AnyEx) : Prop :=
  (∃ p, x = anyEx .v4 p ∧ ExHeld (fam4 true) WF4 p) ∨ (∃ p, x = anyEx .v6 p ∧ ExHeld (fam6 c) (V6.WF c.M) p)

/-- The invariant of all objects. -/
def AnyTame (c : Cfg) (o : AnyObj) : Prop :=
  (AnySafe c o ∧ (∀ x, o ≠ .exit x) ∧ ∀ x y, o ≠ .exs x y) ∨ (∃ x, o = .exit x ∧ AnyExHeld c x) ∨
    (∃ x y, o = .exs x y ∧ AnyExHeld c x ∧ AnyExHeld c y)

theorem OutA.imp {bad bad' : Prop} {P Q : AnyObj → Prop} {r : Option (Res AnyObj)} (h : OutA bad P r) (hf : ∀ o, P o → Q o) (e : bad ↔ bad') :
    OutA bad' Q r := ⟨h.1.trans e, fun o ho => hf o (h.2 o ho)⟩

section
variable (c : Cfg) (hc : c.le = true)
include hc

theorem AnyExSafe.held {x : AnyEx} (h : AnyExSafe c x) : AnyExHeld c x := by
  rcases h with ⟨p, e, h⟩ | ⟨p, e, h⟩
  · exact .inl ⟨p, e, h.held fam4Law⟩
  · exact .inr ⟨p, e, h.held (fam6Law c hc)⟩

theorem AnySafe.tame {o : AnyObj} (h : AnySafe c o) : AnyTame c o := by
  rcases h with ⟨p, rfl, h⟩ | ⟨p, rfl, h⟩ | ⟨x, rfl, h⟩ | ⟨x, y, rfl, h1, h2⟩
  · refine .inl ⟨.inl ⟨p, rfl, h⟩, fun x e => ?_, fun x y e => ?_⟩ <;> · cases p <;> cases e <;> cases h.1
  · refine .inl ⟨.inr (.inl ⟨p, rfl, h⟩), fun x e => ?_, fun x y e => ?_⟩ <;> · cases p <;> cases e <;> cases h.1
  · exact .inr (.inl ⟨x, rfl, AnyExSafe.held c hc h⟩)
  · exact .inr (.inr ⟨x, y, rfl, AnyExSafe.held c hc h1, AnyExSafe.held c hc h2⟩)

omit hc in
theorem AnyTame.net {c : Cfg} {n : AnyNet} (h : AnyTame c (.net n)) : NetOkAny c n := by
  rcases h with ⟨h, -⟩ | ⟨x, e, -⟩ | ⟨x, y, e, -⟩
  · exact h.net
  · cases e
  · cases e

theorem exOrHeld4 (y : AnyEx) (h : ExOrHeld (fam4 true) WF4 c .v4 y) : AnyExHeld c y := by
  obtain ⟨d, d1, d2⟩ := anyExDefault_safe c hc
  rcases h with ⟨p, rfl, hp⟩ | h
  · exact .inl ⟨p, rfl, hp⟩
  · rw [d1] at h; cases h; exact AnyExSafe.held c hc d2

theorem exOrHeld6 (y : AnyEx) (h : ExOrHeld (fam6 c) (V6.WF c.M) c .v6 y) : AnyExHeld c y := by
  obtain ⟨d, d1, d2⟩ := anyExDefault_safe c hc
  rcases h with ⟨p, rfl, hp⟩ | h
  · exact .inr ⟨p, rfl, hp⟩
  · rw [d1] at h; cases h; exact AnyExSafe.held c hc d2

variable (hv : ∀ x y, c.val x = c.val y → x = y)
include hv

theorem anyExInc_held (x : AnyEx) (hx : AnyExHeld c x) :
    Out (AnyLeaves x.other x.s1 ∧ AnyLeaves x.other x.s2) (AnyExHeld c) (anyExInc c x) := by
  obtain ⟨d, d1, -⟩ := anyExDefault_safe c hc
  rcases hx with ⟨p, rfl, hp⟩ | ⟨p, rfl, hp⟩
  · exact (anyExInc_out fam4Law safeLaw4 tameLaw4 (halvesEmb4 c hc) d d1 p hp).imp (exOrHeld4 c hc)
  · exact (anyExInc_out (fam6Law c hc) (safeLaw6 c hc) (tameLaw6 c hc hv) (halvesEmb6 c) d d1 p hp).imp (exOrHeld6 c hc)

/-- Networks of different versions are never equal and never parts of each other. -/
theorem anyExMk_held (n o : AnyNet) (hn : NetOkAny c n) (ho : NetOkAny c o) :
    Out (¬ CanExclude n o) (AnyExHeld c) (anyExMk c n o) := by
  obtain ⟨d, d1, -⟩ := anyExDefault_safe c hc
  cases n with
  | v4 n =>
    cases o with
    | v4 o => exact (anyExMk_out fam4Law safeLaw4 tameLaw4 (halvesEmb4 c hc) d d1 n o hn ho).imp (exOrHeld4 c hc)
    | v6 o =>
      obtain ⟨a, b, h, -⟩ := halves_total fam4Law safeLaw4 n hn
      have : anyExMk c (.v4 n) (.v6 o) = .ub := by
        rw [anyExMk, (halvesEmb4 c hc).halves _ _ _ h]; rfl
      rw [this]
      exact ⟨⟨fun _ => not_false, fun _ => rfl⟩, fun y hy => (by cases hy)⟩
  | v6 n =>
    cases o with
    | v4 o =>
      obtain ⟨a, b, h, -⟩ := halves_total (fam6Law c hc) (safeLaw6 c hc) n hn
      have : anyExMk c (.v6 n) (.v4 o) = .ub := by
        rw [anyExMk, (halvesEmb6 c).halves _ _ _ h]; rfl
      rw [this]
      exact ⟨⟨fun _ => not_false, fun _ => rfl⟩, fun y hy => (by cases hy)⟩
    | v6 o =>
      exact (anyExMk_out (fam6Law c hc) (safeLaw6 c hc) (tameLaw6 c hc hv) (halvesEmb6 c) d d1 n o hn ho).imp (exOrHeld6 c hc)

theorem anyEval_any (st : List AnyObj) (hst : ∀ o ∈ st, AnyTame c o) (e : Expr U128) (he : sizeArgs e) :
    OutA (AnyUndefinedAll st e) (AnyTame c) (anyEval c st e) := by
  have get : ∀ i o, st[i]? = some o → AnyTame c o := fun i o h => hst o (List.mem_of_getElem? h)
  cases hp : place e with
  | some i =>
    cases hx : st[i]? with
    | none =>
      have : anyEval c st e = none := by cases e <;> cases hp <;> simp [anyEval, hx]
      rw [this]
      refine OutA.none ?_
      cases e <;> cases hp <;> simp [AnyUndefinedAll, AnyUndefined, hx]
    | some x =>
      rcases get i x hx with ⟨h, h1, h2⟩ | ⟨x, rfl, h⟩ | ⟨x, y, rfl, h⟩
      · have hu : Usual e := ⟨by cases e <;> cases hp <;> rfl, he⟩
        refine (anyEval_place_out c hc e hu i hp st x hx h).imp (fun o ho => ho.tame c hc) ?_
        cases e <;> first | exact Iff.rfl | (cases hp; done) | skip
        refine ⟨fun h => h.elim, ?_⟩
        rintro ⟨y, e, -⟩
        cases hp
        rw [hx] at e
        exact h1 y (Option.some.inj e)
      · by_cases hm : ∃ m, e = .move i m
        · obtain ⟨m, rfl⟩ := hm
          simp only [anyEval, hx]
          refine (anyExInc_held c hc hv x h).any (fun y hy => .inr (.inl ⟨y, rfl, hy⟩)) ?_
          simp only [AnyUndefinedAll, hx, Option.some.injEq, AnyObj.exit.injEq]
          exact ⟨fun h => ⟨x, rfl, h⟩, fun ⟨y, e, h⟩ => e ▸ h⟩
        · have hbad : ¬ AnyUndefinedAll st e := by
            cases e <;> cases hp <;> first | exact (hm ⟨_, rfl⟩).elim | simp [AnyUndefinedAll, AnyUndefined, hx]
          cases e <;> cases hp <;> first | (exact (hm ⟨_, rfl⟩).elim) | simp only [anyEval, hx]
          case neg.deref.refl =>
            refine ⟨iff_of_false (by simp) hbad, fun o ho => ?_⟩
            cases ho
            have : NetOkAny c x.cur := by
              rcases h with ⟨p, rfl, k⟩ | ⟨p, rfl, k⟩
              · exact k.cur
              · exact k.cur
            exact (anySafe_net c _ this).tame c hc
          all_goals exact OutA.none hbad
      · have hbad : ¬ AnyUndefinedAll st e := by
          cases e <;> cases hp <;> simp [AnyUndefinedAll, AnyUndefined, hx]
        cases e <;> cases hp <;> simp only [anyEval, hx]
        case some.some.inr.inr.first.refl =>
          refine ⟨iff_of_false (by simp) hbad, fun o ho => ?_⟩
          cases ho
          exact .inr (.inl ⟨x, rfl, h.1⟩)
        case some.some.inr.inr.last.refl =>
          refine ⟨iff_of_false (by simp) hbad, fun o ho => ?_⟩
          cases ho
          exact .inr (.inl ⟨y, rfl, h.2⟩)
        all_goals exact OutA.none hbad
  | none =>
    obtain ⟨d, d1, d2⟩ := anyExDefault_safe c hc
    have d2 := AnyExSafe.held c hc d2
    have nil : Usual e → anyEval c st e = anyEval c [] e → (AnyUndefined [] e ↔ AnyUndefinedAll st e) →
        OutA (AnyUndefinedAll st e) (AnyTame c) (anyEval c st e) := fun hu h1 h2 => by
      rw [h1]
      exact (anyEval_out c hc [] (by simp) e hu).imp (fun o ho => ho.tame c hc) h2
    cases e with
    | exitMk i j =>
      simp only [anyEval]
      split
      · next n m e1 e2 =>
        refine (anyExMk_held c hc hv n m (get i _ e1).net (get j _ e2).net).any (fun y hy => .inr (.inl ⟨y, rfl, hy⟩)) ?_
        exact ⟨fun h => ⟨n, m, e1, e2, h⟩, fun ⟨n', m', h1, h2, h3⟩ => by rw [e1] at h1; rw [e2] at h2; cases h1; cases h2; exact h3⟩
      · next h => exact OutA.none fun ⟨n, m, h1, h2, _⟩ => h n m h1 h2
    | exsMk i j =>
      simp only [anyEval]
      split
      · next n m e1 e2 =>
        simp only [d1, Res.ok_bind]
        refine (anyExMk_held c hc hv n m (get i _ e1).net (get j _ e2).net).any (fun y hy => .inr (.inr ⟨y, d, rfl, hy, d2⟩)) ?_
        exact ⟨fun h => ⟨n, m, e1, e2, h⟩, fun ⟨n', m', h1, h2, h3⟩ => by rw [e1] at h1; rw [e2] at h2; cases h1; cases h2; exact h3⟩
      · next h => exact OutA.none fun ⟨n, m, h1, h2, _⟩ => h n m h1 h2
    | exclude i j =>
      simp only [anyEval]
      split
      · next n m e1 e2 =>
        exact (anyExclude_safe c hc n m (get i _ e1).net (get j _ e2).net).any (Q := AnyTame c) (f := fun s => .exs s.1 s.2)
          (fun s hs => .inr (.inr ⟨_, _, rfl, AnyExSafe.held c hc hs.1, AnyExSafe.held c hc hs.2⟩)) Iff.rfl
      · exact OutA.none not_false
    | excludeCode i j =>
      have hb : ¬ AnyUndefinedAll st (.excludeCode i j) := not_false
      cases hi : st[i]? with
      | none => simp only [anyEval, hi]; exact OutA.none hb
      | some a =>
        cases hj : st[j]? with
        | none =>
          have : anyEval c st (.excludeCode i j) = none := by cases a <;> simp only [anyEval, hi, hj]
          rw [this]; exact OutA.none hb
        | some b =>
          by_cases hn : (∃ n, a = .net n) ∧ ∃ m, b = .net m
          · obtain ⟨⟨n, rfl⟩, m, rfl⟩ := hn
            have := anyEval_out c hc [.net n, .net m] (by
              intro o ho
              simp only [List.mem_cons, List.not_mem_nil, or_false] at ho
              rcases ho with rfl | rfl
              · exact anySafe_net c _ (get i _ hi).net
              · exact anySafe_net c _ (get j _ hj).net) (.excludeCode 0 1) ⟨rfl, trivial⟩
            have e : anyEval c st (.excludeCode i j) = anyEval c [.net n, .net m] (.excludeCode 0 1) := by
              simp only [anyEval, hi, hj]; rfl
            rw [e]
            exact this.imp (fun o ho => ho.tame c hc) Iff.rfl
          · have : anyEval c st (.excludeCode i j) = none := by
              cases a <;> cases b <;> first | exact (hn ⟨⟨_, rfl⟩, _, rfl⟩).elim | simp only [anyEval, hi, hj]
            rw [this]; exact OutA.none hb
    | parse evs s => exact nil ⟨rfl, he⟩ rfl Iff.rfl
    | defNet => exact nil ⟨rfl, he⟩ rfl Iff.rfl
    | defAit => exact nil ⟨rfl, he⟩ rfl Iff.rfl
    | defNit => exact nil ⟨rfl, he⟩ rfl Iff.rfl
    | defExit => exact nil ⟨rfl, he⟩ rfl Iff.rfl
    | defExs => exact nil ⟨rfl, he⟩ rfl Iff.rfl
    | _ => first | exact OutA.none not_false | cases hp

omit hc hv in
theorem anyAfter_any {bad : Prop} {st : List AnyObj} {r : Option (Res AnyObj)} {f : AnyObj → List AnyObj}
    (h : OutA bad (AnyTame c) r) (hst : ∀ o ∈ st, AnyTame c o) (hf : ∀ o, AnyTame c o → ∀ x ∈ f o, AnyTame c x) :
    (bad → anyAfter st r f = .ub) ∧ (¬ bad → Yields (fun st' => ∀ o ∈ st', AnyTame c o) (anyAfter st r f)) := by
  refine ⟨fun hb => by rw [h.1.2 hb]; rfl, fun hb => ?_⟩
  rcases r with _ | (o | ⟨e, v⟩ | _)
  · exact ⟨st, rfl, hst⟩
  · exact ⟨f o, rfl, hf o (h.2 o rfl)⟩
  · exact ⟨st, rfl, hst⟩
  · exact (hb (h.1.1 rfl)).elim

theorem anyExec_any (st : List AnyObj) (hst : ∀ o ∈ st, AnyTame c o) (s : Stmt U128) (hs : sizeStmt s) :
    (AnyUndefinedAllStmt st s → anyExec c st s = .ub) ∧
    (¬ AnyUndefinedAllStmt st s → Yields (fun st' => ∀ o ∈ st', AnyTame c o) (anyExec c st s)) := by
  cases s with
  | new e =>
    refine anyAfter_any c (anyEval_any c hc hv st hst e hs) hst fun o ho x hx => ?_
    rcases List.mem_append.1 hx with hx | hx
    · exact hst x hx
    · rw [List.mem_singleton.1 hx]; exact ho
  | put i e =>
    refine anyAfter_any c (anyEval_any c hc hv st hst e hs) hst fun o ho x hx => ?_
    rcases mem_set_of hx with hx | hx
    · exact hst x hx
    · rw [hx]; exact ho
  | swap i j =>
    refine ⟨fun h => h.elim, fun _ => ?_⟩
    have get : ∀ i o, st[i]? = some o → AnyTame c o := fun i o h => hst o (List.mem_of_getElem? h)
    have two : ∀ a b, AnyTame c a → AnyTame c b → ∀ o ∈ (st.set i a).set j b, AnyTame c o := by
      intro a b ha hb o ho
      rcases mem_set_of ho with ho | rfl
      · rcases mem_set_of ho with ho | rfl
        · exact hst o ho
        · exact ha
      · exact hb
    simp only [anyExec]
    split
    · next n m e1 e2 => exact ⟨_, rfl, two _ _ (get j _ e2) (get i _ e1)⟩
    · next a b _ e1 e2 => exact ⟨_, rfl, two _ _ (get j _ e2) (get i _ e1)⟩
    · exact ⟨_, rfl, hst⟩

/-- A program ends without a store exactly when it comes to an undefined statement. -/
theorem anyRun_any : ∀ (prog : List (Stmt U128)) (st : List AnyObj), (∀ o ∈ st, AnyTame c o) → (∀ s ∈ prog, sizeStmt s) →
    (anyRun c prog st = .ub ∧ ∃ before s rest st', prog = before ++ s :: rest ∧ anyRun c before st = .ok st' ∧ AnyUndefinedAllStmt st' s) ∨
    (Yields (fun st' => ∀ o ∈ st', AnyTame c o) (anyRun c prog st) ∧
      ∀ before s rest st', prog = before ++ s :: rest → anyRun c before st = .ok st' → ¬ AnyUndefinedAllStmt st' s)
  | [], st, hst, _ => .inr ⟨⟨st, rfl, hst⟩, fun before s rest st' h => (by cases before <;> cases h)⟩
  | s :: rest, st, hst, hp => by
    obtain ⟨h1, h2⟩ := anyExec_any c hc hv st hst s (hp s (List.mem_cons_self ..))
    by_cases hu : AnyUndefinedAllStmt st s
    · exact .inl ⟨by show (anyExec c st s >>= _) = _; rw [h1 hu]; rfl, [], s, rest, st, rfl, rfl, hu⟩
    · obtain ⟨st1, k1, k2⟩ := h2 hu
      have e : ∀ p, anyRun c (s :: p) st = anyRun c p st1 := fun p => by
        show (anyExec c st s >>= fun st => anyRun c p st) = _
        rw [k1]; rfl
      rcases anyRun_any rest st1 k2 (fun s hs => hp s (List.mem_cons_of_mem _ hs)) with ⟨r1, b, t, q, st', r2, r3, r4⟩ | ⟨r1, r2⟩
      · exact .inl ⟨by rw [e, r1], s :: b, t, q, st', by rw [r2]; rfl, by rw [e, r3], r4⟩
      · refine .inr ⟨by rw [e]; exact r1, ?_⟩
        intro b t q st' hb hr
        cases b with
        | nil => cases hb; cases hr; exact hu
        | cons x b =>
          cases hb
          rw [e] at hr
          exact r2 b t q st' rfl hr

end
end Ip
