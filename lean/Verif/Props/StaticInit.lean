import Verif.Lemmas.StaticInit
/-
C83: the predicates while static objects are being initialised.
-/
set_option autoImplicit false

namespace Ip
open Spec Boot

/-- The storage after the steps `pre`. -/
def After (c : Cfg) (pre : List Step) (st : Statics) : Prop :=
  Holds c (fun t => Step.init4 t ∈ pre) (fun t => Step.init6 t ∈ pre) st

theorem After.init4 {c : Cfg} {pre : List Step} {st : Statics} (h : After c pre st) (t : Tab4) :
    ∃ st', st.init4 t = .ok st' ∧ After c (pre ++ [.init4 t]) st' := by
  obtain ⟨st', h1, h2⟩ := Holds.init4 h t
  refine ⟨st', h1, h2.congr (fun t' => ?_) (fun t' => ?_)⟩
  · simp [or_comm]
  · simp

theorem After.init6 {c : Cfg} {pre : List Step} {st : Statics} (h : After c pre st) (hc : c.le = true) (t : Tab6) :
    ∃ st', st.init6 c t = .ok st' ∧ After c (pre ++ [.init6 t]) st' := by
  obtain ⟨st', h1, h2⟩ := Holds.init6 h hc t
  refine ⟨st', h1, h2.congr (fun t' => ?_) (fun t' => ?_)⟩
  · simp
  · simp [or_comm]

theorem After.query {c : Cfg} {pre : List Step} {st : Statics} (h : After c pre st) (q : Query) :
    After c (pre ++ [.query q]) st :=
  Holds.congr h (fun t => by simp) (fun t => by simp)

theorem After.zeroed (c : Cfg) : After c [] Statics.zeroed :=
  (Holds.zeroed c).congr (fun t => by simp) (fun t => by simp)

/-- The questions of `es`, asked after `pre`, come after the initialisation of what they depend on. -/
def OrderedFrom (pre es : List Step) : Prop :=
  ∀ p q post, es = p ++ Step.query q :: post → Ready (pre ++ p) q

theorem OrderedFrom.tail {pre es : List Step} {e : Step} (h : OrderedFrom pre (e :: es)) : OrderedFrom (pre ++ [e]) es := by
  intro p q post he
  have := h (e :: p) q post (by rw [he]; rfl)
  rwa [List.append_assoc]

theorem OrderedFrom.cons {pre es : List Step} {e : Step} (he : ∀ q, e = .query q → Ready pre q)
    (h : OrderedFrom (pre ++ [e]) es) : OrderedFrom pre (e :: es) := by
  intro p q post hp
  cases p with
  | nil =>
    rw [List.nil_append, List.cons.injEq] at hp
    rw [List.append_nil]
    exact he q hp.1
  | cons e' p =>
    rw [List.cons_append, List.cons.injEq] at hp
    obtain ⟨rfl, hp⟩ := hp
    have := h p q post hp
    rwa [List.append_assoc] at this

theorem run_right (c : Cfg) (hc : c.le = true) (z : Bool) : ∀ (es pre : List Step) (st : Statics), After c pre st →
    (∀ q ∈ questions es, Proper c q) → OrderedFrom pre es →
    ∃ rs, run c z st es = .ok rs ∧ RightAnswers c (questions es) rs
  | [], _, _, _, _, _ => ⟨[], rfl, .nil⟩
  | .init4 t :: es, pre, st, h, hq, ho => by
    obtain ⟨st', h1, h2⟩ := h.init4 t
    obtain ⟨rs, r1, r2⟩ := run_right c hc z es _ st' h2 hq ho.tail
    exact ⟨rs, by rw [run, h1]; exact r1, r2⟩
  | .init6 t :: es, pre, st, h, hq, ho => by
    obtain ⟨st', h1, h2⟩ := h.init6 hc t
    obtain ⟨rs, r1, r2⟩ := run_right c hc z es _ st' h2 hq ho.tail
    exact ⟨rs, by rw [run, h1]; exact r1, r2⟩
  | .query q :: es, pre, st, h, hq, ho => by
    have hp : Proper c q := hq q (List.mem_cons_self ..)
    obtain ⟨rs, r1, r2⟩ := run_right c hc z es _ st (h.query q) (fun q' h' => hq q' (List.mem_cons_of_mem _ h')) ho.tail
    obtain ⟨r, hr⟩ := answer_ok hc q hp
    have hd : Ready pre q := by have := ho [] q es rfl; rwa [List.append_nil] at this
    refine ⟨r :: rs, ?_, .cons hr r2⟩
    rw [run, ask_ready h hc z q hp hd.1 hd.2, hr, Res.ok_bind, r1]
    rfl

theorem run_undef (c : Cfg) (hc : c.le = true) : ∀ (es pre : List Step) (st : Statics), After c pre st →
    (∀ q ∈ questions es, Proper c q) → ¬ OrderedFrom pre es → run c false st es = .ub
  | [], _, _, _, _, ho => absurd (fun p q post h => by cases p <;> cases h) ho
  | .init4 t :: es, pre, st, h, hq, ho => by
    obtain ⟨st', h1, h2⟩ := h.init4 t
    rw [run, h1]
    exact run_undef c hc es _ st' h2 hq fun ho' => ho (.cons (fun q e => by cases e) ho')
  | .init6 t :: es, pre, st, h, hq, ho => by
    obtain ⟨st', h1, h2⟩ := h.init6 hc t
    rw [run, h1]
    exact run_undef c hc es _ st' h2 hq fun ho' => ho (.cons (fun q e => by cases e) ho')
  | .query q :: es, pre, st, h, hq, ho => by
    have hp : Proper c q := hq q (List.mem_cons_self ..)
    by_cases hd : Ready pre q
    · obtain ⟨r, hr⟩ := answer_ok hc q hp
      rw [run, ask_ready h hc false q hp hd.1 hd.2, hr, Res.ok_bind,
        run_undef c hc es _ st (h.query q) (fun q' h' => hq q' (List.mem_cons_of_mem _ h'))
          fun ho' => ho (.cons (fun q' e => by cases e; exact hd) ho')]
      rfl
    · rw [run, ask_ub h hc q hp hd]
      rfl

theorem run_zero (c : Cfg) (hc : c.le = true) : ∀ (es pre : List Step) (st : Statics), After c pre st →
    (∀ q ∈ questions es, Proper c q) →
    ∃ rs, run c true st es = .ok rs ∧ rs.length = (questions es).length ∧
      ∀ p q post, es = p ++ Step.query q :: post → ∃ r, rs[(questions p).length]? = some r ∧
        (Ready (pre ++ p) q → Answer c q = .ok r) ∧ (¬ Ready (pre ++ p) q → r = zeroAnswer q)
  | [], _, _, _, _ => ⟨[], rfl, rfl, fun p q post h => by cases p <;> cases h⟩
  | .init4 t :: es, pre, st, h, hq => by
    obtain ⟨st', h1, h2⟩ := h.init4 t
    obtain ⟨rs, r1, r2, r3⟩ := run_zero c hc es _ st' h2 hq
    refine ⟨rs, by rw [run, h1]; exact r1, r2, fun p q post hp => ?_⟩
    cases p with
    | nil => cases hp
    | cons e p =>
      rw [List.cons_append, List.cons.injEq] at hp
      obtain ⟨rfl, hp⟩ := hp
      have := r3 p q post hp
      rwa [List.append_assoc] at this
  | .init6 t :: es, pre, st, h, hq => by
    obtain ⟨st', h1, h2⟩ := h.init6 hc t
    obtain ⟨rs, r1, r2, r3⟩ := run_zero c hc es _ st' h2 hq
    refine ⟨rs, by rw [run, h1]; exact r1, r2, fun p q post hp => ?_⟩
    cases p with
    | nil => cases hp
    | cons e p =>
      rw [List.cons_append, List.cons.injEq] at hp
      obtain ⟨rfl, hp⟩ := hp
      have := r3 p q post hp
      rwa [List.append_assoc] at this
  | .query q :: es, pre, st, h, hq => by
    have hp : Proper c q := hq q (List.mem_cons_self ..)
    obtain ⟨rs, r1, r2, r3⟩ := run_zero c hc es _ st (h.query q) (fun q' h' => hq q' (List.mem_cons_of_mem _ h'))
    have key : ∃ r, st.ask c true q = .ok r ∧ (Ready pre q → Answer c q = .ok r) ∧ (¬ Ready pre q → r = zeroAnswer q) := by
      by_cases hd : Ready pre q
      · obtain ⟨r, hr⟩ := answer_ok hc q hp
        exact ⟨r, (ask_ready h hc true q hp hd.1 hd.2).trans hr, fun _ => hr, fun hn => absurd hd hn⟩
      · exact ⟨_, ask_zero h hc q hp hd, fun h' => absurd h' hd, fun _ => rfl⟩
    obtain ⟨r, k1, k2, k3⟩ := key
    refine ⟨r :: rs, by rw [run, k1, Res.ok_bind, r1]; rfl, congrArg (· + 1) r2, fun p q' post hp => ?_⟩
    cases p with
    | nil =>
      rw [List.nil_append, List.cons.injEq] at hp
      obtain ⟨e, _⟩ := hp
      cases e
      rw [List.append_nil]
      exact ⟨r, rfl, k2, k3⟩
    | cons e p =>
      rw [List.cons_append, List.cons.injEq] at hp
      obtain ⟨rfl, hp⟩ := hp
      have := r3 p q' post hp
      rwa [List.append_assoc] at this

/-! ### The property -/

/-- All eleven initialisations. -/
def allInits : List Step :=
  [.init4 .priv, .init6 .priv, .init4 .pub, .init4 .reserved, .init6 .reserved, .init4 .multicast, .init6 .multicast,
    .init4 .loopback, .init4 .linkLocal, .init6 .linkLocal, .init6 .siteLocal]

theorem allInits_ready (q : Query) (post : List Step) : Ready (allInits ++ post) q :=
  ⟨fun t _ => by cases t <;> simp [allInits], fun t _ => by cases t <;> simp [allInits]⟩

theorem start_after (c : Cfg) (hc : c.le = true) : ∃ st, Statics.start c true = .ok st ∧ After c allInits st := by
  obtain ⟨s1, e1, h⟩ := (After.zeroed c).init4 .priv
  obtain ⟨s2, e2, h⟩ := h.init6 hc .priv
  obtain ⟨s3, e3, h⟩ := h.init4 .pub
  obtain ⟨s4, e4, h⟩ := h.init4 .reserved
  obtain ⟨s5, e5, h⟩ := h.init6 hc .reserved
  obtain ⟨s6, e6, h⟩ := h.init4 .multicast
  obtain ⟨s7, e7, h⟩ := h.init6 hc .multicast
  obtain ⟨s8, e8, h⟩ := h.init4 .loopback
  obtain ⟨s9, e9, h⟩ := h.init4 .linkLocal
  obtain ⟨s10, e10, h⟩ := h.init6 hc .linkLocal
  obtain ⟨s11, e11, h⟩ := h.init6 hc .siteLocal
  refine ⟨s11, ?_, h⟩
  simp only [Statics.start, if_true, e1, e2, e3, e4, e5, e6, e7, e8, e9, e10, e11, Res.ok_bind]

/-- C83: compiled as C++14 or later (`__cpp_constexpr >= 201304L`) every question of every program, whenever it
is asked, gets the answer of C39 and C40. -/
theorem C83_constexpr (c : Cfg) (hc : c.le = true) (z : Bool) (es : List Step) (hq : ∀ q ∈ questions es, Proper c q) :
    ∃ rs, boot c true z es = .ok rs ∧ RightAnswers c (questions es) rs := by
  obtain ⟨st, h1, h2⟩ := start_after c hc
  obtain ⟨rs, r1, r2⟩ := run_right c hc z es allInits st h2 hq fun p q _ _ => allInits_ready q p
  exact ⟨rs, by rw [boot, h1]; exact r1, r2⟩

/-- Asking whether `8.8.8.8` is private. -/
def ask8 : Query := .addr4 .priv [8, 8, 8, 8]

example := C83_constexpr exCfg rfl false [.query ask8, .query (.addr6 .reserved ex32.addr)] (by
  intro q hq
  rcases List.mem_cons.1 hq with rfl | hq
  · exact rfl
  · rw [List.mem_singleton.1 hq]
    exact ex32_ok.wf)

/-- C83 (partial), compiled as C++11: the questions that come after the initialisation of the variables they
depend on, in particular all questions asked by `main`, get the answer of C39 and C40, in whatever order the
variables are initialised.  Missing: questions that come earlier, see `C83_exact` and `C83_violated`. -/
theorem C83_partial (c : Cfg) (hc : c.le = true) (z : Bool) (es : List Step) (hq : ∀ q ∈ questions es, Proper c q)
    (ho : InOrder es) : ∃ rs, boot c false z es = .ok rs ∧ RightAnswers c (questions es) rs := by
  obtain ⟨rs, r1, r2⟩ := run_right c hc z es [] _ (After.zeroed c) hq ho
  exact ⟨rs, r1, r2⟩

/-- The hypothesis holds of questions asked once all variables are initialised, in any order. -/
example (qs : List Query) (inits : List Step) (h : inits.Perm allInits) : InOrder (inits ++ qs.map Step.query) := by
  intro pre q post he
  have hm : ∀ s ∈ allInits, s ∈ pre := by
    intro s hs
    have hs' : s ∈ inits := h.mem_iff.2 hs
    have hn : ∀ q, s ≠ .query q := by
      rintro q rfl
      simp [allInits] at hs
    have hnq : ∀ q, Step.query q ∉ inits := by
      intro q hq
      have := h.mem_iff.1 hq
      simp [allInits] at this
    rcases List.append_eq_append_iff.1 he with ⟨a, rfl, _⟩ | ⟨a, hi, _⟩
    · exact List.mem_append_left _ hs'
    · cases a with
      | nil => rw [hi, List.append_nil] at hs'; exact hs'
      | cons x a =>
        next hx =>
        rw [List.cons_append, List.cons.injEq] at hx
        exact absurd (by rw [hi, hx.1]; simp) (hnq q)
  exact ⟨fun t _ => hm _ (by cases t <;> simp [allInits]), fun t _ => hm _ (by cases t <;> simp [allInits])⟩

/-- C83, exactly (C++11): a program has defined behaviour iff each of its questions comes after the
initialisation of the variables it depends on, and then all answers are right. -/
theorem C83_exact (c : Cfg) (hc : c.le = true) (es : List Step) (hq : ∀ q ∈ questions es, Proper c q) :
    (boot c false false es = .ub ↔ ¬ InOrder es) ∧
    (InOrder es ↔ ∃ rs, boot c false false es = .ok rs ∧ RightAnswers c (questions es) rs) := by
  have e : boot c false false es = run c false Statics.zeroed es := rfl
  rw [e]
  by_cases ho : InOrder es
  · obtain ⟨rs, r1, r2⟩ := run_right c hc false es [] _ (After.zeroed c) hq ho
    exact ⟨⟨fun h => (by rw [r1] at h; cases h), fun h => absurd ho h⟩, fun _ => ⟨rs, r1, r2⟩, fun _ => ho⟩
  · have h := run_undef c hc es [] _ (After.zeroed c) hq ho
    exact ⟨⟨fun _ => ho, fun _ => h⟩, fun h' => absurd h' ho, fun ⟨rs, r1, _⟩ => by rw [h] at r1; cases r1⟩

example := C83_exact exCfg rfl [.query ask8, .init4 .priv] (by
  intro q hq
  rw [List.mem_singleton.1 hq]
  exact rfl)

/-- C83, exactly (C++11), if the compiler reads the zeros of the storage that is not initialised yet: a
question that comes too early is answered as if one network with all addresses were in the table, so every
address is private, multicast, reserved, loopback, link local and site local, and none is global. -/
theorem C83_zero_exact (c : Cfg) (hc : c.le = true) (pre post : List Step) (q : Query)
    (hq : ∀ q' ∈ questions (pre ++ Step.query q :: post), Proper c q') :
    ∃ rs r, boot c false true (pre ++ Step.query q :: post) = .ok rs ∧ rs[(questions pre).length]? = some r ∧
      (Ready pre q → Answer c q = .ok r) ∧ (¬ Ready pre q → r = zeroAnswer q) := by
  obtain ⟨rs, r1, _, r3⟩ := run_zero c hc (pre ++ Step.query q :: post) [] _ (After.zeroed c) hq
  obtain ⟨r, k⟩ := r3 pre q post rfl
  exact ⟨rs, r, r1, k⟩

example := C83_zero_exact exCfg rfl [.init4 .pub, .init4 .priv] [] (.addr4 .glob [8, 8, 8, 8]) (by
  intro q hq
  rw [List.mem_singleton.1 hq]
  exact rfl)

/-- C83, negation (C++11): the program whose first static object asks whether `8.8.8.8` is private has
undefined behaviour; with the zeros read it is told that it is, while the answer is that it is not. -/
theorem C83_violated (c : Cfg) (hc : c.le = true) :
    boot c false false (.query ask8 :: allInits) = .ub ∧ boot c false true (.query ask8 :: allInits) = .ok [true] ∧
    Answer c ask8 = .ok false ∧ boot c true false (.query ask8 :: allInits) = .ok [false] := by
  have ha : Answer c ask8 = .ok false := by
    show v4IsPrivate true [8, 8, 8, 8] = .ok false
    decide +kernel
  have hq : ∀ q ∈ questions (.query ask8 :: allInits), Proper c q := by
    intro q hq
    rw [List.mem_singleton.1 (show q ∈ [ask8] from hq)]
    exact rfl
  have hn : ¬ Ready [] ask8 := fun h => by simpa using h.1 .priv rfl
  refine ⟨(C83_exact c hc _ hq).1.2 fun h => hn (h [] ask8 allInits rfl), ?_, ha, ?_⟩
  · obtain ⟨rs, r1, r2, r3⟩ := run_zero c hc (.query ask8 :: allInits) [] _ (After.zeroed c) hq
    obtain ⟨r, k1, _, k3⟩ := r3 [] ask8 allInits rfl
    have e : boot c false true (.query ask8 :: allInits) = run c true Statics.zeroed (.query ask8 :: allInits) := rfl
    rw [e, r1]
    match rs, r2, k1 with
    | [x], _, k1 =>
      have : x = r := by simpa [questions] using k1
      rw [this, k3 hn]; rfl
  · obtain ⟨rs, r1, r2⟩ := C83_constexpr c hc false (.query ask8 :: allInits) hq
    rw [r1]
    have r2' : RightAnswers c [ask8] rs := r2
    cases r2' with
    | cons h t =>
      cases t
      rw [ha] at h
      cases h
      rfl

example := C83_violated exCfg rfl

end Ip
