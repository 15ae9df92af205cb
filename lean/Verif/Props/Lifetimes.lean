import Verif.Lemmas.LifetimesSim
import Verif.Lemmas.Samples
import Verif.Props.Report
/-
C92: references that the member functions give out.
-/
set_option autoImplicit false

namespace Ip
open Spec

theorem linv_start : LInv noNames ⟨[], []⟩ LState.start :=
  ⟨rfl, rfl, List.nodup_nil, (by intro i o h; cases h), rfl, (by intro k q t h; cases h), rfl, (by intro i h; cases h)⟩

theorem namesAfter_append (a b : List LStmt) : ∀ σ, namesAfter σ (a ++ b) = namesAfter (namesAfter σ a) b := by
  induction a with
  | nil => intro σ; rfl
  | cons s a ih => intro σ; exact ih _

theorem lrun_append (c : Cfg) (a b : List LStmt) : ∀ s : LState, s.run c (a ++ b) = (s.run c a >>= fun s => s.run c b) := by
  induction a with
  | nil => intro s; rfl
  | cons p a ih =>
    intro s
    show (s.step c p >>= fun s => s.run c (a ++ b)) = ((s.step c p >>= fun s => s.run c a) >>= _)
    cases s.step c p with
    | ok s' => exact ih s'
    | err e v => rfl
    | ub => rfl

theorem meaningFrom_append (c : Cfg) (a b : List LStmt) : ∀ σ env,
    meaningFrom c σ env (a ++ b) = (meaningFrom c σ env a >>= fun env => meaningFrom c (namesAfter σ a) env b) := by
  induction a with
  | nil => intro σ env; rfl
  | cons p a ih =>
    intro σ env
    show (meaning1 c σ env p >>= fun env => meaningFrom c (σ.after p) env (a ++ b)) = ((meaning1 c σ env p >>= fun env => meaningFrom c (σ.after p) env a) >>= _)
    cases meaning1 c σ env p with
    | ok e' => exact ih _ e'
    | err e v => rfl
    | ub => rfl

/-- A block none of whose statements uses an object whose lifetime has ended. -/
theorem run_sim (c : Cfg) (p : List LStmt) : ∀ (σ : Names) (env : Env) (s : LState), LInv σ env s →
    (∀ a q b, p = a ++ q :: b → (namesAfter σ a).Compiles q) → (∀ a q b, p = a ++ q :: b → ¬ (namesAfter σ a).Dangles q) →
    Sim (namesAfter σ p) (meaningFrom c σ env p) (s.run c p) := by
  induction p with
  | nil => intro σ env s I _ _; exact I
  | cons q p ih =>
    intro σ env s I hc hd
    have h := step_sim I c q (hc [] q p rfl) (hd [] q p rfl)
    show Sim _ (meaning1 c σ env q >>= fun env => meaningFrom c (σ.after q) env p) (s.step c q >>= fun s => s.run c p)
    revert h
    cases meaning1 c σ env q with
    | ok env' =>
      cases s.step c q with
      | ok s' =>
        intro h
        exact ih _ env' s' h (fun a q' b e => hc (q :: a) q' b (by rw [e]; rfl)) (fun a q' b e => hd (q :: a) q' b (by rw [e]; rfl))
      | err e v => exact False.elim
      | ub => exact False.elim
    | err e v =>
      cases s.step c q with
      | ok s' => exact False.elim
      | err e v => exact id
      | ub => exact False.elim
    | ub =>
      cases s.step c q with
      | ok s' => exact False.elim
      | err e v => exact False.elim
      | ub => exact id

/-- C92, exactly, for all blocks that compile: if no statement uses an object whose lifetime has ended, references behave
as names for values; otherwise the block is undefined from the first such statement on, unless an exception leaves the
block before.  Which statements these are depends on the text of the block only. -/
theorem C92_exact (c : Cfg) (p : List LStmt) (hp : BlockOk p) :
    (NoneDangles p → (LState.start.run c p >>= fun s => .ok s.out) = blockMeaning c p) ∧
    ∀ a s b, p = a ++ s :: b → NoneDangles a → (namesAfter noNames a).Dangles s →
      LState.start.run c p = (blockMeaning c a >>= fun _ => .ub) ∨
      ∃ i e code v, s = .assign i e ∧ blockMeaning c (a ++ [s]) = .err code v ∧ LState.start.run c p = .err code v := by
  constructor
  · intro hd
    have h := run_sim c p noNames ⟨[], []⟩ LState.start linv_start hp hd
    unfold blockMeaning
    revert h
    cases meaningFrom c noNames ⟨[], []⟩ p with
    | ok env =>
      cases LState.start.run c p with
      | ok s => intro h; exact congrArg Res.ok h.out
      | err e v => exact False.elim
      | ub => exact False.elim
    | err e v =>
      cases LState.start.run c p with
      | ok s => exact False.elim
      | err e v => rintro ⟨rfl, rfl⟩; rfl
      | ub => exact False.elim
    | ub =>
      cases LState.start.run c p with
      | ok s => exact False.elim
      | err e v => exact False.elim
      | ub => intro _; rfl
  · rintro a s b rfl ha hs
    have h := run_sim c a noNames ⟨[], []⟩ LState.start linv_start (fun a' q b' e => hp a' q (b' ++ s :: b) (by rw [e]; simp)) ha
    rw [lrun_append]
    unfold blockMeaning
    rw [meaningFrom_append]
    revert h
    cases meaningFrom c noNames ⟨[], []⟩ a with
    | ok env =>
      cases LState.start.run c a with
      | ok t =>
        intro h
        rcases step_dangles h c s (hp a s b rfl) hs with h1 | ⟨⟨i, e, rfl⟩, code, v, h1, h2⟩
        · left
          show (t.step c s >>= _) = _
          rw [h1]
          rfl
        · right
          refine ⟨i, e, code, v, rfl, ?_, ?_⟩
          · show ((meaning1 c _ env _ >>= fun env => meaningFrom c _ env []) >>= _) = _
            rw [h1]
            rfl
          · show (t.step c _ >>= _) = _
            rw [h2]
            rfl
      | err e v => exact False.elim
      | ub => exact False.elim
    | err e v =>
      cases LState.start.run c a with
      | ok s => exact False.elim
      | err e v => rintro ⟨rfl, rfl⟩; exact .inl rfl
      | ub => exact False.elim
    | ub =>
      cases LState.start.run c a with
      | ok s => exact False.elim
      | err e v => exact False.elim
      | ub => intro _; exact .inl rfl

/-- A statement that ends no lifetime and binds no reference to a part of a temporary. -/
def Spec.Keeps (σ : Names) : LStmt → Prop
  | .drop _ => False
  | .bind e => ∀ t, σ.expr e ≠ some (.lost, t)
  | .bindNew x ks => ∀ t, reach .fresh (typeOf x) ks ≠ some (.lost, t)
  | _ => True

theorem keeps_after (σ : Names) (s : LStmt) (hs : Keeps σ s) (hc : σ.Compiles s)
    (h : σ.dropped = [] ∧ ∀ q ∈ σ.refs, q.1 ≠ none) : (σ.after s).dropped = [] ∧ ∀ q ∈ (σ.after s).refs, q.1 ≠ none := by
  cases s with
  | drop i => cases hs
  | decl x => exact h
  | use e => exact h
  | assign i e => exact h
  | copy e =>
    show (match σ.expr e with | some (_, t) => { σ with vars := σ.vars ++ [t] } | none => σ).dropped = [] ∧ ∀ q ∈ (match σ.expr e with | some (_, t) => { σ with vars := σ.vars ++ [t] } | none => σ).refs, q.1 ≠ none
    cases σ.expr e <;> exact h
  | bind e =>
    simp only [Names.after]
    cases he : σ.expr e with
    | none => exact h
    | some q =>
      obtain ⟨ρ, t⟩ := q
      refine ⟨by cases ρ <;> exact h.1, ?_⟩
      cases ρ with
      | lost => exact absurd he (hs t)
      | fresh =>
        intro q hq
        rcases List.mem_append.1 hq with hq | hq
        · exact h.2 q hq
        · rw [List.mem_singleton.1 hq]
          simp
      | inside p =>
        intro q hq
        rcases List.mem_append.1 hq with hq | hq
        · exact h.2 q hq
        · rw [List.mem_singleton.1 hq]
          have : σ.origin e.root ≠ none := by
            unfold Names.expr at he
            cases hr : e.root with
            | var i => simp [Names.origin]
            | ref k =>
              rw [hr] at he
              simp only [Names.rootType] at he
              simp only [Names.origin]
              cases hk : σ.refs[k]? with
              | none => rw [hk] at he; cases he
              | some q => exact h.2 q (List.mem_of_getElem? hk)
          cases ho : σ.origin e.root with
          | none => exact absurd ho this
          | some o => simp
  | bindNew x ks =>
    simp only [Names.after]
    cases he : reach .fresh (typeOf x) ks with
    | none => exact h
    | some q =>
      obtain ⟨ρ, t⟩ := q
      refine ⟨by cases ρ <;> exact h.1, ?_⟩
      cases ρ with
      | lost => exact absurd he (hs t)
      | fresh =>
        intro q hq
        rcases List.mem_append.1 hq with hq | hq
        · exact h.2 q hq
        · rw [List.mem_singleton.1 hq]
          simp
      | inside p => exact absurd rfl (reach_outside ks _ _ _ _ (by intro p hp; cases hp) he p)

theorem keeps_names (p : List LStmt) : ∀ σ : Names, (σ.dropped = [] ∧ ∀ q ∈ σ.refs, q.1 ≠ none) →
    (∀ a s b, p = a ++ s :: b → Keeps (namesAfter σ a) s) → (∀ a s b, p = a ++ s :: b → (namesAfter σ a).Compiles s) →
    (namesAfter σ p).dropped = [] ∧ ∀ q ∈ (namesAfter σ p).refs, q.1 ≠ none := by
  induction p with
  | nil => intro σ h _ _; exact h
  | cons s p ih =>
    intro σ h hk hc
    exact ih _ (keeps_after σ s (hk [] s p rfl) (hc [] s p rfl) h) (fun a q b e => hk (s :: a) q b (by rw [e]; rfl))
      (fun a q b e => hc (s :: a) q b (by rw [e]; rfl))

/-- C92, in part: in a block that keeps its variables and binds no reference to a part of a temporary, references behave
as names for values, whatever is done with them. -/
theorem C92_kept_partial (c : Cfg) (p : List LStmt) (hp : BlockOk p) (hk : ∀ a s b, p = a ++ s :: b → Keeps (namesAfter noNames a) s) :
    (LState.start.run c p >>= fun s => .ok s.out) = blockMeaning c p := by
  refine (C92_exact c p hp).1 ?_
  intro a s b hsplit
  obtain ⟨h1, h2⟩ := keeps_names a noNames ⟨rfl, by intro q hq; cases hq⟩ (fun a' q b' e' => hk a' q (b' ++ s :: b) (by rw [hsplit, e']; simp))
    (fun a' q b' e' => hp a' q (b' ++ s :: b) (by rw [hsplit, e']; simp))
  have hs := hp a s b hsplit
  have alive : ∀ e, (namesAfter noNames a).expr e ≠ none → (namesAfter noNames a).Alive e.root := by
    intro e he
    unfold Names.expr at he
    cases hr : e.root with
    | var i => exact ⟨i, [], rfl, by rw [h1]; simp⟩
    | ref k =>
      rw [hr] at he
      simp only [Names.rootType] at he
      cases hk : (namesAfter noNames a).refs[k]? with
      | none => rw [hk] at he; exact absurd rfl he
      | some q =>
        obtain ⟨q, t⟩ := q
        have := h2 _ (List.mem_of_getElem? hk)
        cases q with
        | none => exact absurd rfl this
        | some o => exact ⟨o.1, o.2, by simp [Names.origin, hk], by rw [h1]; simp⟩
  cases s with
  | decl x => exact id
  | bindNew x ks => exact id
  | copy e => exact fun h => h (alive e hs)
  | bind e => exact fun h => h (alive e hs)
  | use e => exact fun h => h (alive e hs)
  | drop i => exact absurd (hk a _ b hsplit) id
  | assign i e =>
    rintro (h | h)
    · obtain ⟨ρ, t, he, _⟩ := hs
      exact h (alive e (by rw [he]; simp))
    · rw [h1] at h
      cases h

/-- `const auto& r = x.f().g()...;` and a use of `r`. -/
def Spec.boundUse (x : LObj) (ks : List LCall) : List LStmt := [.bindNew x ks, .use ⟨.ref 0, []⟩]

/-- C92: full claim refuted.  With `n` the result of `parse`: `const auto& a = n.network_address();` dangles for every
`ipv4_network` and `ipv6_network`, and so does `netmask()`; for every `ip_network` the same text is right. -/
theorem C92_temporary_violated (c : Cfg) :
    (∀ n, LState.start.run c (boundUse (.one4 (.net n)) [.network]) = .ub ∧ LState.start.run c (boundUse (.one4 (.net n)) [.netmask]) = .ub) ∧
    (∀ n, LState.start.run c (boundUse (.one6 (.net n)) [.network]) = .ub ∧ LState.start.run c (boundUse (.one6 (.net n)) [.netmask]) = .ub) ∧
    ∀ n, (LState.start.run c (boundUse (.any (.net n)) [.network]) >>= fun s => .ok s.out) = .ok [.any (.addr (anyNetAddress n))] ∧
      (LState.start.run c (boundUse (.any (.net n)) [.netmask]) >>= fun s => .ok s.out) = .ok [.any (.addr (anyNetMask n))] :=
  ⟨fun _ => ⟨rfl, rfl⟩, fun _ => ⟨rfl, rfl⟩, fun _ => ⟨rfl, rfl⟩⟩

/-- C92: full claim refuted.  `const auto& b = parse(...).bytes();`, which is what a range-based loop over `bytes()` of a
temporary does, and `const auto& a = ip.v4().value();`, also with a variable `ip`, dangle for all addresses and networks. -/
theorem C92_parts_violated (c : Cfg) :
    (∀ a, LState.start.run c (boundUse (.one4 (.addr a)) [.bytes]) = .ub) ∧
    (∀ a, LState.start.run c (boundUse (.one6 (.addr a)) [.bytes]) = .ub) ∧
    (∀ a, LState.start.run c [.decl (.any (.addr a)), .bind ⟨.var 0, [.v4, .value]⟩, .use ⟨.ref 0, []⟩] = .ub) ∧
    (∀ a, LState.start.run c [.decl (.any (.addr a)), .bind ⟨.var 0, [.v6, .value]⟩, .use ⟨.ref 0, []⟩] = .ub) := by
  refine ⟨fun _ => rfl, fun _ => rfl, fun a => ?_, fun a => ?_⟩
  · cases a <;> rfl
  · cases a <;> rfl

/-- C92: which functions return references.  What a call does with a value agrees with the interface. -/
theorem C92_interface (c : Cfg) (k : LCall) (x : LObj) :
    match interface k (typeOf x) with
    | some (true, t) => ∃ y, x.call c k = some (.part y) ∧ typeOf y = t
    | some (false, t) => ∃ r, x.call c k = some (.made r) ∧ ∀ y, r = .ok y → typeOf y = t
    | none => x.call c k = none := by
  cases h : interface k (typeOf x) with
  | none =>
    have := call_interface c k x
    rw [h] at this
    cases hc : x.call c k with
    | none => rfl
    | some r =>
      rw [hc] at this
      cases r with
      | part y => cases this
      | made y =>
        obtain ⟨t, ht, _⟩ := this
        cases ht
  | some q =>
    obtain ⟨b, t⟩ := q
    rcases call_cases c k x b t h with ⟨rfl, h'⟩ | ⟨rfl, h'⟩
    · exact h'
    · exact h'

/-- C92: what `v4()` and `v6()` return: an optional with a copy if the version is right, otherwise an empty optional. -/
theorem C92_optionals (c : Cfg) :
    (∀ a, ∃ o, (LObj.any (.addr (.v4 a))).call c .v4 = some (.made (.ok (.optA4 o))) ∧ o.hasValue = true ∧ o.value = a) ∧
    (∀ a, ∃ o, (LObj.any (.addr (.v6 a))).call c .v6 = some (.made (.ok (.optA6 o))) ∧ o.hasValue = true ∧ o.value = a) ∧
    (∀ a, ∃ o, (LObj.any (.addr (.v6 a))).call c .v4 = some (.made (.ok (.optA4 o))) ∧ o.hasValue = false ∧ o.value = [0, 0, 0, 0]) ∧
    (∀ a, ∃ o, (LObj.any (.addr (.v4 a))).call c .v6 = some (.made (.ok (.optA6 o))) ∧ o.hasValue = false ∧ o.value.bytes = List.replicate 16 0) ∧
    (∀ n, ∃ o, (LObj.any (.net (.v4 n))).call c .v4 = some (.made (.ok (.optN4 o))) ∧ o.hasValue = true ∧ o.value = n) ∧
    (∀ n, ∃ o, (LObj.any (.net (.v6 n))).call c .v6 = some (.made (.ok (.optN6 o))) ∧ o.hasValue = true ∧ o.value = n) ∧
    (∀ n, ∃ o, (LObj.any (.net (.v6 n))).call c .v4 = some (.made (.ok (.optN4 o))) ∧ o.hasValue = false ∧ o.value = zeroNet4) ∧
    (∀ n, ∃ o, (LObj.any (.net (.v4 n))).call c .v6 = some (.made (.ok (.optN6 o))) ∧ o.hasValue = false ∧ o.value = zeroNet6 c.M) := by
  refine ⟨fun a => ⟨_, rfl, rfl, rfl⟩, fun a => ⟨_, rfl, rfl, rfl⟩, fun a => ⟨_, rfl, rfl, rfl⟩, fun a => ⟨_, rfl, rfl, rfl⟩,
    fun a => ⟨_, rfl, rfl, rfl⟩, fun a => ⟨_, rfl, rfl, rfl⟩, fun n => ?_, fun n => ?_⟩
  · exact ⟨_, congrArg (fun r => some (LRes.made (r >>= fun d => Res.ok (LObj.optN4 (.none d))))) (default4 c.le), rfl, rfl⟩
  · exact ⟨_, congrArg (fun r => some (LRes.made (r >>= fun d => Res.ok (LObj.optN6 (.none d))))) (default6 c), rfl, rfl⟩

/-- The rounds of a range-based loop with a reference to the element; `k` references were bound before. -/
def Spec.rounds : Nat → Nat → List LStmt
  | 0, _ => []
  | n + 1, k => .bind ⟨.var 1, [.deref]⟩ :: .use ⟨.ref k, []⟩ :: .assign 1 ⟨.var 1, [.next]⟩ :: rounds n (k + 1)

/-- The first `n` rounds of `for (const auto& e : x.f().g()...)`, where `x` is the result of `parse` or of a
constructor. -/
def Spec.forEach (x : LObj) (ks : List LCall) (n : Nat) : List LStmt :=
  .bindNew x ks :: .copy ⟨.ref 0, [.first]⟩ :: rounds n 1

/-- The first `n` elements from an iterator on. -/
def Spec.elems (c : Cfg) : Nat → LObj → Res (List LObj)
  | 0, _ => .ok []
  | n + 1, it => do
    let x ← follow c it [.deref]
    let it ← follow c it [.next]
    let rest ← elems c n it
    .ok (x :: rest)

theorem allFrom_cons {P : Names → LStmt → Prop} {σ : Names} {s : LStmt} {p : List LStmt} (h1 : P σ s)
    (h2 : ∀ a q b, p = a ++ q :: b → P (namesAfter (σ.after s) a) q) :
    ∀ a q b, s :: p = a ++ q :: b → P (namesAfter σ a) q := by
  intro a q b e
  cases a with
  | nil =>
    injection e with e1 e2
    subst e1
    exact h1
  | cons s' a =>
    injection e with e1 e2
    subst e1
    exact h2 a q b e2

theorem allFrom_nil {P : Names → LStmt → Prop} {σ : Names} : ∀ a q b, ([] : List LStmt) = a ++ q :: b → P (namesAfter σ a) q := by
  intro a q b e
  cases a <;> cases e

theorem rounds_names {ts ti te : LTy} (hd : interface .deref ti = some (true, te)) (hn : interface .next ti = some (false, ti)) (n : Nat) :
    ∀ (k : Nat) (σ : Names), σ.vars = [ts, ti] → σ.refs.length = k →
    ∀ a q b, rounds n k = a ++ q :: b → (namesAfter σ a).Compiles q ∧ Keeps (namesAfter σ a) q := by
  induction n with
  | zero => intro k σ _ _; exact allFrom_nil (P := fun σ q => σ.Compiles q ∧ Keeps σ q)
  | succ n ih =>
    intro k σ hv hk
    have e1 : σ.expr ⟨.var 1, [.deref]⟩ = some (.inside [.deref], te) := by
      simp [Names.expr, Names.rootType, hv, reach, hd, Reach.part]
    have a1 : σ.after (.bind ⟨.var 1, [.deref]⟩) = { σ with refs := σ.refs ++ [(some (1, [.deref]), te)] } := by
      simp [Names.after, e1, Names.bound, Names.origin]
    refine allFrom_cons (P := fun σ q => σ.Compiles q ∧ Keeps σ q) ⟨?_, ?_⟩ ?_
    · show σ.expr _ ≠ none
      rw [e1]; simp
    · intro t
      rw [e1]; simp
    rw [a1]
    refine allFrom_cons (P := fun σ q => σ.Compiles q ∧ Keeps σ q) ⟨?_, trivial⟩ ?_
    · subst hk
      simp [Names.Compiles, Names.expr, Names.rootType, reach]
    refine allFrom_cons (P := fun σ q => σ.Compiles q ∧ Keeps σ q) ⟨⟨.fresh, ti, ?_, ?_⟩, trivial⟩ ?_
    · simp [Names.after, Names.expr, Names.rootType, hv, reach, hn]
    · simp [Names.after, hv]
    · exact ih (k + 1) _ hv (by simp [Names.after, hk])

theorem rounds_meaning (c : Cfg) {ts ti te : LTy} (hd : interface .deref ti = some (true, te)) (n : Nat) :
    ∀ (k : Nat) (σ : Names) (sq it : LObj) (out : List LObj), σ.vars = [ts, ti] → σ.refs.length = k →
    (meaningFrom c σ ⟨[sq, it], out⟩ (rounds n k) >>= fun env => .ok env.out) = (elems c n it >>= fun l => .ok (out ++ l)) := by
  induction n with
  | zero => intro k σ sq it out _ _; simp [rounds, meaningFrom, elems, bind, Res.bind]
  | succ n ih =>
    intro k σ sq it out hv hk
    have e1 : σ.expr ⟨.var 1, [.deref]⟩ = some (.inside [.deref], te) := by
      simp [Names.expr, Names.rootType, hv, reach, hd, Reach.part]
    have a1 : σ.after (.bind ⟨.var 1, [.deref]⟩) = { σ with refs := σ.refs ++ [(some (1, [.deref]), te)] } := by
      simp [Names.after, e1, Names.bound, Names.origin]
    have m1 : meaning1 c σ ⟨[sq, it], out⟩ (.bind ⟨.var 1, [.deref]⟩) = (follow c it [.deref] >>= fun _ => .ok ⟨[sq, it], out⟩) := by
      simp [meaning1, valueOf, Names.origin, e1]
    have m2 : meaning1 c { σ with refs := σ.refs ++ [(some (1, [.deref]), te)] } ⟨[sq, it], out⟩ (.use ⟨.ref k, []⟩) =
        (follow c it [.deref] >>= fun x => .ok ⟨[sq, it], out ++ [x]⟩) := by
      subst hk
      simp [meaning1, valueOf, Names.origin]
    simp only [rounds, meaningFrom, a1, m1, elems]
    cases hx : follow c it [.deref] with
    | err e v => rfl
    | ub => rfl
    | ok x =>
      show (((meaning1 c _ _ _) >>= fun env => meaning1 c _ env _ >>= fun env => meaningFrom c _ env _) >>= _) = _
      rw [m2, hx]
      have m3 : meaning1 c ({ σ with refs := σ.refs ++ [(some (1, [.deref]), te)] } : Names) ⟨[sq, it], out ++ [x]⟩ (.assign 1 ⟨.var 1, [.next]⟩) =
          (follow c it [.next] >>= fun y => .ok ⟨[sq, y], out ++ [x]⟩) := by
        simp [meaning1, valueOf, Names.origin]
      show ((meaning1 c ({ σ with refs := σ.refs ++ [(some (1, [.deref]), te)] } : Names) ⟨[sq, it], out ++ [x]⟩ _ >>= fun env => meaningFrom c _ env _) >>= _) = ((follow c it [.next]) >>= fun it => elems c n it >>= fun rest => Res.ok (x :: rest)) >>= _
      rw [m3]
      cases hy : follow c it [.next] with
      | err e v => rfl
      | ub => rfl
      | ok y =>
        refine (ih (k + 1) { σ with refs := σ.refs ++ [(some (1, [.deref]), te)] } sq y (out ++ [x]) hv (by simp [hk])).trans ?_
        show _ = ((elems c n y >>= fun rest => Res.ok (x :: rest)) >>= _)
        cases elems c n y with
        | ok l => simp [bind, Res.bind]
        | err e v => rfl
        | ub => rfl

/-- C92: a range-based loop over a sequence that is a new object, such as `parse(...).hosts()` or
`parse(...).supernet().subnets(...)`, shows the elements of the sequence, though the network itself is gone; the elements
are bound by reference. -/
theorem C92_loop (c : Cfg) (x : LObj) (ks : List LCall) (n : Nat) (f : Fl) (s : Sh) (hs : s ∈ [.hosts, .subs, .exs])
    (h : reach .fresh (typeOf x) ks = some (.fresh, .obj f s)) :
    (LState.start.run c (forEach x ks n) >>= fun s => .ok s.out) = (follow c x ks >>= fun sq => follow c sq [.first] >>= fun it => elems c n it) := by
  obtain ⟨ti, te, hf, hd, hn⟩ : ∃ ti te, interface .first (.obj f s) = some (false, ti) ∧ interface .deref ti = some (true, te) ∧ interface .next ti = some (false, ti) := by
    simp only [List.mem_cons, List.not_mem_nil, or_false] at hs
    rcases hs with rfl | rfl | rfl
    · exact ⟨_, _, rfl, rfl, rfl⟩
    · exact ⟨_, _, rfl, rfl, rfl⟩
    · exact ⟨_, _, rfl, rfl, rfl⟩
  have a1 : noNames.after (.bindNew x ks) = ⟨[.obj f s], [(some (0, []), .obj f s)], []⟩ := by
    simp [Names.after, h, Names.bound, noNames]
  have e2 : (⟨[.obj f s], [(some (0, []), .obj f s)], []⟩ : Names).expr ⟨.ref 0, [.first]⟩ = some (.fresh, ti) := by
    simp [Names.expr, Names.rootType, reach, hf]
  have a2 : (⟨[.obj f s], [(some (0, []), .obj f s)], []⟩ : Names).after (.copy ⟨.ref 0, [.first]⟩) = ⟨[.obj f s, ti], [(some (0, []), .obj f s)], []⟩ := by
    simp [Names.after, e2]
  have all : ∀ a q b, forEach x ks n = a ++ q :: b → (namesAfter noNames a).Compiles q ∧ Keeps (namesAfter noNames a) q := by
    refine allFrom_cons (P := fun σ q => σ.Compiles q ∧ Keeps σ q) ⟨?_, ?_⟩ ?_
    · show reach .fresh (typeOf x) ks ≠ none
      rw [h]; simp
    · intro t
      rw [h]; simp
    rw [a1]
    refine allFrom_cons (P := fun σ q => σ.Compiles q ∧ Keeps σ q) ⟨?_, trivial⟩ ?_
    · show Names.expr _ _ ≠ none
      rw [e2]; simp
    rw [a2]
    exact rounds_names hd hn n 1 _ rfl rfl
  rw [C92_kept_partial c _ (fun a q b e => (all a q b e).1) (fun a q b e => (all a q b e).2)]
  have m1 : meaning1 c noNames ⟨[], []⟩ (.bindNew x ks) = (follow c x ks >>= fun y => .ok ⟨[y], []⟩) := by
    simp [meaning1, h]
  simp only [blockMeaning, forEach, meaningFrom, m1, a1]
  cases hy : follow c x ks with
  | err e v => rfl
  | ub => rfl
  | ok sq =>
    have m2 : meaning1 c ⟨[.obj f s], [(some (0, []), .obj f s)], []⟩ ⟨[sq], []⟩ (.copy ⟨.ref 0, [.first]⟩) =
        (follow c sq [.first] >>= fun y => .ok ⟨[sq, y], []⟩) := by
      simp [meaning1, valueOf, Names.origin]
    show ((meaning1 c ⟨[.obj f s], [(some (0, []), .obj f s)], []⟩ ⟨[sq], []⟩ (.copy ⟨.ref 0, [.first]⟩) >>= fun env => meaningFrom c _ env _) >>= _) = (follow c sq [.first] >>= fun it => elems c n it)
    rw [m2, a2]
    cases follow c sq [.first] with
    | err e v => rfl
    | ub => rfl
    | ok it =>
      refine (rounds_meaning c hd n 1 ⟨[.obj f s, ti], [(some (0, []), .obj f s)], []⟩ sq it [] rfl rfl).trans ?_
      show _ = elems c n it
      cases elems c n it with
      | ok l => rfl
      | err e v => rfl
      | ub => rfl

/-- An example: a variable, a reference to its address, an assignment to the variable, the use of the reference. -/
def Spec.seenBlock : List LStmt :=
  [.decl (.one4 (.net ⟨[10, 0, 0, 0], [255, 0, 0, 0], 8⟩)), .bind ⟨.var 0, [.network]⟩,
    .decl (.one4 (.net ⟨[11, 0, 0, 0], [255, 0, 0, 0], 8⟩)), .assign 0 ⟨.var 1, []⟩, .use ⟨.ref 0, [.bytes]⟩]

theorem seenBlock_ok : ∀ a s b, seenBlock = a ++ s :: b → (namesAfter noNames a).Compiles s ∧ Keeps (namesAfter noNames a) s := by
  refine allFrom_cons (P := fun σ q => σ.Compiles q ∧ Keeps σ q) ⟨trivial, trivial⟩ ?_
  refine allFrom_cons (P := fun σ q => σ.Compiles q ∧ Keeps σ q) ⟨(by intro h; cases h), ?_⟩ ?_
  · intro t h; cases h
  refine allFrom_cons (P := fun σ q => σ.Compiles q ∧ Keeps σ q) ⟨trivial, trivial⟩ ?_
  refine allFrom_cons (P := fun σ q => σ.Compiles q ∧ Keeps σ q) ⟨⟨_, _, rfl, rfl⟩, trivial⟩ ?_
  refine allFrom_cons (P := fun σ q => σ.Compiles q ∧ Keeps σ q) ⟨(by intro h; cases h), trivial⟩ ?_
  exact allFrom_nil (P := fun σ q => σ.Compiles q ∧ Keeps σ q)

/-- C92_exact and C92_kept_partial, a case: the reference shows the new address. -/
example : BlockOk seenBlock ∧ (LState.start.run exCfg seenBlock >>= fun s => .ok s.out) = .ok [.arr [11, 0, 0, 0]] ∧
    blockMeaning exCfg seenBlock = .ok [.arr [11, 0, 0, 0]] :=
  ⟨fun a s b e => (seenBlock_ok a s b e).1, rfl, rfl⟩

/-- C92_exact, a case: after the end of the lifetime of the variable the reference dangles. -/
example : BlockOk [.decl (.one4 (.net ⟨[10, 0, 0, 0], [255, 0, 0, 0], 8⟩)), .bind ⟨.var 0, [.network]⟩, .drop 0, .use ⟨.ref 0, []⟩] ∧
    (namesAfter noNames [.decl (.one4 (.net ⟨[10, 0, 0, 0], [255, 0, 0, 0], 8⟩)), .bind ⟨.var 0, [.network]⟩, .drop 0]).Dangles (.use ⟨.ref 0, []⟩) := by
  constructor
  · refine allFrom_cons (P := Names.Compiles) trivial ?_
    refine allFrom_cons (P := Names.Compiles) (by first | exact Nat.zero_lt_one | (intro h; cases h)) ?_
    refine allFrom_cons (P := Names.Compiles) Nat.zero_lt_one ?_
    refine allFrom_cons (P := Names.Compiles) (by first | exact Nat.zero_lt_one | (intro h; cases h)) ?_
    exact allFrom_nil
  · rintro ⟨i, path, h, hi⟩
    cases h
    exact hi (by decide)

/-- C92_loop, a case: the hosts of 10.0.0.0/30. -/
example : reach .fresh (typeOf (.one4 (.net ⟨[10, 0, 0, 0], [255, 255, 255, 252], 30⟩))) [.hosts] = some (.fresh, .obj .v4 .hosts) ∧
    (LState.start.run exCfg (forEach (.one4 (.net ⟨[10, 0, 0, 0], [255, 255, 255, 252], 30⟩)) [.hosts] 2) >>= fun s => .ok s.out) =
      .ok [.one4 (.addr [10, 0, 0, 1]), .one4 (.addr [10, 0, 0, 2])] :=
  ⟨rfl, rfl⟩

end Ip
