import Verif.Spec.Lifetimes
/-
The blocks of `Model/Lifetimes` against their names.
-/
set_option autoImplicit false

namespace Ip
open Spec

/-- The result of a call has the type of the interface. -/
def Agrees : Option LRes → Option (Bool × LTy) → Prop
  | none, i => i = none
  | some (.part y), i => i = some (true, typeOf y)
  | some (.made r), i => ∃ t, i = some (false, t) ∧ ∀ y, r = .ok y → typeOf y = t

theorem agrees_ok (y : LObj) (t : LTy) (h : typeOf y = t) : Agrees (some (.made (.ok y))) (some (false, t)) :=
  ⟨t, rfl, by rintro _ ⟨⟩; exact h⟩

theorem agrees_made {α : Type} (r : Res α) (f : α → LObj) (t : LTy) (h : ∀ y, typeOf (f y) = t) :
    Agrees (some (.made (r >>= fun d => .ok (f d)))) (some (false, t)) := by
  refine ⟨t, rfl, ?_⟩
  intro y hy
  cases r with
  | ok a =>
    cases hy
    exact h a
  | err e v => cases hy
  | ub => cases hy

theorem agrees_bind {α β : Type} (r : Res α) (g : α → β) (f : β → LObj) (t : LTy) (h : ∀ y, typeOf (f (g y)) = t) :
    Agrees (LRes.of false f (some (r >>= fun d => .ok (g d)))) (some (false, t)) := by
  cases r with
  | ok a => exact agrees_ok _ _ (h a)
  | err e v => exact ⟨t, rfl, by rintro _ ⟨⟩⟩
  | ub => exact ⟨t, rfl, by rintro _ ⟨⟩⟩

theorem agrees_true {β : Type} (y : β) (f : β → LObj) (t : LTy) (h : typeOf (f y) = t) :
    Agrees (LRes.of true f (some (.ok y))) (some (true, t)) := by
  show some (true, t) = some (true, typeOf (f y))
  rw [h]

theorem agrees_false {β : Type} (y : β) (f : β → LObj) (t : LTy) (h : typeOf (f y) = t) :
    Agrees (LRes.of false f (some (.ok y))) (some (false, t)) := agrees_ok _ _ h

/-- The calls on objects of the classes of one version. -/
theorem fam_call {A U : Type} (F : Fam A U) (w : Obj A U → LObj) (fl : Fl) (hf : fl ≠ .any)
    (hw : ∀ x, typeOf (w x) = .obj fl (shapeOf x)) (k : LCall) (x : Obj A U)
    (hb : ∀ a, x = .addr a → k ≠ .bytes) (he : ∀ y, x = .exit y → k.forward = true) :
    Agrees (LRes.of k.refersOne w (k.expr.bind (F.eval [x]))) (interface k (.obj fl (shapeOf x))) := by
  have hany : (fl != .any) = true := by simpa using hf
  cases x <;> cases k <;>
    simp only [LCall.refersOne, LCall.expr, Option.bind_some, Option.bind_none, Fam.eval, List.getElem?_cons_zero, shapeOf, interface, hany,
      List.mem_cons, List.not_mem_nil, or_false, reduceCtorEq, if_true, if_false, or_true, or_self] <;>
    first
    | rfl
    | exact agrees_true _ _ _ (hw _)
    | exact agrees_false _ _ _ (hw _)
    | exact agrees_bind _ _ _ _ (fun _ => hw _)
    | exact absurd rfl (hb _ rfl)
    | exact Bool.noConfusion (he _ rfl)
    | (cases fl <;> first | rfl | exact absurd rfl hf)

/-- The calls on objects of the version agnostic classes. -/
theorem any_call (c : Cfg) (k : LCall) (x : AnyObj) (hv : ∀ a, x = .addr a → k ≠ .v4 ∧ k ≠ .v6)
    (hn : ∀ a, x = .net a → k ≠ .v4 ∧ k ≠ .v6) (he : ∀ y, x = .exit y → k.forward = true) :
    Agrees (LRes.of k.refersAny .any (k.expr.bind (anyEval c [x]))) (interface k (.obj .any (shapeOfAny x))) := by
  have hany : (Fl.any != Fl.any) = false := by decide
  cases x <;> cases k <;>
    simp only [LCall.refersAny, LCall.expr, Option.bind_some, Option.bind_none, anyEval, List.getElem?_cons_zero, shapeOfAny, interface, hany,
      List.mem_cons, List.not_mem_nil, or_false, reduceCtorEq, if_true, if_false, or_true, or_self] <;>
    first
    | rfl
    | exact agrees_true _ _ _ rfl
    | exact agrees_false _ _ _ rfl
    | exact agrees_bind _ _ _ _ (fun _ => rfl)
    | exact absurd rfl (hv _ rfl).1
    | exact absurd rfl (hv _ rfl).2
    | exact absurd rfl (hn _ rfl).1
    | exact absurd rfl (hn _ rfl).2
    | exact Bool.noConfusion (he _ rfl)

/-- The interface of `Spec/Lifetimes` is that of the model. -/
theorem call_interface (c : Cfg) (k : LCall) (x : LObj) : Agrees (x.call c k) (interface k (typeOf x)) := by
  have H4 := fun k x h1 h2 => fam_call (fam4 c.le) LObj.one4 .v4 (by decide) (fun _ => rfl) k x h1 h2
  have H6 := fun k x h1 h2 => fam_call (fam6 c) LObj.one6 .v6 (by decide) (fun _ => rfl) k x h1 h2
  unfold LObj.call
  split
  any_goals rfl
  any_goals exact agrees_ok _ _ rfl
  any_goals exact agrees_made _ _ _ (fun _ => rfl)
  · split
    · rename_i h
      exact H4 _ _ (fun _ h => by cases h) (fun _ _ => h)
    · rename_i h
      cases k <;> first | rfl | exact absurd rfl h
  · split
    · rename_i h
      exact H6 _ _ (fun _ h => by cases h) (fun _ _ => h)
    · rename_i h
      cases k <;> first | rfl | exact absurd rfl h
  · split
    · rename_i h
      exact any_call c _ _ (fun _ h => by cases h) (fun _ h => by cases h) (fun _ _ => h)
    · rename_i h
      cases k <;> first | rfl | exact absurd rfl h
  all_goals first
    | exact H4 _ _ (by rintro a rfl rfl; simp_all) (by rintro y rfl; simp_all)
    | exact H6 _ _ (by rintro a rfl rfl; simp_all) (by rintro y rfl; simp_all)
    | exact any_call c _ _ (by rintro (a | a) rfl <;> constructor <;> rintro rfl <;> simp_all)
        (by rintro (a | a) rfl <;> constructor <;> rintro rfl <;> simp_all) (by rintro y rfl; simp_all)
    | (cases k <;> cases x <;> first | rfl | simp_all)

theorem call_cases (c : Cfg) (k : LCall) (x : LObj) (b : Bool) (t : LTy) (h : interface k (typeOf x) = some (b, t)) :
    (b = true ∧ ∃ y, x.call c k = some (.part y) ∧ typeOf y = t) ∨
    (b = false ∧ ∃ r, x.call c k = some (.made r) ∧ ∀ y, r = .ok y → typeOf y = t) := by
  have := call_interface c k x
  rw [h] at this
  cases hc : x.call c k with
  | none =>
    rw [hc] at this
    cases this
  | some r =>
    rw [hc] at this
    cases r with
    | part y =>
      cases this
      exact .inl ⟨rfl, y, rfl, rfl⟩
    | made r =>
      obtain ⟨t', h1, h2⟩ := this
      cases h1
      exact .inr ⟨rfl, r, rfl, h2⟩

theorem bind_ok {α β : Type} (a : α) (f : α → Res β) : ((Res.ok a : Res α) >>= f) = f a := rfl
theorem bind_err {α β : Type} (e : ErrorCode) (v : Nat) (f : α → Res β) : ((Res.err e v : Res α) >>= f) = .err e v := rfl
theorem bind_ub {α β : Type} (f : α → Res β) : ((Res.ub : Res α) >>= f) = .ub := rfl

theorem follow_append (c : Cfg) (p q : List LCall) : ∀ x, follow c x (p ++ q) = (follow c x p >>= fun y => follow c y q) := by
  induction p with
  | nil => intro x; rfl
  | cons k p ih =>
    intro x
    simp only [List.cons_append, follow]
    cases x.call c k with
    | none => rfl
    | some r =>
      cases r with
      | part y => exact ih y
      | made r =>
        cases r with
        | ok y => exact ih y
        | err e v => rfl
        | ub => rfl

theorem inside_append (c : Cfg) (p q : List LCall) :
    ∀ x, LState.inside c x (p ++ q) = (LState.inside c x p >>= fun y => LState.inside c y q) := by
  induction p with
  | nil => intro x; rfl
  | cons k p ih =>
    intro x
    simp only [List.cons_append, LState.inside]
    cases x.call c k with
    | none => rfl
    | some r =>
      cases r with
      | part y => exact ih y
      | made r => rfl

theorem reach_outside (ks : List LCall) : ∀ (ρ : Reach) (t : LTy) (ρ' : Reach) (t' : LTy), (∀ p, ρ ≠ .inside p) →
    reach ρ t ks = some (ρ', t') → ∀ p, ρ' ≠ .inside p := by
  induction ks with
  | nil =>
    intro ρ t ρ' t' h e
    cases e
    exact h
  | cons k ks ih =>
    intro ρ t ρ' t' h e
    unfold reach at e
    split at e
    · refine ih _ _ _ _ ?_ e
      intro p hp
      cases ρ with
      | inside q => exact h q rfl
      | fresh => cases hp
      | lost => cases hp
    · exact ih _ _ _ _ (by intro p hp; cases hp) e
    · cases e

/-- A chain of calls that only leads inside. -/
theorem inside_reach (c : Cfg) (ks : List LCall) : ∀ (x : LObj) (p q : List LCall) (t : LTy),
    reach (.inside p) (typeOf x) ks = some (.inside q, t) →
      q = p ++ ks ∧ ∃ y, LState.inside c x ks = .ok y ∧ follow c x ks = .ok y ∧ typeOf y = t := by
  induction ks with
  | nil =>
    intro x p q t e
    cases e
    exact ⟨by simp, x, rfl, rfl, rfl⟩
  | cons k ks ih =>
    intro x p q t e
    unfold reach at e
    split at e
    · rename_i t' hi
      rcases call_cases c k x _ _ hi with ⟨_, y, h1, h2⟩ | ⟨h, _⟩
      · rw [← h2] at e
        obtain ⟨e1, z, z1, z2, z3⟩ := ih y (p ++ [k]) q t e
        exact ⟨by rw [e1]; simp, z, by simp only [LState.inside, h1]; exact z1, by simp only [follow, h1]; exact z2, z3⟩
      · cases h
    · exact absurd rfl (reach_outside ks _ _ _ _ (by intro p hp; cases hp) e q)
    · cases e

namespace LState

/-- The state with some more objects. -/
def ext (s : LState) (xs : List LObj) : LState := { s with objs := s.objs ++ xs.map some }

theorem ext_nil (s : LState) : s.ext [] = s := by
  cases s
  simp [ext]

theorem create_ext (s : LState) (y : LObj) (xs : List LObj) : (s.create y).ext xs = s.ext (y :: xs) := by
  simp [ext, create]

theorem load_ext (s : LState) (xs : List LObj) (o : Nat) (x : LObj) (h : s.load o = .ok x) : (s.ext xs).load o = .ok x := by
  unfold load at h ⊢
  have : o < s.objs.length := by
    apply Classical.byContradiction
    intro hn
    rw [List.getElem?_eq_none (by omega)] at h
    cases h
  show (match (s.objs ++ xs.map some)[o]? with | some (some x) => Res.ok x | _ => .ub) = _
  rw [List.getElem?_append_left this]
  exact h

theorem fetch_ok (c : Cfg) (s : LState) (r : Nat × List LCall) (x : LObj) :
    s.fetch c r = .ok x ↔ ∃ y, s.load r.1 = .ok y ∧ inside c y r.2 = .ok x := by
  unfold fetch
  cases h : s.load r.1 with
  | ok y => simp
  | err e v => simp
  | ub => simp

theorem load_new (s : LState) (y : LObj) (xs : List LObj) : ((s.create y).ext xs).load s.objs.length = .ok y := by
  unfold load ext create
  simp

end LState

/-- Where the result of a chain of calls is, when the chain began at `r0`. -/
def Where (r0 r : Nat × List LCall) (temps : List Nat) : Reach → Prop
  | .inside p => temps = [] ∧ r = (r0.1, r0.2 ++ p)
  | .fresh => temps.getLast? = some r.1 ∧ r.2 = []
  | .lost => r.1 ∈ temps ∧ r.2 ≠ []

theorem Where.part {r0 r : Nat × List LCall} {temps : List Nat} {ρ : Reach} (h : Where r0 r temps ρ) (k : LCall) :
    Where r0 (r.1, r.2 ++ [k]) temps (ρ.part k) := by
  cases ρ with
  | inside p =>
    obtain ⟨h1, h2⟩ := h
    subst h2
    exact ⟨h1, by simp⟩
  | fresh => exact ⟨List.mem_of_getLast? h.1, by simp⟩
  | lost => exact ⟨h.1, by simp⟩

open LState in
/-- A chain of calls, object by object, against its value. -/
theorem walk_follow (c : Cfg) (ks : List LCall) : ∀ (s : LState) (r0 r : Nat × List LCall) (temps : List Nat) (x : LObj) (ρ ρ' : Reach) (t' : LTy),
    s.fetch c r = .ok x → reach ρ (typeOf x) ks = some (ρ', t') → Where r0 r temps ρ →
    match follow c x ks with
    | .ok y => typeOf y = t' ∧ ∃ xs r', s.walk c r temps ks = .ok (s.ext xs, r', temps ++ List.range' s.objs.length xs.length) ∧
        (s.ext xs).fetch c r' = .ok y ∧ Where r0 r' (temps ++ List.range' s.objs.length xs.length) ρ'
    | .err e v => s.walk c r temps ks = .err e v
    | .ub => s.walk c r temps ks = .ub := by
  induction ks with
  | nil =>
    intro s r0 r temps x ρ ρ' t' h1 h2 h3
    cases h2
    refine ⟨rfl, [], r, ?_, ?_, ?_⟩
    · simp [LState.walk, ext_nil]
    · rw [ext_nil]
      exact h1
    · simpa using h3
  | cons k ks ih =>
    intro s r0 r temps x ρ ρ' t' h1 h2 h3
    unfold reach at h2
    have hw : s.walk c r temps (k :: ks) = (match x.call c k with
      | some (.part _) => LState.walk c s (r.1, r.2 ++ [k]) temps ks
      | some (.made y) => y >>= fun y => LState.walk c (s.create y) (s.objs.length, []) (temps ++ [s.objs.length]) ks
      | none => .ub) := by
      show (s.fetch c r >>= _) = _
      rw [h1]
      rfl
    split at h2
    · rename_i t hi
      rcases call_cases c k x _ _ hi with ⟨_, y, y1, y2⟩ | ⟨h, _⟩
      · simp only [y1] at hw
        have hf : follow c x (k :: ks) = follow c y ks := by simp only [follow, y1]
        rw [hf, hw]
        rw [← y2] at h2
        refine ih s r0 _ temps y _ ρ' t' ?_ h2 (h3.part k)
        obtain ⟨z, z1, z2⟩ := (fetch_ok c s r x).1 h1
        refine (fetch_ok c s _ y).2 ⟨z, z1, ?_⟩
        show inside c z (r.2 ++ [k]) = _
        rw [inside_append, z2]
        simp only [bind_ok, inside, y1]
      · cases h
    · rename_i t hi
      rcases call_cases c k x _ _ hi with ⟨h, _⟩ | ⟨_, q, y1, y2⟩
      · cases h
      · simp only [y1] at hw
        have hf : follow c x (k :: ks) = (q >>= fun y => follow c y ks) := by simp only [follow, y1]
        rw [hf, hw]
        cases q with
        | err e v => rfl
        | ub => rfl
        | ok y =>
          rw [bind_ok, bind_ok]
          rw [← y2 y rfl] at h2
          have := ih (s.create y) r0 (s.objs.length, []) (temps ++ [s.objs.length]) y .fresh ρ' t'
            ((fetch_ok _ _ _ _).2 ⟨y, by have := load_new s y []; rwa [ext_nil] at this, rfl⟩) h2 ⟨by simp, rfl⟩
          revert this
          cases follow c y ks with
          | err e v => exact id
          | ub => exact id
          | ok z =>
            rintro ⟨z1, xs, r', z2, z3, z4⟩
            have e1 : temps ++ [s.objs.length] ++ List.range' (s.create y).objs.length xs.length
                = temps ++ List.range' s.objs.length (y :: xs).length := by
              rw [List.append_assoc]
              congr 1
              show _ = List.range' _ (xs.length + 1)
              rw [List.range'_succ]
              simp [create]
            rw [e1, create_ext] at z2
            rw [e1] at z4
            rw [create_ext] at z3
            exact ⟨z1, y :: xs, r', z2, z3, z4⟩
    · cases h2

end Ip
