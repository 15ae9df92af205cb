import Verif.Spec.Refs
/-
Lemmas on blocks with iterators and references.
-/
set_option autoImplicit false

namespace Ip
open Spec

variable {I V U : Type}

/-- The state belongs to a block in front that declares `n` iterators and the references `ow`, and drops `dr`. -/
structure RInv (P : I → Prop) (n : Nat) (ow : List (Option Nat)) (dr : Nat → Prop) (s : RState I V) : Prop where
  nvars : s.vars.length = n
  nrefs : s.refs.length = ow.length
  nodup : s.vars.Nodup
  live : ∀ (i o : Nat), s.vars[i]? = some o → ¬ dr i → ∃ x, s.objs[o]? = some (some x) ∧ P x
  dead : ∀ (i o : Nat), s.vars[i]? = some o → dr i → s.objs[o]? = some none
  own : ∀ (k i : Nat), ow[k]? = some (some i) → ∃ o, s.refs[k]? = some o ∧ s.vars[i]? = some o
  tmp : ∀ (k : Nat), ow[k]? = some none → ∃ o, s.refs[k]? = some o ∧ s.objs[o]? = some none
  decl : ∀ (i : Nat), dr i → i < n

namespace RInv
variable {P : I → Prop} {n : Nat} {ow : List (Option Nat)} {dr : Nat → Prop} {s : RState I V}

theorem start (P : I → Prop) : RInv P 0 [] (fun _ => False) (RState.start : RState I V) :=
  ⟨rfl, rfl, List.nodup_nil, (by intro i o h; cases h), (by intro i o h; cases h), (by intro k i h; cases h),
    (by intro k h; cases h), (by intro i h; cases h)⟩

theorem congr (h : RInv P n ow dr s) {dr' : Nat → Prop} (e : ∀ i, dr' i ↔ dr i) (out : List V) :
    RInv P n ow dr' ⟨s.objs, s.vars, s.refs, out⟩ :=
  ⟨h.nvars, h.nrefs, h.nodup, fun i o a b => h.live i o a (fun c => b ((e i).2 c)), fun i o a b => h.dead i o a ((e i).1 b),
    h.own, h.tmp, fun i hi => h.decl i ((e i).1 hi)⟩

theorem keeps {x : Option I} {o : Nat} {b : Option I} (h : s.objs[o]? = some b) : (s.objs ++ [x])[o]? = some b := by
  have := (List.getElem?_eq_some_iff.1 h).1
  rw [List.getElem?_append_left this]
  exact h

/-- A temporary comes and goes. -/
theorem pushDead (h : RInv P n ow dr s) : RInv P n ow dr ⟨s.objs ++ [none], s.vars, s.refs, s.out⟩ := by
  refine ⟨h.nvars, h.nrefs, h.nodup, fun i o a b => ?_, fun i o a b => keeps (h.dead i o a b), h.own, fun k e => ?_, h.decl⟩
  · obtain ⟨x, hx, px⟩ := h.live i o a b
    exact ⟨x, keeps hx, px⟩
  · obtain ⟨o, h1, h2⟩ := h.tmp k e
    exact ⟨o, h1, keeps h2⟩

/-- A live iterator gets a new value. -/
theorem set (h : RInv P n ow dr s) {i o : Nat} (hi : s.vars[i]? = some o) (hd : ¬ dr i) (y : I) (py : P y) :
    RInv P n ow dr ⟨s.objs.set o (some y), s.vars, s.refs, s.out⟩ := by
  obtain ⟨x, hx, -⟩ := h.live i o hi hd
  have hlt := (List.getElem?_eq_some_iff.1 hx).1
  have other : ∀ (p : Nat), s.objs[p]? = some none → (s.objs.set o (some y))[p]? = some none := by
    intro p hp
    rw [List.getElem?_set_ne]
    · exact hp
    · rintro rfl
      rw [hx] at hp
      cases hp
  refine ⟨h.nvars, h.nrefs, h.nodup, fun j p a b => ?_, fun j p a b => other p (h.dead j p a b), h.own, fun k e => ?_, h.decl⟩
  · by_cases e : o = p
    · subst e
      exact ⟨y, by rw [List.getElem?_set_self hlt], py⟩
    · obtain ⟨z, hz, pz⟩ := h.live j p a b
      exact ⟨z, by show (s.objs.set o (some y))[p]? = _; rw [List.getElem?_set_ne e]; exact hz, pz⟩
  · obtain ⟨p, h1, h2⟩ := h.tmp k e
    exact ⟨p, h1, other p h2⟩

/-- A new iterator. -/
theorem newVar (h : RInv P n ow dr s) (x : I) (px : P x) :
    RInv P (n + 1) ow dr ⟨s.objs ++ [some x], s.vars ++ [s.objs.length], s.refs, s.out⟩ := by
  have bound : ∀ (i o : Nat), s.vars[i]? = some o → o < s.objs.length := by
    intro i o hi
    by_cases hd : dr i
    · exact (List.getElem?_eq_some_iff.1 (h.dead i o hi hd)).1
    · obtain ⟨x, hx, -⟩ := h.live i o hi hd
      exact (List.getElem?_eq_some_iff.1 hx).1
  have split : ∀ (i o : Nat), (s.vars ++ [s.objs.length])[i]? = some o → s.vars[i]? = some o ∨ (i = n ∧ o = s.objs.length) := by
    intro i o hi
    by_cases hl : i < s.vars.length
    · rw [List.getElem?_append_left hl] at hi
      exact .inl hi
    · have hl' := (List.getElem?_eq_some_iff.1 hi).1
      rw [List.length_append, List.length_singleton] at hl'
      have : i = s.vars.length := by omega
      subst this
      rw [List.getElem?_concat_length] at hi
      cases hi
      exact .inr ⟨h.nvars, rfl⟩
  refine ⟨by show (s.vars ++ _).length = _; rw [List.length_append, h.nvars]; rfl, h.nrefs, ?_, fun i o a b => ?_, fun i o a b => ?_,
    fun k i e => ?_, fun k e => ?_, fun i hi => Nat.lt_succ_of_lt (h.decl i hi)⟩
  · show (s.vars ++ [_]).Nodup
    rw [List.nodup_append]
    refine ⟨h.nodup, by simp, fun a ha b hb => ?_⟩
    obtain ⟨i, hi⟩ := List.getElem?_of_mem ha
    have := bound i a hi
    rw [List.mem_singleton] at hb
    omega
  · rcases split i o a with a | ⟨-, rfl⟩
    · obtain ⟨z, hz, pz⟩ := h.live i o a b
      exact ⟨z, keeps hz, pz⟩
    · exact ⟨x, List.getElem?_concat_length, px⟩
  · rcases split i o a with a | ⟨rfl, rfl⟩
    · exact keeps (h.dead i o a b)
    · exact absurd (h.decl i b) (Nat.lt_irrefl _)
  · obtain ⟨o, h1, h2⟩ := h.own k i e
    have := (List.getElem?_eq_some_iff.1 h2).1
    exact ⟨o, h1, by show (s.vars ++ _)[i]? = _; rw [List.getElem?_append_left this]; exact h2⟩
  · obtain ⟨o, h1, h2⟩ := h.tmp k e
    exact ⟨o, h1, keeps h2⟩

/-- The end of a live iterator. -/
theorem drop (h : RInv P n ow dr s) {i o : Nat} (hi : s.vars[i]? = some o) (hd : ¬ dr i) :
    RInv P n ow (fun j => dr j ∨ j = i) ⟨s.objs.set o none, s.vars, s.refs, s.out⟩ := by
  obtain ⟨x, hx, -⟩ := h.live i o hi hd
  have hlt := (List.getElem?_eq_some_iff.1 hx).1
  have none' : ∀ (p : Nat), s.objs[p]? = some none → (s.objs.set o none)[p]? = some none := by
    intro p hp
    by_cases e : o = p
    · subst e
      rw [List.getElem?_set_self hlt]
    · rw [List.getElem?_set_ne e]
      exact hp
  refine ⟨h.nvars, h.nrefs, h.nodup, fun j p a b => ?_, fun j p a b => ?_, h.own, fun k e => ?_, fun j hj => ?_⟩
  · obtain ⟨z, hz, pz⟩ := h.live j p a (fun c => b (.inl c))
    refine ⟨z, ?_, pz⟩
    show (s.objs.set o none)[p]? = _
    rw [List.getElem?_set_ne]
    · exact hz
    · rintro rfl
      refine b (.inr ?_)
      exact (List.getElem?_inj (List.getElem?_eq_some_iff.1 a).1 h.nodup).1 (a.trans hi.symm)
  · rcases b with b | rfl
    · exact none' p (h.dead j p a b)
    · rw [hi] at a
      cases a
      exact List.getElem?_set_self hlt
  · obtain ⟨p, h1, h2⟩ := h.tmp k e
    exact ⟨p, h1, none' p h2⟩
  · rcases hj with hj | rfl
    · exact h.decl j hj
    · rw [← h.nvars]
      exact (List.getElem?_eq_some_iff.1 hi).1

theorem splitRef {α : Type} {l : List α} {m k : Nat} {a b : α} (hm : m = l.length) (h : (l ++ [a])[k]? = some b) :
    l[k]? = some b ∨ (k = m ∧ b = a) := by
  by_cases hl : k < l.length
  · rw [List.getElem?_append_left hl] at h
    exact .inl h
  · have hl' := (List.getElem?_eq_some_iff.1 h).1
    rw [List.length_append, List.length_singleton] at hl'
    have : k = l.length := by omega
    subst this
    rw [List.getElem?_concat_length] at h
    cases h
    exact .inr ⟨hm.symm, rfl⟩

theorem keepRef {r : List Nat} {k o p : Nat} (h : r[k]? = some o) : (r ++ [p])[k]? = some o := by
  have := (List.getElem?_eq_some_iff.1 h).1
  rw [List.getElem?_append_left this]
  exact h

/-- A reference into an iterator. -/
theorem addOwn (h : RInv P n ow dr s) {i o : Nat} (hi : s.vars[i]? = some o) :
    RInv P n (ow ++ [some i]) dr ⟨s.objs, s.vars, s.refs ++ [o], s.out⟩ := by
  refine ⟨h.nvars, by show (s.refs ++ _).length = _; rw [List.length_append, List.length_append, h.nrefs]; rfl, h.nodup, h.live, h.dead, fun k j e => ?_, fun k e => ?_, h.decl⟩
  · rcases splitRef h.nrefs e with e' | ⟨rfl, e'⟩
    · obtain ⟨p, h1, h2⟩ := h.own k j e'
      exact ⟨p, keepRef h1, h2⟩
    · cases e'
      exact ⟨o, List.getElem?_concat_length, hi⟩
  · rcases splitRef h.nrefs e with e' | ⟨rfl, e'⟩
    · obtain ⟨p, h1, h2⟩ := h.tmp k e'
      exact ⟨p, keepRef h1, h2⟩
    · cases e'

/-- A reference into an object that is gone. -/
theorem addTmp (h : RInv P n ow dr s) {o : Nat} (hi : s.objs[o]? = some none) :
    RInv P n (ow ++ [none]) dr ⟨s.objs, s.vars, s.refs ++ [o], s.out⟩ := by
  refine ⟨h.nvars, by show (s.refs ++ _).length = _; rw [List.length_append, List.length_append, h.nrefs]; rfl, h.nodup, h.live, h.dead, fun k j e => ?_, fun k e => ?_, h.decl⟩
  · rcases splitRef h.nrefs e with e' | ⟨rfl, e'⟩
    · obtain ⟨p, h1, h2⟩ := h.own k j e'
      exact ⟨p, keepRef h1, h2⟩
    · cases e'
  · rcases splitRef h.nrefs e with e' | ⟨rfl, e'⟩
    · obtain ⟨p, h1, h2⟩ := h.tmp k e'
      exact ⟨p, keepRef h1, h2⟩
    · exact ⟨o, List.getElem?_concat_length, hi⟩

end RInv

/-! ### The statements -/

theorem concat_set {α : Type} (l : List α) (a b : α) : (l ++ [a]).set l.length b = l ++ [b] := by
  rw [List.set_append_right _ _ (Nat.le_refl _), Nat.sub_self]
  rfl

namespace RState
variable (O : RaOps I V U) (s : RState I V)

/-- What every statement does to the state, when its iterators are alive. -/
theorem load_ok {o : Nat} {x : I} (h : s.objs[o]? = some (some x)) : s.load o = .ok x := by
  unfold load; rw [h]

theorem load_dead {o : Nat} (h : s.objs[o]? = some none) : s.load o = .ub := by
  unfold load; rw [h]

theorem load_inv {o : Nat} {x : I} (h : s.load o = .ok x) : s.objs[o]? = some (some x) := by
  unfold load at h
  split at h
  · cases h; assumption
  · cases h

theorem var_ok {i o : Nat} (h : s.vars[i]? = some o) : s.var i = .ok o := by
  unfold var; rw [h]

theorem temp_ok {o : Nat} {x y : I} {m : Mv} (h : s.objs[o]? = some (some x)) (hy : O.mv m x = .ok y) :
    s.temp O o m = .ok (s.objs.length, ⟨s.objs ++ [some y], s.vars, s.refs, s.out⟩) := by
  unfold temp
  rw [s.load_ok h]
  show (O.mv m x >>= fun y => _) = _
  rw [hy]
  show Res.ok (s.objs.length, (⟨(s.objs ++ [some x]).set s.objs.length (some y), s.vars, s.refs, s.out⟩ : RState I V)) = _
  rw [concat_set]

theorem post_ok {o : Nat} {x y : I} {m : Mv} (h : s.objs[o]? = some (some x)) (hy : O.mv m x = .ok y) :
    s.post O o m = .ok (s.objs.length, ⟨s.objs.set o (some y) ++ [some x], s.vars, s.refs, s.out⟩) := by
  unfold post
  rw [s.load_ok h]
  show (O.mv m x >>= fun y => _) = _
  rw [hy]
  show Res.ok (s.objs.length, (⟨(s.objs ++ [some x]).set o (some y), s.vars, s.refs, s.out⟩ : RState I V)) = _
  have := (List.getElem?_eq_some_iff.1 h).1
  rw [List.set_append_left _ _ this]

theorem stdRev_ok {o : Nat} {x y : I} (h : s.objs[o]? = some (some x)) (hy : O.dec x = .ok y) :
    s.stdRev O o = .ok (s.objs.length, ⟨s.objs ++ [none], s.vars, s.refs, s.out⟩) := by
  unfold stdRev
  rw [s.load_ok h]
  show (O.dec x >>= fun y => _) = _
  rw [hy]
  show ((⟨(s.objs ++ [some x]).set s.objs.length (some y), s.vars, s.refs, s.out⟩ : RState I V).deref s.objs.length >>= fun r => _) = _
  rw [concat_set]
  unfold deref
  rw [load_ok _ (x := y) List.getElem?_concat_length]
  show Res.ok (s.objs.length, (⟨((s.objs ++ [some x]).set s.objs.length (some y)).set s.objs.length none, s.vars, s.refs, s.out⟩ : RState I V)) = _
  rw [concat_set, concat_set]

end RState

/-- All moves and accesses of the iterators with `P` have a result, and the moves keep `P`. -/
structure RTotal (O : RaOps I V U) (P : I → Prop) : Prop where
  mv : ∀ m x, P x → ∃ y, O.mv m x = .ok y ∧ P y
  at_ : ∀ x n, P x → ∃ v, O.atI x n = .ok v

/-- The state belongs to the block in front. -/
def RAfter (P : I → Prop) (a : List (RStmt I)) (s : RState I V) : Prop :=
  RInv P (declared a) (owners a) (fun i => RStmt.drop i ∈ a) s

theorem declared_append (a b : List (RStmt I)) : declared (a ++ b) = declared a + declared b := List.countP_append

theorem owners_append (a b : List (RStmt I)) : owners (a ++ b) = owners a ++ owners b := List.filterMap_append

theorem RAfter.same {P : I → Prop} {a : List (RStmt I)} {s : RState I V} {p : RStmt I} (hd : declared [p] = 0) (ho : owners [p] = [])
    (hn : ∀ i, p ≠ .drop i) (out : List V) (h : RAfter P a s) : RAfter P (a ++ [p]) ⟨s.objs, s.vars, s.refs, out⟩ := by
  unfold RAfter
  rw [declared_append, owners_append, hd, ho, List.append_nil]
  refine RInv.congr h (fun i => ?_) out
  rw [List.mem_append, List.mem_singleton]
  exact ⟨fun h => h.resolve_right fun e => hn i e.symm, .inl⟩

theorem step_total {O : RaOps I V U} {P : I → Prop} (T : RTotal O P) {a : List (RStmt I)} {s : RState I V} (h : RAfter P a s)
    (p : RStmt I) (hk : Known a p) (hm : ∀ x, p = .make x → P x) :
    (Dangles a p → s.step O p = .ub) ∧ (¬ Dangles a p → ∃ s', s.step O p = .ok s' ∧ RAfter P (a ++ [p]) s') := by
  have vars : ∀ i ∈ names p, ∃ o, s.vars[i]? = some o := fun i hi => by
    have := hk.1 i hi
    rw [← h.nvars] at this
    exact ⟨_, List.getElem?_eq_getElem this⟩
  -- statements with one iterator
  have one : ∀ i, names p = [i] → (∀ k, p ≠ .read k) →
      ∃ o, s.vars[i]? = some o ∧ s.var i = .ok o ∧
        (RStmt.drop i ∈ a → s.load o = .ub) ∧
        (¬ Dangles a p → RStmt.drop i ∉ a ∧ ∃ x, s.objs[o]? = some (some x) ∧ P x) := by
    intro i hi _
    obtain ⟨o, ho⟩ := vars i (by rw [hi]; exact List.mem_singleton_self i)
    refine ⟨o, ho, s.var_ok ho, fun hd => s.load_dead (h.dead i o ho hd), fun hn => ?_⟩
    have hd : RStmt.drop i ∉ a := fun hd => hn (.inl ⟨i, by rw [hi]; exact List.mem_singleton_self i, hd⟩)
    exact ⟨hd, h.live i o ho hd⟩
  have bad1 : ∀ i, names p = [i] → (∀ k, p ≠ .read k) → (∀ k, p ≠ .valueStdRev k) → Dangles a p → RStmt.drop i ∈ a := by
    intro i hi hr hv hd
    rcases hd with ⟨j, hj, hd⟩ | ⟨k, hk, -⟩ | ⟨k, hk⟩
    · rw [hi, List.mem_singleton] at hj
      exact hj ▸ hd
    · exact absurd hk (hr k)
    · exact absurd hk (hv k)
  cases p with
  | make x =>
    refine ⟨fun hd => ?_, fun _ => ⟨_, rfl, ?_⟩⟩
    · rcases hd with ⟨j, hj, -⟩ | ⟨k, hk, -⟩ | ⟨k, hk⟩
      · cases hj
      · cases hk
      · cases hk
    · have := RInv.newVar h x (hm x rfl)
      unfold RAfter
      rw [declared_append, owners_append, show owners [RStmt.make x] = [] from rfl, List.append_nil]
      refine RInv.congr this (fun i => ?_) s.out
      rw [List.mem_append, List.mem_singleton]
      exact ⟨fun h => h.resolve_right (fun e => by cases e), .inl⟩
  | copy i =>
    obtain ⟨o, ho, e, hb, hg⟩ := one i rfl (fun k => by simp)
    refine ⟨fun hd => ?_, fun hn => ?_⟩
    · show (s.var i >>= fun o => _) = _
      rw [e]
      show (s.load o >>= fun x => _) = _
      rw [hb (bad1 i rfl (fun k => by simp) (fun k => by simp) hd)]
      rfl
    · obtain ⟨-, x, hx, px⟩ := hg hn
      refine ⟨⟨s.objs ++ [some x], s.vars ++ [s.objs.length], s.refs, s.out⟩, ?_, ?_⟩
      · show (s.var i >>= fun o => _) = _
        rw [e]
        show (s.load o >>= fun x => _) = _
        rw [s.load_ok hx]
        rfl
      · have := RInv.newVar h x px
        unfold RAfter
        rw [declared_append, owners_append, show owners [(RStmt.copy i : RStmt I)] = [] from rfl, List.append_nil]
        refine RInv.congr this (fun i => ?_) s.out
        rw [List.mem_append, List.mem_singleton]
        exact ⟨fun h => h.resolve_right (fun e => by cases e), .inl⟩
  | assign i j =>
    obtain ⟨o, ho⟩ := vars i (by simp [names])
    obtain ⟨q, hq⟩ := vars j (by simp [names])
    refine ⟨fun hd => ?_, fun hn => ?_⟩
    · show (s.var i >>= fun o => _) = _
      rw [s.var_ok ho]
      show (s.load o >>= fun x => _) = _
      by_cases hi : RStmt.drop i ∈ a
      · rw [s.load_dead (h.dead i o ho hi)]
        rfl
      · obtain ⟨x, hx, -⟩ := h.live i o ho hi
        rw [s.load_ok hx]
        show (s.var j >>= fun o => _) = _
        rw [s.var_ok hq]
        show (s.load q >>= fun x => _) = _
        have hj : RStmt.drop j ∈ a := by
          rcases hd with ⟨l, hl, hd⟩ | ⟨k, hk, -⟩ | ⟨k, hk⟩
          · rcases List.mem_cons.1 hl with rfl | hl
            · exact absurd hd hi
            · rw [List.mem_singleton] at hl
              exact hl ▸ hd
          · cases hk
          · cases hk
        rw [s.load_dead (h.dead j q hq hj)]
        rfl
    · have hi : RStmt.drop i ∉ a := fun hd => hn (.inl ⟨i, by simp [names], hd⟩)
      have hj : RStmt.drop j ∉ a := fun hd => hn (.inl ⟨j, by simp [names], hd⟩)
      obtain ⟨x, hx, -⟩ := h.live i o ho hi
      obtain ⟨y, hy, py⟩ := h.live j q hq hj
      refine ⟨s.store o y, ?_, ?_⟩
      · show (s.var i >>= fun o => _) = _
        rw [s.var_ok ho]
        show (s.load o >>= fun x => _) = _
        rw [s.load_ok hx]
        show (s.var j >>= fun o => _) = _
        rw [s.var_ok hq]
        show (s.load q >>= fun x => _) = _
        rw [s.load_ok hy]
        rfl
      · exact RAfter.same rfl rfl (fun i => by simp) s.out (RInv.set h ho hi y py)
  | move i m =>
    obtain ⟨o, ho, e, hb, hg⟩ := one i rfl (fun k => by simp)
    refine ⟨fun hd => ?_, fun hn => ?_⟩
    · show (s.var i >>= fun o => _) = _
      rw [e]
      show (s.load o >>= fun x => _) = _
      rw [hb (bad1 i rfl (fun k => by simp) (fun k => by simp) hd)]
      rfl
    · obtain ⟨hi, x, hx, px⟩ := hg hn
      obtain ⟨y, hy, py⟩ := T.mv m x px
      refine ⟨s.store o y, ?_, ?_⟩
      · show (s.var i >>= fun o => _) = _
        rw [e]
        show (s.load o >>= fun x => _) = _
        rw [s.load_ok hx]
        show (O.mv m x >>= fun x => _) = _
        rw [hy]
        rfl
      · exact RAfter.same rfl rfl (fun i => by simp) s.out (RInv.set h ho hi y py)
  | drop i =>
    obtain ⟨o, ho, e, hb, hg⟩ := one i rfl (fun k => by simp)
    refine ⟨fun hd => ?_, fun hn => ?_⟩
    · show (s.var i >>= fun o => _) = _
      rw [e]
      show (s.load o >>= fun x => _) = _
      rw [hb (bad1 i rfl (fun k => by simp) (fun k => by simp) hd)]
      rfl
    · obtain ⟨hi, x, hx, px⟩ := hg hn
      refine ⟨s.destroy o, ?_, ?_⟩
      · show (s.var i >>= fun o => _) = _
        rw [e]
        show (s.load o >>= fun x => _) = _
        rw [s.load_ok hx]
        rfl
      · have := RInv.drop h ho hi
        unfold RAfter
        rw [declared_append, owners_append, show owners [(RStmt.drop i : RStmt I)] = [] from rfl, List.append_nil]
        refine RInv.congr this (fun j => ?_) s.out
        rw [List.mem_append, List.mem_singleton]
        exact or_congr Iff.rfl ⟨fun e => by cases e; rfl, fun e => by rw [e]⟩
  | bind i =>
    obtain ⟨o, ho, e, hb, hg⟩ := one i rfl (fun k => by simp)
    refine ⟨fun hd => ?_, fun hn => ?_⟩
    · show (s.var i >>= fun o => _) = _
      rw [e]
      show ((s.load o >>= fun x => _) >>= fun r => _) = _
      rw [hb (bad1 i rfl (fun k => by simp) (fun k => by simp) hd)]
      rfl
    · obtain ⟨hi, x, hx, px⟩ := hg hn
      refine ⟨⟨s.objs, s.vars, s.refs ++ [o], s.out⟩, ?_, ?_⟩
      · show (s.var i >>= fun o => _) = _
        rw [e]
        show ((s.load o >>= fun x => _) >>= fun r => _) = _
        rw [s.load_ok hx]
        rfl
      · unfold RAfter
        rw [declared_append, owners_append]
        refine RInv.congr (RInv.addOwn h ho) (fun i => ?_) s.out
        rw [List.mem_append, List.mem_singleton]
        exact ⟨fun h => h.resolve_right (fun e => by cases e), .inl⟩
  | bindTemp i m =>
    obtain ⟨o, ho, e, hb, hg⟩ := one i rfl (fun k => by simp)
    refine ⟨fun hd => ?_, fun hn => ?_⟩
    · show (s.var i >>= fun o => _) = _
      rw [e]
      show ((s.load o >>= fun x => _) >>= fun r => _) = _
      rw [hb (bad1 i rfl (fun k => by simp) (fun k => by simp) hd)]
      rfl
    · obtain ⟨hi, x, hx, px⟩ := hg hn
      obtain ⟨y, hy, py⟩ := T.mv m x px
      refine ⟨⟨s.objs ++ [none], s.vars, s.refs ++ [s.objs.length], s.out⟩, ?_, ?_⟩
      · show (s.var i >>= fun o => _) = _
        rw [e]
        show (s.temp O o m >>= fun r => _) = _
        rw [s.temp_ok O hx hy]
        show (((⟨s.objs ++ [some y], s.vars, s.refs, s.out⟩ : RState I V).load s.objs.length >>= fun r => _) >>= fun r => _) = _
        rw [RState.load_ok _ (x := y) List.getElem?_concat_length]
        show Res.ok (⟨(s.objs ++ [some y]).set s.objs.length none, s.vars, s.refs ++ [s.objs.length], s.out⟩ : RState I V) = _
        rw [concat_set]
      · unfold RAfter
        rw [declared_append, owners_append]
        refine RInv.congr (RInv.addTmp (RInv.pushDead h) List.getElem?_concat_length) (fun i => ?_) s.out
        rw [List.mem_append, List.mem_singleton]
        exact ⟨fun h => h.resolve_right (fun e => by cases e), .inl⟩
  | bindPost i m =>
    obtain ⟨o, ho, e, hb, hg⟩ := one i rfl (fun k => by simp)
    refine ⟨fun hd => ?_, fun hn => ?_⟩
    · show (s.var i >>= fun o => _) = _
      rw [e]
      show ((s.load o >>= fun x => _) >>= fun r => _) = _
      rw [hb (bad1 i rfl (fun k => by simp) (fun k => by simp) hd)]
      rfl
    · obtain ⟨hi, x, hx, px⟩ := hg hn
      obtain ⟨y, hy, py⟩ := T.mv m x px
      have hl : s.objs.length = (s.objs.set o (some y)).length := (List.length_set).symm
      refine ⟨⟨s.objs.set o (some y) ++ [none], s.vars, s.refs ++ [s.objs.length], s.out⟩, ?_, ?_⟩
      · show (s.var i >>= fun o => _) = _
        rw [e]
        show (s.post O o m >>= fun r => _) = _
        rw [s.post_ok O hx hy]
        show (((⟨s.objs.set o (some y) ++ [some x], s.vars, s.refs, s.out⟩ : RState I V).load s.objs.length >>= fun r => _) >>= fun r => _) = _
        rw [RState.load_ok _ (x := x) (by rw [hl]; exact List.getElem?_concat_length)]
        show Res.ok (⟨(s.objs.set o (some y) ++ [some x]).set s.objs.length none, s.vars, s.refs ++ [s.objs.length], s.out⟩ : RState I V) = _
        congr 2
        rw [hl, concat_set]
      · unfold RAfter
        rw [declared_append, owners_append]
        refine RInv.congr (RInv.addTmp (RInv.pushDead (RInv.set h ho hi y py)) (o := s.objs.length)
          (by rw [hl]; exact List.getElem?_concat_length)) (fun i => ?_) s.out
        rw [List.mem_append, List.mem_singleton]
        exact ⟨fun h => h.resolve_right (fun e => by cases e), .inl⟩
  | bindStdRev i =>
    obtain ⟨o, ho, e, hb, hg⟩ := one i rfl (fun k => by simp)
    refine ⟨fun hd => ?_, fun hn => ?_⟩
    · show (s.var i >>= fun o => _) = _
      rw [e]
      show ((s.load o >>= fun x => _) >>= fun r => _) = _
      rw [hb (bad1 i rfl (fun k => by simp) (fun k => by simp) hd)]
      rfl
    · obtain ⟨hi, x, hx, px⟩ := hg hn
      obtain ⟨y, hy, py⟩ := T.mv .dec x px
      refine ⟨⟨s.objs ++ [none], s.vars, s.refs ++ [s.objs.length], s.out⟩, ?_, ?_⟩
      · show (s.var i >>= fun o => _) = _
        rw [e]
        show (s.stdRev O o >>= fun r => _) = _
        rw [s.stdRev_ok O hx hy]
        rfl
      · unfold RAfter
        rw [declared_append, owners_append]
        refine RInv.congr (RInv.addTmp (RInv.pushDead h) List.getElem?_concat_length) (fun i => ?_) s.out
        rw [List.mem_append, List.mem_singleton]
        exact ⟨fun h => h.resolve_right (fun e => by cases e), .inl⟩
  | value i =>
    obtain ⟨o, ho, e, hb, hg⟩ := one i rfl (fun k => by simp)
    refine ⟨fun hd => ?_, fun hn => ?_⟩
    · show (s.var i >>= fun o => _) = _
      rw [e]
      show ((s.load o >>= fun x => _) >>= fun r => _) = _
      rw [hb (bad1 i rfl (fun k => by simp) (fun k => by simp) hd)]
      rfl
    · obtain ⟨hi, x, hx, px⟩ := hg hn
      refine ⟨⟨s.objs, s.vars, s.refs, s.out ++ [O.deref x]⟩, ?_, RAfter.same rfl rfl (fun i => by simp) _ h⟩
      show (s.var i >>= fun o => _) = _
      rw [e]
      show ((s.load o >>= fun x => _) >>= fun r => _) = _
      rw [s.load_ok hx]
      show ((s.load o >>= fun x => _) >>= fun r => _) = _
      rw [s.load_ok hx]
      rfl
  | valueTemp i m =>
    obtain ⟨o, ho, e, hb, hg⟩ := one i rfl (fun k => by simp)
    refine ⟨fun hd => ?_, fun hn => ?_⟩
    · show (s.var i >>= fun o => _) = _
      rw [e]
      show ((s.load o >>= fun x => _) >>= fun r => _) = _
      rw [hb (bad1 i rfl (fun k => by simp) (fun k => by simp) hd)]
      rfl
    · obtain ⟨hi, x, hx, px⟩ := hg hn
      obtain ⟨y, hy, py⟩ := T.mv m x px
      refine ⟨⟨s.objs ++ [none], s.vars, s.refs, s.out ++ [O.deref y]⟩, ?_,
        RAfter.same rfl rfl (fun i => by simp) _ (RInv.pushDead h)⟩
      show (s.var i >>= fun o => _) = _
      rw [e]
      show (s.temp O o m >>= fun r => _) = _
      rw [s.temp_ok O hx hy]
      show (((⟨s.objs ++ [some y], s.vars, s.refs, s.out⟩ : RState I V).load s.objs.length >>= fun r => _) >>= fun r => _) = _
      rw [RState.load_ok _ (x := y) List.getElem?_concat_length]
      show (((⟨s.objs ++ [some y], s.vars, s.refs, s.out⟩ : RState I V).load s.objs.length >>= fun r => _) >>= fun r => _) = _
      rw [RState.load_ok _ (x := y) List.getElem?_concat_length]
      show Res.ok (⟨(s.objs ++ [some y]).set s.objs.length none, s.vars, s.refs, s.out ++ [O.deref y]⟩ : RState I V) = _
      rw [concat_set]
  | valuePost i m =>
    obtain ⟨o, ho, e, hb, hg⟩ := one i rfl (fun k => by simp)
    refine ⟨fun hd => ?_, fun hn => ?_⟩
    · show (s.var i >>= fun o => _) = _
      rw [e]
      show ((s.load o >>= fun x => _) >>= fun r => _) = _
      rw [hb (bad1 i rfl (fun k => by simp) (fun k => by simp) hd)]
      rfl
    · obtain ⟨hi, x, hx, px⟩ := hg hn
      obtain ⟨y, hy, py⟩ := T.mv m x px
      have hl : s.objs.length = (s.objs.set o (some y)).length := (List.length_set).symm
      refine ⟨⟨s.objs.set o (some y) ++ [none], s.vars, s.refs, s.out ++ [O.deref x]⟩, ?_,
        RAfter.same rfl rfl (fun i => by simp) _ (RInv.pushDead (RInv.set h ho hi y py))⟩
      show (s.var i >>= fun o => _) = _
      rw [e]
      show (s.post O o m >>= fun r => _) = _
      rw [s.post_ok O hx hy]
      show (((⟨s.objs.set o (some y) ++ [some x], s.vars, s.refs, s.out⟩ : RState I V).load s.objs.length >>= fun r => _) >>= fun r => _) = _
      rw [RState.load_ok _ (x := x) (by rw [hl]; exact List.getElem?_concat_length)]
      show (((⟨s.objs.set o (some y) ++ [some x], s.vars, s.refs, s.out⟩ : RState I V).load s.objs.length >>= fun r => _) >>= fun r => _) = _
      rw [RState.load_ok _ (x := x) (by rw [hl]; exact List.getElem?_concat_length)]
      show Res.ok (⟨(s.objs.set o (some y) ++ [some x]).set s.objs.length none, s.vars, s.refs, s.out ++ [O.deref x]⟩ : RState I V) = _
      congr 2
      rw [hl, concat_set]
  | valueStdRev i =>
    obtain ⟨o, ho, e, hb, hg⟩ := one i rfl (fun k => by simp)
    refine ⟨fun hd => ?_, fun hn => absurd (.inr (.inr ⟨i, rfl⟩)) hn⟩
    show (s.var i >>= fun o => _) = _
    rw [e]
    by_cases hi : RStmt.drop i ∈ a
    · show ((s.load o >>= fun x => _) >>= fun r => _) = _
      rw [hb hi]
      rfl
    · obtain ⟨x, hx, px⟩ := h.live i o ho hi
      obtain ⟨y, hy, py⟩ := T.mv .dec x px
      show (s.stdRev O o >>= fun r => _) = _
      rw [s.stdRev_ok O hx hy]
      show (((⟨s.objs ++ [none], s.vars, s.refs, s.out⟩ : RState I V).load s.objs.length >>= fun r => _) >>= fun r => _) = _
      rw [RState.load_dead _ List.getElem?_concat_length]
      rfl
  | index i n =>
    obtain ⟨o, ho, e, hb, hg⟩ := one i rfl (fun k => by simp)
    refine ⟨fun hd => ?_, fun hn => ?_⟩
    · show (s.var i >>= fun o => _) = _
      rw [e]
      show (s.load o >>= fun x => _) = _
      rw [hb (bad1 i rfl (fun k => by simp) (fun k => by simp) hd)]
      rfl
    · obtain ⟨hi, x, hx, px⟩ := hg hn
      obtain ⟨v, hv⟩ := T.at_ x n px
      refine ⟨⟨s.objs, s.vars, s.refs, s.out ++ [v]⟩, ?_, RAfter.same rfl rfl (fun i => by simp) _ h⟩
      show (s.var i >>= fun o => _) = _
      rw [e]
      show (s.load o >>= fun x => _) = _
      rw [s.load_ok hx]
      show (O.atI x n >>= fun r => _) = _
      rw [hv]
      rfl
  | read k =>
    have hlt := hk.2 k rfl
    obtain ⟨w, hw⟩ : ∃ w, (owners a)[k]? = some w := ⟨_, List.getElem?_eq_getElem hlt⟩
    have run : ∀ o, s.refs[k]? = some o → s.step O (.read k) = (s.load o >>= fun x => .ok ⟨s.objs, s.vars, s.refs, s.out ++ [O.deref x]⟩) := by
      intro o ho
      show (match s.refs[k]? with
        | some r => _
        | none => _) = _
      rw [ho]
      show ((s.load o >>= fun x => _) >>= fun v => _) = _
      cases s.load o <;> rfl
    refine ⟨fun hd => ?_, fun hn => ?_⟩
    · rcases hd with ⟨j, hj, -⟩ | ⟨k', hk', hd⟩ | ⟨k', hk'⟩
      · cases hj
      · cases hk'
        rcases hd with hd | ⟨i, hi, hd⟩
        · obtain ⟨o, h1, h2⟩ := h.tmp k hd
          rw [run o h1, s.load_dead h2]
          rfl
        · obtain ⟨o, h1, h2⟩ := h.own k i hi
          rw [run o h1, s.load_dead (h.dead i o h2 hd)]
          rfl
      · cases hk'
    · cases w with
      | none => exact absurd (.inr (.inl ⟨k, rfl, .inl hw⟩)) hn
      | some i =>
        have hd : RStmt.drop i ∉ a := fun hd => hn (.inr (.inl ⟨k, rfl, .inr ⟨i, hw, hd⟩⟩))
        obtain ⟨o, h1, h2⟩ := h.own k i hw
        obtain ⟨x, hx, -⟩ := h.live i o h2 hd
        refine ⟨⟨s.objs, s.vars, s.refs, s.out ++ [O.deref x]⟩, ?_, RAfter.same rfl rfl (fun i => by simp) _ h⟩
        rw [run o h1, s.load_ok hx]
        rfl

/-- Reading a reference that belongs to an iterator is reading the iterator. -/
theorem read_value (O : RaOps I V U) {P : I → Prop} {a : List (RStmt I)} {s : RState I V} (h : RAfter P a s)
    (k i : Nat) (hw : (owners a)[k]? = some (some i)) : s.step O (.read k) = s.step O (.value i) := by
  obtain ⟨o, h1, h2⟩ := h.own k i hw
  show (match s.refs[k]? with
    | some r => _
    | none => _) = (s.var i >>= fun o => _)
  rw [s.var_ok h2, h1]
  show ((s.load o >>= fun x => _) >>= fun v => _) = ((s.load o >>= fun x => _) >>= fun r => _)
  cases e : s.load o with
  | ok x =>
    show _ = ((s.load o >>= fun x => _) >>= fun v => _)
    rw [e]
  | err c v => rfl
  | ub => rfl

theorem run_total {O : RaOps I V U} {P : I → Prop} (T : RTotal O P) (p a : List (RStmt I)) (s : RState I V) (h : RAfter P a s)
    (hk : ∀ b q c, p = b ++ q :: c → Known (a ++ b) q) (hm : ∀ x, RStmt.make x ∈ p → P x) :
    ((∃ b q c, p = b ++ q :: c ∧ Dangles (a ++ b) q) → s.run O p = .ub) ∧
    ((¬ ∃ b q c, p = b ++ q :: c ∧ Dangles (a ++ b) q) → ∃ s', s.run O p = .ok s' ∧ RAfter P (a ++ p) s') ∧
    s.run O p = s.run O (direct a p) := by
  induction p generalizing a s with
  | nil =>
    refine ⟨?_, fun _ => ⟨s, rfl, by rw [List.append_nil]; exact h⟩, rfl⟩
    rintro ⟨b, q, c, e, -⟩
    cases b <;> cases e
  | cons q p ih =>
    obtain ⟨h1, h2⟩ := step_total T h q (by have := hk [] q p rfl; rwa [List.append_nil] at this)
      (fun x e => hm x (by rw [e]; exact List.mem_cons_self))
    have hd : s.step O q = s.step O (direct1 a q) := by
      cases q with
      | read k =>
        show _ = s.step O (match (owners a)[k]? with
          | some (some i) => .value i
          | _ => .read k)
        split
        · exact read_value O h k _ (by assumption)
        · rfl
      | _ => rfl
    have hs : s.run O (q :: p) = (s.step O q >>= fun s => s.run O p) := rfl
    have ht : s.run O (direct a (q :: p)) = (s.step O q >>= fun s => s.run O (direct (a ++ [q]) p)) := by
      rw [hd]; rfl
    by_cases hq : Dangles a q
    · have e := h1 hq
      rw [hs, ht, e]
      refine ⟨fun _ => rfl, fun hn => absurd ⟨[], q, p, rfl, by rw [List.append_nil]; exact hq⟩ hn, rfl⟩
    · obtain ⟨s', e, h'⟩ := h2 hq
      have := ih (a ++ [q]) s' h' (fun b r c er => by
          have := hk (q :: b) r c (by rw [er]; rfl)
          rwa [List.append_assoc]) (fun x hx => hm x (List.mem_cons_of_mem _ hx))
      obtain ⟨i1, i2, i3⟩ := this
      rw [hs, ht, e]
      refine ⟨fun hb => i1 ?_, fun hb => ?_, i3⟩
      · obtain ⟨b, r, c, er, hr⟩ := hb
        cases b with
        | nil =>
          cases er
          rw [List.append_nil] at hr
          exact absurd hr hq
        | cons b0 b =>
          cases er
          exact ⟨b, r, c, rfl, by rwa [List.append_assoc]⟩
      · obtain ⟨s'', e', h''⟩ := i2 (fun ⟨b, r, c, er, hr⟩ => hb ⟨q :: b, r, c, by rw [er]; rfl, by rwa [List.append_assoc] at hr⟩)
        exact ⟨s'', e', by rwa [List.append_assoc] at h''⟩

end Ip
