import Verif.Lemmas.PointersLoop
set_option autoImplicit false

namespace Ip
open Spec Res

theorem Res.bind_assoc {α β γ : Type} (x : Res α) (f : α → Res β) (g : β → Res γ) :
    (x >>= f) >>= g = x >>= fun a => f a >>= g := by
  cases x <;> rfl

section
variable {U : Type}

/-- The elements of `arr` from `i` to `j` are read as the characters `cs`. -/
inductive SegP (Ch : Nat → List U → Prop) (arr : List U) : Nat → List Char → Nat → Prop
  | nil (i : Nat) : SegP Ch arr i [] i
  | cons (i : Nat) (c : Char) (g : List U) (cs : List Char) (j : Nat) : Ch c.toNat g → arr.drop i = g ++ arr.drop (i + g.length) →
      SegP Ch arr (i + g.length) cs j → SegP Ch arr i (c :: cs) j

theorem SegP.le {Ch : Nat → List U → Prop} {arr : List U} {i j : Nat} {cs : List Char} (h : SegP Ch arr i cs j) : i ≤ j := by
  induction h with
  | nil => exact Nat.le_refl _
  | cons => omega

theorem SegP.snoc {Ch : Nat → List U → Prop} {arr : List U} {i j : Nat} {cs : List Char} (h : SegP Ch arr i cs j) (c : Char) (g : List U)
    (hc : Ch c.toNat g) (hg : arr.drop j = g ++ arr.drop (j + g.length)) : SegP Ch arr i (cs ++ [c]) (j + g.length) := by
  induction h with
  | nil i => exact .cons i c g [] _ hc hg (.nil _)
  | cons i d g' cs j h1 h2 _ ih => exact .cons i d g' _ _ h1 h2 (ih hg)

variable {next : PReader U} {enc : Enc U} {Ch : Nat → List U → Prop} {span : U → Nat} (L : PLaw next enc Ch span)
include L

theorem PLaw.taken_step {arr : List U} {stop i : Nat} (hs : stop ≤ arr.length) {c : Char} {g : List U} (hc : Ch c.toNat g)
    (hg : arr.drop i = g ++ arr.drop (i + g.length)) (hi : i + g.length ≤ stop) : next arr stop i = .ok (.ch c, i + g.length) := by
  have hne := L.ne _ _ hc
  have hpos : 0 < g.length := List.length_pos_iff.2 hne
  obtain ⟨u, h1, h2⟩ := drop_take_cons arr stop i (by omega) hs
  have hl := length_drop_take arr stop (i + 1) hs
  have e : u :: (arr.take stop).drop (i + 1) = g ++ (arr.take stop).drop (i + g.length) := by
    rw [← h2, List.drop_take, List.drop_take, hg, List.take_append]
    rw [List.take_of_length_le (by omega)]
    congr 2
    omega
  obtain ⟨c', hc', hn⟩ := L.unique _ _ _ _ _ hc e
  have hc' : c' = c := Char.toNat_inj.1 hc'
  subst hc'
  have hr := L.rest u ((arr.take stop).drop (i + 1))
  rw [hn] at hr
  have hf := L.full u _ c' (by rw [hn])
  have hsp := L.pos u
  have hlen : ((arr.take stop).drop (i + g.length)).length = (((arr.take stop).drop (i + 1)).drop (span u - 1)).length := by rw [← hr]
  rw [length_drop_take _ _ _ hs, List.length_drop, hl] at hlen
  rw [hl] at hf
  rw [L.eq arr stop i u h1 hs, hn, if_pos (by omega)]
  congr 2
  omega

theorem partsLoopP_seg {arr : List U} {stop : Nat} (hs : stop ≤ arr.length) {i : Nat} {cs : List Char} (h : SegP Ch arr i cs stop) :
    ∀ (fuel : Nat) (st : PartsSt), stop - i < fuel → partsLoopP next arr stop fuel st i = partsLoop st cs := by
  generalize he : stop = e at h
  induction h with
  | nil i =>
    intro fuel st hf
    cases fuel with
    | zero => omega
    | succ fuel => rw [partsLoopP, if_neg (by omega), partsLoop]
  | cons i c g cs j h1 h2 h3 ih =>
    subst he
    intro fuel st hf
    have := h3.le
    have hpos : 0 < g.length := List.length_pos_iff.2 (L.ne _ _ h1)
    cases fuel with
    | zero => omega
    | succ fuel =>
      rw [partsLoopP, if_pos (by omega), L.taken_step hs h1 h2 this]
      simp only [Res.ok_bind, partsLoop]
      cases partsStep st c with
      | ok st' => simp only [Res.ok_bind]; exact ih rfl fuel st' (by omega)
      | err => rfl
      | ub => rfl

omit L in
/-- The states of `split_scope_id` correspond. -/
def ScopeRel (Ch : Nat → List U → Prop) (arr : List U) (stop begin it : Nat) (sp : ScopeStP) (s : ScopeSt) : Prop :=
  sp.scope = s.scope ∧ sp.buf = s.buf ∧ sp.index = s.index ∧
  ((s.ip = [] ∧ sp.endIp = none) ∨ (s.ip ≠ [] ∧ ∃ e, sp.endIp = some e ∧ e ≤ stop ∧ SegP Ch arr begin s.ip e)) ∧
  (s.scope = false → SegP Ch arr begin s.ip it)

omit L in
theorem drop_of_take {α : Type} {arr g : List α} {stop i : Nat} (hs : stop ≤ arr.length) (h : i + g.length ≤ stop)
    (hg : (arr.take stop).drop i = g ++ (arr.take stop).drop (i + g.length)) : arr.drop i = g ++ arr.drop (i + g.length) := by
  have e : ∀ j, j ≤ stop → arr.drop j = (arr.take stop).drop j ++ arr.drop stop := by
    intro j hj
    conv_lhs => rw [← List.take_append_drop stop arr]
    rw [List.drop_append_of_le_length (by rw [List.length_take]; omega)]
  rw [e i (by omega), e (i + g.length) h, hg, List.append_assoc]

omit L in
theorem scopeStepP_rel {arr : List U} {stop begin it it' : Nat} (spaces : Bool) (M : Nat) {sp : ScopeStP} {s : ScopeSt}
    (h : ScopeRel Ch arr stop begin it sp s) (c : Char) (g : List U) (hc : Ch c.toNat g) (hi : it' ≤ stop) (hg' : it' = it + g.length)
    (hg : arr.drop it = g ++ arr.drop (it + g.length)) :
    (∃ sp' s', scopeStepP spaces M sp c it' = .ok sp' ∧ scopeStep spaces M s c = .ok s' ∧ ScopeRel Ch arr stop begin it' sp' s') ∨
    (∃ e v, scopeStepP spaces M sp c it' = .err e v ∧ scopeStep spaces M s c = .err e v) ∨
    (scopeStepP spaces M sp c it' = .ub ∧ scopeStep spaces M s c = .ub) := by
  obtain ⟨h1, h2, h3, h4, h5⟩ := h
  subst hg'
  unfold scopeStepP scopeStep
  rw [h1, h2, h3]
  by_cases k1 : s.scope = false ∧ c ≠ '%'
  · rw [if_pos k1, if_pos k1]
    left
    have hseg := (h5 k1.1).snoc c g hc hg
    exact ⟨_, _, rfl, rfl, rfl, rfl, rfl, Or.inr ⟨by simp, _, rfl, hi, hseg⟩, fun _ => hseg⟩
  · rw [if_neg k1, if_neg k1]
    by_cases k2 : s.scope = true
    · rw [if_pos k2, if_pos k2]
      by_cases k3 : s.index ≥ M
      · rw [if_pos k3, if_pos k3]
        exact Or.inr (Or.inl ⟨_, _, rfl, rfl⟩)
      · rw [if_neg k3, if_neg k3]
        by_cases k4 : invalidScopeSymbol spaces c = true
        · rw [if_pos k4, if_pos k4]
          exact Or.inr (Or.inl ⟨_, _, rfl, rfl⟩)
        · rw [if_neg k4, if_neg k4]
          cases hw : wr s.buf s.index c with
          | ok b =>
            simp only [Res.ok_bind]
            exact Or.inl ⟨_, _, rfl, rfl, rfl, rfl, rfl, h4, fun h' => by simp only at h'; rw [k2] at h'; cases h'⟩
          | err e v => exact Or.inr (Or.inl ⟨e, v, rfl, rfl⟩)
          | ub => exact Or.inr (Or.inr ⟨rfl, rfl⟩)
    · rw [if_neg k2, if_neg k2]
      exact Or.inl ⟨_, _, rfl, rfl, rfl, rfl, rfl, h4, fun h' => by cases h'⟩

theorem scopeLoopP_eq {arr : List U} {stop begin : Nat} (hs : stop ≤ arr.length) (spaces : Bool) (M : Nat) :
    ∀ (fuel it : Nat) (sp : ScopeStP) (s : ScopeSt), it ≤ stop → stop - it < fuel → ScopeRel Ch arr stop begin it sp s →
    (∃ sp' s', scopeLoopP next arr stop spaces M fuel sp it = .ok sp' ∧
      scopeLoop spaces M s (enc.events ((arr.take stop).drop it)) = .ok s' ∧ ScopeRel Ch arr stop begin stop sp' s' ∧
      ¬ Wild Ch span arr stop it) ∨
    (∃ e v, scopeLoopP next arr stop spaces M fuel sp it = .err e v ∧
      scopeLoop spaces M s (enc.events ((arr.take stop).drop it)) = .err e v ∧
      (Wild Ch span arr stop it → e ≠ .wrong_encoding_sequence)) ∨
    (scopeLoopP next arr stop spaces M fuel sp it = .ub ∧ scopeLoop spaces M s (enc.events ((arr.take stop).drop it)) = .ub) ∨
    (scopeLoopP next arr stop spaces M fuel sp it = .ub ∧ Wild Ch span arr stop it ∧
      scopeLoop spaces M s (enc.events ((arr.take stop).drop it)) = .err .wrong_encoding_sequence 0)
  | 0, it, sp, s, _, hf, _ => by omega
  | fuel + 1, it, sp, s, hi, hf, hr => by
    rw [scopeLoopP]
    by_cases h : it < stop
    · rw [if_pos h]
      rcases L.step h hs with ⟨c, it', h1, h2, h3, h4, ⟨g, g1, g2, g3⟩, h6, _⟩ | ⟨code, sym, it', h1, h2, h3⟩ | ⟨h1, h2, h3⟩
      · rw [h1, h4]
        simp only [Res.ok_bind, scopeLoop]
        rw [show Wild Ch span arr stop it ↔ Wild Ch span arr stop it' from h6 _ _ trivial]
        rw [g3] at g1
        rcases scopeStepP_rel spaces M hr c g g2 h3 g3 (drop_of_take hs (by omega) g1) with ⟨sp', s', k1, k2, k3⟩ | ⟨e, v, k1, k2⟩ | ⟨k1, k2⟩
        · rw [k1, k2]
          simp only [Res.ok_bind]
          exact scopeLoopP_eq hs spaces M fuel it' sp' s' h3 (by omega) k3
        · rw [k1, k2]
          exact Or.inr (Or.inl ⟨e, v, rfl, rfl, fun _ => scopeStep_wrong spaces M s c e v k2⟩)
        · rw [k1, k2]
          exact Or.inr (Or.inr (Or.inl ⟨rfl, rfl⟩))
      · rw [h1, h2]
        simp only [Res.ok_bind, scopeLoop]
        exact Or.inr (Or.inl ⟨_, _, rfl, rfl, fun hw => absurd hw (h3 _)⟩)
      · rw [h1, h2]
        exact Or.inr (Or.inr (Or.inr ⟨rfl, h3 _, rfl⟩))
    · have hit : it = stop := by omega
      subst hit
      rw [if_neg h, drop_take_nil _ _ _ (Nat.le_refl _), L.law.nil]
      refine Or.inl ⟨sp, s, rfl, rfl, hr, ?_⟩
      unfold Wild
      rw [drop_take_nil _ _ _ (Nat.le_refl _)]
      exact over_nil L _ _

theorem splitScopeP_eq {arr : List U} {stop begin : Nat} (hs : stop ≤ arr.length) (hb : begin ≤ stop) (spaces : Bool) (M : Nat) :
    (∃ e ip buf, splitScopeP next arr stop spaces M begin = .ok (e, buf) ∧
      splitScope spaces M (enc.events ((arr.take stop).drop begin)) = .ok (ip, buf) ∧ ¬ Wild Ch span arr stop begin ∧
      ((ip = [] ∧ e = none) ∨ (ip ≠ [] ∧ ∃ e', e = some e' ∧ e' ≤ stop ∧ SegP Ch arr begin ip e'))) ∨
    (∃ e v, splitScopeP next arr stop spaces M begin = .err e v ∧
      splitScope spaces M (enc.events ((arr.take stop).drop begin)) = .err e v ∧
      (Wild Ch span arr stop begin → e ≠ .wrong_encoding_sequence)) ∨
    (splitScopeP next arr stop spaces M begin = .ub ∧ Wild Ch span arr stop begin ∧
      splitScope spaces M (enc.events ((arr.take stop).drop begin)) = .err .wrong_encoding_sequence 0) := by
  have hu := (splitScope_ne_ub spaces M (enc.events ((arr.take stop).drop begin))).1
  unfold splitScope at hu ⊢
  unfold splitScopeP
  rcases scopeLoopP_eq (next := next) (enc := enc) (Ch := Ch) (span := span) L (begin := begin) hs spaces M (arr.length + 1) begin
    ⟨none, false, List.replicate (M + 1) '\x00', 0⟩ ⟨[], false, List.replicate (M + 1) '\x00', 0⟩ hb (by omega)
    ⟨rfl, rfl, rfl, Or.inl ⟨rfl, rfl⟩, fun _ => .nil _⟩ with ⟨sp, s, h1, h2, h3, h4⟩ | ⟨e, v, h1, h2, h3⟩ | ⟨h1, h2⟩ | ⟨h1, h2, h3⟩
  · obtain ⟨k1, k2, k3, k4, k5⟩ := h3
    rw [h2] at hu
    rw [h1, h2]
    simp only [Res.ok_bind] at hu ⊢
    rw [k1, k2]
    cases hsc : s.scope with
    | false =>
      simp only [Bool.false_eq_true, if_false]
      exact Or.inl ⟨_, _, _, rfl, rfl, h4, k4⟩
    | true =>
      rw [hsc] at hu
      simp only [if_true] at hu ⊢
      cases hr : rd s.buf 0 with
      | ok c0 =>
        simp only [Res.ok_bind]
        by_cases h0 : c0 = '\x00'
        · rw [if_pos h0, if_pos h0]
          exact Or.inr (Or.inl ⟨_, _, rfl, rfl, fun _ => by decide⟩)
        · rw [if_neg h0, if_neg h0]
          exact Or.inl ⟨_, _, _, rfl, rfl, h4, k4⟩
      | err e v => exact Or.inr (Or.inl ⟨e, v, rfl, rfl, fun hw => absurd hw h4⟩)
      | ub => rw [hr] at hu; exact absurd rfl hu
  · rw [h1, h2]
    exact Or.inr (Or.inl ⟨e, v, rfl, rfl, h3⟩)
  · rw [h2] at hu
    exact absurd rfl hu
  · rw [h1, h3]
    exact Or.inr (Or.inr ⟨rfl, h2, rfl⟩)

/-- `ip_from_string` of IPv6 on pointers. -/
theorem v6FromP_eq {arr : List U} {stop begin : Nat} (hs : stop ≤ arr.length) (hb : begin ≤ stop) (nullLess spaces : Bool) (M : Nat) :
    (AgreeP (Wild Ch span arr stop begin) (v6FromP next arr stop nullLess spaces M begin)
        (v6FromEvents spaces M (enc.events ((arr.take stop).drop begin))) ∧
      ¬ (nullLess = true ∧ begin < stop ∧ ∃ buf, splitScope spaces M (enc.events ((arr.take stop).drop begin)) = .ok ([], buf))) ∨
    (v6FromP next arr stop nullLess spaces M begin = .ub ∧
      nullLess = true ∧ begin < stop ∧ ∃ buf, splitScope spaces M (enc.events ((arr.take stop).drop begin)) = .ok ([], buf)) := by
  unfold v6FromP v6FromEvents
  by_cases h : begin = stop
  · rw [if_pos h, if_pos ((events_nil_iff L arr stop hs hb).2 h)]
    exact Or.inl ⟨Or.inl ⟨rfl, fun _ h' => by cases h'⟩, fun h' => by omega⟩
  · rw [if_neg h, if_neg (fun h' => h ((events_nil_iff L arr stop hs hb).1 h'))]
    rcases splitScopeP_eq (next := next) (enc := enc) (Ch := Ch) (span := span) L hs hb spaces M with
      ⟨e, ip, buf, h1, h2, h3, h4⟩ | ⟨e, v, h1, h2, h3⟩ | ⟨h1, h2, h3⟩
    · rw [h1, h2]
      simp only [Res.ok_bind]
      rcases h4 with ⟨rfl, rfl⟩ | ⟨hne, e', rfl, he, hseg⟩
      · cases nullLess with
        | true => exact Or.inr ⟨rfl, rfl, by omega, buf, rfl⟩
        | false =>
          refine Or.inl ⟨Or.inl ⟨?_, fun hw => absurd hw h3⟩, by simp⟩
          simp only [splitPartsP, parseAddr, splitParts, partsLoop, Res.ok_bind, Bool.false_eq_true, if_false, Res.bind_assoc]
      · refine Or.inl ⟨Or.inl ⟨?_, fun hw => absurd hw h3⟩, ?_⟩
        · simp only [splitPartsP, parseAddr, splitParts, Res.bind_assoc]
          rw [partsLoopP_seg L (by omega) hseg _ _ (by omega)]
        · rintro ⟨_, _, b, hb⟩
          simp only [Res.ok.injEq, Prod.mk.injEq] at hb
          exact hne hb.1
    · rw [h1, h2]
      refine Or.inl ⟨Or.inl ⟨rfl, fun hw h' => ?_⟩, ?_⟩
      · simp only [Res.err_bind, Res.err.injEq] at h'
        exact h3 hw h'.1
      · rintro ⟨_, _, b, hb⟩
        cases hb
    · rw [h1, h3]
      refine Or.inl ⟨Or.inr ⟨rfl, h2, rfl⟩, ?_⟩
      rintro ⟨_, _, b, hb⟩
      cases hb

end

end Ip
