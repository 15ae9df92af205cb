import Verif.Lemmas.Pointers
import Verif.Lemmas.V6Scope
import Verif.Lemmas.Events
set_option autoImplicit false

namespace Ip
open Spec

section
variable {U : Type} {next : PReader U} {enc : Enc U} {Ch : Nat → List U → Prop} {span : U → Nat} (L : PLaw next enc Ch span)
include L

theorem over_nil (P : Nat → Prop) (k : Nat) : ¬ Overruns Ch span P k ([] : List U) := by
  rintro ⟨gs, u, r, h, _, _⟩
  have : ([] : List U).length = (gs.flatMap (·.2) ++ u :: r).length := by rw [← h]
  simp at this

theorem over_ch {P : Nat → Prop} {k : Nat} {u : U} {l r' : List U} {c : Char} (h : enc.next u l = (.ch c, r')) (hP : P c.toNat) :
    Overruns Ch span P k (u :: l) ↔ Overruns Ch span P k r' := by
  have h1 : (enc.next u l).1 = .ch c := by rw [h]
  have hf := L.full u l c h1
  constructor
  · rintro ⟨gs, v, r, e, hg, hk⟩
    cases gs with
    | nil =>
      simp only [List.flatMap_nil, List.nil_append, List.cons.injEq] at e
      obtain ⟨rfl, rfl⟩ := e
      omega
    | cons g gs =>
      rw [List.flatMap_cons, List.append_assoc] at e
      obtain ⟨c', _, h'⟩ := L.unique _ _ _ _ _ (hg g (by simp)).1 e
      rw [h] at h'
      simp only [Prod.mk.injEq] at h'
      exact ⟨gs, v, r, h'.2, fun x hx => hg x (by simp [hx]), hk⟩
  · rintro ⟨gs, v, r, e, hg, hk⟩
    have hr := L.rest u l
    rw [h] at hr
    refine ⟨(c.toNat, u :: l.take (span u - 1)) :: gs, v, r, ?_, ?_, hk⟩
    · rw [List.flatMap_cons, List.append_assoc, ← e]
      simp only [List.cons_append, List.cons.injEq, true_and]
      rw [show r' = l.drop (span u - 1) from hr, List.take_append_drop]
    · intro x hx
      rcases List.mem_cons.1 hx with rfl | hx
      · exact ⟨L.taken u l c h1, hP⟩
      · exact hg x hx

theorem over_stop {P : Nat → Prop} {k : Nat} {u : U} {l r' : List U} {c : Char} (h : enc.next u l = (.ch c, r')) (hP : ¬ P c.toNat) :
    ¬ Overruns Ch span P k (u :: l) := by
  have h1 : (enc.next u l).1 = .ch c := by rw [h]
  have hf := L.full u l c h1
  rintro ⟨gs, v, r, e, hg, hk⟩
  cases gs with
  | nil =>
    simp only [List.flatMap_nil, List.nil_append, List.cons.injEq] at e
    obtain ⟨rfl, rfl⟩ := e
    omega
  | cons g gs =>
    rw [List.flatMap_cons, List.append_assoc] at e
    obtain ⟨c', hc', h'⟩ := L.unique _ _ _ _ _ (hg g (by simp)).1 e
    rw [h] at h'
    simp only [Prod.mk.injEq, Ev.ch.injEq] at h'
    rw [h'.1, hc'] at hP
    exact hP (hg g (by simp)).2

theorem over_bad {P : Nat → Prop} {k : Nat} {u : U} {l r' : List U} {c : ErrorCode} {s : Nat} (h : enc.next u l = (.bad c s, r')) :
    Overruns Ch span P k (u :: l) ↔ l.length + 1 + k < span u := by
  constructor
  · rintro ⟨gs, v, r, e, hg, hk⟩
    cases gs with
    | nil =>
      simp only [List.flatMap_nil, List.nil_append, List.cons.injEq] at e
      obtain ⟨rfl, rfl⟩ := e
      exact hk
    | cons g gs =>
      rw [List.flatMap_cons, List.append_assoc] at e
      obtain ⟨c', hc', h'⟩ := L.unique _ _ _ _ _ (hg g (by simp)).1 e
      rw [h] at h'
      simp at h'
  · intro hk
    exact ⟨[], u, l, by simp, by simp, hk⟩

/-- One call of the reader on a text. -/
theorem PLaw.step {arr : List U} {stop it : Nat} (h : it < stop) (hs : stop ≤ arr.length) :
    (∃ c it', next arr stop it = .ok (.ch c, it') ∧ it < it' ∧ it' ≤ stop ∧
      enc.events ((arr.take stop).drop it) = .ch c :: enc.events ((arr.take stop).drop it') ∧
      (∃ g, (arr.take stop).drop it = g ++ (arr.take stop).drop it' ∧ Ch c.toNat g ∧ it' = it + g.length) ∧
      (∀ P k, P c.toNat → (Overruns Ch span P k ((arr.take stop).drop it) ↔ Overruns Ch span P k ((arr.take stop).drop it'))) ∧
      (∀ P k, ¬ P c.toNat → ¬ Overruns Ch span P k ((arr.take stop).drop it))) ∨
    (∃ code sym it', next arr stop it = .ok (.bad code sym, it') ∧ enc.events ((arr.take stop).drop it) = [.bad code sym] ∧
      ∀ P, ¬ Overruns Ch span P (arr.length - stop) ((arr.take stop).drop it)) ∨
    (next arr stop it = .ub ∧ enc.events ((arr.take stop).drop it) = [.bad .wrong_encoding_sequence 0] ∧
      ∀ P, Overruns Ch span P (arr.length - stop) ((arr.take stop).drop it)) := by
  obtain ⟨u, h1, h2⟩ := drop_take_cons arr stop it h hs
  have hl := length_drop_take arr stop (it + 1) hs
  have heq := L.eq arr stop it u h1 hs
  have hrest := L.rest u ((arr.take stop).drop (it + 1))
  have hpos := L.pos u
  rw [h2]
  generalize hn : enc.next u ((arr.take stop).drop (it + 1)) = n at heq hrest
  obtain ⟨ev, r'⟩ := n
  simp only at hrest heq
  cases ev with
  | ch c =>
    left
    have hf := L.full u _ c (by rw [hn])
    rw [hl] at hf
    rw [if_pos (by omega)] at heq
    have hr : r' = (arr.take stop).drop (it + span u) := by
      rw [hrest, List.drop_drop]
      congr 1
      omega
    subst hr
    refine ⟨c, it + span u, heq, by omega, by omega, L.law.cons_ch _ _ _ _ hn, ?_, ?_, ?_⟩
    · refine ⟨u :: ((arr.take stop).drop (it + 1)).take (span u - 1), ?_, L.taken u _ c (by rw [hn]), ?_⟩
      · rw [hrest, List.cons_append, List.take_append_drop]
      · simp only [List.length_cons, List.length_take]
        rw [hl]
        omega
    · intro P k hP
      exact over_ch L hn hP
    · intro P k hP
      exact over_stop L hn hP
  | bad code sym =>
    right
    have he := L.law.cons_bad _ _ _ _ _ hn
    by_cases hk : it + span u ≤ arr.length
    · left
      rw [if_pos hk] at heq
      refine ⟨code, sym, _, heq, he, fun P hp => ?_⟩
      have := (over_bad L hn).1 hp
      rw [hl] at this
      omega
    · right
      rw [if_neg hk] at heq
      have hw := L.wrong u ((arr.take stop).drop (it + 1)) (by rw [hl]; omega)
      rw [hn] at hw
      simp only [Ev.bad.injEq] at hw
      obtain ⟨rfl, rfl⟩ := hw
      refine ⟨heq, he, fun P => (over_bad L hn).2 ?_⟩
      rw [hl]
      omega

end

/-- The result `x` of a function on pointers and the result `y` of the function on the characters read: they are the
same, or `x` is undefined, `W` holds and `y` is the error of a wrong encoding. -/
def AgreeP {α : Type} (W : Prop) (x y : Res α) : Prop :=
  (x = y ∧ (W → y ≠ .err .wrong_encoding_sequence 0)) ∨ (x = .ub ∧ W ∧ y = .err .wrong_encoding_sequence 0)

theorem AgreeP.bind {α β : Type} {W : Prop} {x y : Res α} {f : α → Res β} (h : AgreeP W x y)
    (hf : W → ∀ a, y = .ok a → f a ≠ .err .wrong_encoding_sequence 0) : AgreeP W (x >>= f) (y >>= f) := by
  rcases h with ⟨rfl, h⟩ | ⟨rfl, hw, rfl⟩
  · refine Or.inl ⟨rfl, fun hw => ?_⟩
    cases x with
    | ok a => exact hf hw a rfl
    | err c v =>
      intro h'
      exact h hw (by
        simp only [Res.err_bind, Res.err.injEq] at h'
        rw [h'.1, h'.2])
    | ub => intro h'; cases h'
  · exact Or.inr ⟨rfl, hw, rfl⟩

theorem AgreeP.iff {α : Type} {W : Prop} {x y : Res α} (h : AgreeP W x y) (hy : y ≠ .ub) :
    (x = .ub ↔ W ∧ y = .err .wrong_encoding_sequence 0) ∧ (x ≠ .ub → x = y) := by
  rcases h with ⟨rfl, h⟩ | ⟨rfl, hw, rfl⟩
  · exact ⟨⟨fun h' => absurd h' hy, fun h' => absurd h'.2 (h h'.1)⟩, fun _ => rfl⟩
  · exact ⟨⟨fun _ => ⟨hw, rfl⟩, fun _ => rfl⟩, fun h => absurd rfl h⟩

/-- A step that reports no wrong encoding. -/
def NotWrong (c : ErrorCode) : Prop := c ≠ .wrong_encoding_sequence

instance (c : ErrorCode) : Decidable (NotWrong c) := by unfold NotWrong; infer_instance

theorem Res.ErrIn.ne {α : Type} {x : Res α} (h : x.ErrIn NotWrong) : x ≠ .err .wrong_encoding_sequence 0 :=
  fun h' => h _ _ h' rfl

open Res

theorem v4Step_wrong (st : V4St) (c : Char) : ErrIn NotWrong (v4Step st c) := by
  unfold v4Step; errin

theorem scopeStep_wrong (spaces : Bool) (M : Nat) (st : ScopeSt) (c : Char) : ErrIn NotWrong (scopeStep spaces M st c) := by
  unfold scopeStep; errin

section
variable {U : Type} {next : PReader U} {enc : Enc U} {Ch : Nat → List U → Prop} {span : U → Nat} (L : PLaw next enc Ch span)
  (arr : List U) (stop : Nat) (hs : stop ≤ arr.length)

/-- The rest of the text at `it` ends in a sequence that overruns the array. -/
abbrev Wild (Ch : Nat → List U → Prop) (span : U → Nat) (arr : List U) (stop it : Nat) : Prop :=
  Overruns Ch span (fun _ => True) (arr.length - stop) ((arr.take stop).drop it)

include L hs

theorem v4LoopP_eq : ∀ (fuel it : Nat) (st : V4St), it ≤ stop → stop - it < fuel →
    AgreeP (Wild Ch span arr stop it) (v4LoopP next arr stop fuel st it) (v4Loop st (enc.events ((arr.take stop).drop it))) ∧
    (Wild Ch span arr stop it → ∀ a, v4Loop st (enc.events ((arr.take stop).drop it)) ≠ .ok a)
  | 0, it, st, _, hf => by omega
  | fuel + 1, it, st, hi, hf => by
    rw [v4LoopP]
    by_cases h : it < stop
    · rw [if_pos h]
      rcases L.step h hs with ⟨c, it', h1, h2, h3, h4, _, h6, _⟩ | ⟨code, sym, it', h1, h2, h3⟩ | ⟨h1, h2, h3⟩
      · rw [h1, h4]
        simp only [Res.ok_bind, v4Loop]
        rw [show Wild Ch span arr stop it ↔ Wild Ch span arr stop it' from h6 _ _ trivial]
        cases hst : v4Step st c with
        | ok st' => simp only [Res.ok_bind]; exact v4LoopP_eq fuel it' st' h3 (by omega)
        | err e v =>
          simp only [Res.err_bind]
          refine ⟨Or.inl ⟨rfl, fun _ h' => ?_⟩, by simp⟩
          simp only [Res.err.injEq] at h'
          exact v4Step_wrong st c e v hst h'.1
        | ub => exact ⟨Or.inl ⟨rfl, fun _ h' => by cases h'⟩, fun _ _ h' => by cases h'⟩
      · rw [h1, h2]
        simp only [Res.ok_bind, v4Loop]
        exact ⟨Or.inl ⟨rfl, fun hw => absurd hw (h3 _)⟩, fun hw => absurd hw (h3 _)⟩
      · rw [h1, h2]
        exact ⟨Or.inr ⟨rfl, h3 _, rfl⟩, fun _ _ h' => by cases h'⟩
    · rw [if_neg h, show it = stop by omega, drop_take_nil _ _ _ (Nat.le_refl _), L.law.nil]
      have hn : ¬ Wild Ch span arr stop stop := by
        unfold Wild
        rw [drop_take_nil _ _ _ (Nat.le_refl _)]
        exact over_nil L _ _
      exact ⟨Or.inl ⟨rfl, fun hw => absurd hw hn⟩, fun hw => absurd hw hn⟩

theorem events_nil_iff {it : Nat} (hi : it ≤ stop) : enc.events ((arr.take stop).drop it) = [] ↔ it = stop := by
  constructor
  · intro he
    rcases Nat.lt_or_ge it stop with h | h
    · rcases L.step h hs with ⟨c, it', _, _, _, h4, _⟩ | ⟨_, _, _, _, h2, _⟩ | ⟨_, h2, _⟩
      · rw [he] at h4; cases h4
      · rw [he] at h2; cases h2
      · rw [he] at h2; cases h2
    · omega
  · rintro rfl
    rw [drop_take_nil _ _ _ (Nat.le_refl _), L.law.nil]

/-- `ip_from_string` of IPv4 on pointers. -/
theorem v4FromP_eq {begin : Nat} (hb : begin ≤ stop) :
    AgreeP (Wild Ch span arr stop begin) (v4FromP next arr stop begin) (v4FromEvents (enc.events ((arr.take stop).drop begin))) := by
  unfold v4FromP v4FromEvents
  by_cases h : begin = stop
  · rw [if_pos h, if_pos ((events_nil_iff L arr stop hs hb).2 h)]
    exact Or.inl ⟨rfl, fun _ h' => by cases h'⟩
  · rw [if_neg h, if_neg (fun h' => h ((events_nil_iff L arr stop hs hb).1 h'))]
    obtain ⟨h1, h2⟩ := v4LoopP_eq L arr stop hs (arr.length + 1) begin v4Init hb (by omega)
    exact h1.bind fun hw a ha => absurd ha (h2 hw a)

theorem setScopeLoopP_eq (spaces : Bool) : ∀ (fuel it i : Nat) (str : List Char), it ≤ stop → stop - it < fuel →
    AgreeP (Wild Ch span arr stop it) (setScopeLoopP next arr stop spaces fuel i str it)
      (setScopeLoop spaces (enc.events ((arr.take stop).drop it)) i str)
  | 0, it, i, str, _, hf => by omega
  | fuel + 1, it, i, str, hi, hf => by
    rw [setScopeLoopP]
    by_cases h : it < stop
    · rw [if_pos h]
      rcases L.step h hs with ⟨c, it', h1, h2, h3, h4, _, h6, _⟩ | ⟨code, sym, it', h1, h2, h3⟩ | ⟨h1, h2, h3⟩
      · rw [h1, h4]
        simp only [Res.ok_bind, setScopeLoop]
        rw [show Wild Ch span arr stop it ↔ Wild Ch span arr stop it' from h6 _ _ trivial]
        split
        · exact Or.inl ⟨rfl, fun _ h' => by cases h'⟩
        · cases hst : wr str i c with
          | ok st' => simp only [Res.ok_bind]; exact setScopeLoopP_eq spaces fuel it' (i + 1) st' h3 (by omega)
          | err e v => exact absurd hst (by unfold wr; split <;> simp)
          | ub => exact Or.inl ⟨rfl, fun _ h' => by cases h'⟩
      · rw [h1, h2]
        simp only [Res.ok_bind, setScopeLoop]
        exact Or.inl ⟨rfl, fun hw => absurd hw (h3 _)⟩
      · rw [h1, h2]
        exact Or.inr ⟨rfl, h3 _, rfl⟩
    · rw [if_neg h, show it = stop by omega, drop_take_nil _ _ _ (Nat.le_refl _), L.law.nil]
      exact Or.inl ⟨rfl, fun _ h' => by cases h'⟩

/-- `from_string` of `uint128_t` on pointers. -/
theorem fromTextLoopP_eq (base : U128.Base) : ∀ (fuel it : Nat) (x : U128), it ≤ stop → stop - it < fuel →
    fromTextLoopP next arr stop base fuel x it = .ub ∧
      Overruns Ch span (fun cp => cp ≠ 0 ∧ ∃ c : Char, c.toNat = cp ∧ (U128.digitOf base c).isSome) (arr.length - stop) ((arr.take stop).drop it) ∨
    fromTextLoopP next arr stop base fuel x it = .ok (U128.fromTextLoop base (enc.events ((arr.take stop).drop it)) x) ∧
      ¬ Overruns Ch span (fun cp => cp ≠ 0 ∧ ∃ c : Char, c.toNat = cp ∧ (U128.digitOf base c).isSome) (arr.length - stop) ((arr.take stop).drop it)
  | 0, it, x, _, hf => by omega
  | fuel + 1, it, x, hi, hf => by
    have inj : ∀ a b : Char, a.toNat = b.toNat → a = b := fun a b h => Char.toNat_inj.1 h
    rw [fromTextLoopP]
    by_cases h : it < stop
    · rw [if_pos h]
      rcases L.step h hs with ⟨c, it', h1, h2, h3, h4, _, h6, h7⟩ | ⟨code, sym, it', h1, h2, h3⟩ | ⟨h1, h2, h3⟩
      · rw [h1, h4]
        simp only [Res.ok_bind, U128.fromTextLoop]
        by_cases hz : c = '\x00'
        · rw [if_pos hz, if_pos hz]
          exact Or.inr ⟨rfl, h7 _ _ (fun h' => h'.1 (by rw [hz]; rfl))⟩
        · rw [if_neg hz, if_neg hz]
          cases hd : U128.digitOf base c with
          | none =>
            refine Or.inr ⟨rfl, h7 _ _ ?_⟩
            rintro ⟨_, c', h', hs⟩
            rw [inj _ _ h', hd] at hs
            cases hs
          | some d =>
            simp only
            rw [h6 _ _ ⟨fun h' => hz (inj _ _ (by rw [h']; rfl)), c, rfl, by rw [hd]; rfl⟩]
            exact fromTextLoopP_eq base fuel it' _ h3 (by omega)
      · rw [h1, h2]
        exact Or.inr ⟨rfl, h3 _⟩
      · rw [h1]
        exact Or.inl ⟨rfl, h3 _⟩
    · rw [if_neg h, show it = stop by omega, drop_take_nil _ _ _ (Nat.le_refl _), L.law.nil]
      exact Or.inr ⟨rfl, over_nil L _ _⟩

end

end Ip
