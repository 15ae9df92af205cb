import Verif.Lemmas.PointersNet
set_option autoImplicit false

namespace Ip
open Spec Res

section
variable {U : Type} {next : PReader U} {enc : Enc U} {Ch : Nat → List U → Prop} {span : U → Nat} (L : PLaw next enc Ch span)
include L

theorem past_ch {n : Nat} {u last : U} {l r' : List U} {c : Char} (h : enc.next u l = (.ch c, r')) (hP : c.toNat ≠ 0) :
    ReadsPast Ch span (n + 1) (u :: l) last ↔ ReadsPast Ch span n r' last := by
  have h1 : (enc.next u l).1 = .ch c := by rw [h]
  constructor
  · rintro ⟨gs, e, hg, hk, hl⟩
    cases gs with
    | nil => simp at e
    | cons g gs =>
      rw [List.flatMap_cons] at e
      obtain ⟨c', _, h'⟩ := L.unique _ _ _ _ _ (hg g (by simp)).1 e
      rw [h] at h'
      simp only [Prod.mk.injEq] at h'
      simp only [List.length_cons] at hk hl
      exact ⟨gs, h'.2, fun x hx => hg x (by simp [hx]), by omega, hl.imp id fun h => ⟨h.1, by omega⟩⟩
  · rintro ⟨gs, e, hg, hk, hl⟩
    have hr := L.rest u l
    rw [h] at hr
    refine ⟨(c.toNat, u :: l.take (span u - 1)) :: gs, ?_, ?_, by simp only [List.length_cons]; omega,
      hl.imp id fun h => ⟨h.1, by simp only [List.length_cons]; omega⟩⟩
    · rw [List.flatMap_cons, ← e]
      simp only [List.cons_append, List.cons.injEq, true_and]
      rw [show r' = l.drop (span u - 1) from hr, List.take_append_drop]
    · intro x hx
      rcases List.mem_cons.1 hx with rfl | hx
      · exact ⟨L.taken u l c h1, hP⟩
      · exact hg x hx

theorem past_not {n : Nat} {u last : U} {l : List U} (h : ∀ c, (enc.next u l).1 = .ch c → c.toNat = 0) :
    ¬ ReadsPast Ch span n (u :: l) last := by
  rintro ⟨gs, e, hg, _, _⟩
  cases gs with
  | nil => simp at e
  | cons g gs =>
    rw [List.flatMap_cons] at e
    obtain ⟨c', hc, h'⟩ := L.unique _ _ _ _ _ (hg g (by simp)).1 e
    have := h c' (by rw [h'])
    exact (hg g (by simp)).2 (by omega)

/-- The condition for undefined behaviour of the constructor of a fixed string. -/
abbrev FixWild (Ch : Nat → List U → Prop) (span : U → Nat) (n : Nat) (us : List U) (last : U) : Prop :=
  0 < n ∧ Overruns Ch span (· ≠ 0) 1 us ∨ ReadsPast Ch span n us last

theorem ofArrayLoopP_eq (units : List U) (last : U) : ∀ (n it : Nat) (data : List Char) (len : Nat), it ≤ units.length →
    len + n ≤ data.length → units.length ≤ it + n →
    ofArrayLoopP next (units ++ [last]) units.length n it data len = .ub ∧ FixWild Ch span n (units.drop it) last ∨
    ofArrayLoopP next (units ++ [last]) units.length n it data len =
        FStr.ofEventsLoop n (enc.events (units.drop it) ++ enc.events [last]) data len ∧ ¬ FixWild Ch span n (units.drop it) last
  | 0, it, data, len, _, _, _ => by
    refine Or.inr ⟨by simp only [ofArrayLoopP, FStr.ofEventsLoop], ?_⟩
    rintro (⟨h, _⟩ | ⟨_, _, _, h, _⟩) <;> omega
  | n + 1, it, data, len, hi, hd, hn => by
    have hlen : (units ++ [last]).length = units.length + 1 := by simp
    have ht : (units ++ [last]).take units.length = units := by simp
    have hch : ∀ c : Char, c ≠ '\x00' → c.toNat ≠ 0 := fun c h h' => h (Char.toNat_inj.1 h')
    have hwr : ∀ c, ∃ d, wr data len c = .ok d ∧ d.length = data.length := by
      intro c
      unfold wr
      rw [if_pos (by omega)]
      exact ⟨_, rfl, by simp⟩
    rw [ofArrayLoopP]
    by_cases h : it < units.length
    · have hstep := L.step (arr := units ++ [last]) (stop := units.length) h (by omega)
      rw [ht, hlen, show units.length + 1 - units.length = 1 by omega] at hstep
      obtain ⟨u, l, hul⟩ : ∃ u l, units.drop it = u :: l := by
        cases hx : units.drop it with
        | nil => have := congrArg List.length hx; simp at this; omega
        | cons u l => exact ⟨u, l, rfl⟩
      rcases hstep with ⟨c, it', h1, h2, h3, h4, ⟨g, g1, g2, g3⟩, h6, h7⟩ | ⟨code, sym, it', h1, h2, h3⟩ | ⟨h1, h2, h3⟩
      · rw [h1, h4]
        obtain ⟨d, hw, hdl⟩ := hwr c
        have hnext : enc.next u l = (.ch c, units.drop it') := by
          obtain ⟨c', e1, e2⟩ := L.unique _ _ u l _ g2 (by rw [← hul, g1])
          rw [e2, Char.toNat_inj.1 e1]
        simp only [Res.ok_bind, List.cons_append, FStr.ofEventsLoop, hw]
        by_cases hc : c = '\x00'
        · rw [if_pos hc, if_pos hc]
          refine Or.inr ⟨rfl, ?_⟩
          rintro (⟨_, h'⟩ | h')
          · exact h7 _ _ (by rw [hc]; simp) h'
          · rw [hul] at h'
            refine past_not L ?_ h'
            intro c' hc'
            rw [hnext] at hc'
            cases hc'
            rw [hc]; rfl
        · rw [if_neg hc, if_neg hc]
          have hz := hch c hc
          have hiff : FixWild Ch span (n + 1) (units.drop it) last ↔ FixWild Ch span n (units.drop it') last := by
            unfold FixWild
            rw [h6 (· ≠ 0) 1 hz]
            rw [hul, past_ch L hnext hz]
            constructor
            · rintro (⟨_, h'⟩ | h')
              · by_cases hn0 : 0 < n
                · exact Or.inl ⟨hn0, h'⟩
                · exfalso
                  obtain ⟨gs, v, r, e, _, _⟩ := h'
                  have := congrArg List.length e
                  simp at this
                  omega
              · exact Or.inr h'
            · rintro (⟨_, h'⟩ | h')
              · exact Or.inl ⟨by omega, h'⟩
              · exact Or.inr h'
          rw [hiff]
          exact ofArrayLoopP_eq units last n it' d (len + 1) h3 (by omega) (by omega)
      · rw [h1, h2]
        refine Or.inr ⟨rfl, ?_⟩
        rintro (⟨_, h'⟩ | h')
        · exact h3 _ h'
        · rw [hul] at h'
          refine past_not L ?_ h'
          intro c hc
          rw [hul] at h2
          cases hx : enc.next u l with
          | mk ev r =>
            rw [hx] at hc
            simp only at hc
            subst hc
            rw [L.law.cons_ch _ _ _ _ hx] at h2
            cases h2
      · rw [h1]
        exact Or.inl ⟨rfl, Or.inl ⟨by omega, h3 _⟩⟩
    · have hit : it = units.length := by omega
      subst hit
      have hg : (units ++ [last])[units.length]? = some last := by simp
      have hrd := L.eq (units ++ [last]) units.length units.length last hg (by omega)
      have hpos := L.pos last
      rw [drop_take_nil _ _ _ (Nat.le_succ _), hlen] at hrd
      rw [List.drop_length, L.law.nil, List.nil_append, hrd]
      have hno : ¬ Overruns Ch span (· ≠ 0) 1 ([] : List U) := over_nil L _ _
      by_cases hsp : span last = 1
      · rw [if_pos (by omega), hsp]
        simp only [Res.ok_bind]
        cases hx : enc.next last [] with
        | mk ev r =>
          cases ev with
          | bad code sym =>
            rw [L.law.cons_bad _ _ _ _ _ hx]
            refine Or.inr ⟨rfl, ?_⟩
            rintro (⟨_, h'⟩ | ⟨gs, e, hg, hk, h' | ⟨⟨cp, hcp, _⟩, _⟩⟩)
            · exact hno h'
            · omega
            · obtain ⟨c, _, e2⟩ := L.unique _ _ last [] [] hcp (by simp)
              rw [hx] at e2
              cases e2
          | ch c =>
            have hr := L.rest last []
            rw [hx] at hr
            simp at hr
            subst hr
            rw [L.law.cons_ch _ _ _ _ hx, L.law.nil]
            obtain ⟨d, hw, hdl⟩ := hwr c
            simp only [FStr.ofEventsLoop, hw, Res.ok_bind]
            have hcl := L.taken last [] c (by rw [hx])
            simp at hcl
            by_cases hc : c = '\x00'
            · rw [if_pos hc, if_pos hc]
              refine Or.inr ⟨rfl, ?_⟩
              rintro (⟨_, h'⟩ | ⟨gs, e, hg, hk, h' | ⟨⟨cp, hcp, hz⟩, _⟩⟩)
              · exact hno h'
              · omega
              · obtain ⟨c', e1, e2⟩ := L.unique _ _ last [] [] hcp (by simp)
                rw [hx] at e2
                simp only [Prod.mk.injEq, Ev.ch.injEq, and_true] at e2
                rw [← e1, ← e2, hc] at hz
                exact hz rfl
            · rw [if_neg hc, if_neg hc]
              cases n with
              | zero =>
                refine Or.inr ⟨by simp only [ofArrayLoopP, FStr.ofEventsLoop], ?_⟩
                rintro (⟨_, h'⟩ | ⟨gs, e, hg, hk, h' | ⟨_, h'⟩⟩)
                · exact hno h'
                · omega
                · omega
              | succ n =>
                left
                refine ⟨?_, Or.inr ⟨[], by simp, by simp, by simp, Or.inr ⟨⟨_, hcl, hch c hc⟩, by simp⟩⟩⟩
                rw [ofArrayLoopP, L.out _ _ _ (by omega)]
                rfl
      · rw [if_neg (by omega)]
        exact Or.inl ⟨rfl, Or.inr ⟨[], by simp, by simp, by simp, Or.inl (by omega)⟩⟩

/-- The constructor of a fixed string on pointers. -/
theorem makeFixedP_eq (units : List U) (last : U) :
    makeFixedP next (units ++ [last]) = .ub ∧
      (Overruns Ch span (· ≠ 0) 1 units ∨ ReadsPast Ch span units.length units last) ∨
    makeFixedP next (units ++ [last]) = FStr.ofEvents units.length (enc.events units ++ enc.events [last]) ∧
      ¬ (Overruns Ch span (· ≠ 0) 1 units ∨ ReadsPast Ch span units.length units last) := by
  have hiff : FixWild Ch span units.length units last ↔
      (Overruns Ch span (· ≠ 0) 1 units ∨ ReadsPast Ch span units.length units last) := by
    constructor
    · rintro (⟨_, h⟩ | h)
      · exact Or.inl h
      · exact Or.inr h
    · rintro (h | h)
      · refine Or.inl ⟨?_, h⟩
        obtain ⟨gs, v, r, e, _, _⟩ := h
        have := congrArg List.length e
        simp at this
        omega
      · exact Or.inr h
  have hN : (units ++ [last]).length - 1 = units.length := by simp
  have := ofArrayLoopP_eq (next := next) (enc := enc) (Ch := Ch) (span := span) L units last units.length 0
    (List.replicate units.length '\x00') 0 (Nat.zero_le _) (by simp) (by omega)
  rw [List.drop_zero, hiff] at this
  unfold makeFixedP FStr.ofEvents
  simp only [hN]
  rcases this with ⟨h, h'⟩ | ⟨h, h'⟩
  · rw [h]
    exact Or.inl ⟨rfl, h'⟩
  · rw [h]
    exact Or.inr ⟨rfl, h'⟩

end

/-- One more NUL character at the end of the text of a fixed string. -/
theorem ofEventsLoop_end_nul : ∀ (n : Nat) (evs : List Ev) (w : List Char),
    FStr.ofEventsLoop n (evs ++ [.ch '\x00']) (w ++ List.replicate n '\x00') w.length =
      FStr.ofEventsLoop n evs (w ++ List.replicate n '\x00') w.length
  | 0, _, _ => by simp only [FStr.ofEventsLoop]
  | n + 1, [], w => by
    simp only [List.nil_append, FStr.ofEventsLoop]
    unfold wr
    rw [if_pos (by simp)]
    simp only [Res.ok_bind, if_true]
    congr 2
    rw [List.set_append_right _ _ (Nat.le_refl _)]
    simp [List.replicate_succ]
  | n + 1, .bad _ _ :: _, w => by simp only [List.cons_append, FStr.ofEventsLoop]
  | n + 1, .ch c :: evs, w => by
    simp only [List.cons_append, FStr.ofEventsLoop]
    unfold wr
    rw [if_pos (by simp)]
    simp only [Res.ok_bind]
    split
    · rfl
    · rw [List.set_append_right _ _ (Nat.le_refl _)]
      have := ofEventsLoop_end_nul n evs (w ++ [c])
      simpa [List.replicate_succ] using this

theorem ofEvents_end_nul (n : Nat) (evs : List Ev) : FStr.ofEvents n (evs ++ [.ch '\x00']) = FStr.ofEvents n evs := by
  unfold FStr.ofEvents
  have := ofEventsLoop_end_nul n evs []
  simp only [List.nil_append, List.length_nil] at this
  rw [this]

/-- The events past the first `n` do not matter. -/
theorem ofEventsLoop_chars : ∀ (n : Nat) (cs : List Char) (t : List Ev) (data : List Char) (len : Nat), n ≤ cs.length →
    FStr.ofEventsLoop n (readChars cs ++ t) data len = FStr.ofEventsLoop n (readChars cs) data len
  | 0, _, _, _, _, _ => by simp only [FStr.ofEventsLoop]
  | n + 1, [], _, _, _, h => by simp at h
  | n + 1, c :: cs, t, data, len, h => by
    simp only [readChars, List.map_cons, List.cons_append, FStr.ofEventsLoop]
    congr 1
    funext d
    split
    · rfl
    · exact ofEventsLoop_chars n cs t d (len + 1) (by simpa using h)

/-- Groups of one element each. -/
theorem flatMap_length_one {U : Type} : ∀ (gs : List (Nat × List U)), (∀ g ∈ gs, g.2.length = 1) → (gs.flatMap (·.2)).length = gs.length
  | [], _ => rfl
  | g :: gs, h => by
    rw [List.flatMap_cons, List.length_append, h g (by simp), flatMap_length_one gs (fun x hx => h x (by simp [hx])), List.length_cons]
    omega

theorem not_over_one {U : Type} {Ch : Nat → List U → Prop} {P : Nat → Prop} {k : Nat} {us : List U} :
    ¬ Overruns Ch (fun _ => 1) P k us := by
  rintro ⟨_, _, _, _, _, h⟩
  simp only at h
  omega

theorem not_past_one {U : Type} {Ch : Nat → List U → Prop} (hc : ∀ cp g, Ch cp g → g.length = 1) {us : List U} {last : U} :
    ¬ ReadsPast Ch (fun _ => 1) us.length us last := by
  rintro ⟨gs, e, hg, hk, _⟩
  have := flatMap_length_one gs fun g hgm => hc _ _ (hg g hgm).1
  rw [e, this] at hk
  omega

theorem makeFixedP_char (arr : List Char) : makeFixedP charNextP arr = mkFixed arr := by
  rcases List.eq_nil_or_concat arr with rfl | ⟨units, last, rfl⟩
  · rfl
  · rw [List.concat_eq_append]
    rcases makeFixedP_eq charNextP_law units last with ⟨_, h | h⟩ | ⟨h, _⟩
    · exact absurd h not_over_one
    · refine absurd h (not_past_one ?_)
      rintro cp g ⟨c, rfl, _⟩
      rfl
    · rw [h]
      unfold mkFixed FStr.ofEvents
      have h1 : (units ++ [last]).length - 1 = units.length := by simp
      have h2 : (units ++ [last]).take units.length = units := by simp
      rw [h1, h2]
      rw [show encChar.events units = readChars units from rfl, ofEventsLoop_chars _ _ _ _ _ (Nat.le_refl _)]

theorem mkFixed_len {arr : List Char} {f : FStr} (h : mkFixed arr = .ok f) : f.length ≤ f.data.length := by
  unfold mkFixed FStr.ofEvents at h
  obtain ⟨⟨data, len⟩, h1, h2⟩ := Res.bind_eq_ok.1 h
  cases h2
  have key : ∀ (n : Nat) (evs : List Ev) (data : List Char) (len : Nat) (r : List Char × Nat), len + n ≤ data.length →
      FStr.ofEventsLoop n evs data len = .ok r → r.2 ≤ r.1.length := by
    intro n
    induction n with
    | zero => intro evs data len r hd h; simp only [FStr.ofEventsLoop] at h; cases h; simpa using hd
    | succ n ih =>
      intro evs data len r hd h
      cases evs with
      | nil => simp only [FStr.ofEventsLoop] at h; cases h; simp only; omega
      | cons ev evs =>
        cases ev with
        | bad => simp only [FStr.ofEventsLoop] at h; cases h
        | ch c =>
          simp only [FStr.ofEventsLoop] at h
          obtain ⟨d, h1, h2⟩ := Res.bind_eq_ok.1 h
          unfold wr at h1
          split at h1
          · cases h1
            split at h2
            · cases h2; simp only [List.length_set]; omega
            · exact ih evs _ (len + 1) r (by simp only [List.length_set]; omega) h2
          · cases h1
  exact key _ _ _ _ _ (by simp) h1

theorem v4ArrayP_char (arr : List Char) : v4ArrayP charNextP arr = v4ParseArray arr := by
  unfold v4ArrayP v4ParseArray
  rw [makeFixedP_char]
  cases h : mkFixed arr with
  | err => rfl
  | ub => rfl
  | ok f =>
    simp only [Res.ok_bind]
    rcases v4FromP_eq charNextP_law f.data f.length (mkFixed_len h) (Nat.zero_le _) with ⟨h', _⟩ | ⟨_, h', _⟩
    · rw [h']; rfl
    · exact absurd h' not_over_one

/-- The text of an IPv6 address that leaves the end of the address a null pointer. -/
theorem v6ArrayP_char (arr : List Char) (nullLess spaces : Bool) (M : Nat) :
    v6ArrayP charNextP arr nullLess spaces M = v6ParseArray spaces M arr ∨
    (v6ArrayP charNextP arr nullLess spaces M = .ub ∧ nullLess = true ∧ ∃ f buf, mkFixed arr = .ok f ∧ 0 < f.length ∧
      splitScope spaces M (readChars f.contents) = .ok ([], buf)) := by
  unfold v6ArrayP v6ParseArray
  rw [makeFixedP_char]
  cases h : mkFixed arr with
  | err => exact Or.inl rfl
  | ub => exact Or.inl rfl
  | ok f =>
    simp only [Res.ok_bind]
    rcases v6FromP_eq charNextP_law (mkFixed_len h) (Nat.zero_le _) nullLess spaces M with
      ⟨⟨h', _⟩ | ⟨_, h', _⟩, _⟩ | ⟨h1, h2, h3, buf, h4⟩
    · rw [h']; exact Or.inl rfl
    · exact absurd h' not_over_one
    · exact Or.inr ⟨h1, h2, f, buf, rfl, h3, h4⟩

end Ip
