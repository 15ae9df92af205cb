import Verif.Lemmas.PointersV6
import Verif.Lemmas.CodesWrong
set_option autoImplicit false

namespace Ip
open Spec Res

section
variable {U : Type} {next : PReader U} {enc : Enc U} {Ch : Nat → List U → Prop} {span : U → Nat} (L : PLaw next enc Ch span)
  (arr : List U) (stop : Nat) (hs : stop ≤ arr.length)
include L

theorem wild_stop : ¬ Wild Ch span arr stop stop := by
  unfold Wild
  rw [drop_take_nil _ _ _ (Nat.le_refl _)]
  exact over_nil L _ _

theorem events_stop : enc.events ((arr.take stop).drop stop) = [] := by
  rw [drop_take_nil _ _ _ (Nat.le_refl _), L.law.nil]

include hs

theorem digitsLoopP_eq : ∀ (fuel it p : Nat), it ≤ stop → stop - it < fuel → ¬ Wild Ch span arr stop it →
    digitsLoopP next arr stop fuel p it = digitsLoop (enc.events ((arr.take stop).drop it)) p
  | 0, it, p, _, hf, _ => by omega
  | fuel + 1, it, p, hi, hf, hw => by
    rw [digitsLoopP]
    by_cases h : it < stop
    · rw [if_pos h]
      rcases L.step h hs with ⟨c, it', h1, h2, h3, h4, _, h6, _⟩ | ⟨code, sym, it', h1, h2, h3⟩ | ⟨h1, h2, h3⟩
      · rw [show Wild Ch span arr stop it ↔ Wild Ch span arr stop it' from h6 _ _ trivial] at hw
        rw [h1, h4]
        simp only [Res.ok_bind, digitsLoop]
        split
        · exact digitsLoopP_eq fuel it' _ h3 (by omega) hw
        · rfl
      · rw [h1, h2]
        rfl
      · exact absurd (h3 _) hw
    · have : it = stop := by omega
      subst this
      rw [if_neg h, events_stop L]
      rfl

theorem v4ParseNetmaskP_eq (le : Bool) {i : Nat} (hi : i ≤ stop) (hw : ¬ Wild Ch span arr stop i) :
    v4ParseNetmaskP next arr stop le i = v4ParseNetmask le (enc.events ((arr.take stop).drop i)) := by
  have hn := events_nil_iff L arr stop hs hi
  have h4 : v4FromP next arr stop i = v4FromEvents (enc.events ((arr.take stop).drop i)) := by
    rcases v4FromP_eq L arr stop hs hi with ⟨h, _⟩ | ⟨_, h, _⟩
    · exact h
    · exact absurd h hw
  unfold v4ParseNetmaskP v4ParseNetmask v4MaskTextP v4MaskText
  rw [digitsLoopP_eq L arr stop hs _ _ _ hi (by omega) hw, h4]
  congr 1
  funext d
  cases d with
  | none => rfl
  | some p =>
    by_cases h : i < stop
    · have he : ¬ enc.events ((arr.take stop).drop i) = [] := fun h' => by have := hn.1 h'; omega
      simp only [if_pos h, if_neg he]
    · have he : enc.events ((arr.take stop).drop i) = [] := hn.2 (by omega)
      simp only [if_neg h, if_pos he]

theorem v6ParseNetmaskP_eq {i : Nat} (hi : i ≤ stop) (hw : ¬ Wild Ch span arr stop i) :
    v6ParseNetmaskP next arr stop i = v6ParseNetmask (enc.events ((arr.take stop).drop i)) := by
  have hn := events_nil_iff L arr stop hs hi
  unfold v6ParseNetmaskP v6ParseNetmask
  rw [digitsLoopP_eq L arr stop hs _ _ _ hi (by omega) hw]
  congr 1
  funext d
  cases d with
  | none => rfl
  | some p =>
    by_cases h : i < stop
    · have he : ¬ enc.events ((arr.take stop).drop i) = [] := fun h' => by have := hn.1 h'; omega
      simp only [if_pos h, if_neg he]
    · have he : enc.events ((arr.take stop).drop i) = [] := hn.2 (by omega)
      simp only [if_neg h, if_pos he]

omit L hs in
/-- The states of `parse_address_with_prefix` correspond. -/
def ParseRel (enc : Enc U) (W : Nat → Prop) (arr : List U) (stop it : Nat) (sp : ParseStP) (s : Fam.ParseSt) : Prop :=
  sp.symbol = s.symbol ∧ sp.address = s.address ∧
    ((sp.netmask = none ∧ s.netmask = none) ∨
      ∃ i, sp.netmask = some i ∧ s.netmask = some (enc.events ((arr.take stop).drop i)) ∧ i ≤ stop ∧ (W i ↔ W it))

variable {A V : Type} (F : Fam A V)

omit L hs in
theorem storeCharP_rel {W : Nat → Prop} {it : Nat} {sp : ParseStP} {s : Fam.ParseSt} (c : Char) (h : ParseRel enc W arr stop it sp s)
    (hsym : s.symbol ≤ F.maxLen) :
    (∃ sp' s', F.storeCharP c sp = .ok (sp', false) ∧ F.storeChar c s = .ok (s', false) ∧ ParseRel enc W arr stop it sp' s' ∧
      s'.symbol ≤ F.maxLen) ∨
    (∃ sp' s', F.storeCharP c sp = .ok (sp', true) ∧ F.storeChar c s = .ok (s', true) ∧ ParseRel enc W arr stop it sp' s' ∧
      s'.netmask = none) ∨
    (F.storeCharP c sp = .ub ∧ F.storeChar c s = .ub) := by
  obtain ⟨h1, h2, h3⟩ := h
  unfold Fam.storeCharP Fam.storeChar
  rw [h1, h2]
  rcases h3 with ⟨h3, h4⟩ | ⟨i, h3, h4, h5⟩
  · rw [h3, h4]
    simp only [Option.isNone_none, if_true]
    cases hw : wr s.address s.symbol c with
    | ok a =>
      simp only [Res.ok_bind]
      by_cases hm : s.symbol + 1 > F.maxLen
      · rw [decide_eq_true hm]
        exact Or.inr (Or.inl ⟨_, _, rfl, rfl, ⟨rfl, rfl, Or.inl ⟨rfl, rfl⟩⟩, rfl⟩)
      · rw [decide_eq_false hm]
        exact Or.inl ⟨_, _, rfl, rfl, ⟨rfl, rfl, Or.inl ⟨rfl, rfl⟩⟩, by simp only; omega⟩
    | err e v => exact absurd hw (by unfold wr; split <;> simp)
    | ub => exact Or.inr (Or.inr ⟨rfl, rfl⟩)
  · rw [h3, h4]
    simp only [Option.isNone_some, Bool.false_eq_true, if_false]
    rw [decide_eq_false (by omega)]
    exact Or.inl ⟨_, _, rfl, rfl, ⟨h1, h2, Or.inr ⟨i, h3, h4, h5⟩⟩, hsym⟩

theorem parseLoopP_eq : ∀ (fuel it : Nat) (sp : ParseStP) (s : Fam.ParseSt), it ≤ stop → stop - it < fuel →
    ParseRel enc (Wild Ch span arr stop) arr stop it sp s → s.symbol ≤ F.maxLen →
    (∃ sp' s', F.parseLoopP next arr stop fuel sp it = .ok sp' ∧ F.parseLoop (enc.events ((arr.take stop).drop it)) s = .ok s' ∧
      sp'.address = s'.address ∧
      ((sp'.netmask = none ∧ s'.netmask = none) ∨
        ∃ i, sp'.netmask = some i ∧ s'.netmask = some (enc.events ((arr.take stop).drop i)) ∧ i ≤ stop ∧
          ¬ Wild Ch span arr stop i ∧ ¬ Wild Ch span arr stop it)) ∨
    (∃ e v, F.parseLoopP next arr stop fuel sp it = .err e v ∧ F.parseLoop (enc.events ((arr.take stop).drop it)) s = .err e v ∧
      (Wild Ch span arr stop it → e ≠ .wrong_encoding_sequence)) ∨
    (F.parseLoopP next arr stop fuel sp it = .ub ∧ F.parseLoop (enc.events ((arr.take stop).drop it)) s = .ub) ∨
    (F.parseLoopP next arr stop fuel sp it = .ub ∧ Wild Ch span arr stop it ∧
      F.parseLoop (enc.events ((arr.take stop).drop it)) s = .err .wrong_encoding_sequence 0)
  | 0, it, sp, s, _, hf, _, _ => by omega
  | fuel + 1, it, sp, s, hi, hf, hr, hsym => by
    rw [Fam.parseLoopP]
    by_cases h : it < stop
    · rw [if_pos h]
      rcases L.step h hs with ⟨c, it', h1, h2, h3, h4, _, h6, _⟩ | ⟨code, sym, it', h1, h2, h3⟩ | ⟨h1, h2, h3⟩
      · have hW : Wild Ch span arr stop it ↔ Wild Ch span arr stop it' := h6 _ _ trivial
        rw [h1, h4]
        simp only [Res.ok_bind, Fam.parseLoop]
        rw [hW]
        have hr' : ParseRel enc (Wild Ch span arr stop) arr stop it' sp s := by
          obtain ⟨a, b, d | ⟨i, d1, d2, d3, d4⟩⟩ := hr
          · exact ⟨a, b, Or.inl d⟩
          · exact ⟨a, b, Or.inr ⟨i, d1, d2, d3, d4.trans hW⟩⟩
        have fin : ∀ (sp : ParseStP) (s : Fam.ParseSt), ParseRel enc (Wild Ch span arr stop) arr stop it' sp s → s.symbol ≤ F.maxLen →
            (∃ sp' s', (F.storeCharP c sp >>= fun r => if r.2 = true then .ok r.1 else F.parseLoopP next arr stop fuel r.1 it') = .ok sp' ∧
              (F.storeChar c s >>= fun r => if r.2 = true then .ok r.1 else F.parseLoop (enc.events ((arr.take stop).drop it')) r.1) = .ok s' ∧
              sp'.address = s'.address ∧
              ((sp'.netmask = none ∧ s'.netmask = none) ∨
                ∃ i, sp'.netmask = some i ∧ s'.netmask = some (enc.events ((arr.take stop).drop i)) ∧ i ≤ stop ∧
                  ¬ Wild Ch span arr stop i ∧ ¬ Wild Ch span arr stop it')) ∨
            (∃ e v, (F.storeCharP c sp >>= fun r => if r.2 = true then .ok r.1 else F.parseLoopP next arr stop fuel r.1 it') = .err e v ∧
              (F.storeChar c s >>= fun r => if r.2 = true then .ok r.1 else F.parseLoop (enc.events ((arr.take stop).drop it')) r.1) = .err e v ∧
              (Wild Ch span arr stop it' → e ≠ .wrong_encoding_sequence)) ∨
            ((F.storeCharP c sp >>= fun r => if r.2 = true then .ok r.1 else F.parseLoopP next arr stop fuel r.1 it') = .ub ∧
              (F.storeChar c s >>= fun r => if r.2 = true then .ok r.1 else F.parseLoop (enc.events ((arr.take stop).drop it')) r.1) = .ub) ∨
            ((F.storeCharP c sp >>= fun r => if r.2 = true then .ok r.1 else F.parseLoopP next arr stop fuel r.1 it') = .ub ∧
              Wild Ch span arr stop it' ∧
              (F.storeChar c s >>= fun r => if r.2 = true then .ok r.1 else F.parseLoop (enc.events ((arr.take stop).drop it')) r.1) =
                .err .wrong_encoding_sequence 0) := by
          intro sp s hr hsym
          rcases storeCharP_rel arr stop F c hr hsym with ⟨sp', s', k1, k2, k3, k4⟩ | ⟨sp', s', k1, k2, k3, k4⟩ | ⟨k1, k2⟩
          · rw [k1, k2]
            simp only [Res.ok_bind, Bool.false_eq_true, if_false]
            exact parseLoopP_eq fuel it' sp' s' h3 (by omega) k3 k4
          · rw [k1, k2]
            simp only [Res.ok_bind, if_true]
            refine Or.inl ⟨_, _, rfl, rfl, k3.2.1, Or.inl ⟨?_, k4⟩⟩
            rcases k3.2.2 with h | ⟨i, _, h, _⟩
            · exact h.1
            · rw [k4] at h; cases h
          · rw [k1, k2]
            exact Or.inr (Or.inr (Or.inl ⟨rfl, rfl⟩))
        by_cases hc : c = '/'
        · rw [if_pos hc, if_pos hc]
          have hiso : sp.netmask.isSome = s.netmask.isSome := by
            rcases hr.2.2 with ⟨a, b⟩ | ⟨i, a, b, _⟩ <;> rw [a, b] <;> rfl
          rw [hiso]
          by_cases hm : s.netmask.isSome = true
          · rw [if_pos hm, if_pos hm]
            exact Or.inr (Or.inl ⟨_, _, rfl, rfl, fun _ => by decide⟩)
          · rw [if_neg hm, if_neg hm]
            have hn := events_nil_iff L arr stop hs h3
            by_cases he : it' = stop
            · rw [if_pos he, if_pos (hn.2 he)]
              exact Or.inr (Or.inl ⟨_, _, rfl, rfl, fun _ => by decide⟩)
            · rw [if_neg he, if_neg (fun h' => he (hn.1 h'))]
              exact fin _ _ ⟨hr.1, hr.2.1, Or.inr ⟨it', rfl, rfl, h3, Iff.rfl⟩⟩ hsym
        · rw [if_neg hc, if_neg hc]
          exact fin sp s hr' hsym
      · rw [h1, h2]
        simp only [Res.ok_bind, Fam.parseLoop]
        exact Or.inr (Or.inl ⟨_, _, rfl, rfl, fun hw => absurd hw (h3 _)⟩)
      · rw [h1, h2]
        exact Or.inr (Or.inr (Or.inr ⟨rfl, h3 _, rfl⟩))
    · have : it = stop := by omega
      subst this
      have hw := wild_stop (next := next) (enc := enc) (Ch := Ch) (span := span) L arr it
      rw [if_neg h, events_stop L]
      refine Or.inl ⟨sp, s, rfl, rfl, hr.2.1, ?_⟩
      rcases hr.2.2 with h | ⟨i, a, b, d, e⟩
      · exact Or.inl h
      · exact Or.inr ⟨i, a, b, d, fun h' => hw (e.1 h'), hw⟩

/-- `parse_address_with_prefix` on pointers. -/
theorem parseNetP_eq {mask : Nat → Res (A × Nat × Nat)} {addr : List Char → Res A}
    (hmask : ∀ i, i ≤ stop → ¬ Wild Ch span arr stop i → mask i = F.parseNetmask (enc.events ((arr.take stop).drop i)))
    (h0 : ErrIn NotWrong (F.parseNetmask [])) (ha : ∀ a, ErrIn NotWrong (addr a)) (hst : ∀ a m s, ErrIn NotWrong (F.strict a m s))
    {begin : Nat} (hb : begin ≤ stop) (strict : Bool) :
    AgreeP (Wild Ch span arr stop begin) (F.parseNetP next arr stop mask addr begin strict)
      ({ F with parseArray := addr }.parseNet (enc.events ((arr.take stop).drop begin)) strict) := by
  have e : ∀ evs s, Fam.parseLoop { F with parseArray := addr } evs s = F.parseLoop evs s := by
    intro evs
    induction evs with
    | nil => intro s; rfl
    | cons ev evs ih =>
      intro s
      cases ev with
      | bad => rfl
      | ch c =>
        simp only [Fam.parseLoop, ih]
        rfl
  unfold Fam.parseNetP Fam.parseNet
  rw [e]
  rcases parseLoopP_eq L arr stop hs F (arr.length + 1) begin ⟨0, List.replicate (F.maxLen + 1) '\x00', none⟩
    ⟨0, List.replicate (F.maxLen + 1) '\x00', none⟩ hb (by omega) ⟨rfl, rfl, Or.inl ⟨rfl, rfl⟩⟩ (Nat.zero_le _) with
    ⟨sp, s, h1, h2, h3, h4⟩ | ⟨e, v, h1, h2, h3⟩ | ⟨h1, h2⟩ | ⟨h1, h2, h3⟩
  · rw [h1, h2]
    simp only [Res.ok_bind]
    rw [h3]
    rcases h4 with ⟨a, b⟩ | ⟨i, a, b, hi, hw, hw'⟩
    · rw [a, b]
      simp only [Option.getD_none]
      rw [hmask stop (Nat.le_refl _) (wild_stop L arr stop), events_stop L]
      refine Or.inl ⟨rfl, fun _ => ?_⟩
      exact (ErrIn.bind h0 fun m => ErrIn.bind (ErrIn.withValue (ha _)) fun _ => ErrIn.bind (ErrIn.withValue (hst _ _ _)) fun _ => ErrIn.ok _).ne
    · rw [a, b]
      simp only [Option.getD_some]
      rw [hmask i hi hw]
      exact Or.inl ⟨rfl, fun h => absurd h hw'⟩
  · rw [h1, h2]
    refine Or.inl ⟨rfl, fun hw h' => ?_⟩
    simp only [Res.err_bind, Res.err.injEq] at h'
    exact h3 hw h'.1
  · rw [h1, h2]
    exact Or.inl ⟨rfl, fun _ h' => by cases h'⟩
  · rw [h1, h3]
    exact Or.inr ⟨rfl, h2, rfl⟩

end

end Ip
