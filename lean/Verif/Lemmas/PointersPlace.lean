import Verif.Lemmas.PointersText
set_option autoImplicit false

namespace Ip
open Spec Res

section
variable {U : Type} {next : PReader U} {enc : Enc U} {Ch : Nat → List U → Prop} {span : U → Nat} (L : PLaw next enc Ch span)
  (pre us post : List U)

theorem place_text : ((pre ++ us ++ post).take (pre.length + us.length)).drop pre.length = us := by
  rw [show pre.length + us.length = (pre ++ us).length by simp, List.take_left', List.drop_left']
  · rfl
  · simp

theorem place_wild : Wild Ch span (pre ++ us ++ post) (pre.length + us.length) pre.length ↔
    Overruns Ch span (fun _ => True) post.length us := by
  unfold Wild
  rw [place_text]
  rw [show (pre ++ us ++ post).length - (pre.length + us.length) = post.length by simp; omega]

theorem place_le : pre.length + us.length ≤ (pre ++ us ++ post).length := by simp

theorem AgreeP.undefined {α : Type} {W : Prop} {x y : Res α} (h : AgreeP W x y) :
    UndefinedWhen (W ∧ y = .err .wrong_encoding_sequence 0) x y := by
  rcases h with ⟨rfl, h⟩ | ⟨rfl, hw, rfl⟩
  · exact ⟨fun h' => absurd h'.2 (h h'.1), fun _ => rfl⟩
  · exact ⟨fun _ => rfl, fun h' => absurd ⟨hw, rfl⟩ h'⟩

include L

theorem v4_place : UndefinedWhen (Overruns Ch span (fun _ => True) post.length us ∧
      v4FromEvents (enc.events us) = .err .wrong_encoding_sequence 0)
    (v4FromP next (pre ++ us ++ post) (pre.length + us.length) pre.length) (v4FromEvents (enc.events us)) := by
  have := v4FromP_eq L (pre ++ us ++ post) (pre.length + us.length) (place_le pre us post) (begin := pre.length) (by omega)
  rw [place_wild, place_text] at this
  exact this.undefined

theorem scope_place (spaces : Bool) (i : Nat) (str : List Char) :
    UndefinedWhen (Overruns Ch span (fun _ => True) post.length us ∧
      setScopeLoop spaces (enc.events us) i str = .err .wrong_encoding_sequence 0)
    (setScopeLoopP next (pre ++ us ++ post) (pre.length + us.length) spaces (us.length + 1) i str pre.length)
    (setScopeLoop spaces (enc.events us) i str) := by
  have := setScopeLoopP_eq L (pre ++ us ++ post) (pre.length + us.length) (place_le pre us post) spaces (us.length + 1) pre.length i str
    (by omega) (by omega)
  rw [place_wild, place_text] at this
  exact this.undefined

theorem uint_place (base : U128.Base) (x : U128) :
    UndefinedWhen (Overruns Ch span (fun cp => cp ≠ 0 ∧ ∃ c : Char, c.toNat = cp ∧ (U128.digitOf base c).isSome) post.length us)
    (fromTextLoopP next (pre ++ us ++ post) (pre.length + us.length) base (us.length + 1) x pre.length)
    (.ok (U128.fromTextLoop base (enc.events us) x)) := by
  have := fromTextLoopP_eq L (pre ++ us ++ post) (pre.length + us.length) (place_le pre us post) base (us.length + 1) pre.length x
    (by omega) (by omega)
  rw [place_text, show (pre ++ us ++ post).length - (pre.length + us.length) = post.length by simp; omega] at this
  rcases this with ⟨h1, h2⟩ | ⟨h1, h2⟩
  · exact ⟨fun _ => h1, fun h => absurd h2 h⟩
  · exact ⟨fun h => absurd h h2, fun _ => h1⟩

theorem v6_place (nullLess spaces : Bool) (M : Nat) :
    UndefinedWhen (Overruns Ch span (fun _ => True) post.length us ∧
        v6FromEvents spaces M (enc.events us) = .err .wrong_encoding_sequence 0 ∨
      nullLess = true ∧ ∃ s, Writes Ch us s ∧ ZoneOnly (ZoneOk spaces M) s)
    (v6FromP next (pre ++ us ++ post) (pre.length + us.length) nullLess spaces M pre.length) (v6FromEvents spaces M (enc.events us)) := by
  have hb : pre.length ≤ pre.length + us.length := by omega
  have := v6FromP_eq L (place_le pre us post) hb nullLess spaces M
  rw [place_wild, place_text] at this
  have hn := events_nil_iff L (pre ++ us ++ post) (pre.length + us.length) (place_le pre us post) hb
  rw [place_text] at hn
  have hz : (pre.length < pre.length + us.length ∧ ∃ buf, splitScope spaces M (enc.events us) = .ok ([], buf)) ↔
      ∃ s, Writes Ch us s ∧ ZoneOnly (ZoneOk spaces M) s := by
    rw [show pre.length < pre.length + us.length ↔ enc.events us ≠ [] from by rw [ne_eq, hn]; omega, splitScope_empty_iff]
    exact exists_congr fun s => and_congr (events_chars_iff L us s) Iff.rfl
  rw [hz] at this
  rcases this with ⟨h1, h2⟩ | h
  · have := h1.undefined
    refine ⟨?_, fun h => this.2 fun h' => h (Or.inl h')⟩
    rintro (h | h)
    · exact this.1 h
    · exact absurd h h2
  · exact ⟨fun _ => h.1, fun h' => absurd (Or.inr h.2) h'⟩

theorem net4_place (le strict : Bool) :
    UndefinedWhen (Overruns Ch span (fun _ => True) post.length us ∧
      (fam4 le).parseNet (enc.events us) strict = .err .wrong_encoding_sequence 0)
    (v4ParseNetP next (pre ++ us ++ post) (pre.length + us.length) le pre.length strict) ((fam4 le).parseNet (enc.events us) strict) := by
  have := parseNetP_eq L (pre ++ us ++ post) (pre.length + us.length) (place_le pre us post) (fam4 le)
    (mask := v4ParseNetmaskP next (pre ++ us ++ post) (pre.length + us.length) le) (addr := v4ArrayP charNextP)
    (fun i hi hw => v4ParseNetmaskP_eq L _ _ (place_le pre us post) le hi hw)
    (v4ParseNetmask_wrong le [] (BadIn.chars _ []))
    (fun a => by rw [v4ArrayP_char]; exact v4ParseArray_wrong a) (fun a m s => v4Strict_wrong le a m s)
    (begin := pre.length) (by omega) strict
  rw [place_wild, place_text] at this
  have e : { fam4 le with parseArray := v4ArrayP charNextP } = fam4 le := by
    rw [show v4ArrayP charNextP = (fam4 le).parseArray from funext v4ArrayP_char]
  rw [e] at this
  exact this.undefined

theorem net6_place (nullLess : Bool) (c : Cfg) (strict : Bool)
    (hz : nullLess = false ∨ ¬ ∃ g r, us = g ++ r ∧ Ch '%'.toNat g) :
    UndefinedWhen (Overruns Ch span (fun _ => True) post.length us ∧
      (fam6 c).parseNet (enc.events us) strict = .err .wrong_encoding_sequence 0)
    (v6ParseNetP next (pre ++ us ++ post) (pre.length + us.length) nullLess c pre.length strict)
    ((fam6 c).parseNet (enc.events us) strict) := by
  have hp : nullLess = false ∨ (enc.events us).head? ≠ some (.ch '%') := by
    refine hz.imp id fun h h' => h ?_
    cases us with
    | nil => rw [L.law.nil] at h'; cases h'
    | cons u l =>
      cases hx : enc.next u l with
      | mk ev r =>
        cases ev with
        | bad => rw [L.law.cons_bad _ _ _ _ _ hx] at h'; cases h'
        | ch d =>
          rw [L.law.cons_ch _ _ _ _ hx] at h'
          cases h'
          exact ⟨u :: l.take (span u - 1), l.drop (span u - 1), by simp, L.taken u l '%' (by rw [hx])⟩
  have := parseNetP_eq L (pre ++ us ++ post) (pre.length + us.length) (place_le pre us post) (fam6 c)
    (mask := fun i => do
      let m ← v6ParseNetmaskP next (pre ++ us ++ post) (pre.length + us.length) i
      .ok (⟨m.1, emptyScope c.M⟩, m.2)) (addr := fun a => v6ArrayP charNextP a nullLess c.spaces c.M)
    (fun i hi hw => by
      rw [v6ParseNetmaskP_eq L _ _ (place_le pre us post) hi hw]
      rfl)
    (ErrIn.bind (v6ParseNetmask_wrong [] (BadIn.chars _ [])) fun _ => ErrIn.ok _)
    (fun a => by
      rcases v6ArrayP_char a nullLess c.spaces c.M with h | ⟨h, _⟩
      · rw [h]; exact v6ParseArray_wrong _ _ a
      · rw [h]; exact ErrIn.ub)
    (fun a m s => v6Strict_wrong c.M a m s)
    (begin := pre.length) (by omega) strict
  rw [place_wild, place_text] at this
  have e : { fam6 c with parseArray := fun a => v6ArrayP charNextP a nullLess c.spaces c.M }.parseNet (enc.events us) strict =
      (fam6 c).parseNet (enc.events us) strict := by
    have el : ∀ evs s, Fam.parseLoop { fam6 c with parseArray := fun a => v6ArrayP charNextP a nullLess c.spaces c.M } evs s =
        (fam6 c).parseLoop evs s := by
      intro evs
      induction evs with
      | nil => intro s; rfl
      | cons ev evs ih =>
        intro s
        cases ev with
        | bad => rfl
        | ch c => simp only [Fam.parseLoop, ih]; rfl
    unfold Fam.parseNet
    rw [el]
    cases hl : (fam6 c).parseLoop (enc.events us) ⟨0, List.replicate ((fam6 c).maxLen + 1) '\x00', none⟩ with
    | err => rfl
    | ub => rfl
    | ok st =>
      have hst : nullLess = false ∨ st.address[0]? ≠ some '%' := by
        refine hp.imp id fun h => parseLoop_first (fam6 c) _ _ _ hl ?_ fun _ => Or.inr h
        simp only [List.replicate_succ, List.getElem?_cons_zero]
        decide
      simp only [Res.ok_bind]
      rw [v6ArrayP_first st.address nullLess c.spaces c.M hst]
      rfl
  rw [e] at this
  exact this.undefined

theorem array_place (units : List U) (last : U) :
    UndefinedWhen (Overruns Ch span (· ≠ 0) 1 units ∨ ReadsPast Ch span units.length units last)
    (makeFixedP next (units ++ [last])) (FStr.ofEvents units.length (enc.events units ++ enc.events [last])) := by
  rcases makeFixedP_eq L units last with ⟨h1, h2⟩ | ⟨h1, h2⟩
  · exact ⟨fun _ => h1, fun h => absurd h2 h⟩
  · exact ⟨fun h => absurd h h2, fun _ => h1⟩

/-- A terminating NUL is never read past. -/
theorem array_nul_place (units : List U) (z : U) (hz : enc.next z [] = (.ch '\x00', [])) :
    UndefinedWhen (Overruns Ch span (· ≠ 0) 1 units) (makeFixedP next (units ++ [z])) (makeFixed enc units) := by
  have hn : ¬ ReadsPast Ch span units.length units z := by
    rintro ⟨_, _, _, _, h | ⟨⟨cp, h, h0⟩, _⟩⟩
    · have := L.full z [] '\x00' (by rw [hz])
      simp at this
      omega
    · obtain ⟨c, h1, h2⟩ := L.unique _ _ z [] [] h (by simp)
      rw [hz] at h2
      simp only [Prod.mk.injEq, Ev.ch.injEq, and_true] at h2
      rw [← h1, ← h2] at h0
      exact h0 rfl
  have := array_place L units z
  rw [L.law.cons_ch _ _ _ _ hz, L.law.nil, ofEvents_end_nul] at this
  exact ⟨fun h => this.1 (Or.inl h), fun h => this.2 fun h' => h'.elim h hn⟩

end

end Ip
