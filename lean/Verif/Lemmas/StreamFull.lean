import Verif.Model.StreamFull
import Verif.Spec.StreamFull
import Verif.Lemmas.Stream
import Verif.Lemmas.Report
/-
Lemmas about fields of streams.
-/
set_option autoImplicit false

namespace Ip
open Spec

theorem put_padded {U : Type} (s : OFull U) (t : List U) :
    (s.good = true → ∃ r, Padded s.width s.left s.fill t r ∧
      s.put t = { s with base := { s.base with out := s.base.out ++ r }, width := 0 }) ∧
    (s.good = false → s.put t = s) := by
  constructor
  · intro h
    refine ⟨_, ⟨List.replicate (s.width - (t.length : Int)).toNat s.fill, ?_, rfl, ?_, ?_⟩, ?_⟩
    · intro u hu
      exact (List.mem_replicate.1 hu).2
    · intro hw
      rw [Int.toNat_of_nonpos (by omega)]
      rfl
    · intro hw
      cases s.left <;> simp <;> omega
    · unfold OFull.put
      rw [if_pos h]
  · intro h
    unfold OFull.put
    rw [h]
    rfl

theorem readWordFull_field {U : Type} (W : Wide U) (s : IFull U) (h1 : s.base.eof = false) (h2 : s.base.fail = false) (w rest : List U)
    (h : Field W.space s.skipws s.width s.base.input w rest) :
    readWordFull W s = (w, { s with
      base := { s.base with input := rest, eof := rest.isEmpty && decide ((w.length : Int) ≠ s.width) }, width := 0 },
      (rest.isEmpty && decide ((w.length : Int) ≠ s.width)) && s.excEof) := by
  obtain ⟨ws, e, hws, hsk, hn, hw, hl, hr⟩ := h
  have hlen : 0 < w.length := List.length_pos_iff.2 hn
  have d1 : (if s.skipws then s.base.input.dropWhile W.space else s.base.input) = w ++ rest := by
    cases hs : s.skipws with
    | false => rw [e, hsk hs]; simp
    | true =>
      rw [if_pos rfl, e, List.append_assoc, List.dropWhile_append_of_pos hws]
      obtain ⟨x, w', rfl⟩ := List.exists_cons_of_ne_nil hn
      have hx : W.space x = false := hw x (by simp)
      simp [hx]
  have hw' : ∀ u ∈ w, (!W.space u) = true := fun u hu => by rw [hw u hu]; rfl
  have d2 : (w ++ rest).takeWhile (fun u => !W.space u) = w ++ rest.takeWhile (fun u => !W.space u) :=
    List.takeWhile_append_of_pos hw'
  have d3 : (if s.width > 0 then ((w ++ rest).takeWhile (fun u => !W.space u)).take s.width.toNat
      else (w ++ rest).takeWhile (fun u => !W.space u)) = w := by
    rw [d2]
    rcases hr with hr | hr | ⟨x, r, hr, hx⟩
    · rw [if_pos (by omega), List.take_append_of_le_length (by omega), List.take_of_length_le (by omega)]
    · subst hr
      simp only [List.takeWhile_nil, List.append_nil]
      split
      · next hp => exact List.take_of_length_le (by have := hl hp; omega)
      · rfl
    · subst hr
      simp only [List.takeWhile_cons, hx, Bool.not_true, Bool.false_eq_true, if_false, List.append_nil]
      split
      · next hp => exact List.take_of_length_le (by have := hl hp; omega)
      · rfl
  have d4 : (decide (s.width ≤ 0) || decide ((w.length : Int) < s.width)) = decide ((w.length : Int) ≠ s.width) := by
    rw [Bool.eq_iff_iff]
    simp only [Bool.or_eq_true, decide_eq_true_eq]
    constructor
    · omega
    · intro hne
      by_cases hp : 0 < s.width
      · have := hl hp; omega
      · omega
  have d5 : w.isEmpty = false := by cases w with
    | nil => exact absurd rfl hn
    | cons => rfl
  have d6 : (w ++ rest).isEmpty = false := by cases w with
    | nil => exact absurd rfl hn
    | cons => rfl
  unfold readWordFull
  rw [h1, h2]
  simp only [Bool.or_self, Bool.false_eq_true, if_false]
  rw [d1, d3, d6, List.drop_left, d4, d5]
  simp only [Bool.and_false, Bool.false_eq_true, if_false, Bool.or_false]
  cases rest.isEmpty && decide ((w.length : Int) ≠ s.width) <;> simp [IFull.setState, h1, h2]

theorem field_or {U : Type} (space : U → Bool) (skip : Bool) (width : Int) (input : List U) :
    (∃ w rest, Field space skip width input w rest) ∨
    (skip = true ∧ ∀ u ∈ input, space u = true) ∨
    (skip = false ∧ (input = [] ∨ ∃ x r, input = x :: r ∧ space x = true)) := by
  have key : ∀ ws w rest, input = ws ++ w ++ rest → (∀ u ∈ ws, space u = true) → (skip = false → ws = []) → w ≠ [] →
      (∀ u ∈ w, space u = false) → (rest = [] ∨ ∃ x r, rest = x :: r ∧ space x = true) →
      ∃ w rest, Field space skip width input w rest := by
    intro ws w rest e h1 h2 h3 h4 h5
    by_cases hw : 0 < width ∧ width < w.length
    · refine ⟨w.take width.toNat, w.drop width.toNat ++ rest, ws, ?_, h1, h2, ?_, fun u hu => h4 u (List.mem_of_mem_take hu), ?_, .inl ?_⟩
      · rw [e, List.append_assoc, List.append_assoc, ← List.append_assoc (List.take _ _), List.take_append_drop]
      · intro h
        have := congrArg List.length h
        rw [List.length_take, List.length_nil] at this
        omega
      · intro _; simp; omega
      · simp; omega
    · exact ⟨w, rest, ws, e, h1, h2, h3, h4, by omega, .inr h5⟩
  cases skip with
  | true =>
    rcases firstWord_or space input with ⟨w, rest, ws, e, h1, h2, h3, h4⟩ | h
    · exact .inl (key ws w rest e h1 (by simp) h2 h3 h4)
    · exact .inr (.inl ⟨rfl, h⟩)
  | false =>
    cases input with
    | nil => exact .inr (.inr ⟨rfl, .inl rfl⟩)
    | cons x l =>
      cases hx : space x with
      | true => exact .inr (.inr ⟨rfl, .inr ⟨x, l, rfl, hx⟩⟩)
      | false =>
        rcases firstWord_or space (x :: l) with ⟨w, rest, ws, e, h1, h2, h3, h4⟩ | h
        · cases ws with
          | nil => exact .inl (key [] w rest e (by simp) (by simp) h2 h3 h4)
          | cons y ws =>
            simp only [List.cons_append, List.cons.injEq] at e
            have := h1 y (by simp)
            rw [← e.1, hx] at this
            cases this
        · have := h x (by simp)
          rw [hx] at this
          cases this

theorem readWordFull_none {U : Type} (W : Wide U) (s : IFull U)
    (h : s.base.eof = true ∨ s.base.fail = true ∨ ¬ ∃ w rest, Field W.space s.skipws s.width s.base.input w rest) :
    ∃ s', readWordFull W s = ([], s', s.excFail || (s'.base.eof && s.excEof)) ∧ s'.base.fail = true ∧
      (s'.base.eof = true ↔ s.base.eof = true ∨ (s.base.fail = false ∧ (s.skipws = true ∨ s.base.input = []))) ∧
      s'.skipws = s.skipws ∧ s'.excFail = s.excFail ∧ s'.excEof = s.excEof ∧
      s'.base.word = s.base.word ∧ s'.base.hex = s.base.hex ∧ s'.base.oct = s.base.oct := by
  by_cases hg : s.base.eof = true ∨ s.base.fail = true
  · refine ⟨(s.setState false true).1, ?_, ?_, ?_, rfl, rfl, rfl, rfl, rfl, rfl⟩
    · unfold readWordFull
      rw [if_pos (by simpa using hg)]
      simp [IFull.setState]
    · simp [IFull.setState]
    · rcases hg with hg | hg
      · simp [IFull.setState, hg]
      · simp [IFull.setState, hg]
  · have h1 : s.base.eof = false := by cases h : s.base.eof; rfl; exact absurd (.inl h) hg
    have h2 : s.base.fail = false := by cases h : s.base.fail; rfl; exact absurd (.inr h) hg
    have h3 : ¬ ∃ w rest, Field W.space s.skipws s.width s.base.input w rest := by
      rcases h with h | h | h
      · exact absurd (.inl h) hg
      · exact absurd (.inr h) hg
      · exact h
    rcases field_or W.space s.skipws s.width s.base.input with h | ⟨hs, h⟩ | ⟨hs, h⟩
    · exact absurd h h3
    · have d : s.base.input.dropWhile W.space = [] := by
        have := List.dropWhile_append_of_pos (l₂ := []) h
        simpa using this
      refine ⟨({ s with base := { s.base with input := [] } }.setState true true).1, ?_, ?_, ?_, rfl, rfl, rfl, rfl, rfl, rfl⟩
      · unfold readWordFull
        rw [h1, h2, hs, if_neg (by simp), if_pos rfl, d]
        simp [IFull.setState]
      · simp [IFull.setState]
      · simp [IFull.setState, h2, hs]
    · have dt : s.base.input.takeWhile (fun u => !W.space u) = [] := by
        rcases h with h | ⟨x, r, h, hx⟩
        · rw [h]; rfl
        · rw [h]; simp [hx]
      have dd : (decide (s.width ≤ 0) || decide ((([] : List U).length : Int) < s.width)) = true := by
        simp; omega
      refine ⟨({ s with width := 0 }.setState s.base.input.isEmpty true).1, ?_, ?_, ?_, rfl, rfl, rfl, rfl, rfl, rfl⟩
      · unfold readWordFull
        rw [h1, h2, hs, if_neg (by simp)]
        simp only [Bool.false_eq_true, if_false, Bool.false_and]
        rw [dt]
        have d7 : (if s.width > 0 then ([] : List U).take s.width.toNat else []) = [] := by split <;> simp
        rw [d7]
        rw [dd]
        simp [IFull.setState]
      · simp [IFull.setState]
      · simp [IFull.setState, h1, h2, hs]

theorem Field_unique {U : Type} (W : Wide U) (skip : Bool) (width : Int) (input w rest w' rest' : List U)
    (h : Field W.space skip width input w rest) (h' : Field W.space skip width input w' rest') : w' = w ∧ rest' = rest := by
  let s : IFull U := ⟨⟨0, false, false, input, false, false⟩, width, skip, false, false⟩
  have e := readWordFull_field W s rfl rfl w rest h
  have e' := readWordFull_field W s rfl rfl w' rest' h'
  rw [e] at e'
  exact ⟨(congrArg Prod.fst e').symm, (congrArg (fun x => x.2.1.base.input) e').symm⟩

end Ip
