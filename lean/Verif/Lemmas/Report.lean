import Verif.Model.Report
import Verif.Spec.Report
import Verif.Lemmas.Throw
/-
Helper lemmas for C60 and C61.
-/
set_option autoImplicit false

namespace Ip
open Spec

theorem setCode_reports {α : Type} {cls : ErrClass} {t : Thr α} {r d : Res α} {x : α} (h : Agrees cls t r) (hd : d = .ok x) :
    Reports t x (fun _ => setCode d r none) := by
  subst hd
  obtain ⟨h1, h2, h3, h4⟩ := h
  intro code
  refine ⟨fun a ha => ?_, fun e he => ?_, fun hu => ?_⟩
  · simp only []; rw [(h1 a).1 ha]; rfl
  · obtain ⟨v, hv⟩ := (h2 e.code).1 ⟨e, he, rfl⟩
    rw [hv]; rfl
  · rw [h4.1 hu]; rfl

theorem setCode_errors {α : Type} {cls : ErrClass} {t : Thr α} {r d : Res α} {x : α} (h : Agrees cls t r) (hd : d = .ok x) :
    ReportsErrors t x (fun code => setCode d r code) := by
  subst hd
  obtain ⟨h1, h2, h3, h4⟩ := h
  intro code
  refine ⟨fun a ha => ?_, fun e he => ?_, fun hu => ?_⟩
  · simp only []; rw [(h1 a).1 ha]; rfl
  · obtain ⟨v, hv⟩ := (h2 e.code).1 ⟨e, he, rfl⟩
    simp only []; rw [hv]; rfl
  · simp only []; rw [h4.1 hu]; rfl

theorem Spec.Reports.map {α β : Type} {t : Thr α} {d : α} {f : Code → Res (Code × α)} (g : α → β) (h : Reports t d f) :
    Reports (t.map g) (g d) (fun code => (f code).onValue g) := by
  intro code
  obtain ⟨h1, h2, h3⟩ := h code
  cases t with
  | ret a =>
    refine ⟨fun b hb => ?_, fun e he => (by cases he), fun hu => (by cases hu)⟩
    cases hb
    simp only []; rw [h1 a rfl]; rfl
  | thrown e =>
    refine ⟨fun b hb => (by cases hb), fun e' he => ?_, fun hu => (by cases hu)⟩
    cases he
    simp only []; rw [h2 e rfl]; rfl
  | ub =>
    refine ⟨fun b hb => (by cases hb), fun e he => (by cases he), fun _ => ?_⟩
    simp only []; rw [h3 rfl]; rfl

theorem Spec.ReportsErrors.map {α β : Type} {t : Thr α} {d : α} {f : Code → Res (Code × α)} (g : α → β) (h : ReportsErrors t d f) :
    ReportsErrors (t.map g) (g d) (fun code => (f code).onValue g) := by
  intro code
  obtain ⟨h1, h2, h3⟩ := h code
  cases t with
  | ret a =>
    refine ⟨fun b hb => ?_, fun e he => (by cases he), fun hu => (by cases hu)⟩
    cases hb
    simp only []; rw [h1 a rfl]; rfl
  | thrown e =>
    refine ⟨fun b hb => (by cases hb), fun e' he => ?_, fun hu => (by cases hu)⟩
    cases he
    simp only []; rw [h2 e rfl]; rfl
  | ub =>
    refine ⟨fun b hb => (by cases hb), fun e he => (by cases he), fun _ => ?_⟩
    simp only []; rw [h3 rfl]; rfl

/-- A function whose variable holds `no_error` at the call. -/
theorem quiet_of_reports {α : Type} {t : Thr α} {d : α} {f : Code → Res (Code × α)} (h : Reports t d f) : Quiet t d (quiet f) := by
  obtain ⟨h1, h2, _⟩ := h none
  refine ⟨fun a ha => ?_, fun e he => ?_⟩
  · unfold quiet; rw [h1 a ha]; rfl
  · unfold quiet; rw [h2 e he]; rfl

theorem quiet_of_errors {α : Type} {t : Thr α} {d : α} {f : Code → Res (Code × α)} (h : ReportsErrors t d f) : Quiet t d (quiet f) := by
  obtain ⟨h1, h2, _⟩ := h none
  refine ⟨fun a ha => ?_, fun e he => ?_⟩
  · unfold quiet; rw [h1 a ha]; rfl
  · unfold quiet; rw [h2 e he]; rfl

theorem Spec.Quiet.map {α β : Type} {t : Thr α} {d : α} {q : Res α} (g : α → β) (h : Quiet t d q) :
    Quiet (t.map g) (g d) (q >>= fun a => .ok (g a)) := by
  obtain ⟨h1, h2⟩ := h
  cases t with
  | ret a =>
    refine ⟨fun b hb => ?_, fun e he => (by cases he)⟩
    cases hb
    rw [h1 a rfl]; rfl
  | thrown e =>
    refine ⟨fun b hb => (by cases hb), fun e' he => ?_⟩
    rw [h2 e rfl]; rfl
  | ub => exact ⟨fun b hb => (by cases hb), fun e he => (by cases he)⟩

theorem wr_ok {α : Type} (l : List α) (i : Nat) (a : α) (h : i < l.length) : ∃ l', wr l i a = .ok l' ∧ l'.length = l.length := by
  unfold wr
  rw [if_pos h]
  exact ⟨_, rfl, by simp⟩

theorem fixedCodeLoop_eq : ∀ (n : Nat) (evs : List Ev) (code : Code) (data : List Char) (len : Nat), len + n ≤ data.length →
    (∀ r, FStr.ofEventsLoop n evs data len = .ok r → fixedCodeLoop n evs code data len = .ok (if n = 0 then code else none, ⟨r.1, r.2⟩)) ∧
    (∀ e v, FStr.ofEventsLoop n evs data len = .err e v → ∃ f, fixedCodeLoop n evs code data len = .ok (some e, f)) ∧
    FStr.ofEventsLoop n evs data len ≠ .ub := by
  intro n
  induction n with
  | zero =>
    intro evs code data len h
    refine ⟨fun r hr => ?_, fun e v hr => ?_, fun hr => ?_⟩ <;> cases hr
    rfl
  | succ n ih =>
    intro evs code data len h
    match evs with
    | [] =>
      refine ⟨fun r hr => ?_, fun e v hr => ?_, fun hr => ?_⟩ <;> cases hr
      rfl
    | .bad e v :: rest =>
      refine ⟨fun r hr => (by cases hr), fun e' v' hr => ?_, fun hr => by cases hr⟩
      cases hr
      obtain ⟨d, hd, _⟩ := wr_ok data len '\x00' (by omega)
      exact ⟨⟨d, len⟩, by simp only [fixedCodeLoop, hd, Res.ok_bind]⟩
    | .ch x :: rest =>
      obtain ⟨d, hd, hl⟩ := wr_ok data len x (by omega)
      simp only [fixedCodeLoop, FStr.ofEventsLoop, hd, Res.ok_bind]
      by_cases hx : x = '\x00'
      · simp only [hx, if_true]
        refine ⟨fun r hr => ?_, fun e v hr => ?_, fun hr => ?_⟩ <;> cases hr
        rfl
      · simp only [hx, if_false]
        obtain ⟨g1, g2, g3⟩ := ih rest none d (len + 1) (by omega)
        refine ⟨fun r hr => ?_, g2, g3⟩
        rw [g1 r hr]
        simp

theorem makeFixedCode_eq {U : Type} (enc : Enc U) (units : List U) (code : Code) :
    (∀ f, makeFixed enc units = .ok f → makeFixedCode enc units code = .ok (none, f)) ∧
    (∀ e v, makeFixed enc units = .err e v → ∃ f, makeFixedCode enc units code = .ok (some e, f)) ∧
    makeFixed enc units ≠ .ub := by
  unfold makeFixed makeFixedCode FStr.ofEvents
  by_cases h0 : units.length = 0
  · simp [h0, FStr.ofEventsLoop]
  · rw [if_neg h0]
    obtain ⟨g1, g2, g3⟩ := fixedCodeLoop_eq units.length (enc.events units) code (List.replicate units.length '\x00') 0 (by simp)
    cases h : FStr.ofEventsLoop units.length (enc.events units) (List.replicate units.length '\x00') 0 with
    | ok r =>
      have := g1 r h
      rw [if_neg h0] at this
      simp [this]
    | err e v =>
      obtain ⟨f, hf⟩ := g2 e v h
      simp [hf]
    | ub => exact absurd h g3

theorem arrayCode_eq {α U : Type} (enc : Enc U) {d : Res α} {x : α} (hd : d = .ok x) (parse : List Ev → Res α) (units : List U) (code : Code) :
    arrayCode enc d (fun evs _ => setCode d (parse evs) none) units code = setCode d (arrayParse enc parse units) none := by
  subst hd
  obtain ⟨g1, g2, g3⟩ := makeFixedCode_eq enc units code
  unfold arrayCode arrayParse
  cases h : makeFixed enc units with
  | ok f => rw [g1 f h]; simp
  | err e v => obtain ⟨f, hf⟩ := g2 e v h; rw [hf]; simp [setCode]
  | ub => exact absurd h g3

theorem arrayQuiet_eq {α U : Type} (enc : Enc U) {d : Res α} {x : α} (hd : d = .ok x) (parse : List Ev → Res α) (units : List U) :
    arrayQuiet enc d (fun evs _ => setCode d (parse evs) none) units =
      quiet (fun _ => setCode d (arrayParse enc parse units) none) := by
  subst hd
  obtain ⟨g1, g2, g3⟩ := makeFixedCode_eq enc units none
  unfold arrayQuiet arrayParse
  cases h : makeFixed enc units with
  | ok f => rw [g1 f h]; simp
  | err e v => obtain ⟨f, hf⟩ := g2 e v h; rw [hf]; simp [quiet, setCode]
  | ub => exact absurd h g3

/-- The two attempts of a version agnostic parser. -/
def twoParses {α β γ : Type} (f : α → γ) (g : β → γ) (r4 : Res α) (r6 : Res β) : Res γ :=
  match r4 with
  | .ok a => .ok (f a)
  | .err _ _ => r6 >>= fun b => .ok (g b)
  | .ub => .ub

theorem anyCode_eq {α β γ : Type} (f : α → γ) (g : β → γ) {d : Res γ} {d4 : Res α} {d6 : Res β} {x4 : α} {x6 : β}
    (h4 : d4 = .ok x4) (h6 : d6 = .ok x6) (r4 : Res α) (r6 : Res β) (code : Code) :
    anyCode f g d (fun _ => setCode d4 r4 none) (fun _ => setCode d6 r6 none) code = setCode d (twoParses f g r4 r6) none := by
  subst h4 h6
  unfold anyCode twoParses
  cases r4 with
  | ok a => simp [setCode]
  | ub => simp [setCode]
  | err e v => cases r6 <;> simp [setCode]

theorem anyQuiet_eq {α β γ : Type} (f : α → γ) (g : β → γ) {d4 : Res α} {d6 : Res β} {x4 : α} {x6 : β}
    (h4 : d4 = .ok x4) (h6 : d6 = .ok x6) (r4 : Res α) (r6 : Res β) :
    anyQuiet f g (fun _ => setCode d4 r4 none) (quiet fun _ => setCode d6 r6 none) =
      quiet (fun _ => setCode (.ok (g x6)) (twoParses f g r4 r6) none) := by
  subst h4 h6
  unfold anyQuiet twoParses quiet
  cases r4 with
  | ok a => simp [setCode]
  | ub => simp [setCode]
  | err e v => cases r6 <;> simp [setCode]

theorem literalQuiet_eq {α U : Type} (enc : Enc U) (m : Nat) (parse : List U → Res α) (s : List U) :
    literalQuiet enc m parse s = parse (s.take m ++ List.replicate (m - s.length) enc.zero) := by
  unfold literalQuiet
  have := literalCopy_eq enc.zero s (min s.length m) 0 (m + 1) (by omega) (by omega)
  simp only [List.take_zero, List.nil_append, Nat.zero_add] at this
  rw [this]
  simp only [Res.ok_bind]
  congr 1
  have e : s.take (min s.length m) = s.take m := by
    rcases Nat.le_total s.length m with h | h
    · rw [Nat.min_eq_left h, List.take_length, List.take_of_length_le h]
    · rw [Nat.min_eq_right h]
  rw [e, List.take_append, List.take_of_length_le (by simp), List.take_replicate]
  congr 2
  rw [List.length_take]
  omega

end Ip
