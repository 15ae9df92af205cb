import Verif.Spec.NulText
import Verif.Lemmas.V6Nul
import Verif.Props.Scope
import Verif.Props.Const
import Verif.Props.AnyNetIter
set_option autoImplicit false

namespace Ip
open Spec

/-- Every sequence of events is of one of the two forms. -/
theorem reads_or_stops : ∀ evs : List Ev, (∃ cs, ReadsUpTo evs cs) ∨ ∃ cs code sym, StopsAt evs cs code sym
  | [] => .inl ⟨[], by simp, .inl rfl⟩
  | .bad code sym :: rest => .inr ⟨[], code, sym, by simp, rest, rfl⟩
  | .ch c :: rest => by
    by_cases h : c = '\x00'
    · exact .inl ⟨[], by simp, .inr ⟨rest, by rw [h]; rfl⟩⟩
    · rcases reads_or_stops rest with ⟨cs, h1, h2⟩ | ⟨cs, code, sym, h1, r, h2⟩
      · refine .inl ⟨c :: cs, ?_, ?_⟩
        · intro x hx
          rcases List.mem_cons.1 hx with rfl | hx
          · exact h
          · exact h1 x hx
        · rcases h2 with h2 | ⟨r, h2⟩
          · exact .inl (by rw [h2]; rfl)
          · exact .inr ⟨r, by rw [h2]; rfl⟩
      · refine .inr ⟨c :: cs, code, sym, ?_, r, by rw [h2]; rfl⟩
        intro x hx
        rcases List.mem_cons.1 hx with rfl | hx
        · exact h
        · exact h1 x hx

theorem ofEventsLoop_nul : ∀ (n : Nat) (cs w : List Char) (rest : List Ev), cs.length < n → (∀ c ∈ cs, c ≠ '\x00') →
    FStr.ofEventsLoop n (readChars cs ++ .ch '\x00' :: rest) (w ++ List.replicate n '\x00') w.length =
      .ok (w ++ cs ++ List.replicate (n - cs.length) '\x00', w.length + cs.length)
  | 0, cs, w, _, h, _ => by omega
  | n + 1, [], w, rest, h, _ => by
    simp only [readChars, List.map_nil, List.nil_append, FStr.ofEventsLoop, List.replicate_succ]
    rw [wr_append _ _ _ _ _ rfl]
    simp [List.replicate_succ]
  | n + 1, c :: cs, w, rest, h, hz => by
    simp only [readChars, List.map_cons, List.cons_append, FStr.ofEventsLoop, List.replicate_succ]
    rw [wr_append _ _ _ _ _ rfl]
    simp only [Res.ok_bind]
    rw [if_neg (hz c (by simp))]
    have := ofEventsLoop_nul n cs (w ++ [c]) rest (by simpa using h) (fun c hc => hz c (by simp [hc]))
    simp only [readChars, List.length_append, List.length_cons, List.length_nil, List.append_assoc, List.cons_append,
      List.nil_append] at this ⊢
    rw [this]
    simp
    omega

variable {U : Type} {enc : Enc U}

theorem readsUpTo_pad (L : enc.Law) (us : List U) (k : Nat) (cs : List Char) (h : ReadsUpTo (enc.events us) cs) :
    ReadsUpTo (enc.events (us ++ List.replicate k enc.zero)) cs := by
  obtain ⟨hz, h⟩ := h
  refine ⟨hz, ?_⟩
  have inj : ∀ a b : List Char, readChars a = readChars b → a = b := fun a b h =>
    (List.map_inj_right (fun x y h => by cases h; rfl)).1 h
  rcases L.events_pad k us.length us (Nat.le_refl _) with ⟨ds, h1, h2⟩ | ⟨ds, code, sym, h1, h2⟩
  · rcases h with h | ⟨rest, h⟩
    · rw [h1] at h
      have : ds = cs := inj _ _ h
      subst this
      rw [h2]
      cases k with
      | zero => exact .inl (by simp [readChars])
      | succ k => exact .inr ⟨readChars (List.replicate k '\x00'), by simp [readChars, List.replicate_succ]⟩
    · right
      rw [h1] at h
      rw [h2]
      refine ⟨rest ++ readChars (List.replicate k '\x00'), ?_⟩
      rw [readChars, List.map_append, ← readChars, h]
      simp [readChars]
  · rcases h with h | ⟨rest, h⟩
    · exfalso
      rw [h1] at h
      have : Ev.bad code sym ∈ cs.map Ev.ch := by rw [← h]; simp
      simp at this
    · right
      rw [h2, ← h1, h]
      exact ⟨rest, rfl⟩

/-- The fixed string made from an array with a NUL. -/
theorem makeFixed_upTo (L : enc.Law) (us : List U) (k : Nat) (cs : List Char) (h : ReadsUpTo (enc.events us) cs) :
    ∃ f, makeFixed enc (us ++ List.replicate k enc.zero) = .ok f ∧ f.contents = cs ∧ f.length ≤ f.data.length := by
  obtain ⟨hz, h⟩ := readsUpTo_pad L us k cs h
  have hl := L.events_length _ (us ++ List.replicate k enc.zero) (Nat.le_refl _)
  unfold makeFixed
  rcases h with h | ⟨rest, h⟩
  · rw [h] at hl ⊢
    obtain ⟨s, g1, g2, _, g4⟩ := FStr.ofEvents_eq (us ++ List.replicate k enc.zero).length cs (by simpa using hl)
    refine ⟨s, g1, ?_, g2⟩
    rw [g4]
    exact cstr_eq_self cs hz
  · rw [h] at hl ⊢
    have := ofEventsLoop_nul (us ++ List.replicate k enc.zero).length cs [] rest
      (by simp only [List.length_append, List.length_map, List.length_cons] at hl ⊢; omega) hz
    simp only [List.nil_append, List.length_nil, Nat.zero_add] at this
    refine ⟨⟨cs ++ List.replicate ((us ++ List.replicate k enc.zero).length - cs.length) '\x00', cs.length⟩, ?_, ?_, ?_⟩
    · unfold FStr.ofEvents
      rw [show cs.map Ev.ch = readChars cs from rfl, this]
      rfl
    · simp [FStr.contents]
    · simp

theorem arrayParse_upTo {α : Type} (L : enc.Law) (parse : List Ev → Res α) (us : List U) (k : Nat) (cs : List Char)
    (h : ReadsUpTo (enc.events us) cs) :
    arrayParseThrow enc parse (us ++ List.replicate k enc.zero) = orRaise encChar cs (parse (readChars cs)) ∧
    arrayParse enc parse (us ++ List.replicate k enc.zero) = parse (readChars cs) := by
  obtain ⟨f, h1, h2, _⟩ := makeFixed_upTo L us k cs h
  unfold arrayParseThrow arrayParse
  rw [h1]
  simp only [Res.ok_bind, h2, and_self]

theorem fromTextLoop_cut (base : U128.Base) : ∀ (evs : List Ev) (cs : List Char) (x : U128), ReadsUpTo evs cs →
    U128.fromTextLoop base evs x = U128.fromTextLoop base (readChars cs) x
  | evs, [], x, ⟨_, h⟩ => by
    rcases h with h | ⟨rest, h⟩
    · rw [h]; rfl
    · rw [h]; simp [U128.fromTextLoop, readChars]
  | evs, c :: cs, x, ⟨hz, h⟩ => by
    have hc := hz c (by simp)
    have ih := fun evs' h' y => fromTextLoop_cut base evs' cs y ⟨fun d hd => hz d (by simp [hd]), h'⟩
    rcases h with h | ⟨rest, h⟩
    · rw [h]; rfl
    · rw [h]
      simp only [readChars, List.map_cons, List.cons_append, U128.fromTextLoop, if_neg hc]
      cases U128.digitOf base c with
      | none => rfl
      | some d => exact ih _ (.inr ⟨rest, rfl⟩) _

theorem fromTextLoop_stop (base : U128.Base) : ∀ (evs : List Ev) (cs : List Char) (code : ErrorCode) (sym : Nat) (x : U128),
    StopsAt evs cs code sym → U128.fromTextLoop base evs x = none
  | evs, [], code, sym, x, ⟨_, rest, h⟩ => by rw [h]; simp [U128.fromTextLoop]
  | evs, c :: cs, code, sym, x, ⟨hz, rest, h⟩ => by
    have hc := hz c (by simp)
    have ih := fun evs' h' y => fromTextLoop_stop base evs' cs code sym y ⟨fun d hd => hz d (by simp [hd]), h'⟩
    rw [h]
    simp only [List.map_cons, List.cons_append, U128.fromTextLoop, if_neg hc]
    cases U128.digitOf base c with
    | none => rfl
    | some d => exact ih _ ⟨rest, rfl⟩ _

theorem readsUpTo_cutNul : ∀ cs : List Char, ReadsUpTo (readChars cs) (cutNul cs)
  | [] => ⟨by simp [cutNul], .inl rfl⟩
  | c :: cs => by
    by_cases h : c = '\x00'
    · refine ⟨by simp [cutNul, h], .inr ⟨readChars cs, by simp [cutNul, h, readChars]⟩⟩
    · obtain ⟨h1, h2⟩ := readsUpTo_cutNul cs
      refine ⟨?_, ?_⟩
      · intro x hx
        rw [cutNul, if_neg h] at hx
        rcases List.mem_cons.1 hx with rfl | hx
        · exact h
        · exact h1 x hx
      · rw [cutNul, if_neg h]
        rcases h2 with h2 | ⟨r, h2⟩
        · exact .inl (by simp only [readChars, List.map_cons] at h2 ⊢; rw [h2])
        · exact .inr ⟨r, by simp only [readChars, List.map_cons] at h2 ⊢; rw [h2]; rfl⟩

end Ip
