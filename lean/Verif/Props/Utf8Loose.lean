import Verif.Lemmas.Utf8Loose
import Verif.Props.Unicode
/-
What the UTF-8 reader does with every sequence of bytes (C46).
-/
set_option autoImplicit false

namespace Ip
open Spec

/-- C46, every sequence of bytes.  The reader reports exactly what `LooseRead` describes: a sequence is
taken by its lead byte, overlong or not, and only its last byte has to be a continuation byte. -/
theorem C46_utf8_exact (us : List (BitVec 8)) (evs : List Ev) : utf8Events us = evs ↔ LooseRead us evs :=
  ⟨fun h => h ▸ utf8Events_loose us, fun h => (utf8Events_loose us).unique h⟩

/-- The bytes `E0 41 B1` are taken for the character `1`, and `E0 41 41` for no code point. -/
example : utf8Events [0xE0, 0x41, 0xB1] = [.ch '1'] :=
  (C46_utf8_exact _ _).2 (.char _ [0xE0, 0x41, 0xB1] [] [] (.three 0xE0 0x41 0xB1 (by decide) (by decide) (by decide))
    (by decide) .nil)
example : utf8Events [0xE0, 0x41, 0x41] = [.bad .wrong_encoding_sequence 0] := by
  refine (C46_utf8_exact _ _).2 (.wrong _ (by simp) ?_)
  intro cp t r hl e
  cases hl with
  | three a x z _ _ hz =>
    simp only [List.cons_append, List.nil_append, List.cons.injEq] at e
    obtain ⟨_, _, rfl, _⟩ := e
    exact absurd hz (by decide)
  | one a h => simp only [List.cons_append, List.cons.injEq] at e; obtain ⟨rfl, _⟩ := e; exact absurd h (by decide)
  | two a z h h' _ => simp only [List.cons_append, List.cons.injEq] at e; obtain ⟨rfl, _⟩ := e; exact absurd h' (by decide)
  | four a x y z h _ _ => simp only [List.cons_append, List.cons.injEq] at e; obtain ⟨rfl, _⟩ := e; exact absurd h (by decide)

/-- C46, the texts taken.  A sequence of bytes is read as the text `s` exactly if it is a sequence of
groups of bytes, one taken for each character. -/
theorem C46_utf8_text (us : List (BitVec 8)) (s : List Char) :
    utf8Events us = readChars s ↔
      ∃ gs : List (List (BitVec 8)), us = gs.flatten ∧ List.Forall₂ (fun c g => Loose c.toNat g ∧ c.toNat < 128) s gs := by
  constructor
  · intro h
    have hr := (C46_utf8_exact us _).1 h
    clear h
    generalize hv : readChars s = evs at hr
    induction hr generalizing s with
    | nil =>
      cases s with
      | nil => exact ⟨[], rfl, .nil⟩
      | cons c s => simp [readChars] at hv
    | char cp us r evs hl hc _ ih =>
      cases s with
      | nil => simp [readChars] at hv
      | cons c s =>
        simp only [readChars, List.map_cons, List.cons.injEq, Ev.ch.injEq] at hv
        obtain ⟨rfl, hv⟩ := hv
        obtain ⟨gs, rfl, hg⟩ := ih s hv
        refine ⟨us :: gs, rfl, .cons ⟨?_, ?_⟩ hg⟩ <;> rw [toNat_ofNat_ascii cp hc] <;> assumption
    | symbol cp us r hl hc => cases s <;> simp [readChars] at hv
    | wrong us hn hw => cases s <;> simp [readChars] at hv
  · rintro ⟨gs, rfl, hg⟩
    refine (C46_utf8_exact _ _).2 ?_
    induction hg with
    | nil => exact .nil
    | cons h _ ih =>
      rename_i c g s gs _
      have := LooseRead.char c.toNat g gs.flatten _ h.1 h.2 ih
      rw [ofNat_toNat] at this
      exact this

/-- `1.` in four bytes. -/
example : utf8Events [0xC0, 0xB1, 0xC0, 0xAE] = readChars ['1', '.'] :=
  (C46_utf8_text _ _).2 ⟨[[0xC0, 0xB1], [0xC0, 0xAE]], rfl,
    .cons ⟨.two 0xC0 0xB1 (by decide) (by decide) (by decide), by decide⟩
    (.cons ⟨.two 0xC0 0xAE (by decide) (by decide) (by decide), by decide⟩ .nil)⟩

end Ip
