import Verif.Lemmas.Diag4
import Verif.Props.Message
/-
C74 (errors of the IPv4 parser).
-/
set_option autoImplicit false

namespace Ip
open Spec

/-- C74: the error that `ipv4_address::parse` reports for a text of ASCII characters: exactly what is wrong at
the first place where something is wrong, and the number of the octet there. -/
theorem C74_v4 (s : List Char) (h : s ≠ []) (code : ErrorCode) (v : Nat) :
    v4FromEvents (readChars s) = .err code v ↔ V4Fault s code v ∨ V4EndFault s code v := by
  have hne : readChars s ≠ [] := by simpa [readChars] using h
  unfold v4FromEvents
  rw [if_neg hne]
  constructor
  · intro he
    rcases v4Loop_split s with ⟨st, h1, h2, h3, _⟩ | ⟨code', v', h1, _⟩
    · have h3 := h3 []
      rw [List.append_nil] at h3
      rw [h3, v4Loop, Res.ok_bind] at he
      exact .inr (v4Finish_fault h1 h2 he)
    · have h2 := v4Fault_run h1 []
      rw [List.append_nil] at h2
      rw [h2] at he
      cases he
      exact .inl h1
  · rintro (hf | hf)
    · have := v4Fault_run hf []
      rw [List.append_nil] at this
      rw [this]; rfl
    · obtain ⟨st, h1, h2⟩ := v4EndFault_run hf
      rw [h1, Res.ok_bind, h2]

example := (C74_v4 "1.2.3.256".toList (by decide) .octet_exceeded_255 3).2 (.inr (.large [1, 2, 3] 256 rfl (by decide) (by decide) (by decide)))
example := (C74_v4 "1.02.3.4".toList (by decide) .leading_0_are_not_permitted 1).2
  (.inl (.octet [1] _ _ (by decide) (by decide) (.zero '2' ".3.4".toList rfl)))

/-- C74: an empty text is reported as such. -/
theorem C74_v4_empty : v4FromEvents (readChars []) = .err .empty_address 0 := rfl

/-- C74: a text that the reader cannot read further after `s`: what is wrong with `s` if something is, and
otherwise the error of the reader with its symbol. -/
theorem C74_v4_symbol (s : List Char) (c : ErrorCode) (sym : Nat) (rest : List Ev) (code : ErrorCode) (v : Nat) :
    v4FromEvents (readChars s ++ .bad c sym :: rest) = .err code v ↔
      V4Fault s code v ∨ ((∀ code' v', ¬ V4Fault s code' v') ∧ code = c ∧ v = sym) := by
  unfold v4FromEvents
  rw [if_neg (by simp)]
  rcases v4Loop_split s with ⟨st, h1, h2, h3, h4⟩ | ⟨code', v', h1, h2⟩
  · rw [h3, v4Loop]
    constructor
    · intro he
      cases he
      exact .inr ⟨h4, rfl, rfl⟩
    · rintro (h | ⟨_, rfl, rfl⟩)
      · exact absurd h (h4 _ _)
      · rfl
  · rw [v4Fault_run h1]
    constructor
    · intro he
      cases he
      exact .inl h1
    · rintro (h | ⟨h, _⟩)
      · obtain ⟨rfl, rfl⟩ := h2 _ _ h; rfl
      · exact absurd h1 (h _ _)

example := (C74_v4_symbol "1..".toList .unexpected_symbol 0x20AC [] .empty_octet 1).2
  (.inl (.octet [1] _ _ (by decide) (by decide) (.empty [])))

/-- C74: the errors with their numbers are different things: at most one of them is wrong first. -/
theorem C74_v4_one (s : List Char) (code code' : ErrorCode) (v v' : Nat) (h : V4Fault s code v ∨ V4EndFault s code v)
    (h' : V4Fault s code' v' ∨ V4EndFault s code' v') : code = code' ∧ v = v' := by
  by_cases hs : s = []
  · have key : ∀ code v, V4Fault s code v ∨ V4EndFault s code v → code = .expected_4_octets ∧ v = 0 := by
      intro code v h
      rcases h with h | h
      · have := v4Fault_run h []
        rw [hs] at this
        cases this
      · obtain ⟨st, h1, h2⟩ := v4EndFault_run h
        rw [hs] at h1
        cases h1
        cases h2
        exact ⟨rfl, rfl⟩
    obtain ⟨rfl, rfl⟩ := key _ _ h
    obtain ⟨rfl, rfl⟩ := key _ _ h'
    exact ⟨rfl, rfl⟩
  · have a := (C74_v4 s hs code v).2 h
    rw [(C74_v4 s hs code' v').2 h'] at a
    cases a
    exact ⟨rfl, rfl⟩

example := C74_v4_one "1.2".toList .expected_4_octets .expected_4_octets 1 1
  (.inr (.few [1] ['2'] (by decide) (by decide) (.inr ⟨2, by decide, rfl⟩)))
  (.inr (.few [1] ['2'] (by decide) (by decide) (.inr ⟨2, by decide, rfl⟩)))

/-- C74: the exception of `ipv4_address::parse` says what is wrong and names the octet. -/
theorem C74_v4_exception (s : List Char) (h : s ≠ []) (hz : ∀ c ∈ s, c ≠ '\x00') (code : ErrorCode) (v : Nat)
    (hf : V4Fault s code v ∨ V4EndFault s code v) : v4ParseThrow encChar s = .thrown (exnOf code v (shown s)) := by
  unfold v4ParseThrow
  rw [show encChar.events s = readChars s from rfl, (C74_v4 s h code v).2 hf]
  exact raise_thrown code v s _ (C73_text_char s hz code v)

example := C74_v4_exception "1.2.3.256".toList (by decide) (by decide) .octet_exceeded_255 3
  (.inr (.large [1, 2, 3] 256 rfl (by decide) (by decide) (by decide)))

end Ip
