import Verif.Lemmas.NulText
import Verif.Props.Stream
/-
What texts with NUL characters, and unreadable ones, do in the literals, the arrays, the scope ids and `uint128_t`
(C17, C44, C48, C51, C54, C62, C65).
-/
set_option autoImplicit false

namespace Ip
open Spec

/-- C51, C62, C65, C44: every text is read up to a NUL or its end, or up to something unreadable. -/
theorem C51_texts (evs : List Ev) : (∃ cs, ReadsUpTo evs cs) ∨ ∃ cs code sym, StopsAt evs cs code sym := reads_or_stops evs

/-- C51, every readable text: a literal behaves, down to the text of the exception, as `parse` of the `char` text in
front of the first NUL. -/
theorem C51_exact {U : Type} (enc : Enc U) (L : enc.Law) (c : Cfg) (le : Bool) (s : List U) (cs : List Char)
    (h : ReadsUpTo (enc.events s) cs) :
    (s.length ≤ 15 → v4Literal enc s = v4ParseThrow encChar cs) ∧
    (s.length ≤ 41 + c.M → v6Literal c enc s = v6ParseThrow c encChar cs) ∧
    (s.length ≤ 41 + c.M → anyLiteral c enc s = anyParseThrow c encChar cs) ∧
    (s.length ≤ 31 → v4NetLiteral le enc s = (fam4 le).parseNetThrow encChar cs true) ∧
    (s.length ≤ 45 + c.M → v6NetLiteral c enc s = (fam6 c).parseNetThrow encChar cs true) ∧
    (s.length ≤ 83 + 2 * c.M → anyNetLiteral c enc s = anyNetParseThrow c encChar cs true) := by
  refine ⟨fun hl => ?_, fun hl => ?_, fun hl => ?_, fun hl => ?_, fun hl => ?_, fun hl => ?_⟩
  · unfold v4Literal
    rw [literal_eq _ _ s hl]
    exact (arrayParse_upTo L _ s _ cs h).1
  · unfold v6Literal
    rw [literal_eq _ _ s hl]
    exact (arrayParse_upTo L _ s _ cs h).1
  · unfold anyLiteral
    rw [literal_eq _ _ s hl]
    unfold anyArrayParseThrow anyParseThrow
    rw [(arrayParse_upTo L _ s _ cs h).1, (arrayParse_upTo L _ s _ cs h).2]
    rfl
  · unfold v4NetLiteral
    rw [literal_eq _ _ s (by omega)]
    exact (arrayParse_upTo L _ s _ cs h).1
  · unfold v6NetLiteral
    rw [literal_eq _ _ s (by omega)]
    exact (arrayParse_upTo L _ s _ cs h).1
  · unfold anyNetLiteral
    rw [literal_eq _ _ s (by omega)]
    unfold anyNetArrayParseThrow anyNetParseThrow
    rw [(arrayParse_upTo L _ s _ cs h).1, (arrayParse_upTo L _ s _ cs h).2]
    rfl

/-- The hypothesis is met by a UTF-16 text with NUL in front of an unpaired surrogate. -/
example : ReadsUpTo (encUtf16.events [0x31, 0, 0xD800]) ['1'] :=
  ⟨by decide, .inr ⟨[.bad .wrong_encoding_sequence 0], by decide +kernel⟩⟩

/-- C62, every readable text: a constant expression compiles exactly if `parse` accepts the `char` text in front of the
first NUL, and gives the same object. -/
theorem C62_exact {U : Type} (enc : Enc U) (L : enc.Law) (c : Cfg) (le strict : Bool) (s : List U) (cs : List Char)
    (h : ReadsUpTo (enc.events s) cs) :
    Compiles (v4Const enc s) (v4ParseThrow encChar cs) ∧
    Compiles (v6Const c enc s) (v6ParseThrow c encChar cs) ∧
    Compiles (anyConst c enc s) (anyParseThrow c encChar cs) ∧
    Compiles (v4NetConst le enc strict s) ((fam4 le).parseNetThrow encChar cs strict) ∧
    Compiles (v6NetConst c enc strict s) ((fam6 c).parseNetThrow encChar cs strict) ∧
    Compiles (anyNetConst c enc strict s) (anyNetParseThrow c encChar cs strict) := by
  obtain ⟨f, h1, h2, h3⟩ := makeFixed_upTo L s 0 cs h
  obtain ⟨g, g1, g2, g3⟩ := constFixed_ok encChar_law cs cs rfl h.1
  simp only [List.replicate_zero, List.append_nil] at h1
  have hf : constFixed enc s = some f := by unfold constFixed; rw [h1]
  have one : ∀ {α : Type} (parse : List Ev → Res α),
      (constFixed enc s).bind (constParse parse) = (constFixed encChar cs).bind (constParse parse) := by
    intro α parse
    rw [hf, g1, Option.bind_some, Option.bind_some]
    unfold constParse
    rw [h2, g2]
  have any : ∀ {α β γ : Type} (f4 : α → γ) (f6 : β → γ) (parse4 : List Ev → Res α) (parse6 : List Ev → Res β),
      (constFixed enc s).bind (constAny f4 f6 parse4 parse6) = (constFixed encChar cs).bind (constAny f4 f6 parse4 parse6) := by
    intro α β γ f4 f6 parse4 parse6
    rw [hf, g1, Option.bind_some, Option.bind_some,
      constAny_eq f4 f6 parse4 parse6 f h3 (by rw [h2]; exact h.1), constAny_eq f4 f6 parse4 parse6 g g3 (by rw [g2]; exact h.1)]
    unfold constParse
    rw [h2, g2]
  obtain ⟨k1, k2, k3, k4, k5, k6⟩ := C62_as_parse_partial encChar encChar_law c le strict cs cs rfl h.1
  refine ⟨?_, ?_, ?_, ?_, ?_, ?_⟩
  · unfold v4Const at k1 ⊢; rw [one]; exact k1
  · unfold v6Const at k2 ⊢; rw [one]; exact k2
  · unfold anyConst at k3 ⊢; rw [any]; exact k3
  · unfold v4NetConst at k4 ⊢; rw [one]; exact k4
  · unfold v6NetConst at k5 ⊢; rw [one]; exact k5
  · unfold anyNetConst at k6 ⊢; rw [any]; exact k6

example := C62_exact encChar encChar_law exCfg true false ['1', '\x00', 'x'] ['1'] ⟨by decide, .inr ⟨[.ch 'x'], rfl⟩⟩

/-- C65, every readable array: setting the scope id from it is setting it from the `char` text in front of the first
NUL. -/
theorem C65_array_exact {U : Type} (enc : Enc U) (L : enc.Law) (c : Cfg) (a : V6) (us : List U) (cs : List Char)
    (h : ReadsUpTo (enc.events us) cs) : v6ScopeArrayThrow c enc a us = v6SetScopeThrow c encChar a cs := by
  obtain ⟨f, h1, h2, _⟩ := makeFixed_upTo L us 0 cs h
  simp only [List.replicate_zero, List.append_nil] at h1
  unfold v6ScopeArrayThrow
  by_cases hM : c.M = 0
  · rw [if_pos hM]
    unfold v6SetScopeThrow
    rw [if_pos hM]
  · rw [if_neg hM, h1, ← h2]

example := C65_array_exact encChar encChar_law exCfg exScoped ['e', '\x00', 'x'] ['e'] ⟨by decide, .inr ⟨[.ch 'x'], rfl⟩⟩

/-- C17, every text: `set_scope_id` succeeds exactly if the whole text, also behind a NUL, is short enough and without
the characters that are not admitted; the scope id becomes the part in front of the first NUL.  With maximum length 0 it
does nothing. -/
theorem C17_set_scope_exact (spaces : Bool) (M : Nat) (a : V6) (ha : a.WF M) (s : List Char) :
    ∃ b e, v6SetScope spaces M a s.length (readChars s) = .ok (b, e) ∧ b.WF M ∧ b.bytes = a.bytes ∧
      (M = 0 → e = none ∧ b = a) ∧
      (M ≠ 0 → ZoneOk spaces M s → e = none ∧ b.scope.contents = cutNul s) ∧
      (M ≠ 0 → ¬ ZoneOk spaces M s → e.isSome ∧ b = a) := by
  unfold v6SetScope scopeChange
  by_cases hM : M = 0
  · rw [if_pos hM]
    exact ⟨a, none, rfl, ha, rfl, fun _ => ⟨rfl, rfl⟩, fun h => absurd hM h, fun h => absurd hM h⟩
  rw [if_neg hM]
  by_cases hl : s.length > M
  · rw [if_pos hl]
    exact ⟨a, _, rfl, ha, rfl, fun h => absurd h hM, fun _ h => absurd h.1 (by omega), fun _ _ => ⟨rfl, rfl⟩⟩
  · rw [if_neg hl]
    have := setScopeLoop_eq spaces (M + 1) s [] (by simp; omega)
    simp only [List.nil_append, List.length_nil, Nat.sub_zero] at this
    rcases this with ⟨h1, h2⟩ | ⟨h1, h2⟩
    · rw [h2, Res.ok_bind]
      obtain ⟨f, e1, e2, e3, e4⟩ := mkFixed_eq (s ++ List.replicate (M + 1 - s.length) '\x00')
      have hlen : (s ++ List.replicate (M + 1 - s.length) '\x00').length - 1 = M := by simp; omega
      rw [hlen] at e3 e4
      rw [cstr_take_zone' M s (by omega), ← cutNul_eq] at e4
      rw [e1]
      refine ⟨_, _, rfl, ⟨ha.1, e2, e3⟩, rfl, fun h => absurd h hM, fun _ _ => ⟨rfl, e4⟩, fun _ h => absurd ?_ h⟩
      exact (ZoneOk_iff spaces M s).2 ⟨by omega, h1⟩
    · rw [h2]
      exact ⟨a, _, rfl, ha, rfl, fun h => absurd h hM, fun _ h => absurd ((ZoneOk_iff spaces M s).1 h).2 h1, fun _ _ => ⟨rfl, rfl⟩⟩

example : ZoneOk false 4 ['a', '\x00', 'b'] := by simp [ZoneOk]
example : cutNul ['a', '\x00', 'b'] = ['a'] := by decide

/-- C44, every sequence of code units: what is read up to a NUL or the end is a number exactly if it consists of digits of
the base, and its value is taken modulo `2^128`; a unit that cannot be read makes the text no number. -/
theorem C44_from_string_exact (base : U128.Base) (evs : List Ev) :
    (∀ cs, ReadsUpTo evs cs → ∀ x, U128.fromText base evs = some x ↔
      ∃ ds, DigitText (radixOf base) cs ds ∧ x.val = digitsValue (radixOf base) ds % 2 ^ 128) ∧
    (∀ cs code sym, StopsAt evs cs code sym → U128.fromText base evs = none) := by
  simp only [← radix_eq_spec]
  constructor
  · intro cs h x
    unfold U128.fromText
    rw [fromTextLoop_cut base evs cs _ h]
    exact (C44_from_string_partial base cs (fun hm => h.1 _ hm rfl)).1 x
  · intro cs code sym h
    exact fromTextLoop_stop base evs cs code sym _ h

example : ReadsUpTo (readChars ['1', '\x00', 'x']) ['1'] := readsUpTo_cutNul ['1', '\x00', 'x']
example : StopsAt (utf16Events [0x31, 0xD800]) ['1'] .wrong_encoding_sequence 0 := ⟨by decide, [], by decide +kernel⟩

/-- C48, `uint128_t`, every word: the part in front of the first NUL decides. -/
theorem C48_uint128_exact {U : Type} (W : Wide U) (old : U128) (s : IStr U) (hg : s.eof = false ∧ s.fail = false)
    (w : List U) (rest : List U) (hw : FirstWord W.space s.input w rest) :
    (∀ t, ReadsUpTo (W.enc.events w) t →
      (∀ ds, DigitText (streamRadix s.hex s.oct) t ds → ∃ x, isU128 W old s = (x, { s with input := rest, eof := rest.isEmpty }) ∧
        x.val = digitsValue (streamRadix s.hex s.oct) ds % 2 ^ 128) ∧
      ((¬ ∃ ds, DigitText (streamRadix s.hex s.oct) t ds) →
        isU128 W old s = (old, { s with input := rest, eof := rest.isEmpty, fail := true }))) ∧
    (∀ t code sym, StopsAt (W.enc.events w) t code sym →
      isU128 W old s = (old, { s with input := rest, eof := rest.isEmpty, fail := true })) := by
  simp only [← baseOfFlags_radix]
  have hr := readWord_eq W s hg _ rest hw
  obtain ⟨h1, h2⟩ := C44_from_string_exact (baseOfFlags s.hex s.oct) (W.enc.events w)
  unfold isU128
  simp only
  rw [hr]
  constructor
  · intro t ht
    have h1 := h1 t ht
    cases hx : U128.fromText (baseOfFlags s.hex s.oct) (W.enc.events w) with
    | none =>
      refine ⟨?_, fun _ => rfl⟩
      intro ds hd
      exfalso
      have hlt : digitsValue (radixOf (baseOfFlags s.hex s.oct)) ds % 2 ^ 128 < 2 ^ 128 := Nat.mod_lt _ (by decide)
      obtain ⟨x, hx'⟩ : ∃ x : U128, x.val = digitsValue (radixOf (baseOfFlags s.hex s.oct)) ds % 2 ^ 128 := by
        generalize digitsValue (radixOf (baseOfFlags s.hex s.oct)) ds % 2 ^ 128 = v at hlt
        refine ⟨⟨BitVec.ofNat 64 (v / 2 ^ 64), BitVec.ofNat 64 v⟩, ?_⟩
        rw [U128.val_mk, BitVec.toNat_ofNat, BitVec.toNat_ofNat]
        omega
      rw [(h1 x).2 ⟨ds, hd, hx'⟩] at hx
      cases hx
    | some x =>
      obtain ⟨ds, hd, hv⟩ := (h1 x).1 hx
      refine ⟨?_, fun h => absurd ⟨ds, hd⟩ h⟩
      intro ds' hd'
      exact ⟨x, rfl, by rw [hv, DigitText_unique _ t ds ds' hd hd']⟩
  · intro t code sym ht
    rw [h2 t code sym ht]

example := C48_uint128_exact wideChar ⟨1, 2⟩ ⟨0, false, false, " 12 3".toList, false, false⟩ ⟨rfl, rfl⟩ ['1', '2'] [' ', '3']
  ⟨[' '], rfl, by decide, by decide, by decide, .inr ⟨_, _, rfl, by decide⟩⟩

/-- C54, every text: `set_scope_id` of an IPv6 address held in an `ip_address`. -/
theorem C54_set_scope_exact (c : Cfg) (hM : c.M ≠ 0) (a : V6) (ha : a.WF c.M) (s : List Char) :
    ∃ b e, anySetScope c.spaces c.M (.v6 a) s.length (readChars s) = .ok (.v6 b, e) ∧ b.WF c.M ∧ b.bytes = a.bytes ∧
      (ZoneOk c.spaces c.M s → e = none ∧ b.scope.contents = cutNul s) ∧
      (¬ ZoneOk c.spaces c.M s → e.isSome ∧ b = a) := by
  obtain ⟨b, e, h1, h2, h3, _, h4, h5⟩ := C17_set_scope_exact c.spaces c.M a ha s
  refine ⟨b, e, ?_, h2, h3, h4 hM, h5 hM⟩
  rw [anySetScope, h1]
  rfl

example := C54_set_scope_exact exCfg (by decide) exScoped exScoped_ok ['a', '\x00', 'b']

end Ip
