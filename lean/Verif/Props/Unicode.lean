import Verif.Lemmas.Unicode
import Verif.Lemmas.Events
import Verif.Props.V6Text
import Verif.Model.Any
/-
Properties of the text encodings (C45, C46) and of version agnostic parsing (C20).
-/
set_option autoImplicit false

namespace Ip
open Spec

/-- C45, the readers.  A text given in UTF-8, UTF-16 or UTF-32 (hence also `wchar_t`) is read alike:
its characters up to the first non ASCII code point, which is reported as `unexpected_symbol` with
the code point as value.  For an ASCII text the result is that of reading `char`s. -/
theorem C45_encodings_agree (cps : List Nat) (h : ∀ cp ∈ cps, Scalar cp) :
    utf8Events (cps.flatMap utf8Encode) = textEvents cps ∧
    utf16Events (cps.flatMap utf16Encode) = textEvents cps ∧
    utf32Events (cps.flatMap utf32Encode) = textEvents cps ∧
    ∀ s : List Char, cps = s.map Char.toNat → (∀ c ∈ s, c.toNat < 128) → textEvents cps = readChars s := by
  refine ⟨utf8Events_encode cps h, utf16Events_encode cps h, utf32Events_encode cps h, ?_⟩
  rintro s rfl hs
  exact textEvents_ascii s hs

example : utf8Events ([0x31, 0x20AC].flatMap utf8Encode) = [.ch '1', .bad .unexpected_symbol 0x20AC] := by
  rw [utf8Events_encode _ (by simp [Scalar])]
  decide

theorem ascii_scalar (s : List Char) (h : ∀ c ∈ s, c.toNat < 128) : ∀ cp ∈ s.map Char.toNat, Scalar cp := by
  intro cp hc
  obtain ⟨c, hm, rfl⟩ := List.mem_map.1 hc
  have := h c hm
  exact ⟨by omega, by omega⟩

/-- C45, the parsers.  An ASCII text gives the same result, or the same error, in every encoding. -/
theorem C45_parse_encodings (spaces : Bool) (M : Nat) (s : List Char) (h : ∀ c ∈ s, c.toNat < 128) :
    (v4FromEvents (utf8Events ((s.map Char.toNat).flatMap utf8Encode)) = v4Parse s ∧
     v4FromEvents (utf16Events ((s.map Char.toNat).flatMap utf16Encode)) = v4Parse s ∧
     v4FromEvents (utf32Events ((s.map Char.toNat).flatMap utf32Encode)) = v4Parse s) ∧
    (v6FromEvents spaces M (utf8Events ((s.map Char.toNat).flatMap utf8Encode)) = v6Parse spaces M s ∧
     v6FromEvents spaces M (utf16Events ((s.map Char.toNat).flatMap utf16Encode)) = v6Parse spaces M s ∧
     v6FromEvents spaces M (utf32Events ((s.map Char.toNat).flatMap utf32Encode)) = v6Parse spaces M s) ∧
    (anyFromEvents spaces M (utf8Events ((s.map Char.toNat).flatMap utf8Encode)) = anyParse spaces M s ∧
     anyFromEvents spaces M (utf16Events ((s.map Char.toNat).flatMap utf16Encode)) = anyParse spaces M s ∧
     anyFromEvents spaces M (utf32Events ((s.map Char.toNat).flatMap utf32Encode)) = anyParse spaces M s) := by
  obtain ⟨h1, h2, h3, h4⟩ := C45_encodings_agree _ (ascii_scalar s h)
  rw [h1, h2, h3, h4 s rfl h]
  exact ⟨⟨rfl, rfl, rfl⟩, ⟨rfl, rfl, rfl⟩, ⟨rfl, rfl, rfl⟩⟩

example : ∀ c ∈ ['1', '.', '2'], c.toNat < 128 := by decide

theorem textEvents_nonascii (pre : List Char) (hp : ∀ c ∈ pre, c.toNat < 128) (cp : Nat) (hc : 128 ≤ cp)
    (rest : List Nat) : textEvents (pre.map Char.toNat ++ cp :: rest) = readChars pre ++ [.bad .unexpected_symbol cp] := by
  induction pre with
  | nil => simp [textEvents, readChars]; omega
  | cons c pre ih =>
    have ih := ih (fun d hd => hp d (by simp [hd]))
    simp only [List.map_cons, List.cons_append, textEvents, hp c (by simp), if_true, ih, readChars, ofNat_toNat]

theorem readChars_bad (pre s : List Char) (e : ErrorCode) (v : Nat) (rest : List Ev) :
    readChars pre ++ .bad e v :: rest ≠ readChars s := by
  intro h
  have : Ev.bad e v ∈ readChars s := by rw [← h]; simp
  simp [readChars] at this

/-- C45, other text.  A text with a non ASCII code point is never accepted, and when the part before
the first such code point can be continued to an accepted text, the error is `unexpected_symbol`
with that code point (for the other texts an earlier mistake may be reported). -/
theorem C45_non_ascii_rejected (spaces : Bool) (M : Nat) (pre : List Char) (hp : ∀ c ∈ pre, c.toNat < 128)
    (cp : Nat) (hc : 128 ≤ cp) (rest : List Nat) :
    ((∃ e v, v4FromEvents (textEvents (pre.map Char.toNat ++ cp :: rest)) = .err e v) ∧
     (∃ e v, v6FromEvents spaces M (textEvents (pre.map Char.toNat ++ cp :: rest)) = .err e v)) ∧
    (∀ t r, v4Parse (pre ++ t) = .ok r →
      v4FromEvents (textEvents (pre.map Char.toNat ++ cp :: rest)) = .err .unexpected_symbol cp) ∧
    (∀ t r, v6Parse spaces M (pre ++ t) = .ok r →
      v6FromEvents spaces M (textEvents (pre.map Char.toNat ++ cp :: rest)) = .err .unexpected_symbol cp) := by
  rw [textEvents_nonascii pre hp cp hc rest]
  refine ⟨⟨?_, ?_⟩, ?_, ?_⟩
  · cases h : v4FromEvents (readChars pre ++ [.bad .unexpected_symbol cp]) with
    | ok r =>
      obtain ⟨a, b, c, d, _, h2⟩ := v4FromEvents_ok h
      exact absurd h2 (readChars_bad _ _ _ _ _)
    | err e v => exact ⟨e, v, rfl⟩
    | ub => exact absurd h (v4FromEvents_ne_ub _)
  · cases h : v6FromEvents spaces M (readChars pre ++ [.bad .unexpected_symbol cp]) with
    | ok r =>
      obtain ⟨s, h2, _⟩ := v6FromEvents_ok spaces M _ _ h
      exact absurd h2 (readChars_bad _ _ _ _ _)
    | err e v => exact ⟨e, v, rfl⟩
    | ub => exact absurd h (v6FromEvents_safe spaces M _).1
  · intro t r h
    rw [v4Parse, readChars, List.map_append] at h
    exact v4FromEvents_bad _ _ r h _ _ _
  · intro t r h
    rw [v6Parse, readChars, List.map_append] at h
    exact v6FromEvents_bad spaces M _ _ r h _ _ _

/-- The hypotheses are met: `1.2.` followed by the euro sign. -/
example : v4FromEvents (utf16Events [0x31, 0x2E, 0x20AC, 0x33]) = .err .unexpected_symbol 0x20AC := by
  have e : utf16Events [0x31, 0x2E, 0x20AC, 0x33] = textEvents (['1', '.'].map Char.toNat ++ 0x20AC :: [0x33]) := by
    rw [← (C45_encodings_agree _ (by simp [Scalar])).2.1]; rfl
  rw [e]
  exact (C45_non_ascii_rejected false 16 ['1', '.'] (by decide) 0x20AC (by decide) [0x33]).2.1
    "2.3.4".toList [1, 2, 3, 4] (by decide)

/-- C46 for UTF-16: every sequence of code units is read as its leading ASCII units, and at the first
unit that is not ASCII (a surrogate, paired or not, or any other unit) an error is reported. -/
theorem C46_utf16 (us : List (BitVec 16)) : Reads us (utf16Events us) := utf16Events_reads us

/-- C46 for UTF-32. -/
theorem C46_utf32 (us : List (BitVec 32)) : Reads us (utf32Events us) := utf32Events_reads us

/-- C46 for UTF-8, for sequences without overlong forms.  Truncated sequences, stray continuation
bytes, bytes `F8`..`FF`, encoded surrogates and values above `10FFFF` are covered.  Missing: overlong
forms, see `C46_utf8_overlong_accepted`. -/
theorem C46_utf8_partial (us : List (BitVec 8)) (h : NoOverlong us) : Reads us (utf8Events us) :=
  utf8Events_reads us h

example : NoOverlong [0x31, 0xE2, 0x82, 0x80, 0xFF] := by simp [NoOverlong]

/-- C46 fails for UTF-8: the overlong form `C0 B1`, and `E0 41 B1` whose second byte is not a
continuation byte, are both read as the character `1`; so the byte sequence `C0 B1 2E 32 2E 33 2E 34`
parses as the address 1.2.3.4. -/
theorem C46_utf8_overlong_accepted :
    utf8Events [0xC0, 0xB1] = [.ch '1'] ∧ utf8Events [0xE0, 0x41, 0xB1] = [.ch '1'] ∧
    v4FromEvents (utf8Events [0xC0, 0xB1, 0x2E, 0x32, 0x2E, 0x33, 0x2E, 0x34]) = .ok [1, 2, 3, 4] := by
  decide +kernel

/-- C20.  No text is accepted by both parsers. -/
theorem C20_disjoint (spaces : Bool) (M : Nat) (evs : List Ev) (r : List (BitVec 8)) (a : V6) :
    ¬ (v4FromEvents evs = .ok r ∧ v6FromEvents spaces M evs = .ok a) := by
  rintro ⟨h4, h6⟩
  obtain ⟨a', b, c, d, _, rfl⟩ := v4FromEvents_ok h4
  have hn := fun x hx => dotted_noColon a' b c d x hx
  rcases v6Parse_rel spaces M (dotted a' b c d) (fun x hx => (hn x hx).2.1) with ⟨ip, z, vs, _, ⟨h1, h2, _⟩, _⟩ | ⟨_, e, v, he⟩
  · have hc := V6Text_colon ip vs h2
    exact (hn ':' (by rw [h1]; simp [hc])).1 rfl
  · rw [v6Parse, h6] at he
    cases he

/-- C20.  `ip_address::parse` accepts exactly the texts accepted by one of the parsers, with that
result and the version of that parser; it never reads outside its buffers, and its error is the
error of the IPv6 parser. -/
theorem C20_any_parse (spaces : Bool) (M : Nat) (evs : List Ev) :
    (∀ b, anyFromEvents spaces M evs = .ok (.v4 b) ↔ v4FromEvents evs = .ok b) ∧
    (∀ a, anyFromEvents spaces M evs = .ok (.v6 a) ↔ v6FromEvents spaces M evs = .ok a) ∧
    (∀ e v, anyFromEvents spaces M evs = .err e v ↔
      (∀ b, v4FromEvents evs ≠ .ok b) ∧ v6FromEvents spaces M evs = .err e v) ∧
    anyFromEvents spaces M evs ≠ .ub := by
  have hd := C20_disjoint spaces M evs
  have hu := (v6FromEvents_safe spaces M evs).1
  unfold anyFromEvents
  cases h4 : v4FromEvents evs with
  | ub => exact absurd h4 (v4FromEvents_ne_ub _)
  | ok b =>
    refine ⟨by simp, ?_, by simp, by simp⟩
    intro a
    have := hd b a
    simp only [h4, true_and] at this
    simp [this]
  | err e v =>
    cases h6 : v6FromEvents spaces M evs with
    | ub => exact absurd h6 hu
    | ok a => simp
    | err e v => simp

example : anyParse false 16 "10.0.0.1".toList = .ok (.v4 [10, 0, 0, 1]) := by decide +kernel
example : anyParse false 16 "::1".toList =
    .ok (.v6 ⟨[0, 0, 0, 0, 0, 0, 0, 0, 0, 0, 0, 0, 0, 0, 0, 1], emptyScope 16⟩) := by decide +kernel

/-- C20.  What `to_string` prints for an address is parsed to that address again, with its version:
the same bytes for IPv4, and the same bytes and scope text for IPv6, in every format. -/
theorem C20_round_trip (spaces : Bool) (M : Nat) (fmt : Format) :
    (∀ a b c d, (anyToString M fmt (.v4 [a, b, c, d]) >>= anyParse spaces M) = .ok (.v4 [a, b, c, d])) ∧
    (∀ a : V6, a.Good spaces M → ∃ t b, anyToString M fmt (.v6 a) = .ok t ∧ anyParse spaces M t = .ok (.v6 b) ∧
      b.bytes = a.bytes ∧ b.scope.contents = a.scope.contents) := by
  constructor
  · intro a b c d
    rw [anyToString, v4ToString_eq, Res.ok_bind, anyParse, (C20_any_parse spaces M _).1]
    exact v4FromEvents_dotted a b c d
  · intro a ha
    obtain ⟨t, b, h1, h2, _, h3, h4⟩ := C08_v6_round_trip spaces M a ha fmt
    exact ⟨t, b, h1, ((C20_any_parse spaces M _).2.1 b).2 h2, h3, h4⟩

example : (⟨[0xfe, 0x80, 0, 0, 0, 0, 0, 0, 0, 0, 0, 0, 0, 0, 0, 1], emptyScope 16⟩ : V6).Good false 16 :=
  (v6FromEvents_safe false 16 (readChars "fe80::1".toList)).2 _ (by decide +kernel)

end Ip
