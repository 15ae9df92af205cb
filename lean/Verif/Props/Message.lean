import Verif.Lemmas.Message
import Verif.Props.Throw
/-
C73 (messages of exceptions).
-/
set_option autoImplicit false

namespace Ip
open Spec

/-- C73: for every text in every character type there is one way the text is shown, and the message of each
error is that of its code, with the number, the symbol and the text in their places. -/
theorem C73_message {U : Type} (enc : Enc U) (L : enc.Law) (address : List U) :
    ∃ t, ∀ code value, raiseError enc code value address address.length = .ok (exnOf code value t) := by
  obtain ⟨t, _, h⟩ := raiseError_message L address
  exact ⟨t, h⟩

example := C73_message encUtf16 encUtf16_law [49, 46, 0xD83D, 0xDE00]

/-- C73: texts of `char`: any characters but NUL, the first 100 of them and three dots if there are more. -/
theorem C73_text_char (s : List Char) (h : ∀ c ∈ s, c ≠ '\x00') (code : ErrorCode) (value : Nat) :
    raiseError encChar code value s s.length = .ok (exnOf code value (shown s)) := by
  obtain ⟨t, h1, h2⟩ := raiseError_message encChar_law s
  have := printBuffer_text encChar_law id s (emb_char s h)
  rw [List.map_id, h1] at this
  cases this
  exact h2 code value

example := C73_text_char "1.2.3.256".toList (by decide) .octet_exceeded_255 3
example : (exnOf .octet_exceeded_255 3 "1.2.3.256".toList).what = "octet 3 of address 1.2.3.256 exceeded 255".toList := by
  decide +kernel

/-- C73: texts of `char32_t`, and of `wchar_t` of 32 bits. -/
theorem C73_text_utf32 (cps : List Nat) (h : ∀ cp ∈ cps, Scalar cp ∧ cp ≠ 0) (code : ErrorCode) (value : Nat) :
    raiseError encUtf32 code value (cps.flatMap utf32Encode) (cps.flatMap utf32Encode).length =
      .ok (exnOf code value (shownText utf32Encode cps)) := by
  obtain ⟨t, h1, h2⟩ := raiseError_message encUtf32_law (cps.flatMap utf32Encode)
  rw [buffer_any encUtf32_law utf32Form cps h] at h1
  cases h1
  rw [h2]
  refine congrArg (fun x => Res.ok (exnOf code value (displayed (wholly utf32Encode 100 cps) ++ x))) ?_
  obtain ⟨rest, e1, e2, e3⟩ := wholly_spec utf32Encode cps 100
  generalize wholly utf32Encode 100 cps = w at e1 e2 e3 ⊢
  subst e1
  have hl : ∀ l : List Nat, (l.flatMap utf32Encode).length = l.length := by
    intro l; induction l with
    | nil => rfl
    | cons a l ih => rw [List.flatMap_cons, List.length_append, ih]; simp [utf32Encode]; omega
  simp only [hl, List.length_append] at e2 e3 ⊢
  rcases e3 with rfl | ⟨cp, r, rfl, e4⟩
  · rw [if_neg (by simp; omega), if_pos (by simp)]
  · simp only [utf32Encode, List.length_cons, List.length_nil] at e4
    rw [if_pos ⟨by simp; omega, by omega⟩, if_neg (by simp)]

example := C73_text_utf32 [49, 46, 0x1F600] (by unfold Scalar; decide) .unexpected_symbol 0x1F600
example : (exnOf .unexpected_symbol 0x1F600 (shownText utf32Encode [49, 46, 0x1F600])).what =
    "unexpected next unicode symbol {U+1f600} in string 1.{U+1f600}".toList := by decide +kernel

theorem wholly_pre {U : Type} (encode : Nat → List U) (hp : ∀ cp, 0 < (encode cp).length) : ∀ (pre rest : List Nat) (n : Nat),
    (pre.flatMap encode).length = n → wholly encode n (pre ++ rest) = pre
  | [], [], _, _ => rfl
  | [], cp :: rest, n, h => by
    have := hp cp
    simp only [List.flatMap_nil, List.length_nil] at h
    rw [List.nil_append, wholly, if_neg (by omega)]
  | a :: pre, rest, n, h => by
    rw [List.flatMap_cons, List.length_append] at h
    rw [List.cons_append, wholly, if_pos (by omega), wholly_pre encode hp pre rest _ (by omega)]

theorem wholly_all {U : Type} (encode : Nat → List U) : ∀ (cps : List Nat) (n : Nat),
    (cps.flatMap encode).length ≤ n → wholly encode n cps = cps
  | [], _, _ => rfl
  | a :: cps, n, h => by
    rw [List.flatMap_cons, List.length_append] at h
    rw [wholly, if_pos (by omega), wholly_all encode cps _ (by omega)]

theorem text_partial {U : Type} {enc : Enc U} (L : enc.Law) {encode : Nat → List U} (F : enc.Form encode) (cps : List Nat)
    (h : ∀ cp ∈ cps, Scalar cp ∧ cp ≠ 0) (hc : CutBetween encode cps) (code : ErrorCode) (value : Nat) :
    raiseError enc code value (cps.flatMap encode) (cps.flatMap encode).length = .ok (exnOf code value (shownText encode cps)) := by
  obtain ⟨t, h1, h2⟩ := raiseError_message L (cps.flatMap encode)
  rw [buffer_any L F cps h] at h1
  cases h1
  rw [h2]
  refine congrArg (fun x => Res.ok (exnOf code value (displayed (wholly encode 100 cps) ++ x))) ?_
  have hp : ∀ cp, 0 < (encode cp).length := fun cp => by
    obtain ⟨u, r, e⟩ := F.cons cp
    rw [e]; simp
  obtain ⟨pre, rest, rfl, e1, e2⟩ := hc
  rcases e2 with rfl | e2
  · rw [List.append_nil, wholly_all encode pre 100 e1, if_neg (by omega), if_pos rfl]
  · rw [wholly_pre encode hp pre rest 100 e2]
    cases rest with
    | nil => rw [if_neg (by simp only [List.append_nil]; omega), if_pos (by simp)]
    | cons cp r =>
      have := hp cp
      rw [if_pos ⟨by rw [List.flatMap_append, List.length_append, List.flatMap_cons, List.length_append]; omega, e2⟩, if_neg (by simp)]

/-- C73, texts of `char8_t` (or `char` as UTF-8) and of `char16_t` that are not cut inside of a character.
Missing: the other texts; there the dots are missing (`C73_text_cut`, `C73_text_exact`). -/
theorem C73_text_partial (cps : List Nat) (h : ∀ cp ∈ cps, Scalar cp ∧ cp ≠ 0) (code : ErrorCode) (value : Nat) :
    (CutBetween utf8Encode cps → raiseError encUtf8 code value (cps.flatMap utf8Encode) (cps.flatMap utf8Encode).length =
      .ok (exnOf code value (shownText utf8Encode cps))) ∧
    (CutBetween utf16Encode cps → raiseError encUtf16 code value (cps.flatMap utf16Encode) (cps.flatMap utf16Encode).length =
      .ok (exnOf code value (shownText utf16Encode cps))) :=
  ⟨fun hc => text_partial encUtf8_law utf8Form cps h hc code value, fun hc => text_partial encUtf16_law utf16Form cps h hc code value⟩

example := (C73_text_partial [49, 0x20AC] (by unfold Scalar; decide) .unexpected_symbol 0x20AC).1
  ⟨[49, 0x20AC], [], rfl, by decide, .inl rfl⟩
example : (exnOf .unexpected_symbol 0x20AC (shownText utf8Encode [49, 0x20AC])).what =
    "unexpected next unicode symbol {U+20ac} in string 1{U+20ac}".toList := by decide +kernel

/-- C73 does not hold for a text that is cut inside of a character: 99 digits and a euro sign in UTF-8 are
shown as if the text ended after the digits. -/
theorem C73_text_cut : ∃ cps : List Nat, (∀ cp ∈ cps, Scalar cp ∧ cp ≠ 0) ∧ 100 < (cps.flatMap utf8Encode).length ∧
    ∀ code value, raiseError encUtf8 code value (cps.flatMap utf8Encode) (cps.flatMap utf8Encode).length =
      .ok (exnOf code value (List.replicate 99 '1')) := by
  refine ⟨List.replicate 99 49 ++ [0x20AC], ?_, by decide +kernel, fun code value => ?_⟩
  · intro cp hc
    rcases List.mem_append.1 hc with hc | hc
    · rw [List.eq_of_mem_replicate hc]; unfold Scalar; decide
    · rw [List.mem_singleton.1 hc]; unfold Scalar; decide
  obtain ⟨t, h1, h2⟩ := raiseError_message encUtf8_law ((List.replicate 99 49 ++ [0x20AC]).flatMap utf8Encode)
  have e : printArray encUtf8 104 (((List.replicate 99 49 ++ [0x20AC]).flatMap utf8Encode).take 100 ++
      (if ((List.replicate 99 49 ++ [0x20AC]).flatMap utf8Encode).length > 100 then [encUtf8.dot, encUtf8.dot, encUtf8.dot, encUtf8.zero]
      else List.replicate (104 - ((List.replicate 99 49 ++ [0x20AC]).flatMap utf8Encode).length) encUtf8.zero)) = .ok (List.replicate 99 '1') := by
    decide +kernel
  rw [e] at h1
  cases h1
  exact h2 code value

/-- C73: exactly what is shown of any text of non zero code points in UTF-8 and UTF-16: the characters
wholly in the first 100 code units, and the dots if the text is longer and these characters fill the 100
code units. -/
theorem C73_text_exact (cps : List Nat) (h : ∀ cp ∈ cps, Scalar cp ∧ cp ≠ 0) (code : ErrorCode) (value : Nat) :
    raiseError encUtf8 code value (cps.flatMap utf8Encode) (cps.flatMap utf8Encode).length =
      .ok (exnOf code value (displayed (wholly utf8Encode 100 cps) ++
        (if (cps.flatMap utf8Encode).length > 100 ∧ ((wholly utf8Encode 100 cps).flatMap utf8Encode).length = 100 then ['.', '.', '.'] else []))) ∧
    raiseError encUtf16 code value (cps.flatMap utf16Encode) (cps.flatMap utf16Encode).length =
      .ok (exnOf code value (displayed (wholly utf16Encode 100 cps) ++
        (if (cps.flatMap utf16Encode).length > 100 ∧ ((wholly utf16Encode 100 cps).flatMap utf16Encode).length = 100 then ['.', '.', '.'] else []))) := by
  constructor
  · obtain ⟨t, h1, h2⟩ := raiseError_message encUtf8_law (cps.flatMap utf8Encode)
    rw [buffer_any encUtf8_law utf8Form cps h] at h1
    cases h1
    exact h2 code value
  · obtain ⟨t, h1, h2⟩ := raiseError_message encUtf16_law (cps.flatMap utf16Encode)
    rw [buffer_any encUtf16_law utf16Form cps h] at h1
    cases h1
    exact h2 code value

example := C73_text_exact [49, 0x1F600, 46] (by unfold Scalar; decide) .unexpected_symbol 0x1F600

/-- C73: a text with a NUL among its first 100 code units is shown up to it, without dots. -/
theorem C73_text_nul (cps : List Nat) (h : ∀ cp ∈ cps, Scalar cp ∧ cp ≠ 0) (code : ErrorCode) (value : Nat) :
    (∀ rest, (cps.flatMap utf8Encode).length < 100 →
      raiseError encUtf8 code value (cps.flatMap utf8Encode ++ 0 :: rest) (cps.flatMap utf8Encode ++ 0 :: rest).length =
        .ok (exnOf code value (displayed cps))) ∧
    (∀ rest, (cps.flatMap utf16Encode).length < 100 →
      raiseError encUtf16 code value (cps.flatMap utf16Encode ++ 0 :: rest) (cps.flatMap utf16Encode ++ 0 :: rest).length =
        .ok (exnOf code value (displayed cps))) ∧
    (∀ rest, (cps.flatMap utf32Encode).length < 100 →
      raiseError encUtf32 code value (cps.flatMap utf32Encode ++ 0 :: rest) (cps.flatMap utf32Encode ++ 0 :: rest).length =
        .ok (exnOf code value (displayed cps))) := by
  refine ⟨fun rest hl => ?_, fun rest hl => ?_, fun rest hl => ?_⟩
  · obtain ⟨t, h1, h2⟩ := raiseError_message encUtf8_law (cps.flatMap utf8Encode ++ encUtf8.zero :: rest)
    rw [buffer_nul encUtf8_law utf8Form cps rest h hl] at h1
    cases h1
    exact h2 code value
  · obtain ⟨t, h1, h2⟩ := raiseError_message encUtf16_law (cps.flatMap utf16Encode ++ encUtf16.zero :: rest)
    rw [buffer_nul encUtf16_law utf16Form cps rest h hl] at h1
    cases h1
    exact h2 code value
  · obtain ⟨t, h1, h2⟩ := raiseError_message encUtf32_law (cps.flatMap utf32Encode ++ encUtf32.zero :: rest)
    rw [buffer_nul encUtf32_law utf32Form cps rest h hl] at h1
    cases h1
    exact h2 code value

example := (C73_text_nul [49, 0x20AC] (by unfold Scalar; decide) .unexpected_symbol 0x20AC).1 [50] (by decide)

/-- C73: the exceptions of the parsers of strings describe the error that the overload with `error_code`
reports, and the text given. -/
theorem C73_parse {U : Type} (enc : Enc U) (L : enc.Law) (c : Cfg) (le strict : Bool) (s : List U) :
    ThrowsDescribing enc s (v4ParseThrow enc s) (v4FromEvents (enc.events s)) ∧
    ThrowsDescribing enc s (v6ParseThrow c enc s) (v6FromEvents c.spaces c.M (enc.events s)) ∧
    ThrowsDescribing enc s ((fam4 le).parseNetThrow enc s strict) ((fam4 le).parseNet (enc.events s) strict) ∧
    ThrowsDescribing enc s ((fam6 c).parseNetThrow enc s strict) ((fam6 c).parseNet (enc.events s) strict) := by
  have key : ∀ {α : Type} (r : Res α), ThrowsDescribing enc s (orRaise enc s r) r := by
    intro α r code value hr
    obtain ⟨x, hx⟩ := C73_message enc L s
    exact ⟨x, hx code value, by rw [hr]; exact raise_thrown code value s _ (hx code value)⟩
  exact ⟨key _, key _, key _, key _⟩

example := (C73_parse encChar encChar_law exCfg true true "1.2.3.256".toList).1 .octet_exceeded_255 3 (by decide)

/-- C73: the same for the overloads taking an array: an error of the reader is described with the array, an
error of the parser with the characters read from it. -/
theorem C73_array {α U : Type} (enc : Enc U) (L : enc.Law) (parse : List Ev → Res α) (s : List U) :
    (∀ code sym, makeFixed enc s = .err code sym → ∃ x, raiseError enc code sym s s.length = .ok (exnOf code sym x) ∧
      arrayParseThrow enc parse s = .thrown (exnOf code sym x)) ∧
    (∀ f, makeFixed enc s = .ok f → ThrowsDescribing encChar f.contents (arrayParseThrow enc parse s) (parse (readChars f.contents))) := by
  constructor
  · intro code sym h
    obtain ⟨x, hx⟩ := C73_message enc L s
    exact ⟨x, hx code sym, by unfold arrayParseThrow; rw [h]; exact raise_thrown code sym s _ (hx code sym)⟩
  · intro f hf code value hr
    obtain ⟨x, hx⟩ := C73_message encChar encChar_law f.contents
    refine ⟨x, hx code value, ?_⟩
    unfold arrayParseThrow
    rw [hf]
    simp only
    rw [hr]
    exact raise_thrown code value f.contents _ (hx code value)

example := (C73_array encUtf32 encUtf32_law v4FromEvents [49, 0x20AC]).1 .unexpected_symbol 0x20AC (by decide)

/-- C73: a literal that is too long is described with the literal. -/
theorem C73_literal {α U : Type} (enc : Enc U) (L : enc.Law) (maxLen : Nat) (parse : List U → Thr α) (s : List U) (h : maxLen < s.length) :
    ∃ x, raiseError enc .string_is_too_long 0 s s.length = .ok (exnOf .string_is_too_long 0 x) ∧
      literal enc maxLen parse s = .thrown (exnOf .string_is_too_long 0 x) := by
  obtain ⟨x, hx⟩ := C73_message enc L s
  exact ⟨x, hx _ _, by unfold literal; rw [if_pos h]; exact raise_thrown _ _ s _ (hx _ _)⟩

example := C73_literal encChar encChar_law 15 (arrayParseThrow encChar v4FromEvents) "100.100.100.1000".toList (by decide)

/-- C73: `from_address` describes the error with the text of the address; `supernet`, `subnets` and
`address_exclude` with the message of the code; `set_scope_id` with the scope id. -/
theorem C73_operations {A U : Type} (F : Fam A U) (c : Cfg) (hc : 0 < c.M) :
    (∀ a p strict code v t, F.fromAddress a p strict = .err code v → F.toText .compressed a = .ok t → (∀ x ∈ t, x ≠ '\x00') →
      F.fromAddressThrow a p strict = .thrown (exnOf code 0 (shown t))) ∧
    (∀ n diff newp code v, F.supernet n diff newp = .err code v → F.supernetThrow n diff newp = .thrown (exnOf code 0 [])) ∧
    (∀ n diff newp code v, F.subnets n diff newp = .err code v → F.subnetsThrow n diff newp = .thrown (exnOf code 0 [])) ∧
    (∀ n o code v, F.addressExclude n o = .err code v → F.addressExcludeThrow n o = .thrown (exnOf code 0 [])) ∧
    (∀ {V : Type} (enc : Enc V), enc.Law → ∀ (a : V6) (s : List V) code v, scopeChange c.spaces c.M s.length (enc.events s) = .err code v →
      ∃ x, raiseError enc code v s s.length = .ok (exnOf code v x) ∧ v6SetScopeThrow c enc a s = .thrown (exnOf code v x)) := by
  have h0 : ∀ {α : Type} (r : Res α) code v, r = .err code v → orRaise0 r = .thrown (exnOf code 0 []) := by
    intro α r code v hr
    rw [hr]
    exact raise_thrown code 0 [] _ (C73_text_char [] (by simp) code 0)
  refine ⟨?_, fun n diff newp code v h => h0 _ code v h, fun n diff newp code v h => h0 _ code v h, fun n o code v h => h0 _ code v h, ?_⟩
  · intro a p strict code v t h ht hz
    unfold Fam.fromAddressThrow
    rw [h]
    simp only
    rw [ht]
    exact raise_thrown code 0 t _ (C73_text_char t hz code 0)
  · intro V enc L a s code v h
    obtain ⟨x, hx⟩ := C73_message enc L s
    refine ⟨x, hx code v, ?_⟩
    unfold v6SetScopeThrow
    rw [if_neg (by omega), h]
    exact raise_thrown code v s _ (hx code v)

example := (C73_operations (fam4 true) exCfg (by decide)).1 [192, 168, 1, 1] 24 true .has_host_bits_set 0 "192.168.1.1".toList
  (by decide +kernel) (by decide +kernel) (by decide)
example : (exnOf .has_host_bits_set 0 (shown "192.168.1.1".toList)).what = "has host bits set in address 192.168.1.1".toList := by
  decide +kernel
example := (C73_operations (fam4 true) exCfg (by decide)).2.2.2.2 encChar encChar_law exScoped "a%b".toList .invalid_scope_id 0 (by decide +kernel)

end Ip
