import Verif.Lemmas.Throw
import Verif.Lemmas.V6Text
import Verif.Props.Net
import Verif.Props.NetIter
/-
C50 (exceptions), C51 (literals).
-/
set_option autoImplicit false

namespace Ip
open Spec

/-! ### C50 -/

/-- C50: the message buffer.  For a text of any length in any character type no element outside of the
array is written or read: the 104 elements are the first 100 units, three dots if there are more, and
zeros, at least one. -/
theorem C50_buffer {U : Type} (enc : Enc U) (address : List U) :
    ∃ (buf : List U) (k : Nat), raiseBuffer enc address address.length = .ok buf ∧ buf.length = 104 ∧ 0 < k ∧
      buf = address.take 100 ++ (if address.length > 100 then [enc.dot, enc.dot, enc.dot] else []) ++ List.replicate k enc.zero := by
  refine ⟨_, if address.length > 100 then 1 else 104 - address.length, raiseBuffer_eq address, raiseBuffer_length address, ?_, ?_⟩
  · split <;> omega
  · split <;> simp

/-- The four character types. -/
theorem enc_laws : encChar.Law ∧ encUtf8.Law ∧ encUtf16.Law ∧ encUtf32.Law :=
  ⟨encChar_law, encUtf8_law, encUtf16_law, encUtf32_law⟩

/-- C50: `raise_error` always throws; the exception carries the code, and it is a `logic_error` for the
codes of wrong arguments and a `parse_error` for all others (never a plain `error`). -/
theorem C50_raise {U : Type} (enc : Enc U) (L : enc.Law) (code : ErrorCode) (value : Nat) (address : List U) :
    ∃ w, raiseError enc code value address address.length =
      .ok ⟨if code ∈ argumentErrors then .logic else .parse, code, w⟩ := by
  obtain ⟨t, w, _, h, _⟩ := raiseError_eq L code value address
  exact ⟨w, by rw [h, raiseCase_class]⟩

example := C50_raise encChar encChar_law .invalid_netmask 3 "10.0.0.x".toList

theorem emb_utf8 (cs : List Char) (h : ∀ c ∈ cs, c ≠ '\x00' ∧ c.toNat < 128) : encUtf8.Emb (fun c => BitVec.ofNat 8 c.toNat) cs := by
  intro c hc
  refine ⟨(h c hc).1, fun r => ?_⟩
  have hl := (h c hc).2
  have := utf8Next_encode c.toNat ⟨by omega, by omega⟩ r (BitVec.ofNat 8 c.toNat) [] (by simp [utf8Encode, hl])
  rw [if_pos hl] at this
  show utf8Next _ _ = _
  simpa using this

theorem emb_utf16 (cs : List Char) (h : ∀ c ∈ cs, c ≠ '\x00' ∧ c.toNat < 128) : encUtf16.Emb (fun c => BitVec.ofNat 16 c.toNat) cs := by
  intro c hc
  refine ⟨(h c hc).1, fun r => ?_⟩
  have hl := (h c hc).2
  have := utf16Next_encode c.toNat ⟨by omega, by omega⟩ r (BitVec.ofNat 16 c.toNat) [] (by simp [utf16Encode]; omega)
  show utf16Next _ _ = _
  simpa [utf16Fin, hl] using this

theorem emb_utf32 (cs : List Char) (h : ∀ c ∈ cs, c ≠ '\x00' ∧ c.toNat < 128) : encUtf32.Emb (fun c => BitVec.ofNat 32 c.toNat) cs := by
  intro c hc
  refine ⟨(h c hc).1, fun r => ?_⟩
  have hl := (h c hc).2
  have e : (BitVec.ofNat 32 c.toNat).toNat = c.toNat := by simp; omega
  simp only [encUtf32, e]
  rw [if_neg (by omega)]
  simp

theorem emb_char (cs : List Char) (h : ∀ c ∈ cs, c ≠ '\x00') : encChar.Emb id cs := fun c hc => ⟨h c hc, fun _ => rfl⟩

/-- C50: the message of every error of an input text other than "empty" contains the text, cut after 100
characters, whatever its character type. -/
theorem C50_message (code : ErrorCode) (hc : code ∉ argumentErrors) (he : code ≠ .empty_address) (value : Nat) (cs : List Char)
    (hz : ∀ c ∈ cs, c ≠ '\x00') :
    (∃ e a b, raiseError encChar code value cs cs.length = .ok e ∧ e.what = a ++ shown cs ++ b) ∧
    ((∀ c ∈ cs, c.toNat < 128) →
      (∃ e a b, raiseError encUtf8 code value (cs.map fun c => BitVec.ofNat 8 c.toNat) cs.length = .ok e ∧ e.what = a ++ shown cs ++ b) ∧
      (∃ e a b, raiseError encUtf16 code value (cs.map fun c => BitVec.ofNat 16 c.toNat) cs.length = .ok e ∧ e.what = a ++ shown cs ++ b) ∧
      (∃ e a b, raiseError encUtf32 code value (cs.map fun c => BitVec.ofNat 32 c.toNat) cs.length = .ok e ∧ e.what = a ++ shown cs ++ b)) := by
  have hs : Piece.str ∈ (raiseCase code).2 := by
    revert hc he; cases code <;> decide
  have key : ∀ {U : Type} (enc : Enc U) (_ : enc.Law) (emb : Char → U), enc.Emb emb cs →
      ∃ e a b, raiseError enc code value (cs.map emb) cs.length = .ok e ∧ e.what = a ++ shown cs ++ b := by
    intro U enc L emb he
    obtain ⟨t, w, h1, h2, h3⟩ := raiseError_eq L code value (cs.map emb)
    rw [printBuffer_text L emb cs he] at h1
    cases h1
    obtain ⟨a, b, h4⟩ := h3 hs
    rw [List.length_map] at h2
    exact ⟨_, a, b, h2, h4⟩
  refine ⟨?_, fun ha => ⟨?_, ?_, ?_⟩⟩
  · have := key encChar encChar_law id (emb_char cs hz)
    simpa using this
  · exact key encUtf8 encUtf8_law _ (emb_utf8 cs fun c h => ⟨hz c h, ha c h⟩)
  · exact key encUtf16 encUtf16_law _ (emb_utf16 cs fun c h => ⟨hz c h, ha c h⟩)
  · exact key encUtf32 encUtf32_law _ (emb_utf32 cs fun c h => ⟨hz c h, ha c h⟩)

example := C50_message .unexpected_symbol (by decide) (by decide) 120 "10.0.x.1".toList (by decide)

/-- C50: parsing a string of any character type without `error_code`: the same value, or a `parse_error`
with the code of the overload with `error_code`. -/
theorem C50_parse {U : Type} (enc : Enc U) (L : enc.Law) (c : Cfg) (le : Bool) (strict : Bool) (s : List U) :
    Agrees .parse (v4ParseThrow enc s) (v4FromEvents (enc.events s)) ∧
    Agrees .parse (v6ParseThrow c enc s) (v6FromEvents c.spaces c.M (enc.events s)) ∧
    Agrees .parse (anyParseThrow c enc s) (anyFromEvents c.spaces c.M (enc.events s)) ∧
    Agrees .parse ((fam4 le).parseNetThrow enc s strict) ((fam4 le).parseNet (enc.events s) strict) ∧
    Agrees .parse ((fam6 c).parseNetThrow enc s strict) ((fam6 c).parseNet (enc.events s) strict) := by
  have hb := L.badIn s.length s (Nat.le_refl _)
  have h6 := orRaise_agrees L s _ (v6FromEvents_codes c.spaces c.M _ hb)
  refine ⟨orRaise_agrees L s _ (v4FromEvents_codes _ hb), h6, ?_,
    orRaise_agrees L s _ (fam4_parseNet_codes le _ strict hb), orRaise_agrees L s _ (fam6_parseNet_codes c _ strict hb)⟩
  unfold anyParseThrow anyFromEvents v6ParseThrow
  refine anyThrow_agrees AnyAddr.v4 AnyAddr.v6 (v4FromEvents (enc.events s)) _ _ _ _ h6 (fun b h => ?_) (fun h => ?_) (fun e v h => ?_) <;>
    (rw [h]; first | exact ⟨rfl, rfl⟩ | exact ⟨fun _ h => by rw [h], fun _ h => by rw [h], fun h => by rw [h], rfl⟩)

example := C50_parse encChar encChar_law exCfg true true "10.0.0.x".toList

/-- C50: the same for the overloads taking an array. -/
theorem C50_parse_array {U : Type} (enc : Enc U) (L : enc.Law) (c : Cfg) (le : Bool) (strict : Bool) (s : List U) :
    Agrees .parse (arrayParseThrow enc v4FromEvents s) (arrayParse enc v4FromEvents s) ∧
    Agrees .parse (arrayParseThrow enc (v6FromEvents c.spaces c.M) s) (arrayParse enc (v6FromEvents c.spaces c.M) s) ∧
    Agrees .parse (anyArrayParseThrow c enc s) (anyArrayParse c enc s) ∧
    Agrees .parse (arrayParseThrow enc (fun evs => (fam4 le).parseNet evs strict) s) (arrayParse enc (fun evs => (fam4 le).parseNet evs strict) s) ∧
    Agrees .parse (arrayParseThrow enc (fun evs => (fam6 c).parseNet evs strict) s) (arrayParse enc (fun evs => (fam6 c).parseNet evs strict) s) := by
  have h6 := arrayParseThrow_agrees L (v6FromEvents c.spaces c.M) s (fun cs => v6FromEvents_codes _ _ _ (BadIn.chars _ _))
  refine ⟨arrayParseThrow_agrees L _ s (fun cs => v4FromEvents_codes _ (BadIn.chars _ _)), h6, ?_,
    arrayParseThrow_agrees L _ s (fun cs => fam4_parseNet_codes le _ strict (BadIn.chars _ _)),
    arrayParseThrow_agrees L _ s (fun cs => fam6_parseNet_codes c _ strict (BadIn.chars _ _))⟩
  unfold anyArrayParseThrow anyArrayParse
  refine anyThrow_agrees AnyAddr.v4 AnyAddr.v6 (arrayParse enc v4FromEvents s) _ _ _ _ h6 (fun b h => ?_) (fun h => ?_) (fun e v h => ?_) <;>
    (rw [h]; first | exact ⟨rfl, rfl⟩ | exact ⟨fun _ h => by rw [h], fun _ h => by rw [h], fun h => by rw [h], rfl⟩)

example := C50_parse_array encChar encChar_law exCfg true true "10.0.0.x".toList

/-- C50: `supernet`, `subnets` and `address_exclude` without `error_code` throw `logic_error`s. -/
theorem C50_operations (c : Cfg) (hc : c.le = true) (diff : Nat) (newp : Option Nat) :
    (∀ n o, NetOk4 n → NetOk4 o →
      Agrees .logic ((fam4 true).supernetThrow n diff newp) ((fam4 true).supernet n diff newp) ∧
      Agrees .logic ((fam4 true).subnetsThrow n diff newp) ((fam4 true).subnets n diff newp) ∧
      Agrees .logic ((fam4 true).addressExcludeThrow n o) ((fam4 true).addressExclude n o)) ∧
    (∀ n o, NetOk6 c n → NetOk6 c o →
      Agrees .logic ((fam6 c).supernetThrow n diff newp) ((fam6 c).supernet n diff newp) ∧
      Agrees .logic ((fam6 c).subnetsThrow n diff newp) ((fam6 c).subnets n diff newp) ∧
      Agrees .logic ((fam6 c).addressExcludeThrow n o) ((fam6 c).addressExclude n o)) := by
  have hx : ∀ {α : Type} (r : Res α) (p : Prop), (¬ p → r = .err .not_contained_network 0) → (p → ∃ s, r = .ok s) →
      ∀ e v, r = .err e v → e ∈ argumentErrors := by
    intro α r p h1 h2 e v he
    by_cases hp : p
    · obtain ⟨s, hs⟩ := h2 hp; rw [hs] at he; cases he
    · rw [h1 hp] at he; cases he; decide
  constructor
  · intro n o hn ho
    refine ⟨orRaise0_agrees _ fun e v h => ?_, orRaise0_agrees _ fun e v h => ?_, orRaise0_agrees _ ?_⟩
    · rcases ((C35_supernet_v4 n hn diff newp).2.2.2 e v h).2 with rfl | rfl | rfl <;> decide
    · rcases ((C35_subnets_v4_partial n hn diff).2.2.2 newp e v h).2 with rfl | rfl | rfl <;> decide
    · exact hx _ _ (((C35_exclude c hc).1 n o hn ho).1) (((C35_exclude c hc).1 n o hn ho).2)
  · intro n o hn ho
    refine ⟨orRaise0_agrees _ fun e v h => ?_, orRaise0_agrees _ fun e v h => ?_, orRaise0_agrees _ ?_⟩
    · rcases ((C35_supernet_v6 c hc n hn diff newp).2.2.2 e v h).2 with rfl | rfl | rfl <;> decide
    · rcases ((C35_subnets_v6_partial c hc n hn diff).2.2.2 newp e v h).2 with rfl | rfl | rfl <;> decide
    · exact hx _ _ (((C35_exclude c hc).2 n o hn ho).1) (((C35_exclude c hc).2 n o hn ho).2)

example := C50_operations exCfg rfl 2 (some 20)

theorem fromAddress_agrees {A U : Type} (F : Fam A U) (a : A) (p : Nat) (strict : Bool) (ht : ∃ t, F.toText .compressed a = .ok t)
    (hc : (F.fromAddress a p strict).ErrIn NotArg) : Agrees .parse (F.fromAddressThrow a p strict) (F.fromAddress a p strict) := by
  obtain ⟨t, ht⟩ := ht
  unfold Fam.fromAddressThrow
  rw [ht]
  have := orRaise_agrees (α := Net A) encChar_law t
  cases h : F.fromAddress a p strict with
  | ok n => simp [Agrees]
  | ub => simp [Agrees]
  | err code v =>
    obtain ⟨w, hw⟩ := raise_eq (α := Net A) encChar_law code 0 t
    simp only
    rw [hw, raiseCase_parse code (hc code v h)]
    simp [Agrees]

/-- C50: `from_address` and `set_scope_id` without `error_code` throw `parse_error`s; `set_scope_id` then
leaves the address unchanged (C44). -/
theorem C50_values {U : Type} (enc : Enc U) (L : enc.Law) (c : Cfg) (le : Bool) (p : Nat) (strict : Bool) (s : List U) :
    (∀ a, a.length = 4 → Agrees .parse ((fam4 le).fromAddressThrow a p strict) ((fam4 le).fromAddress a p strict)) ∧
    (∀ a : V6, a.WF c.M → Agrees .parse ((fam6 c).fromAddressThrow a p strict) ((fam6 c).fromAddress a p strict)) ∧
    (∀ a : V6,
      (∀ a', v6SetScopeThrow c enc a s = .ret a' ↔ v6SetScope c.spaces c.M a s.length (enc.events s) = .ok (a', none)) ∧
      (∀ code, (∃ e, v6SetScopeThrow c enc a s = .thrown e ∧ e.code = code ∧ e.cls = .parse) ↔
        v6SetScope c.spaces c.M a s.length (enc.events s) = .ok (a, some code))) := by
  have hb := L.badIn s.length s (Nat.le_refl _)
  refine ⟨fun a ha => ?_, fun a ha => ?_, fun a => ?_⟩
  · refine fromAddress_agrees _ a p strict ?_ (Res.ErrIn.bind (v4FromPrefix_codes le p) fun _ => Res.ErrIn.bind (v4Strict_codes _ _ _ _) fun _ => Res.ErrIn.ok _)
    match a, ha with
    | [x, y, z, w], _ => exact ⟨_, v4ToString_eq x y z w⟩
  · refine fromAddress_agrees _ a p strict ?_ (Res.ErrIn.bind ?_ fun _ => Res.ErrIn.bind (v6Strict_codes _ _ _ _) fun _ => Res.ErrIn.ok _)
    · obtain ⟨t, _, _, h⟩ := v6ToString_eq c.M a ha .compressed
      exact ⟨_, h⟩
    · exact Res.ErrIn.bind (v6FromPrefix_codes p) fun _ => Res.ErrIn.ok _
  · have hset : (scopeChange c.spaces c.M s.length (enc.events s)).ErrIn NotArg := by
      unfold scopeChange
      refine Res.ErrIn.ite (Res.ErrIn.err _ _ (by decide)) (Res.ErrIn.bind ?_ fun _ => mkFixed_codes _)
      have : ∀ (evs : List Ev) (i : Nat) (str : List Char), BadIn NotArg evs → (setScopeLoop c.spaces evs i str).ErrIn NotArg := by
        intro evs
        induction evs with
        | nil => intro i str _; exact Res.ErrIn.ok _
        | cons e evs ih =>
          intro i str hb
          cases e with
          | bad code sym => exact Res.ErrIn.err _ _ (hb code sym (by simp))
          | ch x => exact Res.ErrIn.ite (Res.ErrIn.err _ _ (by decide)) (Res.ErrIn.bind (Res.ErrIn.wr _ _ _) fun _ => ih _ _ hb.tail)
      exact this _ _ _ hb
    unfold v6SetScopeThrow v6SetScope
    by_cases hM : c.M = 0
    · rw [if_pos hM, if_pos hM]; simp
    · rw [if_neg hM, if_neg hM]
      cases h : scopeChange c.spaces c.M s.length (enc.events s) with
      | ok f => simp
      | ub => simp
      | err code v =>
        obtain ⟨w, hw⟩ := raise_eq (α := V6) L code v s
        have := raiseCase_parse code (hset code v h)
        simp only
        rw [hw, this]
        simp

example : v4ParseThrow encChar "1.2.3.256".toList =
    .thrown ⟨.parse, .octet_exceeded_255, "octet 3 of address 1.2.3.256 exceeded 255".toList⟩ := by decide +kernel
example : v4ParseThrow encUtf16 ["1".toList.map fun c => BitVec.ofNat 16 c.toNat, [0xD83D, 0xDE00]].flatten =
    .thrown ⟨.parse, .unexpected_symbol, "unexpected next unicode symbol {U+1f600} in string 1{U+1f600}".toList⟩ := by decide +kernel
example : (fam4 true).supernetThrow ex17 18 none = .thrown ⟨.logic, .invalid_prefixlen_diff, "invalid prefixlen_diff".toList⟩ := by decide +kernel
example : (v4ParseThrow encChar (List.replicate 101 'x')) =
    .thrown ⟨.parse, .octet_has_invalid_symbol, "in octet 0 of address ".toList ++ List.replicate 100 'x' ++ "... has invalid symbol".toList⟩ := by
  decide +kernel

/-! ### C51 -/

/-- C51: literals longer than the maximum raise `string_is_too_long`: 15 for IPv4 addresses, `41 + M` for
IPv6 and any addresses (`M` is the maximum scope length), 31 and `45 + M` for networks. -/
theorem C51_too_long {U : Type} (enc : Enc U) (L : enc.Law) (c : Cfg) (le : Bool) (s : List U) :
    (15 < s.length → ∃ w, v4Literal enc s = .thrown ⟨.parse, .string_is_too_long, w⟩) ∧
    (41 + c.M < s.length → ∃ w, v6Literal c enc s = .thrown ⟨.parse, .string_is_too_long, w⟩) ∧
    (41 + c.M < s.length → ∃ w, anyLiteral c enc s = .thrown ⟨.parse, .string_is_too_long, w⟩) ∧
    (31 < s.length → ∃ w, v4NetLiteral le enc s = .thrown ⟨.parse, .string_is_too_long, w⟩) ∧
    (45 + c.M < s.length → ∃ w, v6NetLiteral c enc s = .thrown ⟨.parse, .string_is_too_long, w⟩) := by
  have key : ∀ {α : Type} (m : Nat) (parse : List U → Thr α), m < s.length →
      ∃ w, literal enc m parse s = .thrown ⟨.parse, .string_is_too_long, w⟩ := by
    intro α m parse h
    unfold literal
    rw [if_pos h]
    exact raise_eq L _ _ _
  exact ⟨key _ _, key _ _, key _ _, key _ _, fun h => key _ _ (by omega)⟩

example := C51_too_long encChar encChar_law exCfg true "10.0.0.1 and more".toList

/-- C51 (partial): other literals behave as `parse` of the same text (`cs` are its characters).
Missing: texts with NUL characters, see `C51_embedded_nul`, and texts with reader errors, see
`C51_unreadable`. -/
theorem C51_as_parse_partial {U : Type} (enc : Enc U) (L : enc.Law) (c : Cfg) (le : Bool) (s : List U) (cs : List Char)
    (he : enc.events s = readChars cs) (hz : ∀ x ∈ cs, x ≠ '\x00') :
    (s.length ≤ 15 → Agrees .parse (v4Literal enc s) (v4Parse cs)) ∧
    (s.length ≤ 41 + c.M → Agrees .parse (v6Literal c enc s) (v6Parse c.spaces c.M cs)) ∧
    (s.length ≤ 41 + c.M → Agrees .parse (anyLiteral c enc s) (anyParse c.spaces c.M cs)) ∧
    (s.length ≤ 31 → Agrees .parse (v4NetLiteral le enc s) ((fam4 le).parseNet (readChars cs) true)) ∧
    (s.length ≤ 45 + c.M → Agrees .parse (v6NetLiteral c enc s) ((fam6 c).parseNet (readChars cs) true)) := by
  have key : ∀ {α : Type} (m : Nat) (parse : List Ev → Res α) (_ : ∀ cs, (parse (readChars cs)).ErrIn NotArg), s.length ≤ m →
      Agrees .parse (literal enc m (arrayParseThrow enc parse) s) (parse (readChars cs)) := by
    intro α m parse hp h
    rw [literal_eq m _ s h, ← he]
    exact (arrayParseThrow_pad L parse s _ hp cs he hz).1
  refine ⟨key _ _ fun cs => v4FromEvents_codes _ (BadIn.chars _ _), key _ _ fun cs => v6FromEvents_codes _ _ _ (BadIn.chars _ _), fun h => ?_,
    key _ _ fun cs => fam4_parseNet_codes _ _ _ (BadIn.chars _ _), fun h => key _ _ (fun cs => fam6_parseNet_codes _ _ _ (BadIn.chars _ _)) (by omega)⟩
  unfold anyLiteral anyParse
  rw [literal_eq _ _ s h, ← he]
  have h4 := (arrayParseThrow_pad L v4FromEvents s (41 + c.M - s.length) (fun cs => v4FromEvents_codes _ (BadIn.chars _ _)) cs he hz).2
  have h6 := (arrayParseThrow_pad L (v6FromEvents c.spaces c.M) s (41 + c.M - s.length)
    (fun cs => v6FromEvents_codes _ _ _ (BadIn.chars _ _)) cs he hz).1
  unfold anyArrayParseThrow anyFromEvents
  rw [h4]
  refine anyThrow_agrees AnyAddr.v4 AnyAddr.v6 (v4FromEvents (enc.events s)) _ _ _ _ h6 (fun b h => ?_) (fun h => ?_) (fun e v h => ?_) <;>
    (rw [h]; first | exact ⟨rfl, rfl⟩ | exact ⟨fun _ h => by rw [h], fun _ h => by rw [h], fun h => by rw [h], rfl⟩)

example := C51_as_parse_partial encUtf16 encUtf16_law exCfg true ("10.0.0.1".toList.map fun c => BitVec.ofNat 16 c.toNat) "10.0.0.1".toList (by decide +kernel) (by decide)

/-- C51: a text with a malformed or non ASCII character, not preceded by NUL, is rejected by the literals
with the code of the reader, and by `parse` of addresses. -/
theorem C51_unreadable {U : Type} (enc : Enc U) (L : enc.Law) (c : Cfg) (le : Bool) (s : List U) (cs : List Char) (code : ErrorCode) (sym : Nat)
    (he : enc.events s = readChars cs ++ [.bad code sym]) (hz : ∀ x ∈ cs, x ≠ '\x00') :
    ((s.length ≤ 15 → ∃ w, v4Literal enc s = .thrown ⟨.parse, code, w⟩) ∧ ∀ a, v4FromEvents (enc.events s) ≠ .ok a) ∧
    ((s.length ≤ 41 + c.M → ∃ w, v6Literal c enc s = .thrown ⟨.parse, code, w⟩) ∧ ∀ a, v6FromEvents c.spaces c.M (enc.events s) ≠ .ok a) ∧
    ((s.length ≤ 41 + c.M → ∃ w, anyLiteral c enc s = .thrown ⟨.parse, code, w⟩) ∧ ∀ a, anyFromEvents c.spaces c.M (enc.events s) ≠ .ok a) ∧
    (s.length ≤ 31 → ∃ w, v4NetLiteral le enc s = .thrown ⟨.parse, code, w⟩) ∧
    (s.length ≤ 45 + c.M → ∃ w, v6NetLiteral c enc s = .thrown ⟨.parse, code, w⟩) := by
  have key : ∀ {α : Type} (m : Nat) (parse : List Ev → Res α), s.length ≤ m →
      ∃ w, literal enc m (arrayParseThrow enc parse) s = .thrown ⟨.parse, code, w⟩ := by
    intro α m parse h
    rw [literal_eq m _ s h]
    exact (arrayParse_bad L parse s _ cs code sym he hz).2
  have n4 : ∀ a, v4FromEvents (enc.events s) ≠ .ok a := by
    intro a h
    rw [he] at h
    have := v4FromEvents_bad (readChars cs) [.bad code sym] a h code sym []
    rw [h] at this; cases this
  have n6 : ∀ a, v6FromEvents c.spaces c.M (enc.events s) ≠ .ok a := by
    intro a h
    rw [he] at h
    have := v6FromEvents_bad c.spaces c.M (readChars cs) [.bad code sym] a h code sym []
    rw [h] at this; cases this
  refine ⟨⟨key _ _, n4⟩, ⟨key _ _, n6⟩, ⟨fun h => ?_, fun a h => ?_⟩, key _ _, fun h => key _ _ (by omega)⟩
  · unfold anyLiteral
    rw [literal_eq _ _ s h]
    unfold anyArrayParseThrow
    rw [(arrayParse_bad L v4FromEvents s (41 + c.M - s.length) cs code sym he hz).1]
    obtain ⟨w, hw⟩ := (arrayParse_bad L (v6FromEvents c.spaces c.M) s (41 + c.M - s.length) cs code sym he hz).2
    exact ⟨w, by simp only; rw [hw]⟩
  · unfold anyFromEvents at h
    split at h
    · rename_i b hb; exact n4 b hb
    · obtain ⟨b, hb, _⟩ := Res.bind_eq_ok.1 h; exact n6 b hb
    · cases h

example := C51_unreadable encUtf32 encUtf32_law exCfg true [0x31, 0x100] "1".toList .unexpected_symbol 0x100 (by decide +kernel) (by decide)

/-- C51, negation: a literal ends at an embedded NUL, where `parse` of the same text fails. -/
theorem C51_embedded_nul :
    v4Literal encChar "1.2.3.4\x00abc".toList = .ret [1, 2, 3, 4] ∧
    v4Parse "1.2.3.4\x00abc".toList = .err .octet_has_invalid_symbol 3 ∧
    v4NetLiteral true encChar "1.2.3.0/24\x00/9".toList = .ret ⟨[1, 2, 3, 0], [255, 255, 255, 0], 24⟩ ∧
    (fam4 true).parseNet (readChars "1.2.3.0/24\x00/9".toList) true = .err .only_one_slash_permitted 0 := by
  decide +kernel

/-- C51: the maximum for IPv6 is below the length of some valid texts: with the scope length 16 this text
of 62 characters is accepted by `parse` and rejected by the literal. -/
theorem C51_v6_valid_text_too_long :
    (∃ a, v6Parse false 16 "1111:2222:3333:4444:5555:6666:255.255.255.255%0123456789abcdef".toList = .ok a) ∧
    ∃ w, v6Literal exCfg encChar "1111:2222:3333:4444:5555:6666:255.255.255.255%0123456789abcdef".toList =
      .thrown ⟨.parse, .string_is_too_long, w⟩ :=
  ⟨(by decide +kernel : (v6Parse false 16 "1111:2222:3333:4444:5555:6666:255.255.255.255%0123456789abcdef".toList).isOk = true) |> fun h => by
      revert h; cases v6Parse false 16 "1111:2222:3333:4444:5555:6666:255.255.255.255%0123456789abcdef".toList with
      | ok a => exact fun _ => ⟨a, rfl⟩
      | err => exact fun h => Bool.noConfusion h
      | ub => exact fun h => Bool.noConfusion h,
    (C51_too_long encChar encChar_law exCfg true _).2.1 (by decide)⟩

example : v4Literal encUtf8 ("127.0.0.1".toList.map fun c => BitVec.ofNat 8 c.toNat) = .ret [127, 0, 0, 1] := by decide +kernel
example : encUtf8.events ("127.0.0.1".toList.map fun c => BitVec.ofNat 8 c.toNat) = readChars "127.0.0.1".toList := by decide +kernel
example : encUtf16.events [0x31, 0xD83D, 0xDE00] = readChars ['1'] ++ [.bad .unexpected_symbol 0x1F600] := by decide +kernel

end Ip
