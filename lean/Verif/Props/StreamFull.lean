import Verif.Props.Stream
import Verif.Props.Report
import Verif.Lemmas.StreamFull
import Mathlib.Data.List.Forall2
/-
Fields of streams: C67.  Networks on little endian hosts.
-/
set_option autoImplicit false

namespace Ip
open Spec

/-! ### Output -/

theorem osWriteFull_eq {U : Type} (W : Wide U) (toStr : Format → Res (List Char)) (s : OFull U) (fmt : Format)
    (hf : formatOfWord s.base.word = .ok fmt) (u : List Char) (hu : toStr fmt = .ok u) (hup : upperText u = .ok (upcase u)) :
    osWriteFull W toStr s = .ok ({ s with base := { s.base with word := 0 } }.put ((shown s.base.upper u).map W.conv)) := by
  unfold osWriteFull shown
  rw [hf, Res.ok_bind]
  simp only
  rw [hu, Res.ok_bind]
  cases s.base.upper <;> simp [hup]

/-- `operator<<` of the objects. -/
def osObjFull {U : Type} (W : Wide U) (c : Cfg) (o : StreamObj) (s : OFull U) : Res (OFull U) := osWriteFull W (objToString c o) s

/-- C67, output of addresses and networks of both versions: a good stream receives the text of the object in the chosen
format and case, filled up to the width; the width and the format are then reset.  A stream that is not good receives
nothing, and the format is used up nevertheless. -/
theorem C67_output {U : Type} (W : Wide U) (c : Cfg) (hc : c.le = true) (o : StreamObj) (ho : ObjOk c o) (s : OFull U) (fmt : Format)
    (hs : formatOfWord s.base.word = .ok fmt) :
    ∃ u, objToString c o fmt = .ok u ∧
      (s.good = true → ∃ r, Padded s.width s.left s.fill ((shown s.base.upper u).map W.conv) r ∧
        osObjFull W c o s = .ok { s with base := { s.base with word := 0, out := s.base.out ++ r }, width := 0 }) ∧
      (s.good = false → osObjFull W c o s = .ok { s with base := { s.base with word := 0 } }) := by
  obtain ⟨u, h1, h2⟩ := obj_upperText c hc o ho fmt
  have h := osWriteFull_eq W (objToString c o) s fmt hs u h1 h2
  obtain ⟨p1, p2⟩ := put_padded { s with base := { s.base with word := 0 } } ((shown s.base.upper u).map W.conv)
  refine ⟨u, h1, ?_, ?_⟩
  · intro hg
    obtain ⟨r, r1, r2⟩ := p1 hg
    exact ⟨r, r1, by rw [osObjFull, h, r2]⟩
  · intro hg
    rw [osObjFull, h, p2 hg]

example := C67_output wideChar exCfg rfl (.inl (.v6 exScoped)) exScoped_ok ⟨⟨1, true, false, false, []⟩, 50, '*', true, true⟩ .full rfl

/-- C67, output of `uint128_t`. -/
theorem C67_output_uint128 {U : Type} (W : Wide U) (x : U128) (s : OFull U) :
    ∃ t ds, DigitText (streamRadix s.base.hex s.base.oct) t ds ∧ ds ≠ [] ∧
      digitsValue (streamRadix s.base.hex s.base.oct) ds = x.val ∧
      (s.base.upper = true → ∀ c ∈ t, c ∉ ['a', 'b', 'c', 'd', 'e', 'f']) ∧
      (s.base.upper = false → ∀ c ∈ t, c ∉ ['A', 'B', 'C', 'D', 'E', 'F']) ∧
      (s.good = true → ∃ r, Padded s.width s.left s.fill (t.map W.conv) r ∧
        osU128Full W x s = .ok { s with base := { s.base with out := s.base.out ++ r }, width := 0 }) ∧
      (s.good = false → osU128Full W x s = .ok s) := by
  obtain ⟨t, ds, h1, h2, h3, h4, h5, h6, -⟩ := C48_uint128 wideChar wideChar_ok x { s.base with out := [] }
  refine ⟨t, ds, h2, h3, h4, h5, h6, ?_⟩
  have h : osU128Full W x s = .ok (s.put (t.map W.conv)) := by
    unfold osU128 at h1
    unfold osU128Full
    cases hx : x.toText (baseOfFlags s.base.hex s.base.oct) with
    | ub => simp [hx] at h1
    | err e v => simp [hx] at h1
    | ok str =>
      simp only [hx, Res.ok_bind] at h1 ⊢
      cases hup : s.base.upper with
      | false =>
        simp only [hup, Bool.false_eq_true, if_false, List.nil_append, Res.ok.injEq, OStr.mk.injEq, true_and] at h1 ⊢
        have : str = t := by simpa [wideChar] using h1
        rw [this]
      | true =>
        simp only [hup, if_true] at h1 ⊢
        cases hu : upperAll str with
        | ub => rw [hu] at h1; simp at h1
        | err e v => rw [hu] at h1; simp at h1
        | ok v =>
          rw [hu] at h1
          simp only [Res.ok_bind, List.nil_append, Res.ok.injEq, OStr.mk.injEq, true_and] at h1 ⊢
          have : v = t := by simpa [wideChar] using h1
          rw [this]
  rw [h]
  obtain ⟨p1, p2⟩ := put_padded s (t.map W.conv)
  refine ⟨?_, ?_⟩
  · intro hg
    obtain ⟨r, r1, r2⟩ := p1 hg
    exact ⟨r, r1, by rw [r2]⟩
  · intro hg
    rw [p2 hg]

example : (osU128Full wideChar ⟨0, 0xBEEF⟩ ⟨⟨0, true, true, false, []⟩, 6, '*', false, true⟩ >>= fun s => .ok s.base.out) = .ok "**BEEF".toList := by
  decide +kernel

/-! ### Input -/

/-- What `operator>>` does.  Without a field to read, `failbit` is set, and the object becomes `dflt` unless an exception is
thrown.  With a field: it is consumed and the width reset; if the end of the input was met and `exceptions()` has
`eofbit`, an exception leaves the object alone although the field was read; otherwise the object is the one the field
denotes, or `failbit` is set and the object is `dflt`, and an exception is thrown if `exceptions()` has `failbit`. -/
def ReadExactFull {U α : Type} (W : Wide U) (read : α → IFull U → Res (InOut α U)) (parse : List Ev → Res α) (dflt : α) (word : Nat)
    (s : IFull U) : Prop :=
  ∀ old, ∃ r, read old s = .ok r ∧
    (r.str.skipws = s.skipws ∧ r.str.excFail = s.excFail ∧ r.str.excEof = s.excEof ∧ r.str.base.word = word ∧
      r.str.base.hex = s.base.hex ∧ r.str.base.oct = s.base.oct) ∧
    ((s.base.eof = true ∨ s.base.fail = true ∨ ¬ ∃ w rest, Field W.space s.skipws s.width s.base.input w rest) →
      r.str.base.fail = true ∧
      (r.str.base.eof = true ↔ s.base.eof = true ∨ (s.base.fail = false ∧ (s.skipws = true ∨ s.base.input = []))) ∧
      (r.threw = true ↔ s.excFail = true ∨ (s.excEof = true ∧ r.str.base.eof = true)) ∧
      (r.threw = true → r.obj = old) ∧ (r.threw = false → r.obj = dflt)) ∧
    (s.base.eof = false → s.base.fail = false → ∀ w rest, Field W.space s.skipws s.width s.base.input w rest →
      r.str.base.input = rest ∧ r.str.width = 0 ∧ (r.str.base.eof = true ↔ rest = [] ∧ (w.length : Int) ≠ s.width) ∧
      (r.str.base.eof = true → s.excEof = true → r.threw = true ∧ r.obj = old ∧ r.str.base.fail = false) ∧
      (r.str.base.eof = false ∨ s.excEof = false →
        (∀ a, parse (W.enc.events w) = .ok a → r.obj = a ∧ r.threw = false ∧ r.str.base.fail = false) ∧
        ((∀ a, parse (W.enc.events w) ≠ .ok a) → r.obj = dflt ∧ r.str.base.fail = true ∧ (r.threw = true ↔ s.excFail = true))))

theorem readExactFull_of {U α : Type} {W : Wide U} (L : W.enc.Law) (parseC : List Ev → Code → Res (Code × α)) (parse : List Ev → Res α)
    (dflt : α) (hc : ∀ evs, parseC evs none = setCode (.ok dflt) (parse evs) none) (s : IFull U)
    (h0 : ∃ e v, parse [] = .err e v)
    (hu : ∀ w rest, Field W.space s.skipws s.width s.base.input w rest → parse (W.enc.events w) ≠ .ub) :
    ReadExactFull W (isReadFull W parseC) parse dflt s.base.word s := by
  intro old
  obtain ⟨e, v, h0⟩ := h0
  by_cases hg : s.base.eof = true ∨ s.base.fail = true ∨ ¬ ∃ w rest, Field W.space s.skipws s.width s.base.input w rest
  · obtain ⟨s', r1, r2, r3, r4, r5, r6, r7, r8, r9⟩ := readWordFull_none W s hg
    have hno : s.base.eof = false → s.base.fail = false → ∀ w rest, ¬ Field W.space s.skipws s.width s.base.input w rest := by
      intro k1 k2 w rest hf
      rcases hg with hg | hg | hg
      · rw [k1] at hg; cases hg
      · rw [k2] at hg; cases hg
      · exact hg ⟨w, rest, hf⟩
    cases ht : (s.excFail || (s'.base.eof && s.excEof)) with
    | true =>
      rw [ht] at r1
      refine ⟨⟨old, s', true⟩, ?_, ⟨r4, r5, r6, r7, r8, r9⟩, ?_, ?_⟩
      · unfold isReadFull
        rw [r1]
      · intro _
        refine ⟨r2, r3, ?_, fun _ => rfl, by simp⟩
        simp only [Bool.or_eq_true, Bool.and_eq_true] at ht
        simp only [true_iff]
        rcases ht with h | ⟨h, h'⟩
        · exact .inl h
        · exact .inr ⟨h', h⟩
      · intro k1 k2 w rest hf
        exact absurd hf (hno k1 k2 w rest)
    | false =>
      rw [ht] at r1
      simp only [Bool.or_eq_false_iff, Bool.and_eq_false_iff] at ht
      have e1 : isReadFull W parseC old s = .ok ⟨dflt, (s'.setState false true).1, (s'.setState false true).2⟩ := by
        unfold isReadFull
        rw [r1]
        simp only
        rw [L.nil, hc, h0]
        simp [setCode]
      have e2 : s'.setState false true = (s', false) := by
        have h1 : s'.excFail = false := r5.trans ht.1
        have h2 : s'.base.eof = false ∨ s'.excEof = false := by rw [r6]; exact ht.2
        clear r1 e1 r3 r4 r5 r6 r7 r8 r9 ht
        obtain ⟨⟨_, _, _, _, eo, fa⟩, _, _, ef, ee⟩ := s'
        simp only at r2 h1 h2
        subst r2 h1
        rcases h2 with rfl | rfl <;> simp [IFull.setState]
      rw [e2] at e1
      refine ⟨_, e1, ⟨r4, r5, r6, r7, r8, r9⟩, ?_, ?_⟩
      · intro _
        refine ⟨r2, r3, ?_, by simp, fun _ => rfl⟩
        simp only [Bool.false_eq_true, false_iff, not_or, not_and]
        refine ⟨by simp [ht.1], ?_⟩
        intro k1 k2
        rcases ht.2 with h | h
        · rw [h] at k2; cases k2
        · rw [h] at k1; cases k1
      · intro k1 k2 w rest hf
        exact absurd hf (hno k1 k2 w rest)
  · simp only [not_or, not_not] at hg
    obtain ⟨g1, g2, w, rest, hf⟩ := hg
    have g1 : s.base.eof = false := by simpa using g1
    have g2 : s.base.fail = false := by simpa using g2
    have hr := readWordFull_field W s g1 g2 w rest hf
    have huniq : ∀ w' rest', Field W.space s.skipws s.width s.base.input w' rest' → w' = w ∧ rest' = rest :=
      fun w' rest' h' => Field_unique W s.skipws s.width s.base.input w rest w' rest' hf h'
    have hskip : ¬ (s.base.eof = true ∨ s.base.fail = true ∨ ¬ ∃ w rest, Field W.space s.skipws s.width s.base.input w rest) := by
      rw [g1, g2]
      simp only [Bool.false_eq_true, false_or, not_not]
      exact ⟨w, rest, hf⟩
    have hE : ∀ E : Bool, E = (rest.isEmpty && decide ((w.length : Int) ≠ s.width)) → (E = true ↔ rest = [] ∧ (w.length : Int) ≠ s.width) := by
      intro E hE
      rw [hE, Bool.and_eq_true, List.isEmpty_iff, decide_eq_true_iff]
    generalize hE0 : (rest.isEmpty && decide ((w.length : Int) ≠ s.width)) = E at hr
    cases ht : (E && s.excEof) with
    | true =>
      rw [ht] at hr
      refine ⟨⟨old, { s with base := { s.base with input := rest, eof := E }, width := 0 }, true⟩, by unfold isReadFull; rw [hr], ⟨rfl, rfl, rfl, rfl, rfl, rfl⟩, fun h => absurd h hskip, ?_⟩
      intro _ _ w' rest' h'
      obtain ⟨rfl, rfl⟩ := huniq w' rest' h'
      simp only [Bool.and_eq_true] at ht
      refine ⟨rfl, rfl, hE E hE0.symm, fun _ _ => ⟨rfl, rfl, g2⟩, ?_⟩
      rintro (h | h)
      · rw [ht.1] at h; cases h
      · rw [ht.2] at h; cases h
    | false =>
      rw [ht] at hr
      have hno : ¬ (E = true ∧ s.excEof = true) := by
        rintro ⟨h1, h2⟩
        rw [h1, h2] at ht
        cases ht
      cases hp : parse (W.enc.events w) with
      | ub => exact absurd hp (hu w rest hf)
      | ok a =>
        refine ⟨⟨a, { s with base := { s.base with input := rest, eof := E }, width := 0 }, false⟩, ?_, ⟨rfl, rfl, rfl, rfl, rfl, rfl⟩,
          fun h => absurd h hskip, ?_⟩
        · unfold isReadFull
          rw [hr]
          simp only
          rw [hc, hp]
          simp [setCode]
        · intro _ _ w' rest' h'
          obtain ⟨rfl, rfl⟩ := huniq w' rest' h'
          refine ⟨rfl, rfl, hE E hE0.symm, fun h1 h2 => absurd ⟨h1, h2⟩ hno, fun _ => ⟨?_, ?_⟩⟩
          · intro b hb
            rw [hp] at hb
            cases hb
            exact ⟨rfl, rfl, g2⟩
          · intro h
            exact absurd hp (h a)
      | err e' v' =>
        refine ⟨⟨dflt, { s with base := { s.base with input := rest, eof := E, fail := true }, width := 0 }, s.excFail⟩, ?_,
          ⟨rfl, rfl, rfl, rfl, rfl, rfl⟩, fun h => absurd h hskip, ?_⟩
        · unfold isReadFull
          rw [hr]
          simp only
          rw [hc, hp]
          simp [setCode, IFull.setState, ht]
        · intro _ _ w' rest' h'
          obtain ⟨rfl, rfl⟩ := huniq w' rest' h'
          refine ⟨rfl, rfl, hE E hE0.symm, fun h1 h2 => absurd ⟨h1, h2⟩ hno, fun _ => ⟨?_, fun _ => ⟨rfl, rfl, Iff.rfl⟩⟩⟩
          intro b hb
          rw [hp] at hb
          cases hb

theorem v4Code_set (evs : List Ev) : v4Code evs none = setCode (.ok [0, 0, 0, 0]) (v4FromEvents evs) none := rfl

theorem v6Code_set (c : Cfg) (evs : List Ev) : v6Code c evs none = setCode (.ok (zero6 c.M)) (v6FromEvents c.spaces c.M evs) none := rfl

theorem anyAddrCode_set (c : Cfg) (evs : List Ev) :
    anyAddrCode c evs none = setCode (.ok (.v4 [0, 0, 0, 0])) (anyFromEvents c.spaces c.M evs) none := by
  have e : anyFromEvents c.spaces c.M evs = twoParses .v4 .v6 (v4FromEvents evs) (v6FromEvents c.spaces c.M evs) := by
    unfold anyFromEvents twoParses; cases v4FromEvents evs <;> rfl
  rw [e]
  exact anyCode_eq AnyAddr.v4 AnyAddr.v6 (d := .ok (.v4 (List.replicate 4 0#8))) (d4 := .ok (List.replicate 4 0#8))
    (d6 := .ok (fam6 c).zero) rfl rfl (v4FromEvents evs) (v6FromEvents c.spaces c.M evs) none

theorem parseNetCode4_set (le strict : Bool) (evs : List Ev) :
    (fam4 le).parseNetCode strict evs none = setCode (.ok zeroNet4) ((fam4 le).parseNet evs strict) none := by
  rw [Fam.parseNetCode, default4]

theorem parseNetCode6_set (c : Cfg) (strict : Bool) (evs : List Ev) :
    (fam6 c).parseNetCode strict evs none = setCode (.ok (zeroNet6 c.M)) ((fam6 c).parseNet evs strict) none := by
  rw [Fam.parseNetCode, default6]

theorem anyNetCode_set (c : Cfg) (strict : Bool) (evs : List Ev) :
    anyNetCode c strict evs none = setCode (.ok (.v4 zeroNet4)) (anyNetFromEvents c evs strict) none := by
  have e : anyNetFromEvents c evs strict = twoParses .v4 .v6 ((fam4 c.le).parseNet evs strict) ((fam6 c).parseNet evs strict) := by
    unfold anyNetFromEvents twoParses; cases (fam4 c.le).parseNet evs strict <;> rfl
  rw [e, ← anyDefNet c]
  exact anyCode_eq AnyNet.v4 AnyNet.v6 (d := anyNetDefault c) (default4 c.le) (default6 c)
    ((fam4 c.le).parseNet evs strict) ((fam6 c).parseNet evs strict) none

theorem v6_empty (spaces : Bool) (M : Nat) : ∃ e v, v6FromEvents spaces M [] = .err e v := by
  cases h : v6FromEvents spaces M [] with
  | ub => exact absurd h (v6FromEvents_safe spaces M []).1
  | err e v => exact ⟨e, v, rfl⟩
  | ok a =>
    exfalso
    have h : v6Parse spaces M [] = .ok a := h
    obtain ⟨ip, z, vs, h1, h2, -⟩ := C09_v6_sound_partial spaces M [] (by simp) a h
    exact V6Text_ne_nil h2 (List.append_eq_nil_iff.1 h1.symm).1

theorem v4_empty : ∃ e v, v4FromEvents [] = .err e v := ⟨.empty_address, 0, by decide⟩

/-- C67, input of addresses, for every state of the stream. -/
theorem C67_input {U : Type} (W : Wide U) (hW : W.Ok) (c : Cfg) (s : IFull U) :
    ReadExactFull W (isReadFull W v4Code) v4FromEvents [0, 0, 0, 0] s.base.word s ∧
    ReadExactFull W (isReadFull W (v6Code c)) (v6FromEvents c.spaces c.M) (zero6 c.M) s.base.word s ∧
    ReadExactFull W (isReadFull W (anyAddrCode c)) (anyFromEvents c.spaces c.M) (.v4 [0, 0, 0, 0]) s.base.word s := by
  refine ⟨readExactFull_of hW.law _ _ _ v4Code_set s v4_empty (fun w rest _ => v4FromEvents_ne_ub _),
    readExactFull_of hW.law _ _ _ (v6Code_set c) s (v6_empty _ _) (fun w rest _ => (v6FromEvents_safe _ _ _).1),
    readExactFull_of hW.law _ _ _ (anyAddrCode_set c) s ?_ (fun w rest _ => (C20_any_parse _ _ _).2.2.2)⟩
  obtain ⟨e, v, h6⟩ := v6_empty c.spaces c.M
  refine ⟨e, v, ((C20_any_parse c.spaces c.M []).2.2.1 e v).2 ⟨?_, h6⟩⟩
  obtain ⟨e', v', h4⟩ := v4_empty
  intro b hb
  rw [h4] at hb
  cases hb

example := C67_input wideChar wideChar_ok exCfg ⟨⟨0, false, false, " 10.0.0.1 ".toList, false, false⟩, 7, true, true, false⟩

/-- C67 (partial), input of networks, for every state of the stream; the strict flag is reset.  Missing for IPv4 and for
either version: fields with the netmask `0.0.0.0`, whose parsing is undefined behaviour (`C26_zero_mask_undefined`). -/
theorem C67_input_net_partial {U : Type} (W : Wide U) (hW : W.Ok) (c : Cfg) (hc : c.le = true) (s : IFull U) :
    ReadExactFull W (isReadNetFull W (fam6 c).parseNetCode) (fun e => (fam6 c).parseNet e (s.base.word == 0)) (zeroNet6 c.M) 0 s ∧
    ((∀ w rest a, Field W.space s.skipws s.width s.base.input w rest → W.enc.events w ≠ readChars (a ++ '/' :: dotted 0 0 0 0)) →
      ReadExactFull W (isReadNetFull W (fam4 true).parseNetCode) (fun e => (fam4 true).parseNet e (s.base.word == 0)) zeroNet4 0 s ∧
      ReadExactFull W (isReadNetFull W (anyNetCode c)) (fun e => anyNetFromEvents c e (s.base.word == 0)) (.v4 zeroNet4) 0 s) := by
  have h6 : ∀ strict, ∃ e v, (fam6 c).parseNet [] strict = .err e v := by
    intro strict
    refine (C26_v6_partial c hc [] (by simp [addrPart]) (by simp [addrPart]) (by simp [maskPart]) strict).2 ?_
    rintro ⟨b, z, p, ⟨ip, vs, h, -⟩, -⟩
    exact V6Text_ne_nil h.2.1 (List.append_eq_nil_iff.1 h.1.symm).1
  have h4 : ∀ strict, ∃ e v, (fam4 true).parseNet [] strict = .err e v := by
    intro strict
    refine (C26_v4_partial [] (by simp [addrPart]) (by simp [addrPart]) (by simp [maskPart]) strict).2 ?_
    rintro ⟨x, p, ⟨a, b, c, d, -, h⟩, -⟩
    simp [addrPart, dotted] at h
  refine ⟨?_, ?_⟩
  · exact readExactFull_of hW.law _ (fun e => (fam6 c).parseNet e (s.base.word == 0)) _ (parseNetCode6_set c _)
      { s with base := { s.base with word := 0 } } (h6 _) (fun w rest _ => (C26_parser_safe c hc _ _).1)
  · intro hm
    have hu : ∀ w rest, Field W.space s.skipws s.width s.base.input w rest →
        (fam4 true).parseNet (W.enc.events w) (s.base.word == 0) ≠ .ub := by
      intro w rest hw h
      obtain ⟨a, ha, -⟩ := (C26_parser_safe c hc _ _).2.1 h
      exact hm w rest a hw ha
    refine ⟨readExactFull_of hW.law _ (fun e => (fam4 true).parseNet e (s.base.word == 0)) _ (parseNetCode4_set true _)
        { s with base := { s.base with word := 0 } } (h4 _) hu,
      readExactFull_of hW.law _ (fun e => anyNetFromEvents c e (s.base.word == 0)) _ (anyNetCode_set c _)
        { s with base := { s.base with word := 0 } } ?_ ?_⟩
    · obtain ⟨e, v, h⟩ := h6 (s.base.word == 0)
      exact ⟨e, v, ((C49_parse c hc [] _).2.2.1 e v).2 ⟨h4 _, h⟩⟩
    · intro w rest hw h
      exact hu w rest hw ((C49_parse c hc _ _).2.2.2.1.1 h)

example := C67_input_net_partial wideChar wideChar_ok exCfg rfl ⟨⟨1, false, false, " 10.0.0.1/8 ".toList, false, false⟩, 0, true, true, false⟩

/-- C67, input of `uint128_t`: without a field `failbit` is set and the object becomes 0 unless an exception is thrown; a
field is read as the number it denotes, and if it is not a number the object keeps its value. -/
theorem C67_input_uint128 {U : Type} (W : Wide U) (hW : W.Ok) (old : U128) (s : IFull U) :
    ((s.base.eof = true ∨ s.base.fail = true ∨ ¬ ∃ w rest, Field W.space s.skipws s.width s.base.input w rest) →
      (isU128Full W old s).str.base.fail = true ∧
      ((isU128Full W old s).threw = true ↔ s.excFail = true ∨ (s.excEof = true ∧ (isU128Full W old s).str.base.eof = true)) ∧
      (isU128Full W old s).obj = if (isU128Full W old s).threw then old else ⟨0, 0⟩) ∧
    (s.base.eof = false → s.base.fail = false → ∀ w rest, Field W.space s.skipws s.width s.base.input w rest →
      (isU128Full W old s).str.base.input = rest ∧ (isU128Full W old s).str.width = 0 ∧
      ((isU128Full W old s).str.base.eof = true ↔ rest = [] ∧ (w.length : Int) ≠ s.width) ∧
      ((isU128Full W old s).str.base.eof = true → s.excEof = true →
        (isU128Full W old s).threw = true ∧ (isU128Full W old s).obj = old ∧ (isU128Full W old s).str.base.fail = false) ∧
      ((isU128Full W old s).str.base.eof = false ∨ s.excEof = false → ∀ t : List Char, w = t.map W.conv → (∀ c ∈ t, W.Keeps c ∧ c ≠ '\x00') →
        (∀ ds, DigitText (streamRadix s.base.hex s.base.oct) t ds →
          (isU128Full W old s).obj.val = digitsValue (streamRadix s.base.hex s.base.oct) ds % 2 ^ 128 ∧
          (isU128Full W old s).threw = false ∧ (isU128Full W old s).str.base.fail = false) ∧
        ((¬ ∃ ds, DigitText (streamRadix s.base.hex s.base.oct) t ds) →
          (isU128Full W old s).obj = old ∧ (isU128Full W old s).str.base.fail = true ∧
          ((isU128Full W old s).threw = true ↔ s.excFail = true)))) := by
  simp only [← baseOfFlags_radix]
  constructor
  · intro hg
    obtain ⟨s', r1, r2, r3, r4, r5, r6, r7, r8, r9⟩ := readWordFull_none W s hg
    have h0 : ∀ b : U128.Base, U128.fromText b [] = some ⟨0, 0⟩ := by intro b; cases b <;> decide
    have e : isU128Full W old s = ⟨if s.excFail || (s'.base.eof && s.excEof) then old else ⟨0, 0⟩, s', s.excFail || (s'.base.eof && s.excEof)⟩ := by
      unfold isU128Full
      rw [r1]
      cases s.excFail || (s'.base.eof && s.excEof) with
      | true => rfl
      | false => simp only [hW.law.nil, h0]; rfl
    rw [e]
    refine ⟨r2, ?_, rfl⟩
    simp only [Bool.or_eq_true, Bool.and_eq_true]
    exact or_congr Iff.rfl and_comm
  · intro g1 g2 w rest hf
    have hr := readWordFull_field W s g1 g2 w rest hf
    have hE : ∀ E : Bool, E = (rest.isEmpty && decide ((w.length : Int) ≠ s.width)) → (E = true ↔ rest = [] ∧ (w.length : Int) ≠ s.width) := by
      intro E hE
      rw [hE, Bool.and_eq_true, List.isEmpty_iff, decide_eq_true_iff]
    generalize hE0 : (rest.isEmpty && decide ((w.length : Int) ≠ s.width)) = E at hr
    cases ht : (E && s.excEof) with
    | true =>
      rw [ht] at hr
      have e : isU128Full W old s = ⟨old, { s with base := { s.base with input := rest, eof := E }, width := 0 }, true⟩ := by
        unfold isU128Full
        rw [hr]
      rw [e]
      simp only [Bool.and_eq_true] at ht
      refine ⟨rfl, rfl, hE E hE0.symm, fun _ _ => ⟨rfl, rfl, g2⟩, ?_⟩
      rintro (h | h)
      · rw [ht.1] at h; cases h
      · rw [ht.2] at h; cases h
    | false =>
      rw [ht] at hr
      have hno : ¬ (E = true ∧ s.excEof = true) := by
        rintro ⟨h1, h2⟩
        rw [h1, h2] at ht
        cases ht
      cases hx : U128.fromText (baseOfFlags s.base.hex s.base.oct) (W.enc.events w) with
      | some x =>
        have e : isU128Full W old s = ⟨x, { s with base := { s.base with input := rest, eof := E }, width := 0 }, false⟩ := by
          unfold isU128Full
          rw [hr]
          simp only
          rw [hx]
        rw [e]
        refine ⟨rfl, rfl, hE E hE0.symm, fun h1 h2 => absurd ⟨h1, h2⟩ hno, ?_⟩
        rintro - t rfl hk
        rw [events_map W hW.law t (fun c hc => (hk c hc).1)] at hx
        obtain ⟨ds, hd, hv⟩ := ((C44_from_string_partial _ t (fun h => (hk _ h).2 rfl)).1 x).1 hx
        refine ⟨?_, fun h => absurd ⟨ds, hd⟩ h⟩
        intro ds' hd'
        exact ⟨by rw [hv, DigitText_unique _ t ds ds' hd hd'], rfl, g2⟩
      | none =>
        have e : isU128Full W old s = ⟨old, { s with base := { s.base with input := rest, eof := E, fail := true }, width := 0 }, s.excFail⟩ := by
          unfold isU128Full
          rw [hr]
          simp only
          rw [hx]
          simp [IFull.setState, ht]
        rw [e]
        refine ⟨rfl, rfl, hE E hE0.symm, fun h1 h2 => absurd ⟨h1, h2⟩ hno, ?_⟩
        rintro - t rfl hk
        rw [events_map W hW.law t (fun c hc => (hk c hc).1)] at hx
        refine ⟨?_, fun _ => ⟨rfl, rfl, Iff.rfl⟩⟩
        intro ds hd
        exfalso
        obtain ⟨c, hc, hn⟩ := (C44_from_string_partial _ t (fun h => (hk _ h).2 rfl)).2.1 hx
        obtain ⟨d, d1, d2⟩ := digitText_mem _ t ds hd c hc
        exact hn d d1 d2

example := C67_input_uint128 wideChar wideChar_ok ⟨7, 9⟩ ⟨⟨0, false, false, " 12x ".toList, false, false⟩, 0, true, true, false⟩

/-! ### Tables -/

/-- The text, with white space before and after it, is read as a good object; what follows stays in the stream. -/
def FieldBack {U α : Type} (W : Wide U) (read : α → IFull U → Res (InOut α U)) (r : List U) (good : α → Prop) : Prop :=
  ∀ (old : α) (i : IFull U) (ws rest : List U), i.base.eof = false → i.base.fail = false → i.skipws = true → i.excEof = false → i.width ≤ 0 →
    i.base.input = ws ++ r ++ rest → (∀ u ∈ ws, W.space u = true) → (rest = [] ∨ ∃ x l, rest = x :: l ∧ W.space x = true) →
    ∃ o p, read old i = .ok o ∧ o.threw = false ∧ good o.obj ∧ o.str.base.input = p ++ rest ∧ (∀ u ∈ p, W.space u = true) ∧
      o.str.base.fail = false ∧ o.str.base.eof = (p ++ rest).isEmpty ∧ o.str.skipws = true ∧ o.str.excEof = false ∧ o.str.width = 0

theorem readsBack_word {U α : Type} {W : Wide U} (parse : List Ev → Bool → Res α) (t : List U) (good : α → Prop)
    (h : ReadsBack W (isReadNet W parse) t good) (strict : Bool) :
    ∃ ws w a, t = ws ++ w ∧ (∀ u ∈ ws, W.space u = true) ∧ w ≠ [] ∧ (∀ u ∈ w, W.space u = false) ∧
      parse (W.enc.events w) strict = .ok a ∧ good a := by
  let i : IStr U := ⟨if strict then 0 else 1, false, false, t, false, false⟩
  obtain ⟨a, i', h1, h2, h3, h4, -⟩ := h i [] [] rfl rfl (by simp [i]) (by simp) (.inl rfl)
  have hst : (i.word == 0) = strict := by cases strict <;> rfl
  unfold isReadNet at h1
  simp only [hst] at h1
  unfold isRead at h1
  simp only at h1
  rcases firstWord_or W.space t with ⟨w, rest, hw⟩ | hn
  · rw [readWord_eq W { i with word := 0 } ⟨rfl, rfl⟩ w rest hw] at h1
    obtain ⟨ws, e, k1, k2, k3, k4⟩ := hw
    cases hp : parse (W.enc.events w) strict with
    | ub => simp [hp] at h1
    | err e v => simp [hp] at h1
    | ok b =>
      simp only [hp, Res.ok.injEq, Prod.mk.injEq, Option.some.injEq] at h1
      have : rest = [] := by rw [← h3, ← h1.2]
      rw [this, List.append_nil] at e
      exact ⟨ws, w, b, e, k1, k2, k3, hp, by rw [h1.1]; exact h2⟩
  · rw [readWord_none W { i with word := 0 } ⟨rfl, rfl⟩ hn] at h1
    exfalso
    cases hp : parse (W.enc.events []) strict with
    | ub => simp [hp] at h1
    | err e v => simp [hp] at h1
    | ok b =>
      simp only [hp, Res.ok.injEq, Prod.mk.injEq, Option.some.injEq] at h1
      rw [← h1.2] at h4
      cases h4

theorem padded_spaces {U : Type} {space : U → Bool} {width : Int} {left : Bool} {fill : U} {t r : List U} (h : Padded width left fill t r)
    (hf : space fill = true) : ∃ a b, r = a ++ t ++ b ∧ (∀ u ∈ a, space u = true) ∧ ∀ u ∈ b, space u = true := by
  obtain ⟨p, h1, h2, -⟩ := h
  have hp : ∀ u ∈ p, space u = true := fun u hu => by rw [h1 u hu]; exact hf
  cases left with
  | true => exact ⟨[], p, by simp [h2], by simp, hp⟩
  | false => exact ⟨p, [], by simp [h2], hp, by simp⟩

theorem fieldBack_core {U α : Type} {W : Wide U} (parseC : List Ev → Code → Res (Code × α)) (t r : List U) (good : α → Prop)
    (h : ∃ ws w a, t = ws ++ w ∧ (∀ u ∈ ws, W.space u = true) ∧ w ≠ [] ∧ (∀ u ∈ w, W.space u = false) ∧
      parseC (W.enc.events w) none = .ok (none, a) ∧ good a)
    (hr : ∃ a b, r = a ++ t ++ b ∧ (∀ u ∈ a, W.space u = true) ∧ ∀ u ∈ b, W.space u = true) :
    FieldBack W (isReadFull W parseC) r good := by
  intro old i ws rest h1 h2 h3 h4 h5 h6 h7 h8
  obtain ⟨a, b, rfl, ha, hb⟩ := hr
  obtain ⟨ws', w, x, rfl, k1, k2, k3, k4, k5⟩ := h
  have hf : Field W.space i.skipws i.width i.base.input w (b ++ rest) := by
    refine ⟨ws ++ a ++ ws', by rw [h6]; simp, ?_, by rw [h3]; simp, k2, k3, by omega, .inr ?_⟩
    · intro u hu
      simp only [List.mem_append] at hu
      rcases hu with (hu | hu) | hu
      · exact h7 u hu
      · exact ha u hu
      · exact k1 u hu
    · cases b with
      | nil => exact h8
      | cons y b => exact .inr ⟨y, b ++ rest, rfl, hb y (by simp)⟩
  have hlen : 0 < w.length := List.length_pos_iff.2 k2
  have he := readWordFull_field W i h1 h2 w (b ++ rest) hf
  refine ⟨⟨x, { i with base := { i.base with input := b ++ rest, eof := (b ++ rest).isEmpty }, width := 0 }, false⟩, b, ?_, rfl, k5,
    rfl, hb, h2, rfl, h3, h4, rfl⟩
  have hd : decide ((w.length : Int) ≠ i.width) = true := by simp; omega
  unfold isReadFull
  rw [he]
  simp only [hd, Bool.and_true, h4, Bool.and_false]
  rw [k4]
  simp

theorem fieldBack_net {U α : Type} {W : Wide U} (parse : List Ev → Bool → Res α) (parseC : Bool → List Ev → Code → Res (Code × α)) (d : Res α)
    (hc : ∀ strict evs, parseC strict evs none = setCode d (parse evs strict) none) (t r : List U) (good : α → Prop)
    (h : ReadsBack W (isReadNet W parse) t good) (hr : ∃ a b, r = a ++ t ++ b ∧ (∀ u ∈ a, W.space u = true) ∧ ∀ u ∈ b, W.space u = true) :
    FieldBack W (isReadNetFull W parseC) r good := by
  intro old i ws rest h1 h2 h3 h4 h5 h6 h7 h8
  obtain ⟨ws', w, x, k0, k1, k2, k3, k4, k5⟩ := readsBack_word parse t good h (i.base.word == 0)
  exact fieldBack_core (parseC (i.base.word == 0)) t r good ⟨ws', w, x, k0, k1, k2, k3, by rw [hc, k4]; rfl, k5⟩ hr old
    { i with base := { i.base with word := 0 } } ws rest h1 h2 h3 h4 h5 h6 h7 h8

theorem fieldBack_addr {U α : Type} {W : Wide U} (parse : List Ev → Res α) (parseC : List Ev → Code → Res (Code × α)) (d : Res α)
    (hc : ∀ evs, parseC evs none = setCode d (parse evs) none) (t r : List U) (good : α → Prop)
    (h : ReadsBack W (isRead W parse) t good) (hr : ∃ a b, r = a ++ t ++ b ∧ (∀ u ∈ a, W.space u = true) ∧ ∀ u ∈ b, W.space u = true) :
    FieldBack W (isReadFull W parseC) r good := by
  have h' : ReadsBack W (isReadNet W (fun e _ => parse e)) t good :=
    fun i ws rest h1 h2 h3 h4 h5 => h { i with word := 0 } ws rest h1 h2 h3 h4 h5
  obtain ⟨ws', w, x, k0, k1, k2, k3, k4, k5⟩ := readsBack_word (fun e _ => parse e) t good h' true
  exact fieldBack_core parseC t r good ⟨ws', w, x, k0, k1, k2, k3, by rw [hc, k4]; rfl, k5⟩ hr

/-- An object is written into a good stream with a fill that is white space, filled up to the width, and is read back. -/
def TableBack {U α : Type} (W : Wide U) (write : OFull U → Res (OFull U)) (read : α → IFull U → Res (InOut α U)) (good : α → Prop) : Prop :=
  ∀ (s : OFull U) (fmt : Format), s.good = true → W.space s.fill = true → formatOfWord s.base.word = .ok fmt →
    ∃ t r, write s = .ok { s with base := { s.base with word := 0, out := s.base.out ++ r }, width := 0 } ∧
      Padded s.width s.left s.fill t r ∧ FieldBack W read r good

theorem osWriteFull_of {U : Type} (W : Wide U) (toStr : Format → Res (List Char)) (s : OFull U) (t : List U)
    (h : osWrite W toStr s.base = .ok { s.base with word := 0, out := s.base.out ++ t }) (hg : s.good = true) :
    ∃ r, Padded s.width s.left s.fill t r ∧
      osWriteFull W toStr s = .ok { s with base := { s.base with word := 0, out := s.base.out ++ r }, width := 0 } := by
  obtain ⟨r, r1, r2⟩ := (put_padded { s with base := { s.base with word := 0 } } t).1 hg
  refine ⟨r, r1, ?_⟩
  rw [← r2]
  unfold osWrite at h
  unfold osWriteFull
  cases hf : formatOfWord s.base.word with
  | ub => simp [hf] at h
  | err e v => simp [hf] at h
  | ok fmt =>
    simp only [hf, Res.ok_bind] at h ⊢
    cases ht : toStr fmt with
    | ub => simp [ht] at h
    | err e v => simp [ht] at h
    | ok u =>
      simp only [ht, Res.ok_bind] at h ⊢
      cases hup : s.base.upper with
      | false =>
        simp only [hup, Bool.false_eq_true, if_false, Res.ok.injEq, OStr.mk.injEq, true_and, List.append_cancel_left_eq] at h ⊢
        rw [h]
      | true =>
        simp only [hup, if_true] at h ⊢
        cases hu : upperText u with
        | ub => simp [hu] at h
        | err e v => simp [hu] at h
        | ok v =>
          simp only [hu, Res.ok_bind, Res.ok.injEq, OStr.mk.injEq, true_and, List.append_cancel_left_eq] at h ⊢
          rw [h]

/-- C67, addresses in tables: written with any width, to the left or to the right, and any white space as fill, every
address is read back. -/
theorem C67_table {U : Type} (W : Wide U) (hW : W.Ok) (c : Cfg) :
    (∀ a b e d : BitVec 8, TableBack W (osWriteFull W (fun _ => v4ToString [a, b, e, d])) (isReadFull W v4Code) (· = [a, b, e, d])) ∧
    (∀ a : V6, a.Good c.spaces c.M → ScopeShown W a.scope.contents → TableBack W (osWriteFull W (v6ToString c.M a)) (isReadFull W (v6Code c))
      (fun b => b.WF c.M ∧ b.bytes = a.bytes ∧ b.scope.contents = a.scope.contents)) ∧
    (∀ a b e d : BitVec 8, TableBack W (osWriteFull W (fun fmt => anyToString c.M fmt (.v4 [a, b, e, d]))) (isReadFull W (anyAddrCode c))
      (· = .v4 [a, b, e, d])) ∧
    (∀ a : V6, a.Good c.spaces c.M → ScopeShown W a.scope.contents →
      TableBack W (osWriteFull W (fun fmt => anyToString c.M fmt (.v6 a))) (isReadFull W (anyAddrCode c))
        (fun x => ∃ b, x = .v6 b ∧ b.WF c.M ∧ b.bytes = a.bytes ∧ b.scope.contents = a.scope.contents)) := by
  refine ⟨?_, ?_, ?_, ?_⟩
  · intro a b e d s fmt hg hf hs
    obtain ⟨h1, h2⟩ := C48_v4 W hW a b e d s.base fmt hs
    obtain ⟨r, r1, r2⟩ := osWriteFull_of W _ s _ h1 hg
    exact ⟨_, r, r2, r1, fieldBack_addr v4FromEvents v4Code _ v4Code_set _ r _ h2 (padded_spaces r1 hf)⟩
  · intro a ha hz s fmt hg hf hs
    obtain ⟨u, -, h1, h2⟩ := C48_v6 W hW c.spaces c.M a ha hz s.base fmt hs
    obtain ⟨r, r1, r2⟩ := osWriteFull_of W _ s _ h1 hg
    exact ⟨_, r, r2, r1, fieldBack_addr (v6FromEvents c.spaces c.M) (v6Code c) _ (v6Code_set c) _ r _ h2 (padded_spaces r1 hf)⟩
  · intro a b e d s fmt hg hf hs
    obtain ⟨h1, h2⟩ := (C48_any W hW c.spaces c.M s.base fmt hs).1 a b e d
    obtain ⟨r, r1, r2⟩ := osWriteFull_of W _ s _ h1 hg
    exact ⟨_, r, r2, r1, fieldBack_addr (anyFromEvents c.spaces c.M) (anyAddrCode c) _ (anyAddrCode_set c) _ r _ h2 (padded_spaces r1 hf)⟩
  · intro a ha hz s fmt hg hf hs
    obtain ⟨u, -, h1, h2⟩ := (C48_any W hW c.spaces c.M s.base fmt hs).2 a ha hz
    obtain ⟨r, r1, r2⟩ := osWriteFull_of W _ s _ h1 hg
    exact ⟨_, r, r2, r1, fieldBack_addr (anyFromEvents c.spaces c.M) (anyAddrCode c) _ (anyAddrCode_set c) _ r _ h2 (padded_spaces r1 hf)⟩

example := C67_table wide16 wide16_ok exCfg

/-- C67, networks in tables. -/
theorem C67_table_net {U : Type} (W : Wide U) (hW : W.Ok) (c : Cfg) (hc : c.le = true) (hv : ∀ x y, c.val x = c.val y → x = y) :
    (∀ n, NetOk4 n → TableBack W (osWriteFull W (fun fmt => (fam4 true).netToString fmt n)) (isReadNetFull W (fam4 true).parseNetCode) (· = n)) ∧
    (∀ n, NetOk6 c n → n.addr.Good c.spaces c.M → ScopeShown W n.addr.scope.contents →
      TableBack W (osWriteFull W (fun fmt => (fam6 c).netToString fmt n)) (isReadNetFull W (fam6 c).parseNetCode)
        (fun m => NetOk6 c m ∧ m.plen = n.plen ∧ m.addr.bytes = n.addr.bytes ∧ m.addr.scope.contents = n.addr.scope.contents ∧
          (fam6 c).netEq n m = .ok true)) ∧
    (∀ n, NetOk4 n → TableBack W (osWriteFull W (fun fmt => anyNetToString c fmt (.v4 n))) (isReadNetFull W (anyNetCode c)) (· = .v4 n)) ∧
    (∀ n, NetOk6 c n → n.addr.Good c.spaces c.M → ScopeShown W n.addr.scope.contents →
      TableBack W (osWriteFull W (fun fmt => anyNetToString c fmt (.v6 n))) (isReadNetFull W (anyNetCode c))
        (fun x => ∃ m, x = .v6 m ∧ NetOk6 c m ∧ m.plen = n.plen ∧ m.addr.bytes = n.addr.bytes ∧
          m.addr.scope.contents = n.addr.scope.contents ∧ (fam6 c).netEq n m = .ok true)) := by
  refine ⟨?_, ?_, ?_, ?_⟩
  · intro n hn s fmt hg hf hs
    obtain ⟨u, -, h1, h2⟩ := C48_net4 W hW n hn s.base fmt hs
    obtain ⟨r, r1, r2⟩ := osWriteFull_of W _ s _ h1 hg
    exact ⟨_, r, r2, r1, fieldBack_net (fam4 true).parseNet _ _ (parseNetCode4_set true) _ r _ h2 (padded_spaces r1 hf)⟩
  · intro n hn hgd hz s fmt hg hf hs
    obtain ⟨u, -, h1, h2⟩ := C48_net6 W hW c hc hv n hn hgd hz s.base fmt hs
    obtain ⟨r, r1, r2⟩ := osWriteFull_of W _ s _ h1 hg
    exact ⟨_, r, r2, r1, fieldBack_net (fam6 c).parseNet _ _ (parseNetCode6_set c) _ r _ h2 (padded_spaces r1 hf)⟩
  · intro n hn s fmt hg hf hs
    obtain ⟨u, -, h1, h2⟩ := (C48_any_net W hW c hc hv s.base fmt hs).1 n hn
    obtain ⟨r, r1, r2⟩ := osWriteFull_of W _ s _ h1 hg
    exact ⟨_, r, r2, r1, fieldBack_net (anyNetFromEvents c) _ _ (anyNetCode_set c) _ r _ h2 (padded_spaces r1 hf)⟩
  · intro n hn hgd hz s fmt hg hf hs
    obtain ⟨u, -, h1, h2⟩ := (C48_any_net W hW c hc hv s.base fmt hs).2 n hn hgd hz
    obtain ⟨r, r1, r2⟩ := osWriteFull_of W _ s _ h1 hg
    exact ⟨_, r, r2, r1, fieldBack_net (anyNetFromEvents c) _ _ (anyNetCode_set c) _ r _ h2 (padded_spaces r1 hf)⟩

example := C67_table_net wide16 wide16_ok exCfg rfl exCfg_val

/-- A row of a table: every object is written with its own width and followed by a blank. -/
def writeRow {U α : Type} (W : Wide U) (write : α → OFull U → Res (OFull U)) : List (Int × α) → OFull U → Res (OFull U)
  | [], s => .ok s
  | (w, a) :: l, s => do
    let s ← write a { s with width := w }
    writeRow W write l (s.put [W.conv ' '])

/-- Reading `n` objects; `none` if an exception is thrown or the stream fails. -/
def readRow {U α : Type} (read : α → IFull U → Res (InOut α U)) (old : α) : Nat → IFull U → Res (Option (List α))
  | 0, _ => .ok (some [])
  | n + 1, s => do
    let r ← read old s
    if r.threw || r.str.base.fail then .ok none
    else do
      let l ← readRow read old n r.str
      .ok (l.map (r.obj :: ·))

theorem readRow_eq {U α β : Type} {W : Wide U} (read : α → IFull U → Res (InOut α U)) (good : β → α → Prop) (old : α) (bl : U)
    (hbl : W.space bl = true) : ∀ (l : List (β × List U)), (∀ x ∈ l, FieldBack W read x.2 (good x.1)) →
    ∀ (i : IFull U) (ws : List U), i.base.fail = false → i.skipws = true → i.excEof = false → i.width ≤ 0 →
      (l ≠ [] → i.base.eof = false) → (∀ u ∈ ws, W.space u = true) → i.base.input = ws ++ l.flatMap (fun x => x.2 ++ [bl]) →
      ∃ as, readRow read old l.length i = .ok (some as) ∧ List.Forall₂ (fun x a => good x.1 a) l as
  | [], _, _, _, _, _, _, _, _, _, _ => ⟨[], rfl, .nil⟩
  | x :: l, h, i, ws, h2, h3, h4, h5, h1, h7, h6 => by
    obtain ⟨o, p, o1, o2, o3, o4, o5, o6, o7, o8, o9, o10⟩ := h x (by simp) old i ws (bl :: l.flatMap (fun x => x.2 ++ [bl])) (h1 (by simp)) h2 h3 h4 h5
      (by rw [h6]; simp) h7 (.inr ⟨_, _, rfl, hbl⟩)
    obtain ⟨as, a1, a2⟩ := readRow_eq read good old bl hbl l (fun y hy => h y (by simp [hy])) o.str (p ++ [bl]) o6 o8 o9 (by omega)
      (fun _ => by rw [o7]; simp) (by
        intro u hu
        rcases List.mem_append.1 hu with hu | hu
        · exact o5 u hu
        · rw [List.mem_singleton.1 hu]; exact hbl) (by rw [o4]; simp)
    refine ⟨o.obj :: as, ?_, .cons o3 a2⟩
    rw [List.length_cons, readRow, o1, Res.ok_bind, o2, o6]
    simp only [Bool.or_self, Bool.false_eq_true, if_false]
    rw [a1]
    rfl

theorem writeRow_eq {U α β : Type} {W : Wide U} (write : β → OFull U → Res (OFull U)) (read : α → IFull U → Res (InOut α U))
    (good : β → α → Prop) : ∀ (l : List (Int × β)), (∀ x ∈ l, TableBack W (write x.2) read (good x.2)) →
    ∀ (s : OFull U) (fmt : Format), s.good = true → W.space s.fill = true → formatOfWord s.base.word = .ok fmt → s.width = 0 →
      ∃ (s' : OFull U) (rs : List (β × List U)), writeRow W write l s = .ok s' ∧ rs.map Prod.fst = l.map Prod.snd ∧
        (∀ x ∈ rs, FieldBack W read x.2 (good x.1)) ∧
        s'.base.out = s.base.out ++ rs.flatMap (fun x => x.2 ++ [W.conv ' '])
  | [], _, s, _, _, _, _, _ => ⟨s, [], rfl, rfl, by simp, by simp⟩
  | (w, b) :: l, h, s, fmt, h1, h2, h3, h4 => by
    obtain ⟨t, r, r1, r2, r3⟩ := h (w, b) (by simp) { s with width := w } fmt h1 h2 h3
    let s1 : OFull U := { s with base := { s.base with word := 0, out := s.base.out ++ r }, width := 0 }
    have e1 : s1.put [W.conv ' '] = { s1 with base := { s1.base with out := s1.base.out ++ [W.conv ' '] }, width := 0 } := by
      unfold OFull.put
      have : s1.good = true := h1
      rw [this, if_pos rfl]
      have : s1.width = 0 := rfl
      rw [this]
      cases s1.left <;> rfl
    obtain ⟨s', rs, k1, k2, k3, k4⟩ := writeRow_eq write read good l (fun y hy => h y (by simp [hy])) (s1.put [W.conv ' ']) .compressed
      (by rw [e1]; exact h1) (by rw [e1]; exact h2) (by rw [e1]; rfl) (by rw [e1])
    refine ⟨s', (b, r) :: rs, ?_, by simp [k2], ?_, ?_⟩
    · rw [writeRow]
      have : write b { s with width := w } = .ok s1 := r1
      rw [this, Res.ok_bind, k1]
    · intro x hx
      rcases List.mem_cons.1 hx with rfl | hx
      · exact r3
      · exact k3 x hx
    · rw [k4, e1]
      simp [s1]

/-- The addresses of a program. -/
def ShownAddr {U : Type} (W : Wide U) (c : Cfg) : AnyAddr → Prop
  | .v4 a => a.length = 4
  | .v6 a => a.Good c.spaces c.M ∧ ScopeShown W a.scope.contents

/-- The address read denotes the address written. -/
def SameAddr (c : Cfg) : AnyAddr → AnyAddr → Prop
  | .v4 a, x => x = .v4 a
  | .v6 a, x => ∃ b, x = .v6 b ∧ b.WF c.M ∧ b.bytes = a.bytes ∧ b.scope.contents = a.scope.contents

/-- C67: a row of any number of addresses of both versions, each with a width of its own, is read back as it was written. -/
theorem C67_row {U : Type} (W : Wide U) (hW : W.Ok) (c : Cfg) (l : List (Int × AnyAddr)) (hl : ∀ x ∈ l, ShownAddr W c x.2)
    (s : OFull U) (hg : s.good = true) (hf : W.space s.fill = true) (h0 : s.base.word = 0) (hw : s.width = 0) (ho : s.base.out = [])
    (old : AnyAddr) (excFail : Bool) :
    ∃ s' as, writeRow W (fun a => osWriteFull W (fun fmt => anyToString c.M fmt a)) l s = .ok s' ∧
      readRow (isReadFull W (anyAddrCode c)) old l.length
        ⟨⟨0, false, false, s'.base.out, false, false⟩, 0, true, excFail, false⟩ = .ok (some as) ∧
      List.Forall₂ (fun x a => SameAddr c x.2 a) l as := by
  obtain ⟨-, -, t4, t6⟩ := C67_table W hW c
  obtain ⟨s', rs, k1, k2, k3, k4⟩ := writeRow_eq (W := W) (fun a => osWriteFull W (fun fmt => anyToString c.M fmt a))
    (isReadFull W (anyAddrCode c)) (SameAddr c) l (by
      intro x hx
      have := hl x hx
      match hx2 : x.2 with
      | .v4 a =>
        rw [hx2] at this
        match a, this with
        | [a, b, e, d], _ => exact t4 a b e d
      | .v6 a =>
        rw [hx2] at this
        exact t6 a this.1 this.2) s .compressed hg hf (by rw [h0]; rfl) hw
  have hbl : W.space (W.conv ' ') = true := by
    rw [(hW.ascii ' ' (by decide)).2]; decide
  obtain ⟨as, a1, a2⟩ := readRow_eq (W := W) (isReadFull W (anyAddrCode c)) (SameAddr c) old (W.conv ' ') hbl rs k3
    ⟨⟨0, false, false, s'.base.out, false, false⟩, 0, true, excFail, false⟩ [] rfl rfl rfl (Int.le_refl 0)
    (fun _ => rfl) (by simp) (by show s'.base.out = _; rw [k4, ho])
  have hlen : rs.length = l.length := by simpa using congrArg List.length k2
  refine ⟨s', as, k1, by rw [← hlen]; exact a1, ?_⟩
  have f1 : List.Forall₂ (fun b a => SameAddr c b a) (rs.map Prod.fst) as := List.forall₂_map_left_iff.2 a2
  rw [k2] at f1
  exact List.forall₂_map_left_iff.1 f1

example := C67_row wideChar wideChar_ok exCfg [(20, .v4 [10, 0, 0, 1]), (25, .v6 exScoped)]
  (by simp only [List.mem_cons, List.not_mem_nil, or_false, forall_eq_or_imp, forall_eq]; exact ⟨rfl, exScoped_good, exScoped_shown⟩)
  ⟨⟨0, true, false, false, []⟩, 0, ' ', true, true⟩ rfl (by decide) rfl rfl rfl (.v4 [0, 0, 0, 0]) false

/-! ### Defaults and limits -/

theorem readWordFull_default {U : Type} (W : Wide U) (base : IStr U) :
    readWordFull W ⟨base, 0, true, false, false⟩ = ((readWord W base).1, ⟨(readWord W base).2, 0, true, false, false⟩, false) := by
  obtain ⟨wd, hx, oc, input, eo, fa⟩ := base
  cases eo with
  | true => simp [readWordFull, readWord, IFull.setState]
  | false =>
    cases fa with
    | true => simp [readWordFull, readWord, IFull.setState]
    | false =>
      rcases firstWord_or W.space input with ⟨w, rest, hw⟩ | hn
      · obtain ⟨ws, e, k1, k2, k3, k4⟩ := hw
        rw [readWord_eq W _ ⟨rfl, rfl⟩ w rest ⟨ws, e, k1, k2, k3, k4⟩]
        rw [readWordFull_field W _ rfl rfl w rest ⟨ws, e, k1, by simp, k2, k3, by simp, .inr k4⟩]
        simp [k2]
      · rw [readWord_none W _ ⟨rfl, rfl⟩ hn]
        have d : input.dropWhile W.space = [] := by
          have := List.dropWhile_append_of_pos (l₂ := []) hn
          simpa using this
        simp [readWordFull, IFull.setState, d]

theorem isReadFull_default {U α : Type} (W : Wide U) (parse : List Ev → Res α) (parseC : List Ev → Code → Res (Code × α)) (dflt : α)
    (hc : ∀ evs, parseC evs none = setCode (.ok dflt) (parse evs) none) (base : IStr U) (old : α) :
    isReadFull W parseC old ⟨base, 0, true, false, false⟩ =
      (isRead W parse base >>= fun r => .ok ⟨r.1.getD dflt, ⟨r.2, 0, true, false, false⟩, false⟩) := by
  unfold isReadFull isRead
  rw [readWordFull_default]
  simp only
  rw [hc]
  cases parse (W.enc.events (readWord W base).1) <;> simp [setCode, IFull.setState]

theorem isReadNetFull_default {U α : Type} (W : Wide U) (parse : List Ev → Bool → Res α) (parseC : Bool → List Ev → Code → Res (Code × α))
    (dflt : α) (hc : ∀ strict evs, parseC strict evs none = setCode (.ok dflt) (parse evs strict) none) (base : IStr U) (old : α) :
    isReadNetFull W parseC old ⟨base, 0, true, false, false⟩ =
      (isReadNet W parse base >>= fun r => .ok ⟨r.1.getD dflt, ⟨r.2, 0, true, false, false⟩, false⟩) :=
  isReadFull_default W (fun e => parse e (base.word == 0)) (parseC (base.word == 0)) dflt (hc _) { base with word := 0 } old

/-- C67: with width 0, `skipws` and no exceptions the operators are those of C48, and an object that cannot be read
becomes the default one; `uint128_t` included. -/
theorem C67_defaults {U : Type} (W : Wide U) (c : Cfg) (le : Bool) (i : IStr U) :
    (∀ old, isReadFull W v4Code old ⟨i, 0, true, false, false⟩ = (isRead W v4FromEvents i >>= fun r =>
      .ok ⟨r.1.getD [0, 0, 0, 0], ⟨r.2, 0, true, false, false⟩, false⟩)) ∧
    (∀ old, isReadFull W (v6Code c) old ⟨i, 0, true, false, false⟩ = (isRead W (v6FromEvents c.spaces c.M) i >>= fun r =>
      .ok ⟨r.1.getD (zero6 c.M), ⟨r.2, 0, true, false, false⟩, false⟩)) ∧
    (∀ old, isReadFull W (anyAddrCode c) old ⟨i, 0, true, false, false⟩ = (isRead W (anyFromEvents c.spaces c.M) i >>= fun r =>
      .ok ⟨r.1.getD (.v4 [0, 0, 0, 0]), ⟨r.2, 0, true, false, false⟩, false⟩)) ∧
    (∀ old, isReadNetFull W (fam4 le).parseNetCode old ⟨i, 0, true, false, false⟩ = (isReadNet W (fam4 le).parseNet i >>= fun r =>
      .ok ⟨r.1.getD zeroNet4, ⟨r.2, 0, true, false, false⟩, false⟩)) ∧
    (∀ old, isReadNetFull W (fam6 c).parseNetCode old ⟨i, 0, true, false, false⟩ = (isReadNet W (fam6 c).parseNet i >>= fun r =>
      .ok ⟨r.1.getD (zeroNet6 c.M), ⟨r.2, 0, true, false, false⟩, false⟩)) ∧
    (∀ old, isReadNetFull W (anyNetCode c) old ⟨i, 0, true, false, false⟩ = (isReadNet W (anyNetFromEvents c) i >>= fun r =>
      .ok ⟨r.1.getD (.v4 zeroNet4), ⟨r.2, 0, true, false, false⟩, false⟩)) ∧
    (∀ old, isU128Full W old ⟨i, 0, true, false, false⟩ = ⟨(isU128 W old i).1, ⟨(isU128 W old i).2, 0, true, false, false⟩, false⟩) := by
  refine ⟨isReadFull_default W _ _ _ v4Code_set i, isReadFull_default W _ _ _ (v6Code_set c) i, isReadFull_default W _ _ _ (anyAddrCode_set c) i,
    isReadNetFull_default W _ _ _ (parseNetCode4_set le) i, isReadNetFull_default W _ _ _ (parseNetCode6_set c) i,
    isReadNetFull_default W _ _ _ (anyNetCode_set c) i, ?_⟩
  intro old
  unfold isU128Full isU128
  rw [readWordFull_default]
  simp only
  cases U128.fromText (baseOfFlags i.hex i.oct) (W.enc.events (readWord W i).1) <;> simp [IFull.setState]

/-- C67, limits.  A width on input cuts an address silently: `10.0.0.12` read with width 8 is `10.0.0.1`.  With `eofbit` in
`exceptions()` an address at the end of the input is consumed but not stored.  A failed read without exceptions
overwrites the object. -/
theorem C67_limits :
    isReadFull wideChar v4Code [9, 9, 9, 9] ⟨⟨0, false, false, "10.0.0.12".toList, false, false⟩, 8, true, false, false⟩ =
      .ok ⟨[10, 0, 0, 1], ⟨⟨0, false, false, ['2'], false, false⟩, 0, true, false, false⟩, false⟩ ∧
    isReadFull wideChar v4Code [9, 9, 9, 9] ⟨⟨0, false, false, "10.0.0.12".toList, false, false⟩, 0, true, false, true⟩ =
      .ok ⟨[9, 9, 9, 9], ⟨⟨0, false, false, [], true, false⟩, 0, true, false, true⟩, true⟩ ∧
    isReadFull wideChar v4Code [9, 9, 9, 9] ⟨⟨0, false, false, "10.0.0 ".toList, false, false⟩, 0, true, false, false⟩ =
      .ok ⟨[0, 0, 0, 0], ⟨⟨0, false, false, [' '], false, true⟩, 0, true, false, false⟩, false⟩ := by
  decide +kernel

/-! ### Examples -/

example : osWriteFull wideChar (fun _ => v4ToString [10, 0, 0, 1]) ⟨⟨0, false, false, false, []⟩, 12, ' ', false, true⟩ =
    .ok ⟨⟨0, false, false, false, "    10.0.0.1".toList⟩, 0, ' ', false, true⟩ := by decide +kernel
example : osWriteFull wideChar (v6ToString 16 exScoped) (⟨osFormat .full ⟨0, true, false, false, []⟩, 3, '*', true, false⟩) =
    .ok ⟨⟨0, true, false, false, []⟩, 3, '*', true, false⟩ := by decide +kernel
example : osU128Full wideChar ⟨0, 255⟩ ⟨⟨0, true, true, false, []⟩, 4, '0', false, true⟩ =
    .ok ⟨⟨0, true, true, false, "00FF".toList⟩, 0, '0', false, true⟩ := by decide +kernel
example : Field isSpaceC true 8 " 10.0.0.12 x".toList "10.0.0.1".toList "2 x".toList :=
  ⟨[' '], rfl, by decide, by simp, by simp, by decide, by decide, .inl rfl⟩
example : isReadNetFull wideChar (fam4 true).parseNetCode ex17 ⟨⟨1, false, false, "192.168.0.1/16 ".toList, false, false⟩, 0, true, true, true⟩ =
    .ok ⟨ex16, ⟨⟨0, false, false, [' '], false, false⟩, 0, true, true, true⟩, false⟩ := by decide +kernel
example : isReadFull wideChar v4Code [9, 9, 9, 9] ⟨⟨0, false, false, " 10.0.0.1 ".toList, false, false⟩, 0, false, true, false⟩ =
    .ok ⟨[9, 9, 9, 9], ⟨⟨0, false, false, " 10.0.0.1 ".toList, false, true⟩, 0, false, true, false⟩, true⟩ := by decide +kernel
example : isU128Full wideChar ⟨1, 1⟩ ⟨⟨0, false, false, "12x ".toList, false, false⟩, 0, true, false, false⟩ =
    ⟨⟨1, 1⟩, ⟨⟨0, false, false, [' '], false, true⟩, 0, true, false, false⟩, false⟩ := by decide +kernel
example : ShownAddr wideChar exCfg (.v4 [1, 2, 3, 4]) := rfl

end Ip
