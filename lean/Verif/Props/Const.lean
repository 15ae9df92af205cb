import Verif.Props.Throw
import Verif.Props.AnyNet
import Verif.Props.V4
import Verif.Model.Const
import Verif.Spec.Const
/-
C62 (parsing during compilation).
-/
set_option autoImplicit false

namespace Ip
open Spec

section
variable {U : Type} {enc : Enc U}

theorem constant_raise {α V : Type} {e : Enc V} (L : e.Law) (code : ErrorCode) (value : Nat) (s : List V) :
    constant (raise (α := α) e code value s) = none := by
  obtain ⟨w, h⟩ := raise_eq (α := α) L code value s
  rw [h]; rfl

theorem constFixed_ok (L : enc.Law) (s : List U) (cs : List Char) (he : enc.events s = readChars cs) (hz : ∀ x ∈ cs, x ≠ '\x00') :
    ∃ f, constFixed enc s = some f ∧ f.contents = cs ∧ f.length ≤ f.data.length := by
  obtain ⟨f, h1, h2⟩ := (makeFixed_pad L s 0).1 cs he hz
  simp only [List.replicate_zero, List.append_nil] at h1
  refine ⟨f, by unfold constFixed; rw [h1], h2, ?_⟩
  have hl := L.events_length _ s (Nat.le_refl _)
  rw [he] at hl
  obtain ⟨g, g1, g2, _, _⟩ := FStr.ofEvents_eq s.length cs (by simpa [readChars] using hl)
  unfold makeFixed at h1
  rw [he, g1] at h1
  cases h1
  exact g2

theorem constFixed_bad (L : enc.Law) (s : List U) (cs : List Char) (code : ErrorCode) (sym : Nat)
    (he : enc.events s = readChars cs ++ [.bad code sym]) (hz : ∀ x ∈ cs, x ≠ '\x00') : constFixed enc s = none := by
  have h := (makeFixed_pad L s 0).2 cs code sym he hz
  simp only [List.replicate_zero, List.append_nil] at h
  unfold constFixed
  rw [h]
  exact constant_raise L _ _ _

theorem constParse_eq {α : Type} (parse : List Ev → Res α) (f : FStr) (a : α) :
    constParse parse f = some a ↔ parse (readChars f.contents) = .ok a := by
  unfold constParse
  cases h : parse (readChars f.contents) with
  | ok b => simp [orRaise, constant]
  | ub => simp [orRaise, constant]
  | err code v =>
    simp only [orRaise]
    rw [constant_raise encChar_law]
    simp

theorem constAny_eq {α β γ : Type} (f4 : α → γ) (f6 : β → γ) (parse4 : List Ev → Res α) (parse6 : List Ev → Res β) (f : FStr)
    (hf : f.length ≤ f.data.length) (hz : ∀ x ∈ f.contents, x ≠ '\x00') :
    constAny f4 f6 parse4 parse6 f =
      match parse4 (readChars f.contents) with
      | .ok a => some (f4 a)
      | .err _ _ => (constParse parse6 f).map f6
      | .ub => none := by
  have hc := literalCopy_eq '\x00' f.data f.length 0 (f.length + 1) (by omega) (by omega)
  simp only [List.take_zero, List.nil_append, Nat.zero_add] at hc
  unfold constAny
  rw [hc]
  simp only
  have ht : (f.data.take f.length ++ List.replicate (f.length + 1 - f.length) '\x00').take f.length = f.contents := by
    rw [List.take_append_of_le_length (by simp; omega), List.take_take, Nat.min_self]
    rfl
  rw [ht]
  have h2 : arrayParse encChar parse4 f.contents = parse4 (readChars f.contents) := by
    obtain ⟨g, h1, h2⟩ := (makeFixed_pad encChar_law f.contents 0).1 f.contents rfl hz
    simp only [List.replicate_zero, List.append_nil] at h1
    unfold arrayParse
    rw [h1, Res.ok_bind, h2]
  rw [h2]
  cases parse4 (readChars f.contents) <;> rfl

end

/-- C62 (partial): a text without NUL characters, in any character type and of any length, compiles exactly
when `parse` accepts it at run time, and gives the same object.  In particular a text for which the call at
run time has undefined behaviour does not compile.  Missing: texts with NUL, see `C62_embedded_nul`, and unreadable
texts, see `C62_unreadable`. -/
theorem C62_as_parse_partial {U : Type} (enc : Enc U) (L : enc.Law) (c : Cfg) (le strict : Bool) (s : List U) (cs : List Char)
    (he : enc.events s = readChars cs) (hz : ∀ x ∈ cs, x ≠ '\x00') :
    Compiles (v4Const enc s) (v4ParseThrow enc s) ∧
    Compiles (v6Const c enc s) (v6ParseThrow c enc s) ∧
    Compiles (anyConst c enc s) (anyParseThrow c enc s) ∧
    Compiles (v4NetConst le enc strict s) ((fam4 le).parseNetThrow enc s strict) ∧
    Compiles (v6NetConst c enc strict s) ((fam6 c).parseNetThrow enc s strict) ∧
    Compiles (anyNetConst c enc strict s) (anyNetParseThrow c enc s strict) := by
  obtain ⟨f, h1, h2, h3⟩ := constFixed_ok L s cs he hz
  have hr : ∀ {α : Type} (r : Res α) (a : α), orRaise enc s r = .ret a ↔ r = .ok a := by
    intro α r a
    cases r with
    | ok b => simp [orRaise]
    | ub => simp [orRaise]
    | err code v =>
      obtain ⟨w, h⟩ := raise_eq (α := α) L code v s
      simp [orRaise, h]
  have one : ∀ {α : Type} (parse : List Ev → Res α),
      Compiles ((constFixed enc s).bind (constParse parse)) (orRaise enc s (parse (enc.events s))) := by
    intro α parse a
    rw [h1, Option.bind_some, constParse_eq, h2, hr, he]
  have any : ∀ {α β γ : Type} (f4 : α → γ) (f6 : β → γ) (parse4 : List Ev → Res α) (parse6 : List Ev → Res β) (t : Thr γ),
      (∀ a, parse4 (readChars cs) = .ok a → t = .ret (f4 a)) →
      (∀ code v, parse4 (readChars cs) = .err code v → ∀ x, t = .ret x ↔ ∃ b, parse6 (readChars cs) = .ok b ∧ x = f6 b) →
      (parse4 (readChars cs) = .ub → t = .ub) →
      Compiles ((constFixed enc s).bind (constAny f4 f6 parse4 parse6)) t := by
    intro α β γ f4 f6 parse4 parse6 t t1 t2 t3 x
    rw [h1, Option.bind_some, constAny_eq f4 f6 parse4 parse6 f h3 (by rw [h2]; exact hz), h2]
    cases h : parse4 (readChars cs) with
    | ok a => simp [t1 a h]
    | ub => simp [t3 h]
    | err code v =>
      simp only [Option.map_eq_some_iff]
      rw [t2 code v h x]
      constructor
      · rintro ⟨b, hb, rfl⟩
        rw [constParse_eq, h2] at hb
        exact ⟨b, hb, rfl⟩
      · rintro ⟨b, hb, rfl⟩
        exact ⟨b, by rw [constParse_eq, h2]; exact hb, rfl⟩
  refine ⟨one _, one _, any _ _ _ _ _ ?_ ?_ ?_, one _, one (fun evs => (fam6 c).parseNet evs strict), any _ _ _ _ _ ?_ ?_ ?_⟩
  · intro a h
    unfold anyParseThrow
    rw [he, h]
  · intro code v h x
    unfold anyParseThrow
    rw [he, h]
    simp only
    have := fun a => hr (v6FromEvents c.spaces c.M (enc.events s)) a
    rw [he] at this
    unfold v6ParseThrow
    rw [he]
    cases hx : orRaise enc s (v6FromEvents c.spaces c.M (readChars cs)) with
    | ret a =>
      have ha := (this a).1 hx
      simp [ha, eq_comm]
    | thrown e =>
      simp only [reduceCtorEq, false_iff, not_exists, not_and]
      intro b hb
      rw [(this b).2 hb] at hx; cases hx
    | ub =>
      simp only [reduceCtorEq, false_iff, not_exists, not_and]
      intro b hb
      rw [(this b).2 hb] at hx; cases hx
  · intro h
    unfold anyParseThrow
    rw [he, h]
  · intro a h
    unfold anyNetParseThrow
    rw [he, h]
  · intro code v h x
    unfold anyNetParseThrow
    rw [he, h]
    simp only
    have := fun a => hr ((fam6 c).parseNet (enc.events s) strict) a
    rw [he] at this
    unfold Fam.parseNetThrow
    rw [he]
    cases hx : orRaise enc s ((fam6 c).parseNet (readChars cs) strict) with
    | ret a =>
      have ha := (this a).1 hx
      simp [ha, eq_comm]
    | thrown e =>
      simp only [reduceCtorEq, false_iff, not_exists, not_and]
      intro b hb
      rw [(this b).2 hb] at hx; cases hx
    | ub =>
      simp only [reduceCtorEq, false_iff, not_exists, not_and]
      intro b hb
      rw [(this b).2 hb] at hx; cases hx
  · intro h
    unfold anyNetParseThrow
    rw [he, h]

example := C62_as_parse_partial encUtf16 encUtf16_law exCfg true false ("10.0.0.1".toList.map fun c => BitVec.ofNat 16 c.toNat) "10.0.0.1".toList (by decide +kernel) (by decide)

/-- C62: a text with a malformed or non ASCII character, not preceded by NUL, does not compile. -/
theorem C62_unreadable {U : Type} (enc : Enc U) (L : enc.Law) (c : Cfg) (le strict : Bool) (s : List U) (cs : List Char)
    (code : ErrorCode) (sym : Nat) (he : enc.events s = readChars cs ++ [.bad code sym]) (hz : ∀ x ∈ cs, x ≠ '\x00') :
    v4Const enc s = none ∧ v6Const c enc s = none ∧ anyConst c enc s = none ∧ v4NetConst le enc strict s = none ∧
    v6NetConst c enc strict s = none ∧ anyNetConst c enc strict s = none := by
  have h := constFixed_bad L s cs code sym he hz
  simp [v4Const, v6Const, anyConst, v4NetConst, v6NetConst, anyNetConst, h]

example := C62_unreadable encUtf32 encUtf32_law exCfg true true [0x31, 0x100] "1".toList .unexpected_symbol 0x100 (by decide +kernel) (by decide)

/-- C62, negation: an embedded NUL ends the text, where `parse` of the same text fails. -/
theorem C62_embedded_nul :
    v4Const encChar "1.2.3.4\x00abc".toList = some [1, 2, 3, 4] ∧ (∀ a, v4ParseThrow encChar "1.2.3.4\x00abc".toList ≠ .ret a) ∧
    v4NetConst true encChar true "1.2.3.0/24\x00/9".toList = some ⟨[1, 2, 3, 0], [255, 255, 255, 0], 24⟩ ∧
    ∀ a, (fam4 true).parseNetThrow encChar "1.2.3.0/24\x00/9".toList true ≠ .ret a := by
  refine ⟨by decide +kernel, fun a h => ?_, by decide +kernel, fun a h => ?_⟩
  · have e : v4FromEvents (encChar.events "1.2.3.4\x00abc".toList) = .err .octet_has_invalid_symbol 3 := by decide +kernel
    obtain ⟨w, hw⟩ := raise_eq (α := List (BitVec 8)) encChar_law .octet_has_invalid_symbol 3 "1.2.3.4\x00abc".toList
    unfold v4ParseThrow at h
    rw [e] at h
    simp only [orRaise] at h
    rw [hw] at h; cases h
  · have e : (fam4 true).parseNet (encChar.events "1.2.3.0/24\x00/9".toList) true = .err .only_one_slash_permitted 0 := by decide +kernel
    obtain ⟨w, hw⟩ := raise_eq (α := Net (List (BitVec 8))) encChar_law .only_one_slash_permitted 0 "1.2.3.0/24\x00/9".toList
    unfold Fam.parseNetThrow at h
    rw [e] at h
    simp only [orRaise] at h
    rw [hw] at h; cases h

/-- C62: undefined behaviour of `parse` becomes a compilation error. -/
theorem C62_zero_mask (c : Cfg) : (fam4 true).parseNetThrow encChar "1.2.3.4/0.0.0.0".toList false = .ub ∧
    v4NetConst true encChar false "1.2.3.4/0.0.0.0".toList = none ∧
    (c.le = true → anyNetConst c encChar false "1.2.3.4/0.0.0.0".toList = none) := by
  refine ⟨by decide +kernel, by decide +kernel, fun hc => ?_⟩
  have h := (C62_as_parse_partial encChar encChar_law c true false "1.2.3.4/0.0.0.0".toList _ rfl (by decide)).2.2.2.2.2
  have e : (fam4 true).parseNet (encChar.events "1.2.3.4/0.0.0.0".toList) false = .ub := by decide +kernel
  cases hx : anyNetConst c encChar false "1.2.3.4/0.0.0.0".toList with
  | none => rfl
  | some a =>
    have := (h a).1 hx
    unfold anyNetParseThrow at this
    rw [hc, e] at this
    cases this

example := (C62_zero_mask exCfg).2.2 rfl

/-- C62: an integer literal below 2^32 is the address with that number, in both language modes; larger ones do not
compile with `assert` enabled. -/
theorem C62_integer (debug : Bool) (v : BitVec 64) :
    (v.toNat < 2 ^ 32 → v4IntConst true debug v = some (v4IntLiteral true v) ∧ (v4IntLiteral true v).length = 4 ∧
      number4 (v4IntLiteral true v) = v.toNat) ∧
    (2 ^ 32 ≤ v.toNat → v4IntConst true true v = none) := by
  have hle : v ≤ 0xFFFFFFFF#64 ↔ v.toNat < 2 ^ 32 := by
    rw [BitVec.le_def]
    show v.toNat ≤ 4294967295 ↔ _
    omega
  constructor
  · intro h
    refine ⟨?_, (C05_v4_uint_partial.2 _).2, ?_⟩
    · unfold v4IntConst v4IntLiteral
      rw [if_neg (fun h' => h'.2 (hle.2 h))]
    · unfold v4IntLiteral
      obtain ⟨a, b, c, d, e⟩ := split32 (v.setWidth 32)
      have hn := congrArg BitVec.toNat e
      rw [cat4_toNat, BitVec.toNat_setWidth, Nat.mod_eq_of_lt h] at hn
      rw [e, v4FromUint_le]
      simp only [beValue, List.length_cons, List.length_nil] at hn
      simp only [number4]
      omega
  · intro h
    unfold v4IntConst
    rw [if_pos ⟨rfl, by rw [hle]; omega⟩]

example := (C62_integer false 0xC0A80709#64).1 (by decide)
example := (C62_integer false 0x100000000#64).2 (by decide)

/-- C62, negation: without `assert`, and before C++20, larger integers are cut to 32 bits. -/
theorem C62_integer_cut : v4IntConst true false 0x100000001#64 = some [0, 0, 0, 1] ∧ v4IntLiteral true 0x100000001#64 = [0, 0, 0, 1] := by
  decide

example : v4Const encUtf8 ("127.0.0.1".toList.map fun c => BitVec.ofNat 8 c.toNat) = some [127, 0, 0, 1] := by decide +kernel
example : v4Const encChar "127.0.0.256".toList = none := by decide +kernel
example : anyNetConst exCfg encChar true "192.168.0.0/16".toList = some (.v4 ex16) := by decide +kernel
example : encUtf8.events ("127.0.0.1".toList.map fun c => BitVec.ofNat 8 c.toNat) = readChars "127.0.0.1".toList := by decide +kernel

end Ip
