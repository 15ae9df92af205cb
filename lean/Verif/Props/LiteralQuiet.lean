import Verif.Lemmas.LiteralQuiet
import Verif.Props.Report
import Verif.Props.LiteralEnv
/-
C96 (literals in builds without exceptions).
-/
set_option autoImplicit false

namespace Ip
open Spec

theorem cut_literal {α U : Type} {enc : Enc U} (m : Nat) (parse : List U → Thr α) (s : List U) (h : ¬ s.length ≤ m) :
    literal enc m parse (s.take m) = parse (s.take m) := by
  rw [literal_eq m parse (s.take m) (by simp)]
  simp [show min m s.length = m by omega]

theorem quiet_one {α U : Type} {enc : Enc U} (L : enc.Law) {d : Res α} {x : α} (hd : d = .ok x) (parse : List Ev → Res α) (m : Nat)
    (s : List U) (cs : List Char) (h : ReadsUpTo (enc.events s) cs) :
    QuietMeans (fun e ph => e.literalOpNoExc ph enc s
        (fun ph f => e.orRaiseNoExc ph (fun _ => setCode d (parse (readChars f.contents)) none))
        (fun ph => e.literalNoExc ph enc m (e.arrayNoExc ph enc d (fun evs _ => setCode d (parse evs) none))))
      (orRaise encChar cs (parse (readChars cs))) (literal enc m (arrayParseThrow enc parse) (s.take m)) x (s.length ≤ m) := by
  obtain ⟨f, h1, h2, h3⟩ := makeFixed_upTo L s 0 cs h
  simp only [List.replicate_zero, List.append_nil] at h1
  refine quietMeans_of (template := fun e ph f => e.orRaiseNoExc ph (fun _ => setCode d (parse (readChars f.contents)) none))
    (function := fun e ph => e.literalNoExc ph enc m (e.arrayNoExc ph enc d (fun evs _ => setCode d (parse evs) none)))
    f ((makeFixedCode_eq enc s none).1 f h1) (fun e ph => ?_) (fun hl e ph => ?_) (fun hl e ph => ?_)
  · simp only [h2]
    exact orRaiseNoExc_eq encChar_law e ph hd _ _
  · obtain ⟨g, g1, _⟩ := makeFixed_upTo L s (m - s.length) cs h
    rw [(literalNoExc_eq e ph m _ s).1 hl, arrayNoExc_read e ph hd parse _ g g1, (arrayParse_upTo L parse s _ cs h).1]
  · rw [(literalNoExc_eq e ph m _ s).2 hl, cut_literal m _ s hl]
    cases hs : e.constEvaluated ph with
    | true => rfl
    | false =>
      simp only [Bool.false_eq_true, if_false]
      exact arrayNoExc_quiet L e ph hs hd parse _

theorem unreadable_one {α U : Type} {enc : Enc U} (L : enc.Law) {d : Res α} {x : α} (hd : d = .ok x) (parse : List Ev → Res α) (m : Nat)
    (s : List U) (cs : List Char) (code : ErrorCode) (sym : Nat) (h : enc.events s = readChars cs ++ [.bad code sym])
    (hz : ∀ x ∈ cs, x ≠ '\x00') :
    UnreadableMeans (fun e ph => e.literalOpNoExc ph enc s
        (fun ph f => e.orRaiseNoExc ph (fun _ => setCode d (parse (readChars f.contents)) none))
        (fun ph => e.literalNoExc ph enc m (e.arrayNoExc ph enc d (fun evs _ => setCode d (parse evs) none))))
      (orRaise encChar cs (parse (readChars cs))) (literal enc m (arrayParseThrow enc parse) (s.take m)) x (s.length ≤ m) := by
  obtain ⟨f, h1, h2, h3⟩ := makeFixedCode_bad L s cs code sym h hz
  refine unreadableMeans_of (template := fun e ph f => e.orRaiseNoExc ph (fun _ => setCode d (parse (readChars f.contents)) none))
    (function := fun e ph => e.literalNoExc ph enc m (e.arrayNoExc ph enc d (fun evs _ => setCode d (parse evs) none)))
    f code h1 (fun e ph => ?_) (fun hl e ph => ?_) (fun hl e ph => ?_)
  · simp only [h2]
    exact orRaiseNoExc_eq encChar_law e ph hd _ _
  · rw [(literalNoExc_eq e ph m _ s).1 hl]
    exact arrayNoExc_bad e ph hd _ _ code sym ((makeFixed_pad L s _).2 cs code sym h hz)
  · rw [(literalNoExc_eq e ph m _ s).2 hl, cut_literal m _ s hl]
    cases hs : e.constEvaluated ph with
    | true => rfl
    | false =>
      simp only [Bool.false_eq_true, if_false]
      exact arrayNoExc_quiet L e ph hs hd parse _

theorem quiet_two {α β γ U : Type} {enc : Enc U} (L : enc.Law) (f4 : α → γ) (f6 : β → γ) {d4 : Res α} {d6 : Res β} {x4 : α} {x6 : β}
    (h4 : d4 = .ok x4) (h6 : d6 = .ok x6) (p4 : List Ev → Res α) (p6 : List Ev → Res β) (m : Nat) (s : List U) (cs : List Char)
    (h : ReadsUpTo (enc.events s) cs) :
    QuietMeans (fun e ph => e.literalOpNoExc ph enc s
        (fun ph => templateAnyNoExc f4 f6 d4 (fun evs _ => setCode d4 (p4 evs) none)
          (fun f => e.orRaiseNoExc ph (fun _ => setCode d6 (p6 (readChars f.contents)) none)))
        (fun ph => e.literalNoExc ph enc m fun units =>
          anyQuiet f4 f6 (arrayCode enc d4 (fun evs _ => setCode d4 (p4 evs) none) units)
            (e.arrayNoExc ph enc d6 (fun evs _ => setCode d6 (p6 evs) none) units)))
      (twoThrow f4 f6 (p4 (readChars cs)) (orRaise encChar cs (p6 (readChars cs))))
      (literal enc m (fun us => twoThrow f4 f6 (arrayParse enc p4 us) (arrayParseThrow enc p6 us)) (s.take m)) (f6 x6) (s.length ≤ m) := by
  obtain ⟨f, h1, h2, h3⟩ := makeFixed_upTo L s 0 cs h
  simp only [List.replicate_zero, List.append_nil] at h1
  have a4 : ∀ us, arrayCode enc d4 (fun evs _ => setCode d4 (p4 evs) none) us = fun _ => setCode d4 (arrayParse enc p4 us) none :=
    fun us => funext fun code => arrayCode_eq enc h4 p4 us code
  refine quietMeans_of
    (template := fun e ph => templateAnyNoExc f4 f6 d4 (fun evs _ => setCode d4 (p4 evs) none)
          (fun f => e.orRaiseNoExc ph (fun _ => setCode d6 (p6 (readChars f.contents)) none)))
    (function := fun e ph => e.literalNoExc ph enc m fun units =>
          anyQuiet f4 f6 (arrayCode enc d4 (fun evs _ => setCode d4 (p4 evs) none) units)
            (e.arrayNoExc ph enc d6 (fun evs _ => setCode d6 (p6 evs) none) units))
    f ((makeFixedCode_eq enc s none).1 f h1) (fun e ph => ?_) (fun hl e ph => ?_) (fun hl e ph => ?_)
  · simp only [templateAnyNoExc_eq f4 f6 h4 p4 _ f h3 (by rw [h2]; exact h.1), h2]
    exact anyNoExc_eq f4 f6 h4 _ _ _ _ x6 (orRaiseNoExc_eq encChar_law e ph h6 _ _)
  · obtain ⟨g, g1, _⟩ := makeFixed_upTo L s (m - s.length) cs h
    rw [(literalNoExc_eq e ph m _ s).1 hl]
    simp only [a4]
    rw [anyNoExc_eq f4 f6 h4 _ _ _ _ x6 (arrayNoExc_read e ph h6 p6 _ g g1), (arrayParse_upTo L p6 s _ cs h).1,
      (arrayParse_upTo L p4 s _ cs h).2]
  · rw [(literalNoExc_eq e ph m _ s).2 hl, cut_literal m _ s hl]
    cases hs : e.constEvaluated ph with
    | true => rfl
    | false =>
      simp only [Bool.false_eq_true, if_false, a4]
      exact anyNoExc_eq f4 f6 h4 _ _ _ _ x6 (arrayNoExc_quiet L e ph hs h6 p6 _)

theorem unreadable_two {α β γ U : Type} {enc : Enc U} (L : enc.Law) (f4 : α → γ) (f6 : β → γ) {d4 : Res α} {d6 : Res β} {x4 : α} {x6 : β}
    (h4 : d4 = .ok x4) (h6 : d6 = .ok x6) (p4 : List Ev → Res α) (p6 : List Ev → Res β) (m : Nat) (s : List U) (cs : List Char)
    (code : ErrorCode) (sym : Nat) (h : enc.events s = readChars cs ++ [.bad code sym]) (hz : ∀ x ∈ cs, x ≠ '\x00') :
    UnreadableMeans (fun e ph => e.literalOpNoExc ph enc s
        (fun ph => templateAnyNoExc f4 f6 d4 (fun evs _ => setCode d4 (p4 evs) none)
          (fun f => e.orRaiseNoExc ph (fun _ => setCode d6 (p6 (readChars f.contents)) none)))
        (fun ph => e.literalNoExc ph enc m fun units =>
          anyQuiet f4 f6 (arrayCode enc d4 (fun evs _ => setCode d4 (p4 evs) none) units)
            (e.arrayNoExc ph enc d6 (fun evs _ => setCode d6 (p6 evs) none) units)))
      (twoThrow f4 f6 (p4 (readChars cs)) (orRaise encChar cs (p6 (readChars cs))))
      (literal enc m (fun us => twoThrow f4 f6 (arrayParse enc p4 us) (arrayParseThrow enc p6 us)) (s.take m)) (f6 x6) (s.length ≤ m) := by
  obtain ⟨f, h1, h2, h3⟩ := makeFixedCode_bad L s cs code sym h hz
  have a4 : ∀ us, arrayCode enc d4 (fun evs _ => setCode d4 (p4 evs) none) us = fun _ => setCode d4 (arrayParse enc p4 us) none :=
    fun us => funext fun code => arrayCode_eq enc h4 p4 us code
  refine unreadableMeans_of
    (template := fun e ph => templateAnyNoExc f4 f6 d4 (fun evs _ => setCode d4 (p4 evs) none)
          (fun f => e.orRaiseNoExc ph (fun _ => setCode d6 (p6 (readChars f.contents)) none)))
    (function := fun e ph => e.literalNoExc ph enc m fun units =>
          anyQuiet f4 f6 (arrayCode enc d4 (fun evs _ => setCode d4 (p4 evs) none) units)
            (e.arrayNoExc ph enc d6 (fun evs _ => setCode d6 (p6 evs) none) units))
    f code h1 (fun e ph => ?_) (fun hl e ph => ?_) (fun hl e ph => ?_)
  · simp only [templateAnyNoExc_eq f4 f6 h4 p4 _ f h3 (by rw [h2]; exact hz), h2]
    exact anyNoExc_eq f4 f6 h4 _ _ _ _ x6 (orRaiseNoExc_eq encChar_law e ph h6 _ _)
  · have hb := (makeFixed_pad L s (m - s.length)).2 cs code sym h hz
    rw [(literalNoExc_eq e ph m _ s).1 hl]
    simp only [a4, arrayNoExc_bad e ph h6 _ _ code sym hb]
    have : arrayParse enc p4 (s ++ List.replicate (m - s.length) enc.zero) = .err code sym := by
      unfold arrayParse; rw [hb]; rfl
    rw [this]
    subst h4
    rfl
  · rw [(literalNoExc_eq e ph m _ s).2 hl, cut_literal m _ s hl]
    cases hs : e.constEvaluated ph with
    | true => rfl
    | false =>
      simp only [Bool.false_eq_true, if_false, a4]
      exact anyNoExc_eq f4 f6 h4 _ _ _ _ x6 (arrayNoExc_quiet L e ph hs h6 p6 _)

theorem any_twoThrow {U : Type} (c : Cfg) (enc : Enc U) (cs : List Char) (us : List U) (m : Nat) :
    anyParseThrow c encChar cs =
      twoThrow .v4 .v6 (v4FromEvents (readChars cs)) (orRaise encChar cs (v6FromEvents c.spaces c.M (readChars cs))) ∧
    literal enc m (anyArrayParseThrow c enc) us =
      literal enc m (fun us => twoThrow .v4 .v6 (arrayParse enc v4FromEvents us) (arrayParseThrow enc (v6FromEvents c.spaces c.M) us)) us ∧
    anyNetParseThrow c encChar cs true =
      twoThrow .v4 .v6 ((fam4 c.le).parseNet (readChars cs) true) (orRaise encChar cs ((fam6 c).parseNet (readChars cs) true)) ∧
    literal enc m (fun us => anyNetArrayParseThrow c enc us true) us =
      literal enc m (fun us => twoThrow .v4 .v6 (arrayParse enc (fun evs => (fam4 c.le).parseNet evs true) us)
        (arrayParseThrow enc (fun evs => (fam6 c).parseNet evs true) us)) us := by
  refine ⟨?_, ?_, ?_, ?_⟩
  · unfold anyParseThrow twoThrow v6ParseThrow
    rw [show encChar.events cs = readChars cs from rfl]
    cases v4FromEvents (readChars cs) with
    | ok a => rfl
    | ub => rfl
    | err e v => dsimp only; cases orRaise encChar cs (v6FromEvents c.spaces c.M (readChars cs)) <;> rfl
  · congr 1
    funext us
    unfold anyArrayParseThrow twoThrow
    cases arrayParse enc v4FromEvents us with
    | ok a => rfl
    | ub => rfl
    | err e v => dsimp only; cases arrayParseThrow enc (v6FromEvents c.spaces c.M) us <;> rfl
  · unfold anyNetParseThrow twoThrow Fam.parseNetThrow
    rw [show encChar.events cs = readChars cs from rfl]
    cases (fam4 c.le).parseNet (readChars cs) true with
    | ok a => rfl
    | ub => rfl
    | err e v => dsimp only; cases orRaise encChar cs ((fam6 c).parseNet (readChars cs) true) <;> rfl
  · congr 1
    funext us
    unfold anyNetArrayParseThrow twoThrow
    cases arrayParse enc (fun evs => (fam4 c.le).parseNet evs true) us with
    | ok a => rfl
    | ub => rfl
    | err e v => dsimp only; cases arrayParseThrow enc (fun evs => (fam6 c).parseNet evs true) us <;> rfl

/-- C96, every readable text, every compiler, constants and calls at run time: what each literal does in a build without
exceptions, from what the text means in a build with them. -/
theorem C96_exact {U : Type} (enc : Enc U) (L : enc.Law) (c : Cfg) (le : Bool) (s : List U) (cs : List Char)
    (h : ReadsUpTo (enc.events s) cs) :
    QuietMeans (fun e ph => v4LiteralOpNoExc e ph enc s) (v4ParseThrow encChar cs) (v4Literal enc (s.take 15)) [0, 0, 0, 0]
      (s.length ≤ 15) ∧
    QuietMeans (fun e ph => v6LiteralOpNoExc e ph c enc s) (v6ParseThrow c encChar cs) (v6Literal c enc (s.take (41 + c.M)))
      (zero6 c.M) (s.length ≤ 41 + c.M) ∧
    QuietMeans (fun e ph => anyLiteralOpNoExc e ph c enc s) (anyParseThrow c encChar cs) (anyLiteral c enc (s.take (41 + c.M)))
      (.v6 (zero6 c.M)) (s.length ≤ 41 + c.M) ∧
    QuietMeans (fun e ph => v4NetLiteralOpNoExc e ph le enc s) ((fam4 le).parseNetThrow encChar cs true)
      (v4NetLiteral le enc (s.take 31)) zeroNet4 (s.length ≤ 31) ∧
    QuietMeans (fun e ph => v6NetLiteralOpNoExc e ph c enc s) ((fam6 c).parseNetThrow encChar cs true)
      (v6NetLiteral c enc (s.take (45 + c.M))) (zeroNet6 c.M) (s.length ≤ 45 + c.M) ∧
    QuietMeans (fun e ph => anyNetLiteralOpNoExc e ph c enc s) (anyNetParseThrow c encChar cs true)
      (anyNetLiteral c enc (s.take (83 + 2 * c.M))) (.v6 (zeroNet6 c.M)) (s.length ≤ 83 + 2 * c.M) := by
  have e45 : 45 + c.M = 41 + c.M + 4 := by omega
  have e83 : 83 + 2 * c.M = (41 + c.M) * 2 + 1 := by omega
  unfold anyLiteral anyNetLiteral
  rw [e45, e83, (any_twoThrow c enc cs (s.take (41 + c.M)) (41 + c.M)).1, (any_twoThrow c enc cs (s.take (41 + c.M)) (41 + c.M)).2.1,
    (any_twoThrow c enc cs (s.take ((41 + c.M) * 2 + 1)) ((41 + c.M) * 2 + 1)).2.2.1,
    (any_twoThrow c enc cs (s.take ((41 + c.M) * 2 + 1)) ((41 + c.M) * 2 + 1)).2.2.2]
  exact ⟨quiet_one L (d := .ok (List.replicate 4 0#8)) rfl v4FromEvents 15 s cs h,
    quiet_one L (d := .ok (fam6 c).zero) rfl (v6FromEvents c.spaces c.M) _ s cs h,
    quiet_two L AnyAddr.v4 AnyAddr.v6 (d4 := .ok (List.replicate 4 0#8)) (d6 := .ok (fam6 c).zero) rfl rfl v4FromEvents (v6FromEvents c.spaces c.M)
      (41 + c.M) s cs h,
    quiet_one L (default4 le) (fun evs => (fam4 le).parseNet evs true) _ s cs h,
    quiet_one L (default6 c) (fun evs => (fam6 c).parseNet evs true) _ s cs h,
    quiet_two L AnyNet.v4 AnyNet.v6 (default4 c.le) (default6 c) (fun evs => (fam4 c.le).parseNet evs true)
      (fun evs => (fam6 c).parseNet evs true) ((41 + c.M) * 2 + 1) s cs h⟩

example := C96_exact encUtf16 encUtf16_law exCfg true [0x31, 0, 0xD800] ['1'] ⟨by decide, .inr ⟨[.bad .wrong_encoding_sequence 0], by decide +kernel⟩⟩

/-- C96, the same for the texts that cannot be read. -/
theorem C96_unreadable {U : Type} (enc : Enc U) (L : enc.Law) (c : Cfg) (le : Bool) (s : List U) (cs : List Char) (code : ErrorCode)
    (sym : Nat) (h : enc.events s = readChars cs ++ [.bad code sym]) (hz : ∀ x ∈ cs, x ≠ '\x00') :
    UnreadableMeans (fun e ph => v4LiteralOpNoExc e ph enc s) (v4ParseThrow encChar cs) (v4Literal enc (s.take 15)) [0, 0, 0, 0]
      (s.length ≤ 15) ∧
    UnreadableMeans (fun e ph => v6LiteralOpNoExc e ph c enc s) (v6ParseThrow c encChar cs) (v6Literal c enc (s.take (41 + c.M)))
      (zero6 c.M) (s.length ≤ 41 + c.M) ∧
    UnreadableMeans (fun e ph => anyLiteralOpNoExc e ph c enc s) (anyParseThrow c encChar cs) (anyLiteral c enc (s.take (41 + c.M)))
      (.v6 (zero6 c.M)) (s.length ≤ 41 + c.M) ∧
    UnreadableMeans (fun e ph => v4NetLiteralOpNoExc e ph le enc s) ((fam4 le).parseNetThrow encChar cs true)
      (v4NetLiteral le enc (s.take 31)) zeroNet4 (s.length ≤ 31) ∧
    UnreadableMeans (fun e ph => v6NetLiteralOpNoExc e ph c enc s) ((fam6 c).parseNetThrow encChar cs true)
      (v6NetLiteral c enc (s.take (45 + c.M))) (zeroNet6 c.M) (s.length ≤ 45 + c.M) ∧
    UnreadableMeans (fun e ph => anyNetLiteralOpNoExc e ph c enc s) (anyNetParseThrow c encChar cs true)
      (anyNetLiteral c enc (s.take (83 + 2 * c.M))) (.v6 (zeroNet6 c.M)) (s.length ≤ 83 + 2 * c.M) := by
  have e45 : 45 + c.M = 41 + c.M + 4 := by omega
  have e83 : 83 + 2 * c.M = (41 + c.M) * 2 + 1 := by omega
  unfold anyLiteral anyNetLiteral
  rw [e45, e83, (any_twoThrow c enc cs (s.take (41 + c.M)) (41 + c.M)).1, (any_twoThrow c enc cs (s.take (41 + c.M)) (41 + c.M)).2.1,
    (any_twoThrow c enc cs (s.take ((41 + c.M) * 2 + 1)) ((41 + c.M) * 2 + 1)).2.2.1,
    (any_twoThrow c enc cs (s.take ((41 + c.M) * 2 + 1)) ((41 + c.M) * 2 + 1)).2.2.2]
  exact ⟨unreadable_one L (d := .ok (List.replicate 4 0#8)) rfl v4FromEvents 15 s cs code sym h hz,
    unreadable_one L (d := .ok (fam6 c).zero) rfl (v6FromEvents c.spaces c.M) _ s cs code sym h hz,
    unreadable_two L AnyAddr.v4 AnyAddr.v6 (d4 := .ok (List.replicate 4 0#8)) (d6 := .ok (fam6 c).zero) rfl rfl v4FromEvents (v6FromEvents c.spaces c.M)
      (41 + c.M) s cs code sym h hz,
    unreadable_one L (default4 le) (fun evs => (fam4 le).parseNet evs true) _ s cs code sym h hz,
    unreadable_one L (default6 c) (fun evs => (fam6 c).parseNet evs true) _ s cs code sym h hz,
    unreadable_two L AnyNet.v4 AnyNet.v6 (default4 c.le) (default6 c) (fun evs => (fam4 c.le).parseNet evs true)
      (fun evs => (fam6 c).parseNet evs true) ((41 + c.M) * 2 + 1) s cs code sym h hz⟩

example := C96_unreadable encUtf32 encUtf32_law exCfg true [0x31, 0x100] "1".toList .unexpected_symbol 0x100 (by decide +kernel) (by decide)

theorem Spec.Gives.value {α : Type} {o : LitOut α} {t : Thr α} {d : α} {stops : Prop} (h : Gives o .refused stops t d) (hs : stops) (a : α) :
    o = .value a ↔ t = .ret a := by
  obtain ⟨h1, h2, h3⟩ := h
  refine ⟨fun ho => ?_, h1 a⟩
  cases ht : t with
  | ret b => rw [h1 b ht] at ho; cases ho; rfl
  | thrown x => rw [(h2 x ht).1 hs] at ho; cases ho
  | ub => rw [h3 ht] at ho; cases ho

theorem constant_same {α : Type} {op op' : Env → Phase → LitOut α} {t cut : Thr α} {d : α} {fits : Prop} (h : QuietMeans op t cut d fits)
    (h' : LiteralMeans op' t fits) (e : Env) (hs : Stops e .compile) (a : α) : op e .compile = .value a ↔ op' e .compile = .value a := by
  rw [h'.value]
  by_cases hc : Always e ∨ Constants e
  · have hp : Always e ∨ Phase.compile = .compile ∧ Constants e := hc.imp id fun h => ⟨rfl, h⟩
    obtain ⟨k1, k2⟩ := h.constants e .compile hp
    by_cases hw : ClassArguments e ∨ fits
    · rw [(k1 hw).value hs a]
      exact ⟨fun ht => ⟨ht, hw, fun _ => hc.symm⟩, fun ht => ht.1⟩
    · rw [(k2 (fun x => hw (.inl x)) (fun x => hw (.inr x))).1 hs]
      exact ⟨(fun x => by cases x), fun x => absurd x.2.1 hw⟩
  · rw [h.noConstants e (fun x => hc (.inr x)) (fun x => hc (.inl x))]
    exact ⟨(fun x => by cases x), fun x => absurd ((x.2.2 rfl).symm) hc⟩

/-- C96 (partial): with compilers that can tell that they make a constant, a literal is a constant in builds without exceptions
exactly if it is one in builds with them, and has the same value.  Missing: the other compilers and texts that cannot be read,
see `C96_constants_violated`. -/
theorem C96_constants_partial {U : Type} (enc : Enc U) (L : enc.Law) (c : Cfg) (le : Bool) (s : List U) (cs : List Char)
    (h : ReadsUpTo (enc.events s) cs) (e : Env) (hs : Stops e .compile) :
    (∀ a, v4LiteralOpNoExc e .compile enc s = .value a ↔ v4LiteralOp e .compile enc s = .value a) ∧
    (∀ a, v6LiteralOpNoExc e .compile c enc s = .value a ↔ v6LiteralOp e .compile c enc s = .value a) ∧
    (∀ a, anyLiteralOpNoExc e .compile c enc s = .value a ↔ anyLiteralOp e .compile c enc s = .value a) ∧
    (∀ a, v4NetLiteralOpNoExc e .compile le enc s = .value a ↔ v4NetLiteralOp e .compile le enc s = .value a) ∧
    (∀ a, v6NetLiteralOpNoExc e .compile c enc s = .value a ↔ v6NetLiteralOp e .compile c enc s = .value a) ∧
    (∀ a, anyNetLiteralOpNoExc e .compile c enc s = .value a ↔ anyNetLiteralOp e .compile c enc s = .value a) := by
  obtain ⟨k1, k2, k3, k4, k5, k6⟩ := C96_exact enc L c le s cs h
  obtain ⟨l1, l2, l3, l4, l5, l6⟩ := C88_exact enc L c le s cs h
  exact ⟨constant_same k1 l1 e hs, constant_same k2 l2 e hs, constant_same k3 l3 e hs, constant_same k4 l4 e hs,
    constant_same k5 l5 e hs, constant_same k6 l6 e hs⟩

example : Stops gcc17 .compile ∧ Stops gcc20 .compile := by simp only [stops_iff]; decide +kernel

/-- clang 10 with `-std=c++17`. -/
def clang17 : Env := compiler 201703 201603 [("__cpp_nontype_template_args", 201411), ("__clang_major__", 10), ("__GNUC__", 4), ("__has_include", 1)]

/-- C96: full statement of the previous theorem refuted.  GCC 11 in C++17 mode makes `0.0.0.0` of a `char16_t` text with an
unpaired surrogate, where the build with exceptions is refused.  clang 10 makes constants of wrong texts, and of the first 15
characters of longer ones; clang 14 in C++20 mode, with a library that has no `std::is_constant_evaluated`, of the characters
in front of one that is not ASCII. -/
theorem C96_constants_violated :
    v4LiteralOpNoExc gcc17 .compile encUtf16 [0x31, 0x2E, 0x32, 0xD800] = .value [0, 0, 0, 0] ∧
    v4LiteralOp gcc17 .compile encUtf16 [0x31, 0x2E, 0x32, 0xD800] = .refused ∧
    v4LiteralOpNoExc clang17 .compile encChar "256.0.0.1".toList = .value [0, 0, 0, 0] ∧
    v4LiteralOpNoExc clang17 .compile encChar "192.168.100.1234".toList = .value [192, 168, 100, 123] ∧
    v4LiteralOpNoExc clang20 .compile encUtf32 [0x31, 0x2E, 0x32, 0x2E, 0x33, 0x2E, 0x34, 0x100, 0x35] = .value [1, 2, 3, 4] := by
  decide +kernel

theorem quiet_ran {α : Type} {op : Env → Phase → LitOut α} {t cut : Thr α} {d : α} {fits : Prop} (h : QuietMeans op t cut d fits)
    (hu : t ≠ .ub) (hf : fits) (e : Env) (known : Bool) (hs : ¬ Stops e (.run known)) (ha : ¬ Always e) :
    ∃ a, op e (.run known) = .value a ∧ (t = .ret a ∨ (∃ x, t = .thrown x) ∧ a = d) := by
  have hg := (h.calls e known ha).1 (.inr hf)
  cases ht : t with
  | ret a => exact ⟨a, hg.1 a ht, .inl rfl⟩
  | thrown x => exact ⟨d, (hg.2.1 x ht).2 hs, .inr ⟨⟨x, rfl⟩, rfl⟩⟩
  | ub => exact absurd ht hu

theorem orRaise_ne_ub {α : Type} (text : List Char) (r : Res α) (h : r ≠ .ub) : orRaise encChar text r ≠ .ub := by
  cases r with
  | ok a => exact fun h => by cases h
  | err c v =>
    obtain ⟨w, hw⟩ := raise_eq (α := α) encChar_law c v text
    show raise encChar c v text ≠ _
    rw [hw]
    exact fun h => by cases h
  | ub => exact absurd rfl h

/-- C96 (partial): at run time a literal that fits in its buffer has a value: the one that the text means, or the default
constructed object.  Missing: GCC 6 to 8 where the compiler knows the length of the text, see `C96_calls_violated`. -/
theorem C96_calls_partial {U : Type} (enc : Enc U) (L : enc.Law) (c : Cfg) (hc : c.le = true) (s : List U) (cs : List Char)
    (h : ReadsUpTo (enc.events s) cs) (e : Env) (known : Bool) (hs : ¬ Stops e (.run known)) (ha : ¬ Always e) :
    (s.length ≤ 15 → ∃ a, v4LiteralOpNoExc e (.run known) enc s = .value a ∧
      (v4ParseThrow encChar cs = .ret a ∨ (∃ x, v4ParseThrow encChar cs = .thrown x) ∧ a = [0, 0, 0, 0])) ∧
    (s.length ≤ 41 + c.M → ∃ a, v6LiteralOpNoExc e (.run known) c enc s = .value a ∧
      (v6ParseThrow c encChar cs = .ret a ∨ (∃ x, v6ParseThrow c encChar cs = .thrown x) ∧ a = zero6 c.M)) ∧
    (s.length ≤ 41 + c.M → ∃ a, anyLiteralOpNoExc e (.run known) c enc s = .value a ∧
      (anyParseThrow c encChar cs = .ret a ∨ (∃ x, anyParseThrow c encChar cs = .thrown x) ∧ a = .v6 (zero6 c.M))) ∧
    (s.length ≤ 45 + c.M → ∃ a, v6NetLiteralOpNoExc e (.run known) c enc s = .value a ∧
      ((fam6 c).parseNetThrow encChar cs true = .ret a ∨ (∃ x, (fam6 c).parseNetThrow encChar cs true = .thrown x) ∧ a = zeroNet6 c.M)) ∧
    (s.length ≤ 31 → (¬ ∃ a, cs = a ++ '/' :: dotted 0 0 0 0) → ∃ a, v4NetLiteralOpNoExc e (.run known) true enc s = .value a ∧
      ((fam4 true).parseNetThrow encChar cs true = .ret a ∨ (∃ x, (fam4 true).parseNetThrow encChar cs true = .thrown x) ∧ a = zeroNet4)) := by
  obtain ⟨k1, k2, k3, k4, k5, k6⟩ := C96_exact enc L c true s cs h
  have u4 : v4ParseThrow encChar cs ≠ .ub := orRaise_ne_ub _ _ (v4FromEvents_ne_ub _)
  have u6 : v6ParseThrow c encChar cs ≠ .ub := orRaise_ne_ub _ _ (C13_v6_parser_safe _ _ _).1
  have n6 : (fam6 c).parseNetThrow encChar cs true ≠ .ub := orRaise_ne_ub _ _ (C26_parser_safe c hc _ _).1
  have ua : anyParseThrow c encChar cs ≠ .ub := by
    rw [(any_twoThrow c encChar cs [] 0).1]
    unfold twoThrow
    cases hv : v4FromEvents (readChars cs) with
    | ok a => exact fun h => by cases h
    | ub => exact absurd hv (v4FromEvents_ne_ub _)
    | err e v =>
      dsimp only
      cases ho : orRaise encChar cs (v6FromEvents c.spaces c.M (readChars cs)) with
      | ret a => exact fun h => by cases h
      | thrown x => exact fun h => by cases h
      | ub => exact absurd ho u6
  refine ⟨fun hf => quiet_ran k1 u4 hf e known hs ha, fun hf => quiet_ran k2 u6 hf e known hs ha, fun hf => quiet_ran k3 ua hf e known hs ha,
    fun hf => quiet_ran k5 n6 hf e known hs ha, fun hf hn => quiet_ran k4 (orRaise_ne_ub _ _ fun hu => hn ?_) hf e known hs ha⟩
  obtain ⟨a, h1, _⟩ := (C26_parser_safe c hc _ _).2.1 hu
  exact ⟨a, (List.map_inj_right (fun x y h => by cases h; rfl)).1 h1⟩

example : ¬ Stops gcc17 (.run true) ∧ ¬ Always gcc17 :=
  ⟨by rw [stops_iff]; decide +kernel, fun h => absurd ((nontype_iff gcc17).2 h.1) (by decide +kernel)⟩

/-- GCC 8 with `-std=c++17`. -/
def gcc8 : Env := compiler 201703 201603 [("__cpp_nontype_template_args", 201411), ("__GNUC__", 8), ("__has_include", 1)]

/-- C96: full statement of the previous theorem refuted: with GCC 8 a wrong literal is a division by zero at run time.  Longer
texts have the value of their first characters. -/
theorem C96_calls_violated :
    v4LiteralOpNoExc gcc8 (.run true) encChar "256.0.0.1".toList = .undefined ∧
    v4LiteralOpNoExc gcc8 (.run true) encChar "192.168.100.1234".toList = .undefined ∧
    v4LiteralOpNoExc gcc17 (.run true) encChar "192.168.100.1234".toList = .value [192, 168, 100, 123] ∧
    v4NetLiteralOpNoExc gcc17 (.run false) true encChar "100.100.100.128/255.255.255.1285".toList =
      .value ⟨[100, 100, 100, 128], [255, 255, 255, 128], 25⟩ := by decide +kernel

theorem arrayNoExc_upTo {α U : Type} {enc : Enc U} (L : enc.Law) (e : Env) (ph : Phase) {d : Res α} {x : α} (hd : d = .ok x)
    (parse : List Ev → Res α) (s : List U) (cs : List Char) (h : ReadsUpTo (enc.events s) cs) :
    e.arrayNoExc ph enc d (fun evs _ => setCode d (parse evs) none) s = e.parseNoExc ph x (parse (readChars cs)) := by
  obtain ⟨f, h1, h2, _⟩ := makeFixed_upTo L s 0 cs h
  simp only [List.replicate_zero, List.append_nil] at h1
  unfold Env.arrayNoExc
  rw [(makeFixedCode_eq enc s none).1 f h1, hd]
  simp only [Res.ok_bind, if_true, h2]
  unfold Env.orRaiseNoExc Env.parseNoExc
  cases parse (readChars cs) <;> simp [setCode]

/-- C72, arrays of characters: with a readable text an object made from an array is what `C72_constants_exact` and
`C72_run_exact` say; with a text that cannot be read it is the default constructed object, with every compiler and also as a
constant. -/
theorem C72_arrays_exact {U : Type} (enc : Enc U) (L : enc.Law) (c : Cfg) (le strict : Bool) (s : List U) (e : Env) (ph : Phase) :
    (∀ cs, ReadsUpTo (enc.events s) cs →
      e.arrayNoExc ph enc (.ok (List.replicate 4 0#8)) v4Code s = e.parseNoExc ph [0, 0, 0, 0] (v4FromEvents (readChars cs)) ∧
      e.arrayNoExc ph enc (.ok (fam6 c).zero) (v6Code c) s = e.parseNoExc ph (zero6 c.M) (v6FromEvents c.spaces c.M (readChars cs)) ∧
      e.arrayNoExc ph enc (fam4 le).defaultNet ((fam4 le).parseNetCode strict) s =
        e.parseNoExc ph zeroNet4 ((fam4 le).parseNet (readChars cs) strict) ∧
      e.arrayNoExc ph enc (fam6 c).defaultNet ((fam6 c).parseNetCode strict) s =
        e.parseNoExc ph (zeroNet6 c.M) ((fam6 c).parseNet (readChars cs) strict)) ∧
    (∀ cs code sym, enc.events s = readChars cs ++ [.bad code sym] → (∀ x ∈ cs, x ≠ '\x00') →
      e.arrayNoExc ph enc (.ok (List.replicate 4 0#8)) v4Code s = .ok [0, 0, 0, 0] ∧
      e.arrayNoExc ph enc (.ok (fam6 c).zero) (v6Code c) s = .ok (zero6 c.M) ∧
      e.arrayNoExc ph enc (fam4 le).defaultNet ((fam4 le).parseNetCode strict) s = .ok zeroNet4 ∧
      e.arrayNoExc ph enc (fam6 c).defaultNet ((fam6 c).parseNetCode strict) s = .ok (zeroNet6 c.M)) := by
  refine ⟨fun cs h => ⟨arrayNoExc_upTo L e ph (d := .ok (List.replicate 4 0#8)) rfl v4FromEvents s cs h,
    arrayNoExc_upTo L e ph (d := .ok (fam6 c).zero) rfl (v6FromEvents c.spaces c.M) s cs h,
    arrayNoExc_upTo L e ph (default4 le) (fun evs => (fam4 le).parseNet evs strict) s cs h,
    arrayNoExc_upTo L e ph (default6 c) (fun evs => (fam6 c).parseNet evs strict) s cs h⟩, fun cs code sym h hz => ?_⟩
  have hb := (makeFixed_pad L s 0).2 cs code sym h hz
  simp only [List.replicate_zero, List.append_nil] at hb
  exact ⟨arrayNoExc_bad e ph rfl _ s code sym hb, arrayNoExc_bad e ph rfl _ s code sym hb, arrayNoExc_bad e ph (default4 le) _ s code sym hb,
    arrayNoExc_bad e ph (default6 c) _ s code sym hb⟩

/-- Both hypotheses are met. -/
example := (C72_arrays_exact encUtf16 encUtf16_law exCfg true true [0x31, 0x2E] gcc17 .compile).1 ['1', '.'] ⟨by decide, .inl (by decide +kernel)⟩
example := (C72_arrays_exact encUtf16 encUtf16_law exCfg true true [0x31, 0xD800] gcc17 .compile).2 ['1'] .wrong_encoding_sequence 0
  (by decide +kernel) (by decide)

/-- C72: full statement refuted for arrays, with every compiler: the constant made of a UTF-16 text with an unpaired surrogate
is `0.0.0.0`. -/
theorem C72_arrays (e : Env) (ph : Phase) :
    e.arrayNoExc ph encUtf16 (.ok (List.replicate 4 0#8)) v4Code [0x31, 0xD800] = .ok [0, 0, 0, 0] :=
  ((C72_arrays_exact encUtf16 encUtf16_law exCfg true true [0x31, 0xD800] e ph).2 ['1'] .wrong_encoding_sequence 0 (by decide +kernel)
    (by decide)).1

end Ip
