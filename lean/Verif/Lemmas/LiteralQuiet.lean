import Verif.Model.LiteralQuiet
import Verif.Spec.LiteralQuiet
import Verif.Spec.Report
import Verif.Lemmas.LiteralEnv
import Verif.Lemmas.Report
import Verif.Lemmas.NulText
/-
Lemmas for C96.
-/
set_option autoImplicit false

namespace Ip
open Spec

theorem has_val (e : Env) (n : String) (v : Int) (hv : 0 < v) : Has e n v ↔ e.val n ≥ v := by
  rw [has_iff]
  unfold Env.defd Env.val
  cases e.macros n with
  | none => simp; omega
  | some x => simp

theorem stops_iff (e : Env) (ph : Phase) : Stops e ph ↔ e.constEvaluated ph = true := by
  unfold Env.constEvaluated
  cases ph with
  | compile =>
    unfold Stops
    rw [has_val _ _ _ (by decide), has_val _ _ _ (by decide)]
    by_cases h1 : e.val "__cpp_lib_is_constant_evaluated" ≥ 201811
    · simp [h1]
    · by_cases h2 : e.val "__GNUC__" ≥ 9
      · simp [h1, h2]; omega
      · by_cases h3 : e.val "__GNUC__" ≥ 6 <;> simp [h1, h2, h3]
  | run known =>
    unfold Stops
    rw [has_val _ _ _ (by decide), has_val _ _ _ (by decide), has_val _ _ _ (by decide)]
    by_cases h1 : e.val "__cpp_lib_is_constant_evaluated" ≥ 201811
    · simp [h1]
    · by_cases h2 : e.val "__GNUC__" ≥ 9
      · simp [h1, h2]
      · by_cases h3 : e.val "__GNUC__" ≥ 6 <;> simp [h1, h2, h3] <;> omega

/-- The outcome without exceptions of what does `t` with them. -/
def settle {α : Type} (stops : Bool) (t : Thr α) (d : α) : Res α :=
  match t with
  | .ret a => .ok a
  | .thrown _ => if stops then .ub else .ok d
  | .ub => .ub

theorem orRaiseNoExc_eq {α U : Type} {enc : Enc U} (L : enc.Law) (e : Env) (ph : Phase) {d : Res α} {x : α} (hd : d = .ok x)
    (r : Res α) (text : List U) :
    e.orRaiseNoExc ph (fun _ => setCode d r none) = settle (e.constEvaluated ph) (orRaise enc text r) x := by
  subst hd
  unfold Env.orRaiseNoExc orRaise settle
  cases r with
  | ok a => rfl
  | ub => rfl
  | err c v =>
    obtain ⟨w, hw⟩ := raise_eq (α := α) L c v text
    simp only [hw, setCode, Res.ok_bind, Env.raiseNoExc]
    cases e.constEvaluated ph <;> simp

theorem arrayNoExc_read {α U : Type} {enc : Enc U} (e : Env) (ph : Phase) {d : Res α} {x : α} (hd : d = .ok x)
    (parse : List Ev → Res α) (units : List U) (f : FStr) (hf : makeFixed enc units = .ok f) :
    e.arrayNoExc ph enc d (fun evs _ => setCode d (parse evs) none) units =
      settle (e.constEvaluated ph) (arrayParseThrow enc parse units) x := by
  unfold Env.arrayNoExc arrayParseThrow
  rw [(makeFixedCode_eq enc units none).1 f hf, hf]
  simp only [Res.ok_bind, if_true]
  exact orRaiseNoExc_eq encChar_law e ph hd _ _

theorem arrayNoExc_bad {α U : Type} {enc : Enc U} (e : Env) (ph : Phase) {d : Res α} {x : α} (hd : d = .ok x)
    (parse : List Ev → Code → Res (Code × α)) (units : List U) (code : ErrorCode) (sym : Nat) (hf : makeFixed enc units = .err code sym) :
    e.arrayNoExc ph enc d parse units = .ok x := by
  unfold Env.arrayNoExc
  obtain ⟨f, h⟩ := (makeFixedCode_eq enc units none).2.1 _ _ hf
  rw [h, hd]
  simp

theorem arrayNoExc_quiet {α U : Type} {enc : Enc U} (L : enc.Law) (e : Env) (ph : Phase) (hs : e.constEvaluated ph = false)
    {d : Res α} {x : α} (hd : d = .ok x) (parse : List Ev → Res α) (units : List U) :
    e.arrayNoExc ph enc d (fun evs _ => setCode d (parse evs) none) units = settle false (arrayParseThrow enc parse units) x := by
  cases h : makeFixed enc units with
  | ok f => rw [arrayNoExc_read e ph hd parse units f h, hs]
  | err c v =>
    rw [arrayNoExc_bad e ph hd _ units c v h]
    unfold arrayParseThrow
    rw [h]
    obtain ⟨w, hw⟩ := raise_eq (α := α) L c v units
    simp only [hw]
    rfl
  | ub => exact absurd h (makeFixedCode_eq enc units none).2.2

/-- Two parsers of text, with exceptions. -/
def twoThrow {α β γ : Type} (f : α → γ) (g : β → γ) (r4 : Res α) (t6 : Thr β) : Thr γ :=
  match r4 with
  | .ok a => .ret (f a)
  | .err _ _ => (match t6 with
    | .ret b => .ret (g b)
    | .thrown w => .thrown w
    | .ub => .ub)
  | .ub => .ub

/-- Two parsers, the second of which raises. -/
theorem anyNoExc_eq {α β γ : Type} (f : α → γ) (g : β → γ) {d4 : Res α} {x4 : α} (h4 : d4 = .ok x4) (r4 : Res α) (q6 : Res β)
    (stops : Bool) (t6 : Thr β) (x6 : β) (hq : q6 = settle stops t6 x6) :
    anyQuiet f g (fun _ => setCode d4 r4 none) q6 =
      settle stops (twoThrow f g r4 t6) (g x6) := by
  subst h4 hq
  unfold anyQuiet settle twoThrow
  cases r4 with
  | ok a => simp [setCode]
  | ub => simp [setCode]
  | err c v => cases t6 <;> cases stops <;> simp [setCode]

theorem fixedCodeLoop_bad (code : ErrorCode) (sym : Nat) : ∀ (cs done : List Char) (n : Nat) (c : Code), (∀ x ∈ cs, x ≠ '\x00') →
    cs.length < n → ∃ f, fixedCodeLoop n (readChars cs ++ [.bad code sym]) c (done ++ List.replicate n '\x00') done.length = .ok (some code, f) ∧
      f.contents = done ++ cs ∧ f.length ≤ f.data.length
  | [], done, n + 1, c, _, _ => by
    refine ⟨⟨done ++ List.replicate (n + 1) '\x00', done.length⟩, ?_, ?_, ?_⟩
    · simp [readChars, fixedCodeLoop, wr, List.replicate_succ]
    · simp [FStr.contents]
    · simp
  | x :: cs, done, n + 1, c, hz, hn => by
    have hx := hz x (by simp)
    obtain ⟨f, h1, h2, h3⟩ := fixedCodeLoop_bad code sym cs (done ++ [x]) n none (fun y hy => hz y (by simp [hy])) (by simpa using hn)
    refine ⟨f, ?_, by simpa using h2, h3⟩
    simp only [List.length_append, List.length_cons, List.length_nil, Nat.zero_add, List.append_assoc, List.singleton_append] at h1
    simp [readChars, fixedCodeLoop, wr, List.replicate_succ, hx]
    exact h1

theorem makeFixedCode_bad {U : Type} {enc : Enc U} (L : enc.Law) (s : List U) (cs : List Char) (code : ErrorCode) (sym : Nat)
    (h : enc.events s = readChars cs ++ [.bad code sym]) (hz : ∀ x ∈ cs, x ≠ '\x00') :
    ∃ f, makeFixedCode enc s none = .ok (some code, f) ∧ f.contents = cs ∧ f.length ≤ f.data.length := by
  have hl := L.events_length _ s (Nat.le_refl _)
  rw [h] at hl
  simp [readChars] at hl
  unfold makeFixedCode
  rw [if_neg (by omega), h]
  obtain ⟨f, h1, h2, h3⟩ := fixedCodeLoop_bad code sym cs [] s.length none hz (by omega)
  exact ⟨f, by simpa using h1, by simpa using h2, h3⟩

/-- What the caller sees of a body that does `r`. -/
def litShown {α : Type} (bad : LitOut α) (r : Res α) : LitOut α :=
  match r with
  | .ok a => .value a
  | _ => bad

theorem gives_settle {α : Type} (bad : LitOut α) (P : Prop) (stops : Bool) (hP : P ↔ stops = true) (t : Thr α) (d : α) :
    Gives (litShown bad (settle stops t d)) bad P t d := by
  refine ⟨?_, ?_, ?_⟩
  · rintro a rfl; rfl
  · rintro x rfl
    refine ⟨fun h => ?_, fun h => ?_⟩
    · rw [hP.1 h]; rfl
    · have : stops = false := by
        cases stops with
        | false => rfl
        | true => exact absurd (hP.2 rfl) h
      rw [this]; rfl
  · rintro rfl; rfl

theorem call_run {α : Type} (k : FnKind) (hk : k ≠ .consteval) (known : Bool) (body : Phase → Res α) :
    k.callNoExc (.run known) body = litShown .undefined (body (.run known)) := by
  cases k with
  | consteval => exact absurd rfl hk
  | plain => rfl
  | constexpr => rfl

theorem constexprKind_run (e : Env) : e.constexprKind ≠ .consteval := by
  rcases constexpr_cases e with ⟨_, h⟩ | ⟨_, h⟩ <;> rw [h] <;> exact fun h => by cases h

theorem quietMeans_of {α U : Type} {enc : Enc U} {s : List U} {template : Env → Phase → FStr → Res α}
    {function : Env → Phase → List U → Res α} {t cut : Thr α} {d : α} {fits : Prop} (f : FStr)
    (hf : makeFixedCode enc s none = .ok (none, f))
    (ht : ∀ e ph, template e ph f = settle (e.constEvaluated ph) t d)
    (h1 : fits → ∀ e ph, function e ph s = settle (e.constEvaluated ph) t d)
    (h2 : ¬ fits → ∀ e ph, function e ph s = if e.constEvaluated ph then .ub else settle false cut d) :
    QuietMeans (fun e ph => e.literalOpNoExc ph enc s (template e) (function e)) t cut d fits := by
  have yes : ∀ (e : Env) (ph : Phase), ClassArguments e → e.literalOpNoExc ph enc s (template e) (function e) =
      e.constevalKind.callNoExc ph (fun ph => settle (e.constEvaluated ph) t d) := by
    intro e ph h
    unfold Env.literalOpNoExc Env.fixedNoExc
    rw [if_pos ((nontype_iff e).2 h), hf]
    simp only [ht]
  have no : ∀ (e : Env) (ph : Phase), ¬ ClassArguments e → e.literalOpNoExc ph enc s (template e) (function e) =
      e.constexprKind.callNoExc ph (fun ph => function e ph s) := by
    intro e ph h
    unfold Env.literalOpNoExc
    rw [if_neg (fun h' => h ((nontype_iff e).1 h'))]
  refine ⟨fun e hc ha => ?_, fun e ph hp => ⟨fun hw => ?_, fun hn hn' => ?_⟩, fun e known ha => ⟨fun hw => ?_, fun hn hn' => ?_⟩⟩
  · by_cases hn : ClassArguments e
    · simp only [yes e _ hn]
      rcases consteval_cases e with ⟨h, _⟩ | ⟨_, h, _⟩ | ⟨_, _, h⟩
      · exact absurd ⟨hn, h⟩ ha
      · exact absurd h hc
      · rw [h]; rfl
    · simp only [no e _ hn]
      rcases constexpr_cases e with ⟨h, _⟩ | ⟨_, h⟩
      · exact absurd h hc
      · rw [h]; rfl
  · by_cases hn : ClassArguments e
    · have : e.literalOpNoExc ph enc s (template e) (function e) = litShown .refused (settle (e.constEvaluated .compile) t d) := by
        rw [yes e ph hn]
        rcases consteval_cases e with ⟨_, h⟩ | ⟨h', _, h⟩ | ⟨h', h'', h⟩
        · rw [h]; cases ph <;> rfl
        · rcases hp with hp | ⟨rfl, _⟩
          · exact absurd hp.2 h'
          · rw [h]; rfl
        · rcases hp with hp | ⟨_, hp⟩
          · exact absurd hp.2 h'
          · exact absurd hp h''
      simp only [this]
      exact gives_settle _ _ _ (stops_iff e .compile) t d
    · have hfit := hw.resolve_left hn
      rcases hp with hp | ⟨rfl, hp⟩
      · exact absurd hp.1 hn
      have : e.literalOpNoExc .compile enc s (template e) (function e) = litShown .refused (settle (e.constEvaluated .compile) t d) := by
        rw [no e _ hn]
        rcases constexpr_cases e with ⟨_, h⟩ | ⟨h', _⟩
        · rw [h]; simp only [h1 hfit]; rfl
        · exact absurd hp h'
      simp only [this]
      exact gives_settle _ _ _ (stops_iff e .compile) t d
  · rcases hp with hp | ⟨rfl, hp⟩
    · exact absurd hp.1 hn
    have : e.literalOpNoExc .compile enc s (template e) (function e) =
        litShown .refused (if e.constEvaluated .compile then .ub else settle false cut d) := by
      rw [no e _ hn]
      rcases constexpr_cases e with ⟨_, h⟩ | ⟨h', _⟩
      · rw [h]; simp only [h2 hn']; rfl
      · exact absurd hp h'
    simp only [this]
    refine ⟨fun hs => ?_, fun hs => ?_⟩
    · rw [(stops_iff e _).1 hs]; rfl
    · rw [if_neg (fun h => hs ((stops_iff e _).2 h))]
      exact gives_settle _ _ _ (by simp) cut d
  · by_cases hn : ClassArguments e
    · have : e.literalOpNoExc (.run known) enc s (template e) (function e) =
          litShown .undefined (settle (e.constEvaluated (.run known)) t d) := by
        rw [yes e _ hn, call_run _ (fun h => ha ⟨hn, (consteval_iff e).1 h⟩)]
      simp only [this]
      exact gives_settle _ _ _ (stops_iff e _) t d
    · have : e.literalOpNoExc (.run known) enc s (template e) (function e) =
          litShown .undefined (settle (e.constEvaluated (.run known)) t d) := by
        rw [no e _ hn, call_run _ (constexprKind_run e), h1 (hw.resolve_left hn)]
      simp only [this]
      exact gives_settle _ _ _ (stops_iff e _) t d
  · have : e.literalOpNoExc (.run known) enc s (template e) (function e) =
        litShown .undefined (if e.constEvaluated (.run known) then .ub else settle false cut d) := by
      rw [no e _ hn, call_run _ (constexprKind_run e), h2 hn']
    simp only [this]
    refine ⟨fun hs => ?_, fun hs => ?_⟩
    · rw [(stops_iff e _).1 hs]; rfl
    · rw [if_neg (fun h => hs ((stops_iff e _).2 h))]
      exact gives_settle _ _ _ (by simp) cut d

theorem stops_run (e : Env) (known : Bool) (h : ¬ Stops e .compile) : e.constEvaluated (.run known) = false := by
  cases hc : e.constEvaluated (.run known) with
  | false => rfl
  | true =>
    have := (stops_iff e _).2 hc
    exact absurd (.inr this.2.2.1) h

theorem unreadableMeans_of {α U : Type} {enc : Enc U} {s : List U} {template : Env → Phase → FStr → Res α}
    {function : Env → Phase → List U → Res α} {t cut : Thr α} {d : α} {fits : Prop} (f : FStr) (code : ErrorCode)
    (hf : makeFixedCode enc s none = .ok (some code, f))
    (ht : ∀ e ph, template e ph f = settle (e.constEvaluated ph) t d)
    (h1 : fits → ∀ e ph, function e ph s = .ok d)
    (h2 : ¬ fits → ∀ e ph, function e ph s = if e.constEvaluated ph then .ub else settle false cut d) :
    UnreadableMeans (fun e ph => e.literalOpNoExc ph enc s (template e) (function e)) t cut d fits := by
  have yes : ∀ (e : Env) (ph : Phase), ClassArguments e → ¬ Stops e .compile → e.literalOpNoExc ph enc s (template e) (function e) =
      e.constevalKind.callNoExc ph (fun ph => settle (e.constEvaluated ph) t d) := by
    intro e ph h hs
    unfold Env.literalOpNoExc Env.fixedNoExc Env.raiseNoExc
    rw [if_pos ((nontype_iff e).2 h), hf]
    simp only
    rw [if_neg (fun h => hs ((stops_iff e _).2 h))]
    simp only [ht]
  have ref : ∀ (e : Env) (ph : Phase), ClassArguments e → Stops e .compile → e.literalOpNoExc ph enc s (template e) (function e) =
      .refused := by
    intro e ph h hs
    unfold Env.literalOpNoExc Env.fixedNoExc Env.raiseNoExc
    rw [if_pos ((nontype_iff e).2 h), hf]
    simp only
    rw [if_pos ((stops_iff e _).1 hs)]
  have no : ∀ (e : Env) (ph : Phase), ¬ ClassArguments e → e.literalOpNoExc ph enc s (template e) (function e) =
      e.constexprKind.callNoExc ph (fun ph => function e ph s) := by
    intro e ph h
    unfold Env.literalOpNoExc
    rw [if_neg (fun h' => h ((nontype_iff e).1 h'))]
  have form : ∀ (e : Env) (ph : Phase), ¬ ClassArguments e → (ph = .compile → Constants e) →
      e.literalOpNoExc ph enc s (template e) (function e) =
        litShown (if ph = .compile then .refused else .undefined) (function e ph s) := by
    intro e ph hn hp
    rw [no e ph hn]
    cases ph with
    | compile =>
      rcases constexpr_cases e with ⟨_, h⟩ | ⟨h', _⟩
      · rw [h]; rfl
      · exact absurd (hp rfl) h'
    | run known => rw [call_run _ (constexprKind_run e)]; rfl
  refine ⟨fun e hc ha => ?_, ref, fun e ph hn hs hp => ?_, fun e known hn hs hi => ?_, fun e ph hn hfit hp => ?_, fun e ph hn hfit hp => ?_⟩
  · by_cases hn : ClassArguments e
    · by_cases hs : Stops e .compile
      · exact ref e _ hn hs
      simp only [yes e _ hn hs]
      rcases consteval_cases e with ⟨h, _⟩ | ⟨_, h, _⟩ | ⟨_, _, h⟩
      · exact absurd ⟨hn, h⟩ ha
      · exact absurd h hc
      · rw [h]; rfl
    · simp only [no e _ hn]
      rcases constexpr_cases e with ⟨h, _⟩ | ⟨_, h⟩
      · exact absurd h hc
      · rw [h]; rfl
  · have : e.literalOpNoExc ph enc s (template e) (function e) = litShown .refused (settle (e.constEvaluated .compile) t d) := by
      rw [yes e ph hn hs]
      rcases consteval_cases e with ⟨_, h⟩ | ⟨h', _, h⟩ | ⟨h', h'', h⟩
      · rw [h]; cases ph <;> rfl
      · rcases hp with hp | ⟨rfl, _⟩
        · exact absurd hp h'
        · rw [h]; rfl
      · rcases hp with hp | ⟨_, hp⟩
        · exact absurd hp h'
        · exact absurd hp h''
    simp only [this]
    exact gives_settle _ _ _ ⟨fun h => h.elim, fun h => hs ((stops_iff e _).2 h)⟩ t d
  · simp only [yes e _ hn hs]
    rw [call_run _ (fun h => hi ((consteval_iff e).1 h))]
    exact gives_settle _ _ _ (by rw [stops_run e known hs]; simp) t d
  · simp only [form e ph hn hp, h1 hfit]
    rfl
  · simp only [form e ph hn hp, h2 hfit]
    refine ⟨fun hs => ?_, fun hs => ?_⟩
    · rw [(stops_iff e _).1 hs]; rfl
    · rw [if_neg (fun h => hs ((stops_iff e _).2 h))]
      exact gives_settle _ _ _ (by simp) cut d

theorem literalNoExc_eq {α U : Type} {enc : Enc U} (e : Env) (ph : Phase) (m : Nat) (parse : List U → Res α) (s : List U) :
    (s.length ≤ m → e.literalNoExc ph enc m parse s = parse (s ++ List.replicate (m - s.length) enc.zero)) ∧
    (¬ s.length ≤ m → e.literalNoExc ph enc m parse s = if e.constEvaluated ph then .ub else parse (s.take m)) := by
  have hq := literalQuiet_eq enc m parse s
  unfold literalQuiet at hq
  unfold Env.literalNoExc Env.raiseNoExc
  refine ⟨fun h => ?_, fun h => ?_⟩
  · rw [if_neg (by omega)]
    rw [List.take_of_length_le h] at hq
    exact hq
  · rw [if_pos (by omega)]
    cases e.constEvaluated ph
    · rw [show m - s.length = 0 by omega] at hq
      simp only [List.replicate_zero, List.append_nil] at hq
      exact hq
    · rfl

theorem templateAnyNoExc_eq {α β γ : Type} (f4 : α → γ) (f6 : β → γ) {d4 : Res α} {x4 : α} (h4 : d4 = .ok x4) (parse4 : List Ev → Res α)
    (q6 : FStr → Res β) (f : FStr) (hf : f.length ≤ f.data.length) (hz : ∀ x ∈ f.contents, x ≠ '\x00') :
    templateAnyNoExc f4 f6 d4 (fun evs _ => setCode d4 (parse4 evs) none) q6 f =
      anyQuiet f4 f6 (fun _ => setCode d4 (parse4 (readChars f.contents)) none) (q6 f) := by
  have hc := literalCopy_eq '\x00' f.data f.length 0 (f.length + 1) (by omega) (by omega)
  simp only [List.take_zero, List.nil_append, Nat.zero_add] at hc
  unfold templateAnyNoExc
  rw [hc]
  simp only [Res.ok_bind]
  have ht : (f.data.take f.length ++ List.replicate (f.length + 1 - f.length) '\x00').take f.length = f.contents := by
    rw [List.take_append_of_le_length (by simp; omega), List.take_take, Nat.min_self]
    rfl
  have h2 : arrayParse encChar parse4 f.contents = parse4 (readChars f.contents) := by
    obtain ⟨g, h1, h2⟩ := (makeFixed_pad encChar_law f.contents 0).1 f.contents rfl hz
    simp only [List.replicate_zero, List.append_nil] at h1
    unfold arrayParse
    rw [h1, Res.ok_bind, h2]
  rw [ht, arrayCode_eq encChar h4, h2]
  rfl

end Ip
