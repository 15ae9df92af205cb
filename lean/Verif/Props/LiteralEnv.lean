import Verif.Lemmas.LiteralEnv
/-
C88 (literals with different compilers).
-/
set_option autoImplicit false

namespace Ip
open Spec

/-- C88, every readable text, every compiler, constants and calls at run time: what each literal does.  `fits` is the
length that is accepted where literals are ordinary functions. -/
theorem C88_exact {U : Type} (enc : Enc U) (L : enc.Law) (c : Cfg) (le : Bool) (s : List U) (cs : List Char)
    (h : ReadsUpTo (enc.events s) cs) :
    LiteralMeans (fun e ph => v4LiteralOp e ph enc s) (v4ParseThrow encChar cs) (s.length ≤ 15) ∧
    LiteralMeans (fun e ph => v6LiteralOp e ph c enc s) (v6ParseThrow c encChar cs) (s.length ≤ 41 + c.M) ∧
    LiteralMeans (fun e ph => anyLiteralOp e ph c enc s) (anyParseThrow c encChar cs) (s.length ≤ 41 + c.M) ∧
    LiteralMeans (fun e ph => v4NetLiteralOp e ph le enc s) ((fam4 le).parseNetThrow encChar cs true) (s.length ≤ 31) ∧
    LiteralMeans (fun e ph => v6NetLiteralOp e ph c enc s) ((fam6 c).parseNetThrow encChar cs true) (s.length ≤ 45 + c.M) ∧
    LiteralMeans (fun e ph => anyNetLiteralOp e ph c enc s) (anyNetParseThrow c encChar cs true) (s.length ≤ 83 + 2 * c.M) := by
  obtain ⟨f, h1, h2, h3⟩ := makeFixed_upTo L s 0 cs h
  simp only [List.replicate_zero, List.append_nil] at h1
  have hf : constFixed enc s = some f := by unfold constFixed; rw [h1]
  obtain ⟨k1, k2, k3, k4, k5, k6⟩ := C51_exact enc L c le s cs h
  have hz : ∀ x ∈ f.contents, x ≠ '\x00' := by rw [h2]; exact h.1
  refine ⟨?_, ?_, ?_, ?_, ?_, ?_⟩
  · exact literalMeans_of f hf (by unfold templateParse; rw [h2]; rfl) k1 (fun hn => literal_long L _ _ s hn)
  · exact literalMeans_of f hf (by unfold templateParse; rw [h2]; rfl) k2 (fun hn => literal_long L _ _ s hn)
  · refine literalMeans_of f hf ?_ k3 (fun hn => literal_long L _ _ s hn)
    rw [templateAny_eq _ _ _ _ f h3 hz]
    unfold templateParse anyParseThrow v6ParseThrow
    rw [h2, show encChar.events cs = readChars cs from rfl]
    cases v4FromEvents (readChars cs) with
    | ok b => rfl
    | ub => rfl
    | err code v =>
      cases orRaise encChar cs (v6FromEvents c.spaces c.M (readChars cs)) <;> rfl
  · exact literalMeans_of f hf (by unfold templateParse; rw [h2]; rfl) k4 (fun hn => literal_long L _ _ s (by omega))
  · exact literalMeans_of f hf (by unfold templateParse; rw [h2]; rfl) k5 (fun hn => literal_long L _ _ s (by omega))
  · refine literalMeans_of f hf ?_ k6 (fun hn => literal_long L _ _ s (by omega))
    rw [templateAny_eq _ _ _ _ f h3 hz]
    unfold templateParse anyNetParseThrow Fam.parseNetThrow
    rw [h2, show encChar.events cs = readChars cs from rfl]
    cases (fam4 c.le).parseNet (readChars cs) true with
    | ok b => rfl
    | ub => rfl
    | err code v =>
      dsimp only
      cases orRaise encChar cs ((fam6 c).parseNet (readChars cs) true) <;> rfl

/-- The hypothesis is met by a UTF-16 text with NUL in front of an unpaired surrogate. -/
example := C88_exact encUtf16 encUtf16_law exCfg true [0x31, 0, 0xD800] ['1'] ⟨by decide, .inr ⟨[.bad .wrong_encoding_sequence 0], by decide +kernel⟩⟩

/-- What a compiler says of itself: the language version, `__cpp_constexpr`, and these macros. -/
def compiler (version constexpr : Int) (more : List (String × Int)) : Env :=
  ⟨fun n => if n = "__cplusplus" then some version else if n = "__cpp_constexpr" then some constexpr else more.lookup n, fun _ => true⟩

/-- GCC 11 with `-std=c++17`. -/
def gcc17 : Env := compiler 201703 201603 [("__cpp_nontype_template_args", 201411), ("__GNUC__", 11), ("__has_include", 1)]

/-- GCC 11 with `-std=c++20`. -/
def gcc20 : Env := compiler 202002 201907
  [("__cpp_nontype_template_args", 201911), ("__cpp_consteval", 201811), ("__GNUC__", 11), ("__has_include", 1),
    ("__cpp_lib_three_way_comparison", 201907)]

/-- clang 14 with `-std=c++20`: it has class types as template arguments without saying so, and does not define
`__cpp_consteval`. -/
def clang20 : Env := compiler 202002 201907
  [("__cpp_nontype_template_args", 201411), ("__clang_major__", 14), ("__GNUC__", 4), ("__has_include", 1)]

example : gcc17.configOk = true ∧ gcc20.configOk = true ∧ clang20.configOk = true := by decide +kernel
example : gcc17.nontype = false ∧ gcc20.nontype = true ∧ clang20.nontype = true := by decide +kernel
example : gcc17.constexprKind = .constexpr ∧ gcc20.constevalKind = .consteval ∧ clang20.constevalKind = .constexpr := by decide +kernel

theorem Spec.LiteralMeans.same {α : Type} {op : Env → Phase → LitOut α} {t : Thr α} {fits : Prop} (h : LiteralMeans op t fits)
    (hf : fits) (e₁ e₂ : Env) (p₁ p₂ : Phase) (h1 : Constants e₁) (h2 : Constants e₂) (a : α) :
    op e₁ p₁ = .value a ↔ op e₂ p₂ = .value a := by
  rw [h.value, h.value]
  exact ⟨fun ⟨x, _, _⟩ => ⟨x, .inr hf, fun _ => .inl h2⟩, fun ⟨x, _, _⟩ => ⟨x, .inr hf, fun _ => .inl h1⟩⟩

theorem Spec.LiteralMeans.safe {α : Type} {op : Env → Phase → LitOut α} {t : Thr α} {fits : Prop} (h : LiteralMeans op t fits)
    (e : Env) (ph : Phase) (he : ClassArguments e → Immediate e) : op e ph ≠ .terminates := by
  rw [Ne, h.terminates]
  exact fun ⟨x, y, _⟩ => y (he x)

/-- C88 (partial): a literal has the same value with all compilers, as a constant and at run time.  Missing: texts longer
than the buffer of the literals that are functions, see `C88_longer_violated`; compilers without C++14 `constexpr`, which
have no constants of these classes. -/
theorem C88_same_partial {U : Type} (enc : Enc U) (L : enc.Law) (c : Cfg) (le : Bool) (s : List U) (cs : List Char)
    (h : ReadsUpTo (enc.events s) cs) (e₁ e₂ : Env) (p₁ p₂ : Phase) (h1 : Constants e₁) (h2 : Constants e₂) :
    (s.length ≤ 15 → ∀ a, v4LiteralOp e₁ p₁ enc s = .value a ↔ v4LiteralOp e₂ p₂ enc s = .value a) ∧
    (s.length ≤ 41 + c.M → ∀ a, v6LiteralOp e₁ p₁ c enc s = .value a ↔ v6LiteralOp e₂ p₂ c enc s = .value a) ∧
    (s.length ≤ 41 + c.M → ∀ a, anyLiteralOp e₁ p₁ c enc s = .value a ↔ anyLiteralOp e₂ p₂ c enc s = .value a) ∧
    (s.length ≤ 31 → ∀ a, v4NetLiteralOp e₁ p₁ le enc s = .value a ↔ v4NetLiteralOp e₂ p₂ le enc s = .value a) ∧
    (s.length ≤ 45 + c.M → ∀ a, v6NetLiteralOp e₁ p₁ c enc s = .value a ↔ v6NetLiteralOp e₂ p₂ c enc s = .value a) ∧
    (s.length ≤ 83 + 2 * c.M → ∀ a, anyNetLiteralOp e₁ p₁ c enc s = .value a ↔ anyNetLiteralOp e₂ p₂ c enc s = .value a) := by
  obtain ⟨k1, k2, k3, k4, k5, k6⟩ := C88_exact enc L c le s cs h
  exact ⟨fun hf => k1.same hf e₁ e₂ p₁ p₂ h1 h2, fun hf => k2.same hf e₁ e₂ p₁ p₂ h1 h2, fun hf => k3.same hf e₁ e₂ p₁ p₂ h1 h2,
    fun hf => k4.same hf e₁ e₂ p₁ p₂ h1 h2, fun hf => k5.same hf e₁ e₂ p₁ p₂ h1 h2, fun hf => k6.same hf e₁ e₂ p₁ p₂ h1 h2⟩

example : Constants gcc17 ∧ Constants clang20 := ⟨⟨201603, by decide, by decide +kernel⟩, ⟨201907, by decide, by decide +kernel⟩⟩
example : v4LiteralOp gcc17 (.run false) encChar "127.0.0.1".toList = .value [127, 0, 0, 1] := by decide +kernel
example : v4LiteralOp gcc20 .compile encChar "127.0.0.1".toList = .value [127, 0, 0, 1] := by decide +kernel

/-- C88: full statement of the previous theorem refuted.  With scope ids of 16 characters this IPv6 address of 62
characters, and this IPv4 network of 32 characters, compile with GCC 11 in C++20 mode and throw in C++17 mode. -/
theorem C88_longer_violated :
    (∃ a, v6LiteralOp gcc20 .compile exCfg encChar "1111:2222:3333:4444:5555:6666:255.255.255.255%0123456789abcdef".toList = .value a) ∧
    (∃ x, v6LiteralOp gcc17 (.run false) exCfg encChar "1111:2222:3333:4444:5555:6666:255.255.255.255%0123456789abcdef".toList = .throws x) ∧
    v4NetLiteralOp gcc20 .compile true encChar "192.168.0.0/00000000000000000016".toList = .value ⟨[192, 168, 0, 0], [255, 255, 0, 0], 16⟩ ∧
    ∃ x, v4NetLiteralOp gcc17 (.run false) true encChar "192.168.0.0/00000000000000000016".toList = .throws x := by
  have k := C88_exact encChar encChar_law exCfg true "1111:2222:3333:4444:5555:6666:255.255.255.255%0123456789abcdef".toList _
    ⟨by decide, .inl rfl⟩
  have l := C88_exact encChar encChar_law exCfg true "192.168.0.0/00000000000000000016".toList _ ⟨by decide, .inl rfl⟩
  have hn : ¬ ClassArguments gcc17 := fun h => absurd ((nontype_iff gcc17).2 h) (by decide +kernel)
  refine ⟨?_, ?_, by decide +kernel, ?_⟩
  · obtain ⟨a, ha⟩ := C51_v6_valid_text_too_long.1
    refine ⟨a, (k.2.1.value gcc20 .compile a).2 ⟨?_, .inl ((nontype_iff gcc20).1 (by decide +kernel)),
      fun _ => .inl ⟨201907, by decide, by decide +kernel⟩⟩⟩
    show orRaise encChar _ (v6Parse false 16 _) = _
    rw [ha]
    rfl
  · obtain ⟨w, hw⟩ := k.2.1.long gcc17 (.run false) (by decide) hn (by decide)
    exact ⟨_, hw⟩
  · obtain ⟨w, hw⟩ := l.2.2.2.1.long gcc17 (.run false) (by decide) hn (by decide)
    exact ⟨_, hw⟩

/-- C88 (partial): a literal never ends the program.  Missing: compilers that have class types as template arguments and no
`consteval`, see `C88_terminates_violated`. -/
theorem C88_safe_partial {U : Type} (enc : Enc U) (L : enc.Law) (c : Cfg) (le : Bool) (s : List U) (cs : List Char)
    (h : ReadsUpTo (enc.events s) cs) (e : Env) (ph : Phase) (he : ClassArguments e → Immediate e) :
    v4LiteralOp e ph enc s ≠ .terminates ∧ v6LiteralOp e ph c enc s ≠ .terminates ∧ anyLiteralOp e ph c enc s ≠ .terminates ∧
    v4NetLiteralOp e ph le enc s ≠ .terminates ∧ v6NetLiteralOp e ph c enc s ≠ .terminates ∧
    anyNetLiteralOp e ph c enc s ≠ .terminates := by
  obtain ⟨k1, k2, k3, k4, k5, k6⟩ := C88_exact enc L c le s cs h
  exact ⟨k1.safe e ph he, k2.safe e ph he, k3.safe e ph he, k4.safe e ph he, k5.safe e ph he, k6.safe e ph he⟩

example : ClassArguments gcc20 → Immediate gcc20 := fun _ => (consteval_iff gcc20).1 (by decide +kernel)

/-- C88: full statement of the previous theorem refuted.  clang 14 in C++20 mode compiles these literals, and the program
ends when it comes to them; as constants they are refused. -/
theorem C88_terminates_violated :
    v4LiteralOp clang20 (.run false) encChar "256.0.0.1".toList = .terminates ∧
    v4LiteralOp clang20 .compile encChar "256.0.0.1".toList = .refused ∧
    v4NetLiteralOp clang20 (.run false) true encChar "127.0.0.1/8".toList = .terminates ∧
    anyLiteralOp clang20 (.run false) exCfg encChar "::1::".toList = .terminates := by decide +kernel

/-- C88: unreadable texts never have a value, and are refused wherever literals are templates. -/
theorem C88_unreadable {U : Type} (enc : Enc U) (L : enc.Law) (c : Cfg) (le : Bool) (s : List U) (cs : List Char) (code : ErrorCode)
    (sym : Nat) (h : enc.events s = readChars cs ++ [.bad code sym]) (hz : ∀ x ∈ cs, x ≠ '\x00') (e : Env) (ph : Phase) :
    ((∀ a, v4LiteralOp e ph enc s ≠ .value a) ∧ v4LiteralOp e ph enc s ≠ .terminates) ∧
    ((∀ a, v6LiteralOp e ph c enc s ≠ .value a) ∧ v6LiteralOp e ph c enc s ≠ .terminates) ∧
    ((∀ a, v4NetLiteralOp e ph le enc s ≠ .value a) ∧ v4NetLiteralOp e ph le enc s ≠ .terminates) ∧
    ((∀ a, v6NetLiteralOp e ph c enc s ≠ .value a) ∧ v6NetLiteralOp e ph c enc s ≠ .terminates) := by
  have hc := constFixed_bad L s cs code sym h hz
  obtain ⟨k1, k2, _, k4, k5⟩ := C51_unreadable enc L c le s cs code sym h hz
  have key : ∀ {α : Type} (template : FStr → Thr α) (function : List U → Thr α), (∃ x, function s = .thrown x) →
      (∀ a, e.literalOp ph enc s template function ≠ .value a) ∧ e.literalOp ph enc s template function ≠ .terminates := by
    rintro α template function ⟨x, hx⟩
    unfold Env.literalOp
    rw [hc, hx]
    cases e.nontype
    · simp only [Bool.false_eq_true, if_false]
      cases e.constexprKind <;> cases ph <;> simp [FnKind.call, constant]
    · simp
  have long : ∀ {α : Type} (m : Nat) (parse : List U → Thr α), (s.length ≤ m → ∃ w, literal enc m parse s = .thrown ⟨.parse, code, w⟩) →
      ∃ x, literal enc m parse s = .thrown x := by
    intro α m parse hx
    by_cases hm : s.length ≤ m
    · exact (hx hm).elim fun w hw => ⟨_, hw⟩
    · exact (literal_long L m parse s hm).elim fun w hw => ⟨_, hw⟩
  exact ⟨key _ _ (long 15 _ k1.1), key _ _ (long (41 + c.M) _ k2.1), key _ _ (long 31 _ k4),
    key _ _ (long (41 + c.M + 4) _ (fun hl => k5 (by omega)))⟩

example := C88_unreadable encUtf32 encUtf32_law exCfg true [0x31, 0x100] "1".toList .unexpected_symbol 0x100 (by decide +kernel) (by decide)

/-- C88, integers: below `2^32` the literal is the address with that number; a larger one is refused, or ends the program,
or loses its high bits. -/
theorem C88_integer (e : Env) (ph : Phase) (debug : Bool) (v : BitVec 64) (he : Constants e) :
    (v.toNat < 2 ^ 32 → ∃ a, v4IntLiteralOp e ph true debug v = .value a ∧ number4 a = v.toNat) ∧
    (2 ^ 32 ≤ v.toNat → (∃ a, v4IntLiteralOp e ph true debug v = .value a) → debug = false ∨ ¬ ClassArguments e) ∧
    (2 ^ 32 ≤ v.toNat → ClassArguments e → debug = true → (Immediate e ∨ ph = .compile) → v4IntLiteralOp e ph true debug v = .refused) := by
  have hle : v ≤ 0xFFFFFFFF#64 ↔ v.toNat < 2 ^ 32 := by
    rw [BitVec.le_def]
    show v.toNat ≤ 4294967295 ↔ _
    omega
  have hk := constexpr_cases e
  have hv := consteval_cases e
  have hn := nontype_iff e
  unfold v4IntLiteralOp
  refine ⟨fun h => ?_, fun h => ?_, fun h hc hd hi => ?_⟩
  · have h62 := ((C62_integer debug v).1 h).2.2
    refine ⟨v4IntLiteral true v, ?_, h62⟩
    have hx : ¬ (debug = true ∧ ¬ v ≤ 0xFFFFFFFF#64) := fun hx => hx.2 (hle.2 h)
    by_cases hnt : e.nontype = true
    · rw [if_pos hnt, if_neg hx]
      rcases hv with ⟨_, k⟩ | ⟨_, _, k⟩ | ⟨_, k', _⟩
      · rw [k]; rfl
      · rw [k]; cases ph <;> rfl
      · exact absurd he k'
    · rw [if_neg hnt]
      rcases hk with ⟨_, k⟩ | ⟨k', _⟩
      · rw [k]; cases ph <;> rfl
      · exact absurd he k'
  · rintro ⟨a, ha⟩
    cases debug with
    | false => exact .inl rfl
    | true =>
      right
      intro hc
      rw [if_pos (hn.2 hc), if_pos ⟨rfl, fun hx => by have := hle.1 hx; omega⟩] at ha
      rcases hv with ⟨_, k⟩ | ⟨_, _, k⟩ | ⟨_, k', _⟩
      · rw [k] at ha; cases ha
      · rw [k] at ha; cases ph <;> cases ha
      · exact absurd he k'
  · rw [if_pos (hn.2 hc), if_pos ⟨hd, fun hx => by have := hle.1 hx; omega⟩]
    rcases hi with hi | hi
    · rw [(consteval_iff e).2 hi]
    · rw [hi]
      cases e.constevalKind <;> rfl

example : v4IntLiteralOp gcc20 .compile true true 0x7F000001#64 = .value [127, 0, 0, 1] := by decide +kernel
/-- A number that is too large: three outcomes. -/
example : v4IntLiteralOp gcc20 .compile true true 0x17F000001#64 = .refused ∧
    v4IntLiteralOp clang20 (.run false) true true 0x17F000001#64 = .terminates ∧
    v4IntLiteralOp gcc17 .compile true true 0x17F000001#64 = .value [127, 0, 0, 1] := by decide +kernel

/-- C88: where the header compiles, and where comparisons use `operator<=>`. -/
theorem C88_settings (e : Env) :
    (e.configOk = true ↔ 199711 < e.cplusplus ∧ (∃ v, e.macros "__cpp_constexpr" = some v) ∧ ∀ v, e.macros "_MSC_VER" = some v → 1800 < v) ∧
    (e.hasSpaceship = true ↔ e.macros "IPADDRESS_NO_SPACESHIP_OPERATOR" = none ∧ (∃ v, e.macros "__has_include" = some v) ∧
      Has e "__cpp_lib_three_way_comparison" 201907 ∧ e.headers "<compare>" = true) := by
  constructor
  · unfold Env.configOk Env.cppVersion Env.defd Env.val
    cases e.macros "__cpp_constexpr" <;> cases e.macros "_MSC_VER" <;> simp <;> (repeat' split) <;> simp <;> omega
  · unfold Env.hasSpaceship Env.defd Env.val Has
    cases e.macros "IPADDRESS_NO_SPACESHIP_OPERATOR" <;> cases e.macros "__has_include" <;>
      cases e.macros "__cpp_lib_three_way_comparison" <;> simp

example : gcc20.hasSpaceship = true ∧ gcc17.hasSpaceship = false := by decide +kernel

end Ip
