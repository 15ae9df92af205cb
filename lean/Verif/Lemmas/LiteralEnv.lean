import Verif.Spec.LiteralEnv
import Verif.Props.Config
import Verif.Props.NulText
set_option autoImplicit false

namespace Ip
open Spec

theorem has_iff (e : Env) (n : String) (v : Int) : Has e n v ↔ (e.defd n && decide (e.val n ≥ v)) = true := by
  unfold Has Env.defd Env.val
  cases e.macros n with
  | none => simp
  | some x => simp

theorem cpp20 (e : Env) : 20 ≤ e.cppVersion.getD 0 ↔ e.cppVersion = some 20 := by
  unfold Env.cppVersion
  split
  · simp
  · split
    · simp
    · split
      · simp
      · split <;> simp

theorem nontype_iff (e : Env) : e.nontype = true ↔ ClassArguments e := by
  unfold ClassArguments Env.nontype
  rw [has_iff, has_iff, has_iff, has_iff, ← cpp20]
  have h0 : (∃ x, e.macros "__cpp_nontype_template_parameter_class" = some x) ↔ e.defd "__cpp_nontype_template_parameter_class" = true := by
    unfold Env.defd
    cases e.macros "__cpp_nontype_template_parameter_class" <;> simp
  have h1 : e.macros "__apple_build_version__" = none ↔ e.defd "__apple_build_version__" = false := by
    unfold Env.defd
    cases e.macros "__apple_build_version__" <;> simp
  rw [h0, h1]
  generalize e.defd "__cpp_nontype_template_parameter_class" = a
  generalize e.defd "__cpp_nontype_template_args" = b
  generalize e.defd "__apple_build_version__" = d
  generalize e.defd "__clang_major__" = f
  generalize e.val "__cpp_nontype_template_args" = n
  generalize e.val "__clang_major__" = m
  generalize e.cppVersion.getD 0 = k
  cases a <;> cases b <;> cases d <;> cases f <;> simp <;> (repeat' split) <;> (try simp_all) <;> (try omega)

theorem consteval_iff (e : Env) : e.constevalKind = .consteval ↔ Immediate e := by
  unfold Immediate Env.constevalKind Env.constexprKind
  rw [has_iff]
  split
  · simp_all
  · rename_i h
    constructor
    · intro h'
      split at h' <;> cases h'
    · intro h'
      exact absurd h' h

theorem constants_iff (e : Env) : Constants e ↔ 201304 ≤ e.val "__cpp_constexpr" := by
  unfold Constants
  constructor
  · rintro ⟨x, h, rfl⟩
    exact h
  · exact fun h => ⟨_, h, rfl⟩

theorem constexpr_cases (e : Env) :
    (Constants e ∧ e.constexprKind = .constexpr) ∨ (¬ Constants e ∧ e.constexprKind = .plain) := by
  rw [constants_iff]
  unfold Env.constexprKind
  by_cases h : e.val "__cpp_constexpr" ≥ 201304
  · exact .inl ⟨h, if_pos h⟩
  · exact .inr ⟨h, if_neg h⟩

theorem consteval_cases (e : Env) : (Immediate e ∧ e.constevalKind = .consteval) ∨
    (¬ Immediate e ∧ Constants e ∧ e.constevalKind = .constexpr) ∨ (¬ Immediate e ∧ ¬ Constants e ∧ e.constevalKind = .plain) := by
  by_cases h : Immediate e
  · exact .inl ⟨h, (consteval_iff e).2 h⟩
  · have : e.constevalKind = e.constexprKind := by
      have h' := h
      unfold Immediate at h'
      rw [has_iff] at h'
      unfold Env.constevalKind
      rw [if_neg h']
    rcases constexpr_cases e with ⟨h1, h2⟩ | ⟨h1, h2⟩
    · exact .inr (.inl ⟨h, h1, by rw [this, h2]⟩)
    · exact .inr (.inr ⟨h, h1, by rw [this, h2]⟩)

/-- What the operator does, from what its two forms do. -/
theorem literalMeans_of {α U : Type} {enc : Enc U} {s : List U} {template : FStr → Thr α} {function : List U → Thr α} {t : Thr α}
    {fits : Prop} (f : FStr) (hf : constFixed enc s = some f) (ht : template f = t) (h1 : fits → function s = t)
    (h2 : ¬ fits → ∃ w, function s = .thrown ⟨.parse, .string_is_too_long, w⟩) :
    LiteralMeans (fun e ph => e.literalOp ph enc s template function) t fits := by
  have form : ∀ (e : Env) (ph : Phase), e.literalOp ph enc s template function =
      if e.nontype then e.constevalKind.call true ph t else e.constexprKind.call false ph (function s) := by
    intro e ph
    unfold Env.literalOp
    rw [hf, ← ht]
  have cases2 : ∀ {P : Prop}, (fits → function s = t → P) → (¬ fits → (∃ w, function s = .thrown ⟨.parse, .string_is_too_long, w⟩) → P) → P := by
    intro P a b
    by_cases h : fits
    · exact a h (h1 h)
    · exact b h (h2 h)
  refine ⟨fun e ph a => ?_, fun e ph => ?_, fun e ph x hfit => ?_, fun e ph hfit hn hp => ?_, fun e ph => ?_⟩
  · rw [form]
    by_cases hn : e.nontype = true
    · have hc := (nontype_iff e).1 hn
      rw [if_pos hn]
      rcases consteval_cases e with ⟨a1, a2⟩ | ⟨a1, a3, a2⟩ | ⟨a1, a3, a2⟩ <;> rw [a2] <;> cases ph <;> cases t <;>
        simp [FnKind.call, constant, a1, hc] <;> simp_all
    · have hc : ¬ ClassArguments e := fun h => hn ((nontype_iff e).2 h)
      rw [if_neg hn]
      apply cases2
      · intro g1 g2
        rw [g2]
        rcases constexpr_cases e with ⟨a1, a2⟩ | ⟨a1, a2⟩ <;> rw [a2] <;> cases ph <;> cases t <;>
          simp [FnKind.call, constant, a1, hc, g1]
      · rintro g1 ⟨w, g2⟩
        rw [g2]
        rcases constexpr_cases e with ⟨a1, a2⟩ | ⟨a1, a2⟩ <;> rw [a2] <;> cases ph <;> cases t <;>
          simp [FnKind.call, constant, hc, g1]
  · rw [form]
    by_cases hn : e.nontype = true
    · have hc := (nontype_iff e).1 hn
      rw [if_pos hn]
      rcases consteval_cases e with ⟨a1, a2⟩ | ⟨a1, a3, a2⟩ | ⟨a1, a3, a2⟩ <;> rw [a2] <;> cases ph <;> cases t <;>
        simp [FnKind.call, constant, a1, hc]
    · have hc : ¬ ClassArguments e := fun h => hn ((nontype_iff e).2 h)
      rw [if_neg hn]
      rcases constexpr_cases e with ⟨a1, a2⟩ | ⟨a1, a2⟩ <;> rw [a2] <;> cases ph <;> cases function s <;>
        simp [FnKind.call, constant, hc]
  · rw [form]
    by_cases hn : e.nontype = true
    · have hc := (nontype_iff e).1 hn
      rw [if_pos hn]
      rcases consteval_cases e with ⟨a1, a2⟩ | ⟨a1, a3, a2⟩ | ⟨a1, a3, a2⟩ <;> rw [a2] <;> cases ph <;> cases t <;>
        simp [FnKind.call, constant, hc]
    · have hc : ¬ ClassArguments e := fun h => hn ((nontype_iff e).2 h)
      rw [if_neg hn, h1 hfit]
      rcases constexpr_cases e with ⟨a1, a2⟩ | ⟨a1, a2⟩ <;> rw [a2] <;> cases ph <;> cases t <;>
        simp [FnKind.call, constant, hc]
  · rw [form, if_neg (fun h => hn ((nontype_iff e).1 h))]
    obtain ⟨w, hw⟩ := h2 hfit
    refine ⟨w, ?_⟩
    rw [hw]
    cases ph with
    | compile => exact absurd rfl hp
    | run k => rcases constexpr_cases e with ⟨a1, a2⟩ | ⟨a1, a2⟩ <;> rw [a2] <;> rfl
  · rw [form]
    by_cases hn : e.nontype = true
    · have hc := (nontype_iff e).1 hn
      rw [if_pos hn]
      rcases consteval_cases e with ⟨a1, a2⟩ | ⟨a1, a3, a2⟩ | ⟨a1, a3, a2⟩ <;> rw [a2] <;> cases ph <;> cases t <;>
        simp [FnKind.call, constant, a1, hc]
    · have hc : ¬ ClassArguments e := fun h => hn ((nontype_iff e).2 h)
      rw [if_neg hn]
      apply cases2
      · intro g1 g2
        rw [g2]
        rcases constexpr_cases e with ⟨a1, a2⟩ | ⟨a1, a2⟩ <;> rw [a2] <;> cases ph <;> cases t <;>
          simp [FnKind.call, constant, hc, g1]
      · rintro g1 ⟨w, g2⟩
        rw [g2]
        rcases constexpr_cases e with ⟨a1, a2⟩ | ⟨a1, a2⟩ <;> rw [a2] <;> cases ph <;>
          simp [FnKind.call, constant, hc, g1]

theorem templateAny_eq {α β γ : Type} (f4 : α → γ) (f6 : β → γ) (parse4 : List Ev → Res α) (parse6 : List Ev → Res β) (f : FStr)
    (hf : f.length ≤ f.data.length) (hz : ∀ x ∈ f.contents, x ≠ '\x00') :
    templateAny f4 f6 parse4 parse6 f =
      match parse4 (readChars f.contents) with
      | .ok a => .ret (f4 a)
      | .err _ _ =>
        match templateParse parse6 f with
        | .ret b => .ret (f6 b)
        | .thrown x => .thrown x
        | .ub => .ub
      | .ub => .ub := by
  have hc := literalCopy_eq '\x00' f.data f.length 0 (f.length + 1) (by omega) (by omega)
  simp only [List.take_zero, List.nil_append, Nat.zero_add] at hc
  unfold templateAny
  rw [hc]
  simp only
  have ht : (f.data.take f.length ++ List.replicate (f.length + 1 - f.length) '\x00').take f.length = f.contents := by
    rw [List.take_append_of_le_length (by simp; omega), List.take_take, Nat.min_self]
    rfl
  rw [ht]
  have h2 : arrayParse encChar parse4 f.contents = parse4 (readChars f.contents) := by
    obtain ⟨g, h1, h2⟩ := (makeFixed_pad encChar_law f.contents 0).1 f.contents rfl hz
    simp only [List.replicate_zero, List.append_nil] at h1
    unfold arrayParse
    rw [h1, Res.ok_bind, h2]
  rw [h2]
  cases parse4 (readChars f.contents) <;> rfl

theorem literal_long {α U : Type} {enc : Enc U} (L : enc.Law) (m : Nat) (parse : List U → Thr α) (s : List U) (h : ¬ s.length ≤ m) :
    ∃ w, literal enc m parse s = .thrown ⟨.parse, .string_is_too_long, w⟩ := by
  unfold literal
  rw [if_pos (by omega)]
  exact raise_eq L _ _ _

end Ip
