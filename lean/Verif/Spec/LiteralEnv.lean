import Verif.Model.LiteralEnv
/-
Specification for literals with different compilers.
-/
set_option autoImplicit false

namespace Ip
namespace Spec

/-- The compiler says it has the feature `name`, as of the date `v` or later. -/
def Has (e : Env) (name : String) (v : Int) : Prop := ∃ x, e.macros name = some x ∧ v ≤ x

/-- The compiler takes objects of classes as template arguments: it says so, or it is a clang that can do it without
saying so, in C++20 mode. -/
def ClassArguments (e : Env) : Prop :=
  (∃ x, e.macros "__cpp_nontype_template_parameter_class" = some x) ∨
  Has e "__cpp_nontype_template_args" 201911 ∨
  Has e "__cpp_nontype_template_args" 201411 ∧ e.cppVersion = some 20 ∧
    (Has e "__clang_major__" 13 ∨ Has e "__clang_major__" 12 ∧ e.macros "__apple_build_version__" = none)

/-- Functions that only the compiler evaluates. -/
def Immediate (e : Env) : Prop := Has e "__cpp_consteval" 201811

/-- Functions with loops and assignments that the compiler can evaluate. -/
def Constants (e : Env) : Prop := ∃ x : Int, 201304 ≤ x ∧ e.val "__cpp_constexpr" = x

/-- A literal with the type `op`: the text means what `t` says, and `fits` in the buffer of the literals that are ordinary
functions. -/
structure LiteralMeans {α : Type} (op : Env → Phase → LitOut α) (t : Thr α) (fits : Prop) : Prop where
  value : ∀ e ph a, op e ph = .value a ↔
    t = .ret a ∧ (ClassArguments e ∨ fits) ∧ (ph = .compile → Constants e ∨ ClassArguments e ∧ Immediate e)
  terminates : ∀ e ph, op e ph = .terminates ↔
    ClassArguments e ∧ ¬ Immediate e ∧ ph ≠ .compile ∧ ∃ x, t = .thrown x
  throws : ∀ e ph x, fits → (op e ph = .throws x ↔ ¬ ClassArguments e ∧ ph ≠ .compile ∧ t = .thrown x)
  long : ∀ e ph, ¬ fits → ¬ ClassArguments e → ph ≠ .compile → ∃ w, op e ph = .throws ⟨.parse, .string_is_too_long, w⟩
  undefined : ∀ e ph, op e ph = .undefined ↔
    ph ≠ .compile ∧ t = .ub ∧ (ClassArguments e ∧ ¬ Immediate e ∨ ¬ ClassArguments e ∧ fits)

end Spec
end Ip
