import Verif.Spec.LiteralEnv
/-
Specification for literals in builds without exceptions.
-/
set_option autoImplicit false

namespace Ip
namespace Spec

/-- Whether an error stops the evaluation: a constant with compilers that can tell that they make one, and, with GCC 6 to 8,
a call at run time whose text has a length that the compiler knows. -/
def Stops (e : Env) : Phase → Prop
  | .compile => Has e "__cpp_lib_is_constant_evaluated" 201811 ∨ Has e "__GNUC__" 6
  | .run known => known = true ∧ ¬ Has e "__cpp_lib_is_constant_evaluated" 201811 ∧ Has e "__GNUC__" 6 ∧ ¬ Has e "__GNUC__" 9

/-- The literal does `o`, for a text that with exceptions does `t`: the same value; instead of an exception the object `d`,
or, where errors stop the evaluation, `bad`. -/
def Gives {α : Type} (o bad : LitOut α) (stops : Prop) (t : Thr α) (d : α) : Prop :=
  (∀ a, t = .ret a → o = .value a) ∧ (∀ x, t = .thrown x → (stops → o = bad) ∧ (¬ stops → o = .value d)) ∧ (t = .ub → o = bad)

/-- The compiler always evaluates the literal. -/
def Always (e : Env) : Prop := ClassArguments e ∧ Immediate e

/-- A text that can be read and means `t`; the part that fits in the buffer means `cut`; the default is `d`. -/
structure QuietMeans {α : Type} (op : Env → Phase → LitOut α) (t cut : Thr α) (d : α) (fits : Prop) : Prop where
  noConstants : ∀ e, ¬ Constants e → ¬ Always e → op e .compile = .refused
  constants : ∀ e ph, Always e ∨ ph = .compile ∧ Constants e →
    (ClassArguments e ∨ fits → Gives (op e ph) .refused (Stops e .compile) t d) ∧
    (¬ ClassArguments e → ¬ fits →
      (Stops e .compile → op e ph = .refused) ∧ (¬ Stops e .compile → Gives (op e ph) .refused False cut d))
  calls : ∀ e known, ¬ Always e →
    (ClassArguments e ∨ fits → Gives (op e (.run known)) .undefined (Stops e (.run known)) t d) ∧
    (¬ ClassArguments e → ¬ fits →
      (Stops e (.run known) → op e (.run known) = .undefined) ∧
      (¬ Stops e (.run known) → Gives (op e (.run known)) .undefined False cut d))

/-- A text that cannot be read to the end; the characters in front of that place mean `t`, and the part that fits in the
buffer means `cut`. -/
structure UnreadableMeans {α : Type} (op : Env → Phase → LitOut α) (t cut : Thr α) (d : α) (fits : Prop) : Prop where
  noConstants : ∀ e, ¬ Constants e → ¬ Always e → op e .compile = .refused
  refused : ∀ e ph, ClassArguments e → Stops e .compile → op e ph = .refused
  prefixConstant : ∀ e ph, ClassArguments e → ¬ Stops e .compile → Immediate e ∨ ph = .compile ∧ Constants e →
    Gives (op e ph) .refused False t d
  prefixCall : ∀ e known, ClassArguments e → ¬ Stops e .compile → ¬ Immediate e →
    Gives (op e (.run known)) .undefined False t d
  default : ∀ e ph, ¬ ClassArguments e → fits → (ph = .compile → Constants e) → op e ph = .value d
  long : ∀ e ph, ¬ ClassArguments e → ¬ fits → (ph = .compile → Constants e) →
    (Stops e ph → op e ph = if ph = .compile then .refused else .undefined) ∧
    (¬ Stops e ph → Gives (op e ph) (if ph = .compile then .refused else .undefined) False cut d)

end Spec
end Ip
