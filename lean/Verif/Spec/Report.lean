import Verif.Model.Throw
/-
What the `error_code` of a call should say, and what functions without it should return when there are no
exceptions.
-/
set_option autoImplicit false

namespace Ip.Spec

/-- `f` is a function with an `error_code&`, given the old value of the variable; `t` is what the overload
without it does.  Whatever the variable held, afterwards it is `no_error` if `t` returns, and the result is
that of `t`; if `t` throws, it is the code of the exception and the result is `d`. -/
def Reports {α : Type} (t : Thr α) (d : α) (f : Option ErrorCode → Res (Option ErrorCode × α)) : Prop :=
  ∀ code, (∀ a, t = .ret a → f code = .ok (none, a)) ∧ (∀ e, t = .thrown e → f code = .ok (some e.code, d)) ∧
    (t = .ub → f code = .ub)

/-- The same for a variable that holds `no_error`; another value stays unless there is an error. -/
def ReportsErrors {α : Type} (t : Thr α) (d : α) (f : Option ErrorCode → Res (Option ErrorCode × α)) : Prop :=
  ∀ code, (∀ a, t = .ret a → f code = .ok (code, a)) ∧ (∀ e, t = .thrown e → f code = .ok (some e.code, d)) ∧
    (t = .ub → f code = .ub)

/-- `q` is the outcome without exceptions of a function that does `t` with them: the same value, or `d` instead of an
exception. -/
def Quiet {α : Type} (t : Thr α) (d : α) (q : Res α) : Prop :=
  (∀ a, t = .ret a → q = .ok a) ∧ (∀ e, t = .thrown e → q = .ok d)

/-- `0.0.0.0/32`. -/
def zeroNet4 : Net (List (BitVec 8)) := ⟨[0, 0, 0, 0], [255, 255, 255, 255], 32⟩

/-- `::`, with room for a scope of `M` characters. -/
def zero6 (M : Nat) : V6 := ⟨List.replicate 16 0#8, ⟨List.replicate M '\x00', 0⟩⟩

/-- `::/128`. -/
def zeroNet6 (M : Nat) : Net V6 := ⟨zero6 M, ⟨List.replicate 16 255#8, ⟨List.replicate M '\x00', 0⟩⟩, 128⟩

end Ip.Spec
