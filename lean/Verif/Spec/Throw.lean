import Verif.Model.Throw
/-
What exceptions and literals should do.
-/
set_option autoImplicit false

namespace Ip.Spec

/-- The codes of wrong arguments of functions other than parsers. -/
def argumentErrors : List ErrorCode :=
  [.invalid_version, .invalid_prefixlen_diff, .new_prefix_must_be_shorter, .new_prefix_must_be_longer,
   .cannot_set_prefixlen_diff_and_new_prefix, .not_contained_network]

/-- The throwing overload `t` agrees with the outcome `r` of the overload with an `error_code`: it returns
the same value, or throws an exception of class `cls` with the code. -/
def Agrees {α : Type} (cls : ErrClass) (t : Thr α) (r : Res α) : Prop :=
  (∀ a, t = .ret a ↔ r = .ok a) ∧
  (∀ code, (∃ e, t = .thrown e ∧ e.code = code) ↔ ∃ v, r = .err code v) ∧
  (∀ e, t = .thrown e → e.cls = cls) ∧
  (t = .ub ↔ r = .ub)

/-- A text in messages: the first 100 characters, and three dots if there are more. -/
def shown (s : List Char) : List Char := s.take 100 ++ (if s.length > 100 then ['.', '.', '.'] else [])

end Ip.Spec
