import Verif.Spec.V6
/-
Independent specification of formatted input and output.  No definition here refers to the model, except for
`Format`, the enumeration of the three formats.
-/
set_option autoImplicit false

namespace Ip.Spec

/-- The text with the letters before the first `%` in upper case. -/
def upcase (s : List Char) : List Char :=
  (s.takeWhile (fun c => decide (c ≠ '%'))).map Char.toUpper ++ s.dropWhile (fun c => decide (c ≠ '%'))

/-- `w` is the first word of `input`, and `rest` is what follows. -/
def FirstWord {U : Type} (space : U → Bool) (input w rest : List U) : Prop :=
  ∃ ws, input = ws ++ w ++ rest ∧ (∀ u ∈ ws, space u = true) ∧ w ≠ [] ∧ (∀ u ∈ w, space u = false) ∧
    (rest = [] ∨ ∃ x r, rest = x :: r ∧ space x = true)

/-- What a program does with a stream: choosing a format, or writing an object. -/
inductive OutOp (F α : Type) where
  | manip (f : F)
  | write (a : α)

/-- The objects written and their formats: a choice applies to the next object only, and the last choice counts;
otherwise the format is `dflt`. -/
def formats {F α : Type} (dflt : F) : F → List (OutOp F α) → List (F × α)
  | _, [] => []
  | _, .manip f :: ops => formats dflt f ops
  | f, .write a :: ops => (f, a) :: formats dflt dflt ops

end Ip.Spec
