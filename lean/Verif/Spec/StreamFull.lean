import Verif.Spec.Stream
/-
Independent specification of fields: what a field width means for output and input.  No definition here refers to the
model.
-/
set_option autoImplicit false

namespace Ip.Spec

/-- `r` is the text `t` filled up to `width` characters, on the right if `left`, otherwise on the left. -/
def Padded {U : Type} (width : Int) (left : Bool) (fill : U) (t r : List U) : Prop :=
  ∃ p, (∀ u ∈ p, u = fill) ∧ r = (if left then t ++ p else p ++ t) ∧
    (width ≤ t.length → p = []) ∧ ((t.length : Int) ≤ width → (r.length : Int) = width)

/-- `w` is the next field of `input`, and `rest` is what follows: after white space, if it is skipped, the longest
non-empty text without white space that has no more than `width` characters (any number if `width` is not positive). -/
def Field {U : Type} (space : U → Bool) (skip : Bool) (width : Int) (input w rest : List U) : Prop :=
  ∃ ws, input = ws ++ w ++ rest ∧ (∀ u ∈ ws, space u = true) ∧ (skip = false → ws = []) ∧
    w ≠ [] ∧ (∀ u ∈ w, space u = false) ∧ (0 < width → (w.length : Int) ≤ width) ∧
    ((w.length : Int) = width ∨ rest = [] ∨ ∃ x r, rest = x :: r ∧ space x = true)

end Ip.Spec
