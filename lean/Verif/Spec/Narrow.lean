import Verif.Spec.Net
import Verif.Model.Basic
/-
Property C95: what a platform with a narrower `size_t` makes of the texts of networks.
-/
set_option autoImplicit false

namespace Ip.Spec

/-- The text `evs` of a network ends, after its first slash, in a number `v`. -/
def MaskNumber (evs : List Ev) (v : Nat) : Prop :=
  ∃ pre t, Ev.ch '/' ∉ pre ∧ DecText t v ∧ evs = pre ++ Ev.ch '/' :: t.map Ev.ch

/-- `evs'` is the text `evs`, with the number after the first slash replaced by its remainder modulo
`2^w`. -/
def Reduced (w : Nat) (evs evs' : List Ev) : Prop :=
  ∃ pre t t' v, Ev.ch '/' ∉ pre ∧ DecText t v ∧ DecText t' (v % 2 ^ w) ∧ evs = pre ++ Ev.ch '/' :: t.map Ev.ch ∧
    evs' = pre ++ Ev.ch '/' :: t'.map Ev.ch

end Ip.Spec
