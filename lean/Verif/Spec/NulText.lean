import Verif.Model.Basic
import Verif.Spec.V6Nul
/-
Texts that end at a NUL character.
-/
set_option autoImplicit false

namespace Ip.Spec

/-- The code units are read as the characters `cs`, none of them NUL, and then the text ends or a NUL follows;
what is behind that NUL does not matter. -/
def ReadsUpTo (evs : List Ev) (cs : List Char) : Prop :=
  (∀ x ∈ cs, x ≠ '\x00') ∧ (evs = cs.map Ev.ch ∨ ∃ rest, evs = cs.map Ev.ch ++ .ch '\x00' :: rest)

/-- The code units are read as the characters `cs`, none of them NUL, and then something unreadable. -/
def StopsAt (evs : List Ev) (cs : List Char) (code : ErrorCode) (sym : Nat) : Prop :=
  (∀ x ∈ cs, x ≠ '\x00') ∧ ∃ rest, evs = cs.map Ev.ch ++ .bad code sym :: rest

end Ip.Spec
