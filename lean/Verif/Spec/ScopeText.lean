import Verif.Spec.Diag6
/-
What is wrong with a text that is not a zone id, seen as a whole.
-/
set_option autoImplicit false

namespace Ip.Spec

/-- The zone id is longer than `M` characters, or it is not and has a character that is not allowed. -/
inductive SetFault (spaces : Bool) (M : Nat) (z : List Char) : ErrorCode → Prop
  | long : M < z.length → SetFault spaces M z .scope_id_is_too_long
  | symbol : z.length ≤ M → ¬ ZoneOk spaces z.length z → SetFault spaces M z .invalid_scope_id

end Ip.Spec
