import Verif.Model.Throw
/-
What parsing during compilation should do.
-/
set_option autoImplicit false

namespace Ip.Spec

/-- The program compiles, and with the value `a`, exactly when the call at run time returns `a`. -/
def Compiles {α : Type} (o : Option α) (t : Thr α) : Prop := ∀ a, o = some a ↔ t = .ret a

/-- The number written with the four bytes as digits to the base 256, the first one most significant. -/
def number4 : List (BitVec 8) → Nat
  | [a, b, c, d] => ((a.toNat * 256 + b.toNat) * 256 + c.toNat) * 256 + d.toNat
  | _ => 0

end Ip.Spec
