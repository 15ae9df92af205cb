import Verif.Model.Union
import Verif.Lemmas.V6Scope
/-
Specification for the unions of the version agnostic classes.
-/
set_option autoImplicit false

namespace Ip
namespace Spec

/-- The tag says which member of the union is active. -/
def TagRight {A B : Type} (x : Tagged A B) : Prop :=
  (∃ a, x = ⟨.first a, .V4⟩) ∨ ∃ b, x = ⟨.second b, .V6⟩

/-- The same for an iterator, whose copy of the element is the element of the active iterator. -/
def IterRight {I4 V4 I6 V6 V : Type} (O : AnyItOps I4 V4 I6 V6 V) (x : RawIt I4 I6 V) : Prop :=
  (∃ i, x = ⟨⟨.first i, .V4⟩, O.emb4 (O.o4.deref i)⟩) ∨ ∃ i, x = ⟨⟨.second i, .V6⟩, O.emb6 (O.o6.deref i)⟩

/-- An address whose active member is a valid address. -/
def RawGood (c : Cfg) (x : RawAddr) : Prop :=
  (∃ b, x = ⟨.first b, .V4⟩ ∧ b.length = 4) ∨ ∃ a : V6, x = ⟨.second a, .V6⟩ ∧ a.Good c.spaces c.M

/-- The statements that make sense when `n` objects exist. -/
def StmtOk (c : Cfg) (n : Nat) : ObjStmt → Prop
  | .default => True
  | .of4 b => b.length = 4
  | .of6 a => a.Good c.spaces c.M
  | .bytes6 b => b.length = 16
  | .parse _ => True
  | .fromBytes src count _ => count ≤ src.length
  | .copy i => i < n
  | .assign i j => i < n ∧ j < n
  | .swap i j => i < n ∧ j < n
  | .setScope i _ => i < n

/-- The number of objects after a statement. -/
def objectsAfter (n : Nat) : ObjStmt → Nat
  | .assign _ _ => n
  | .swap _ _ => n
  | .setScope _ _ => n
  | _ => n + 1

/-- The programs that make sense. -/
def ProgramOk (c : Cfg) : Nat → List ObjStmt → Prop
  | _, [] => True
  | n, s :: ss => StmtOk c n s ∧ ProgramOk c (objectsAfter n s) ss

end Spec
end Ip
