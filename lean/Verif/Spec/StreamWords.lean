import Verif.Model.StreamWords
/-
What programs are to see that write and read through streams (C100).
-/
set_option autoImplicit false

namespace Ip

/-- What a stream remembers: the format for the next object written, whether the next network is read strictly, and the words
of other code. -/
structure Spec.Kept where
  format : Option Format
  strict : Bool
  own : Nat → Nat

/-- A stream that nothing was said to. -/
def Spec.Kept.fresh : Kept := ⟨none, true, fun _ => 0⟩

/-- What a program is to see: each stream remembers its own choices, there are no numbers of words, and `n` is how often other
code has called `xalloc`. -/
def Spec.told : List IoOp → Nat → (Nat → Spec.Kept) → List (Option IoEvent)
  | [], _, _ => []
  | .format s f :: ops, n, k => none :: Spec.told ops n (fun x => if x = s then { k s with format := some f } else k x)
  | .strict s b :: ops, n, k => none :: Spec.told ops n (fun x => if x = s then { k s with strict := b } else k x)
  | .write s :: ops, n, k =>
    some (.formatted s ((k s).format.getD .compressed)) :: Spec.told ops n (fun x => if x = s then { k s with format := none } else k x)
  | .readNet s :: ops, n, k =>
    some (.parsed s (k s).strict) :: Spec.told ops n (fun x => if x = s then { k s with strict := true } else k x)
  | .readAddr _ :: ops, n, k => none :: Spec.told ops n k
  | .xalloc :: ops, n, k => none :: Spec.told ops (n + 1) k
  | .put s j v :: ops, n, k =>
    none :: Spec.told ops n (fun x => if x = s ∧ j < n then { k s with own := fun i => if i = j then v else (k s).own i } else k x)
  | .look s j :: ops, n, k => (if j < n then some (.saw ((k s).own j)) else none) :: Spec.told ops n k
  | .copyfmt s t :: ops, n, k => none :: Spec.told ops n (fun x => if x = s then k t else k x)
  | .swap s t :: ops, n, k => none :: Spec.told ops n (fun x => if x = s then k t else if x = t then k s else k x)

end Ip
