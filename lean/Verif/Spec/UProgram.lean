import Verif.Model.UProgram
import Verif.Spec.U128Ops
/-
What programs over 128 bit unsigned integers compute, on natural numbers below `2^128`.
-/
set_option autoImplicit false

namespace Ip.Spec

/-- The number of a built-in type with `w` bits that is congruent to `a` modulo `2^w`. -/
def castValue (signed : Bool) (w a : Nat) : Int :=
  if signed ∧ 2 ^ (w - 1) ≤ a % 2 ^ w then ((a % 2 ^ w : Nat) : Int) - 2 ^ w else ((a % 2 ^ w : Nat) : Int)

/-- Shifting by `k` places; a negative amount gives 0, and the amount 128 is undefined. -/
def shifted (left : Bool) (a : Nat) (k : Int) : Option Nat :=
  if k = 128 then none
  else if k < 0 then some 0
  else some (if left then a * 2 ^ k.toNat % 2 ^ 128 else a / 2 ^ k.toNat)

/-- The variables after variable `i` is given the number `a`, all others kept. -/
def written (env : Nat → Nat) (i a : Nat) : Nat → Nat := fun k => if k = i then a else env k

/-- A comparison of numbers. -/
def related (r : Rel) (a b : Nat) : Bool :=
  match r with
  | .eq => decide (a = b)
  | .ne => decide (a ≠ b)
  | .lt => decide (a < b)
  | .gt => decide (b < a)
  | .le => decide (a ≤ b)
  | .ge => decide (b ≤ a)

/-- A truth value as a number. -/
def truth (b : Bool) : Nat := if b then 1 else 0

/-- The number an expression denotes, `none` if it is undefined. -/
def denote (env : Nat → Nat) : UExpr → Option Nat
  | .var i => some (env i)
  | .lit n => some (builtinValue n.n % 2 ^ 128).toNat
  | .plus e => denote env e
  | .neg e => (denote env e).map fun a => (2 ^ 128 - a) % 2 ^ 128
  | .not e => (denote env e).map fun a => 2 ^ 128 - 1 - a
  | .bin op a b => (denote env a).bind fun x => (denote env b).map fun y => (opValue op x y).toNat
  | .shift left e n => (denote env e).bind fun a => shifted left a (builtinValue n.n)
  | .shiftBy left e s w a =>
    (denote env e).bind fun x => (denote env a).bind fun y => shifted left x (castValue s (w.val + 1) y)
  | .rel r a b => (denote env a).bind fun x => (denote env b).map fun y => truth (related r x y)
  | .isZero e => (denote env e).map fun a => truth (decide (a = 0))
  | .both a b => (denote env a).bind fun x => (denote env b).map fun y => truth (decide (x ≠ 0 ∧ y ≠ 0))
  | .either a b => (denote env a).bind fun x => (denote env b).map fun y => truth (decide (x ≠ 0 ∨ y ≠ 0))
  | .sel c a b => (denote env c).bind fun x => if x ≠ 0 then denote env a else denote env b

/-- What a program does to the values of its variables within `fuel` steps: `none` if it has not ended,
`some none` if it runs into undefined behaviour. -/
def denoteStmt : Nat → UStmt → (Nat → Nat) → Option (Option (Nat → Nat))
  | 0, _, _ => none
  | _ + 1, .skip, env => some (some env)
  | _ + 1, .set i e, env => some ((denote env e).map fun a => written env i a)
  | _ + 1, .opSet op i e, env => some ((denote env e).map fun a => written env i (opValue op (env i) a).toNat)
  | _ + 1, .shiftSet left i n, env => some ((shifted left (env i) (builtinValue n.n)).map fun a => written env i a)
  | _ + 1, .inc i, env => some (some (written env i ((env i + 1) % 2 ^ 128)))
  | _ + 1, .dec i, env => some (some (written env i ((env i + (2 ^ 128 - 1)) % 2 ^ 128)))
  | _ + 1, .postInc j i, env => some (some (written (written env i ((env i + 1) % 2 ^ 128)) j (env i)))
  | _ + 1, .postDec j i, env => some (some (written (written env i ((env i + (2 ^ 128 - 1)) % 2 ^ 128)) j (env i)))
  | _ + 1, .swap i j, env => some (some (written (written env i (env j)) j (env i)))
  | fuel + 1, .seq s t, env =>
    match denoteStmt fuel s env with
    | some (some env) => denoteStmt fuel t env
    | r => r
  | fuel + 1, .ite c s t, env =>
    match denote env c with
    | some x => if x ≠ 0 then denoteStmt fuel s env else denoteStmt fuel t env
    | none => some none
  | fuel + 1, .loop c s, env =>
    match denote env c with
    | some x =>
      if x ≠ 0 then
        match denoteStmt fuel s env with
        | some (some env) => denoteStmt fuel (.loop c s) env
        | r => r
      else some (some env)
    | none => some none

/-- An outcome of the program and an outcome on numbers agree. -/
def SameOutcome : Option (Res (Nat → U128)) → Option (Option (Nat → Nat)) → Prop
  | none, none => True
  | some .ub, some none => True
  | some (.ok e), some (some f) => ∀ i, (e i).val = f i
  | _, _ => False

/-- Every shift of the expression is by a constant other than 128. -/
def SafeShifts : UExpr → Prop
  | .var _ => True
  | .lit _ => True
  | .plus e => SafeShifts e
  | .neg e => SafeShifts e
  | .not e => SafeShifts e
  | .bin _ a b => SafeShifts a ∧ SafeShifts b
  | .shift _ e n => SafeShifts e ∧ builtinValue n.n ≠ 128
  | .shiftBy _ _ _ _ _ => False
  | .rel _ a b => SafeShifts a ∧ SafeShifts b
  | .isZero e => SafeShifts e
  | .both a b => SafeShifts a ∧ SafeShifts b
  | .either a b => SafeShifts a ∧ SafeShifts b
  | .sel c a b => SafeShifts c ∧ SafeShifts a ∧ SafeShifts b

/-- Every shift of the program is by a constant other than 128. -/
def SafeProgram : UStmt → Prop
  | .skip => True
  | .set _ e => SafeShifts e
  | .opSet _ _ e => SafeShifts e
  | .shiftSet _ _ n => builtinValue n.n ≠ 128
  | .inc _ => True
  | .dec _ => True
  | .postInc _ _ => True
  | .postDec _ _ => True
  | .swap _ _ => True
  | .seq s t => SafeProgram s ∧ SafeProgram t
  | .ite c s t => SafeShifts c ∧ SafeProgram s ∧ SafeProgram t
  | .loop c s => SafeShifts c ∧ SafeProgram s

end Ip.Spec
