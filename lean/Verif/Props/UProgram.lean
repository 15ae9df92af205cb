import Verif.Spec.UProgram
import Verif.Props.U128Ops
/-
C82: programs over 128 bit integers compute what the same programs compute on numbers modulo `2^128`.
-/
set_option autoImplicit false

namespace Ip

open Spec

/-- An evaluation and the denoted number agree. -/
def SameValue : Res U128 → Option Nat → Prop
  | .ok x, some a => x.val = a
  | .ub, none => True
  | _, _ => False

theorem SameValue.ok_inv {r : Res U128} {a : Nat} (h : SameValue r (some a)) : ∃ x, r = .ok x ∧ x.val = a := by
  cases r with
  | ok x => exact ⟨x, rfl, h⟩
  | err c v => exact h.elim
  | ub => exact h.elim

theorem SameValue.ub_inv {r : Res U128} (h : SameValue r none) : r = .ub := by
  cases r with
  | ok x => exact h.elim
  | err c v => exact h.elim
  | ub => rfl

theorem SameValue.bind {r : Res U128} {o : Option Nat} {f : U128 → Res U128} {g : Nat → Option Nat} (h : SameValue r o)
    (hf : ∀ x, SameValue (f x) (g x.val)) : SameValue (r >>= f) (o.bind g) := by
  cases o with
  | none => rw [h.ub_inv]; exact trivial
  | some a =>
    obtain ⟨x, rfl, rfl⟩ := h.ok_inv
    exact hf x

theorem SameValue.map {r : Res U128} {o : Option Nat} {f : U128 → U128} {g : Nat → Nat} (h : SameValue r o)
    (hf : ∀ x : U128, (f x).val = g x.val) : SameValue (do let x ← r; .ok (f x)) (o.map g) := by
  cases o with
  | none => rw [h.ub_inv]; exact trivial
  | some a =>
    obtain ⟨x, rfl, rfl⟩ := h.ok_inv
    exact hf x

theorem amount_value (n : Builtin) (h0 : 1 ≤ n.width) : n.amount = builtinValue n := by
  obtain ⟨s, w, b⟩ := n
  dsimp only at h0
  have hp : 2 ^ w = 2 * 2 ^ (w - 1) := by rw [← Nat.pow_add_one']; exact congrArg _ (by omega)
  unfold Builtin.amount builtinValue
  dsimp only
  cases s
  · rw [if_neg (by decide), if_neg (by simp)]
  · rw [if_pos rfl, BitVec.toInt_eq_toNat_cond]
    by_cases hc : 2 * b.toNat < 2 ^ w
    · rw [if_pos hc, if_neg (by omega)]
    · rw [if_neg hc, if_pos ⟨rfl, by omega⟩]
      norm_num

theorem cast_value (x : U128) (s : Bool) (w : Nat) (h0 : 1 ≤ w) (h : w ≤ 64) :
    (x.toBuiltin s w).amount = castValue s w x.val := by
  rw [amount_value _ h0]
  have h64 : 18446744073709551616 = 2 ^ (64 - w) * 2 ^ w := by
    rw [← Nat.pow_add, show 64 - w + w = 64 by omega]
  have hm : x.lower.toNat % 2 ^ w = x.val % 2 ^ w := by
    unfold U128.val
    rw [h64, ← Nat.mul_assoc, Nat.add_comm, Nat.add_mul_mod_self_right]
  unfold builtinValue castValue U128.toBuiltin
  dsimp only
  rw [BitVec.toNat_setWidth, hm]

theorem shiftDir_same (left : Bool) (x : U128) (k : Int) : SameValue (x.shiftDir left k) (shifted left x.val k) := by
  unfold shifted U128.shiftDir
  by_cases h1 : k = 128
  · rw [if_pos h1, h1, (C43_shift_128_ub x).1, (C43_shift_128_ub x).2, ite_self]
    exact trivial
  · rw [if_neg h1]
    by_cases h2 : k < 0
    · rw [if_pos h2, ((C43_shift_partial x 0 (by decide)).2.2 k h2).1, ((C43_shift_partial x 0 (by decide)).2.2 k h2).2, ite_self]
      exact (by decide : U128.val ⟨0, 0⟩ = 0)
    · rw [if_neg h2]
      obtain ⟨⟨r, a1, a2⟩, ⟨q, b1, b2⟩, _⟩ := C43_shift_partial x k.toNat (by omega)
      rw [Int.toNat_of_nonneg (by omega)] at a1 b1
      cases left
      · simp only [Bool.false_eq_true, if_false, b1]
        exact b2
      · simp only [if_true, a1]
        exact a2

theorem ofBool_val (b : Bool) : (U128.ofBool b).val = truth b := by cases b <;> decide

theorem describes_get {o : CmpOps} {a b : Nat} (h : Describes o (a < b) (a = b) (b < a)) (r : Rel) :
    o.get r = related r a b := by
  have key : ∀ (p : Bool) (P : Prop) [Decidable P], (p = true ↔ P) → p = decide P := by
    intro p P _ hp
    cases p
    · exact (decide_eq_false fun hP => by cases hp.2 hP).symm
    · exact (decide_eq_true (hp.1 rfl)).symm
  cases r
  · exact key _ _ h.eq
  · exact key _ _ h.ne
  · exact key _ _ h.lt
  · exact key _ _ h.gt
  · exact key _ _ (h.le.trans (by omega))
  · exact key _ _ (h.ge.trans (by omega))

theorem neg_val (x : U128) : x.neg.val = (2 ^ 128 - x.val) % 2 ^ 128 := by
  have := (C41_arith x x).2.2.2.1
  have hx := U128.val_lt x
  rw [two128_eq] at hx
  omega

theorem not_val (x : U128) : x.not.val = 2 ^ 128 - 1 - x.val := by
  rw [U128.val_not, two128_eq]

theorem dec_val (x : U128) : x.dec.val = (x.val + (2 ^ 128 - 1)) % 2 ^ 128 := by
  have := (C41_arith x x).2.2.2.2.2
  have hx := U128.val_lt x
  rw [two128_eq] at hx
  omega

theorem apply_same (op : U128.Op) (x y : U128) : SameValue (U128.apply op x y) (some (opValue op x.val y.val).toNat) := by
  obtain ⟨r, h1, _, h2⟩ := C58_operators op x y
  rw [h1]
  show r.val = _
  omega

theorem toBool_same (x : U128) : x.toBool = decide (x.val ≠ 0) := by rw [U128.toBool_iff]

theorem logic_same (x y : U128) : x.isZero = decide (x.val = 0) ∧ x.both y = decide (x.val ≠ 0 ∧ y.val ≠ 0) ∧
    x.either y = decide (x.val ≠ 0 ∨ y.val ≠ 0) := by
  obtain ⟨h1, h2, h3⟩ := C58_logic x y
  have key : ∀ (p : Bool) (P : Prop) [Decidable P], (p = true ↔ P) → p = decide P := by
    intro p P _ hp
    cases p
    · exact (decide_eq_false fun hP => by cases hp.2 hP).symm
    · exact (decide_eq_true (hp.1 rfl)).symm
  exact ⟨key _ _ h1, key _ _ h2, key _ _ h3⟩

/-- C82, expressions.  With and without `<=>`, an expression has the value that arithmetic modulo `2^128`
gives, and is undefined exactly if it shifts by 128 places. -/
theorem C82_expressions (ss : Bool) (env : Nat → U128) (e : UExpr) :
    SameValue (e.eval ss env) (denote (fun i => (env i).val) e) := by
  induction e with
  | var i => exact (rfl : (env i).val = _)
  | lit n =>
    have := C58_from_builtin n.n n.pos n.le
    show n.n.toU128.val = (builtinValue n.n % 2 ^ 128).toNat
    omega
  | plus e ih =>
    have := ih.map (f := U128.plus) (g := id) (fun x => rfl)
    rw [Option.map_id_fun] at this
    exact this
  | neg e ih => exact ih.map neg_val
  | not e ih => exact ih.map not_val
  | bin op a b iha ihb =>
    refine iha.bind fun x => ?_
    have := ihb.bind (f := fun y => U128.apply op x y) (g := fun y => some (opValue op x.val y).toNat)
      (fun y => apply_same op x y)
    rw [Option.map_eq_bind]
    exact this
  | shift left e n ih =>
    refine ih.bind fun x => ?_
    rw [amount_value n.n n.pos]
    exact shiftDir_same left x _
  | shiftBy left e s w a ihe iha =>
    refine ihe.bind fun x => iha.bind fun y => ?_
    rw [cast_value y s (w.val + 1) (by omega) (by omega)]
    exact shiftDir_same left x _
  | rel r a b iha ihb =>
    refine iha.bind fun x => ?_
    rw [Option.map_eq_bind]
    refine ihb.bind fun y => ?_
    obtain ⟨o, h1, h2⟩ := C55_uint128 ss x y
    rw [h1]
    show (U128.ofBool (o.get r)).val = _
    rw [ofBool_val, describes_get h2 r]
  | isZero e ih =>
    refine ih.map fun x => ?_
    rw [ofBool_val, (logic_same x x).1]
  | both a b iha ihb =>
    refine iha.bind fun x => ihb.map fun y => ?_
    rw [ofBool_val, (logic_same x y).2.1]
  | either a b iha ihb =>
    refine iha.bind fun x => ihb.map fun y => ?_
    rw [ofBool_val, (logic_same x y).2.2]
  | sel c a b ihc iha ihb =>
    refine ihc.bind fun x => ?_
    rw [toBool_same]
    by_cases h : x.val ≠ 0
    · rw [if_pos (decide_eq_true h), if_pos h]; exact iha
    · rw [if_neg (by simpa using h), if_neg h]; exact ihb

example : denote (fun _ => 5) (.bin .sub (.var 0) (.bin .mul (.var 1) (.var 2))) = some (2 ^ 128 - 20) := by decide +kernel

theorem setVar_val (env : Nat → U128) (i : Nat) (x : U128) :
    (fun k => (setVar env i x k).val) = written (fun k => (env k).val) i x.val := by
  funext k
  unfold setVar written
  split <;> rfl

theorem Spec.SameOutcome.of_eq {e : Nat → U128} {f : Nat → Nat} (h : (fun k => (e k).val) = f) :
    SameOutcome (some (.ok e)) (some (some f)) := fun i => congrFun h i

theorem Spec.SameOutcome.value {r : Res U128} {o : Option Nat} (h : SameValue r o) (env : Nat → U128) (i : Nat) :
    SameOutcome (some (do let x ← r; .ok (setVar env i x)))
      (some (o.map fun a => written (fun k => (env k).val) i a)) := by
  cases o with
  | none => rw [h.ub_inv]; exact trivial
  | some a =>
    obtain ⟨x, rfl, rfl⟩ := h.ok_inv
    exact SameOutcome.of_eq (setVar_val env i x)

/-- The three forms of an outcome. -/
theorem Spec.SameOutcome.cases {p : Option (Res (Nat → U128))} {q : Option (Option (Nat → Nat))} (h : SameOutcome p q) :
    (p = none ∧ q = none) ∨ (p = some .ub ∧ q = some none) ∨
    (∃ e, p = some (.ok e) ∧ q = some (some fun i => (e i).val)) := by
  rcases p with _ | (e | ⟨c, v⟩ | _) <;> rcases q with _ | (_ | f)
  · exact Or.inl ⟨rfl, rfl⟩
  · exact h.elim
  · exact h.elim
  · exact h.elim
  · exact h.elim
  · exact Or.inr (Or.inr ⟨e, rfl, congrArg some (congrArg some (funext fun i => (h i).symm))⟩)
  · exact h.elim
  · exact h.elim
  · exact h.elim
  · exact h.elim
  · exact Or.inr (Or.inl ⟨rfl, rfl⟩)
  · exact h.elim

/-- C82, exact.  Every program, run for any number of steps from any values of its variables, with and
without `<=>`: it ends, runs on or is undefined exactly as the program on numbers, and leaves the same values. -/
theorem C82_exact (ss : Bool) (fuel : Nat) : ∀ (s : UStmt) (env : Nat → U128),
    SameOutcome (s.run ss fuel env) (denoteStmt fuel s fun i => (env i).val) := by
  induction fuel with
  | zero => intro s env; exact trivial
  | succ fuel ih =>
    intro s env
    cases s with
    | skip => exact SameOutcome.of_eq rfl
    | set i e => exact SameOutcome.value (C82_expressions ss env e) env i
    | opSet op i e =>
      have h := C82_expressions ss env e
      show SameOutcome (some (do
        let y ← e.eval ss env
        let x ← U128.assign op (env i) y
        .ok (setVar env i x))) (some ((denote _ e).map fun a => written _ i (opValue op (env i).val a).toNat))
      cases ho : denote (fun i => (env i).val) e with
      | none => rw [ho] at h; rw [h.ub_inv]; exact trivial
      | some a =>
        rw [ho] at h
        obtain ⟨y, hy, rfl⟩ := h.ok_inv
        obtain ⟨r, _, h1, h2⟩ := C58_operators op (env i) y
        rw [hy, Res.ok_bind, h1, Res.ok_bind, Option.map_some]
        refine SameOutcome.of_eq ?_
        rw [setVar_val]
        exact congrArg _ (by omega)
    | shiftSet left i n =>
      have h := SameOutcome.value (shiftDir_same left (env i) (builtinValue n.n)) env i
      have ha := amount_value n.n n.pos
      rw [UStmt.run, denoteStmt]
      cases left
      · rw [if_neg (by decide), ha]
        exact h
      · rw [if_pos rfl, ha]
        exact h
    | inc i =>
      refine SameOutcome.of_eq ?_
      rw [setVar_val, (C41_arith (env i) (env i)).2.2.2.2.1]
    | dec i =>
      refine SameOutcome.of_eq ?_
      rw [setVar_val, dec_val]
    | postInc j i =>
      refine SameOutcome.of_eq ?_
      rw [setVar_val, setVar_val]
      show written (written _ i (env i).inc.val) j (env i).val = _
      rw [(C41_arith (env i) (env i)).2.2.2.2.1]
    | postDec j i =>
      refine SameOutcome.of_eq ?_
      rw [setVar_val, setVar_val]
      show written (written _ i (env i).dec.val) j (env i).val = _
      rw [dec_val]
    | swap i j =>
      refine SameOutcome.of_eq ?_
      rw [setVar_val, setVar_val]
      rfl
    | seq s t =>
      rw [UStmt.run, denoteStmt]
      rcases (ih s env).cases with ⟨h1, h2⟩ | ⟨h1, h2⟩ | ⟨e, h1, h2⟩ <;> rw [h1, h2]
      · exact trivial
      · exact trivial
      · exact ih t e
    | ite c s t =>
      rw [UStmt.run, denoteStmt]
      have h := C82_expressions ss env c
      cases ho : denote (fun i => (env i).val) c with
      | none => rw [ho] at h; rw [h.ub_inv]; exact trivial
      | some a =>
        rw [ho] at h
        obtain ⟨x, hx, rfl⟩ := h.ok_inv
        rw [hx]
        dsimp only
        rw [toBool_same]
        by_cases hc : x.val ≠ 0
        · rw [if_pos (decide_eq_true hc), if_pos hc]; exact ih s env
        · rw [if_neg (by simpa using hc), if_neg hc]; exact ih t env
    | loop c s =>
      rw [UStmt.run, denoteStmt]
      have h := C82_expressions ss env c
      cases ho : denote (fun i => (env i).val) c with
      | none => rw [ho] at h; rw [h.ub_inv]; exact trivial
      | some a =>
        rw [ho] at h
        obtain ⟨x, hx, rfl⟩ := h.ok_inv
        rw [hx]
        dsimp only
        rw [toBool_same]
        by_cases hc : x.val ≠ 0
        · rw [if_pos (decide_eq_true hc), if_pos hc]
          rcases (ih s env).cases with ⟨h1, h2⟩ | ⟨h1, h2⟩ | ⟨e, h1, h2⟩ <;> rw [h1, h2]
          · exact trivial
          · exact trivial
          · exact ih (.loop c s) e
        · rw [if_neg (by simpa using hc), if_neg hc]
          exact SameOutcome.of_eq rfl

/-- A small constant of type `int`, for examples. -/
def exInt (z : Int) : CInt := ⟨⟨true, 32, BitVec.ofInt 32 z⟩, (by decide : 1 ≤ 32), (by decide : 32 ≤ 64)⟩

/-- Euclid's algorithm: `while (y) { z = x % y; x = y; y = z; }`. -/
def exGcd : UStmt :=
  .loop (.var 1) (.seq (.set 2 (.bin .rem (.var 0) (.var 1))) (.seq (.set 0 (.var 1)) (.set 1 (.var 2))))

/-- The variables of an example. -/
def exEnv (x y : U128) : Nat → U128 := fun i => if i = 0 then x else if i = 1 then y else ⟨0, 0⟩

-- gcd(6 * 2^64, 4 * 2^64) = 2 * 2^64, on numbers and therefore in the program
example : (denoteStmt 10 exGcd fun i => (exEnv ⟨6, 0⟩ ⟨4, 0⟩ i).val).map (·.map (· 0)) = some (some (2 * 2 ^ 64)) := by
  decide +kernel
example : SameOutcome (exGcd.run true 10 (exEnv ⟨6, 0⟩ ⟨4, 0⟩))
    (denoteStmt 10 exGcd fun i => (exEnv ⟨6, 0⟩ ⟨4, 0⟩ i).val) := C82_exact true 10 exGcd _

/-- On numbers, an expression whose shifts are by constants other than 128 is defined. -/
theorem denote_safe (env : Nat → Nat) (e : UExpr) (h : SafeShifts e) : ∃ a, denote env e = some a := by
  induction e with
  | var i => exact ⟨_, rfl⟩
  | lit n => exact ⟨_, rfl⟩
  | plus e ih => exact ih h
  | neg e ih => obtain ⟨a, ha⟩ := ih h; exact ⟨_, by rw [denote, ha]; rfl⟩
  | not e ih => obtain ⟨a, ha⟩ := ih h; exact ⟨_, by rw [denote, ha]; rfl⟩
  | bin op a b iha ihb =>
    obtain ⟨x, hx⟩ := iha h.1
    obtain ⟨y, hy⟩ := ihb h.2
    exact ⟨_, by rw [denote, hx, hy]; rfl⟩
  | shift left e n ih =>
    obtain ⟨a, ha⟩ := ih h.1
    rw [denote, ha, Option.bind_some, shifted, if_neg h.2]
    split
    · exact ⟨_, rfl⟩
    · exact ⟨_, rfl⟩
  | shiftBy left e s w a ihe iha => exact h.elim
  | rel r a b iha ihb =>
    obtain ⟨x, hx⟩ := iha h.1
    obtain ⟨y, hy⟩ := ihb h.2
    exact ⟨_, by rw [denote, hx, hy]; rfl⟩
  | isZero e ih => obtain ⟨a, ha⟩ := ih h; exact ⟨_, by rw [denote, ha]; rfl⟩
  | both a b iha ihb =>
    obtain ⟨x, hx⟩ := iha h.1
    obtain ⟨y, hy⟩ := ihb h.2
    exact ⟨_, by rw [denote, hx, hy]; rfl⟩
  | either a b iha ihb =>
    obtain ⟨x, hx⟩ := iha h.1
    obtain ⟨y, hy⟩ := ihb h.2
    exact ⟨_, by rw [denote, hx, hy]; rfl⟩
  | sel c a b ihc iha ihb =>
    obtain ⟨x, hx⟩ := ihc h.1
    rw [denote, hx, Option.bind_some]
    split
    · exact iha h.2.1
    · exact ihb h.2.2

/-- On numbers, a program whose shifts are by constants other than 128 is never undefined. -/
theorem denoteStmt_safe (fuel : Nat) : ∀ (s : UStmt) (env : Nat → Nat), SafeProgram s → denoteStmt fuel s env ≠ some none := by
  induction fuel with
  | zero => intro s env _ h; cases h
  | succ fuel ih =>
    intro s env hs
    cases s with
    | skip => intro h; cases h
    | set i e =>
      obtain ⟨a, ha⟩ := denote_safe env e hs
      rw [denoteStmt, ha]; intro h; cases h
    | opSet op i e =>
      obtain ⟨a, ha⟩ := denote_safe env e hs
      rw [denoteStmt, ha]; intro h; cases h
    | shiftSet left i n =>
      rw [denoteStmt, shifted, if_neg hs]
      split <;> intro h <;> cases h
    | inc i => intro h; cases h
    | dec i => intro h; cases h
    | postInc j i => intro h; cases h
    | postDec j i => intro h; cases h
    | swap i j => intro h; cases h
    | seq s t =>
      rw [denoteStmt]
      have h1 := ih s env hs.1
      rcases hd : denoteStmt fuel s env with _ | (_ | e)
      · intro h; cases h
      · exact absurd hd h1
      · exact ih t e hs.2
    | ite c s t =>
      obtain ⟨a, ha⟩ := denote_safe env c hs.1
      rw [denoteStmt, ha]
      dsimp only
      split
      · exact ih s env hs.2.1
      · exact ih t env hs.2.2
    | loop c s =>
      obtain ⟨a, ha⟩ := denote_safe env c hs.1
      rw [denoteStmt, ha]
      dsimp only
      split
      · have h1 := ih s env hs.2
        rcases hd : denoteStmt fuel s env with _ | (_ | e)
        · intro h; cases h
        · exact absurd hd h1
        · exact ih (.loop c s) e hs
      · intro h; cases h

/-- C82 (partial).  A program that ends, and all of whose shifts are by constants other than 128, leaves in its
variables the values that arithmetic modulo `2^128` gives.  Missing: programs that shift by 128 places
(`C82_violated`); which programs those are is said by `C82_exact`. -/
theorem C82_programs_partial (ss : Bool) (fuel : Nat) (s : UStmt) (env : Nat → U128) (hs : SafeProgram s)
    (hend : s.run ss fuel env ≠ none) :
    ∃ e f, s.run ss fuel env = some (.ok e) ∧ denoteStmt fuel s (fun i => (env i).val) = some (some f) ∧
      ∀ i, (e i).val = f i := by
  have hd := denoteStmt_safe fuel s (fun i => (env i).val) hs
  rcases (C82_exact ss fuel s env).cases with ⟨h1, _⟩ | ⟨_, h2⟩ | ⟨e, h1, h2⟩
  · exact absurd h1 hend
  · exact absurd h2 hd
  · exact ⟨e, _, h1, h2, fun i => rfl⟩

example : SafeProgram exGcd ∧ exGcd.run false 10 (exEnv ⟨6, 0⟩ ⟨4, 0⟩) ≠ none := by
  refine ⟨⟨trivial, ⟨trivial, trivial⟩, trivial, trivial⟩, fun h => ?_⟩
  have hd : (denoteStmt 10 exGcd fun i => (exEnv ⟨6, 0⟩ ⟨4, 0⟩ i).val).isSome = true := by decide +kernel
  have hs := C82_exact false 10 exGcd (exEnv ⟨6, 0⟩ ⟨4, 0⟩)
  rw [h] at hs
  rcases hs.cases with ⟨_, h2⟩ | ⟨h1, _⟩ | ⟨e, h1, _⟩
  · rw [h2] at hd; cases hd
  · cases h1
  · cases h1

/-- C82: it makes no difference whether the compiler has `<=>`. -/
theorem C82_spaceship (fuel : Nat) (s : UStmt) (env : Nat → U128) : s.run true fuel env = s.run false fuel env := by
  have h1 := (C82_exact true fuel s env).cases
  have h2 := (C82_exact false fuel s env).cases
  rcases h1 with ⟨a1, a2⟩ | ⟨a1, a2⟩ | ⟨e, a1, a2⟩
  · rcases h2 with ⟨b1, b2⟩ | ⟨b1, b2⟩ | ⟨f, b1, b2⟩
    · rw [a1, b1]
    · rw [a2] at b2; cases b2
    · rw [a2] at b2; cases b2
  · rcases h2 with ⟨b1, b2⟩ | ⟨b1, b2⟩ | ⟨f, b1, b2⟩
    · rw [a2] at b2; cases b2
    · rw [a1, b1]
    · rw [a2] at b2; cases b2
  · rcases h2 with ⟨b1, b2⟩ | ⟨b1, b2⟩ | ⟨f, b1, b2⟩
    · rw [a2] at b2; cases b2
    · rw [a2] at b2; cases b2
    · rw [a2] at b2
      injection b2 with b2
      injection b2 with b2
      rw [a1, b1]
      exact congrArg (fun g => some (Res.ok g)) (funext fun i => U128.val_inj (congrFun b2 i))

example : exGcd.run true 10 (exEnv ⟨6, 0⟩ ⟨4, 0⟩) = exGcd.run false 10 (exEnv ⟨6, 0⟩ ⟨4, 0⟩) := C82_spaceship _ _ _

/-- C82, negation.  The program `x <<= 128`, which should leave 0 in `x`, is undefined, and so is the expression
`x >> (int) y` for a `y` that is 128 modulo `2^32`. -/
theorem C82_violated :
    ((UStmt.shiftSet true 0 (exInt 128)).run true 1 (exEnv ⟨0, 1⟩ ⟨0, 0⟩)) = some .ub ∧
    (UExpr.shiftBy false (.var 0) true 31 (.var 1)).eval true (exEnv ⟨0, 1⟩ ⟨5, 2 ^ 32 + 128⟩) = .ub := ⟨rfl, by rfl⟩

end Ip
