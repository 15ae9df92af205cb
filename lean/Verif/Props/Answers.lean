import Verif.Props.AnyAlike
import Verif.Props.Compare

/-!
# What programs are told about the order of what they hold

C98 and C99 speak about programs that ask questions.  Here: the questions `==`, `<` and `<=>` of such a program are answered
as the operators of C55 and C56 answer them, for every kind of object, with reverse iterators the other way round.
-/

set_option autoImplicit false

namespace Ip

/-- The operators (C55) between two objects of one kind, `none` for others. -/
def Spec.operators {A U : Type} (F : Fam A U) (ss : Bool) : Obj A U → Obj A U → Option (Res CmpOps)
  | .addr a, .addr b => some (cmpOps ss F.eq F.cmp F.lt a b)
  | .net n, .net m => some (netCmpOps F ss n m)
  | .ait x, .ait y => some (aiCmpOps F ss x y)
  | .nit x, .nit y => some (niCmpOps F ss x y)
  | .rait x, .rait y => some (rCmpOps ss F.aiEq F.aiCmp F.aiLt x y)
  | .rnit x, .rnit y => some (rCmpOps ss F.niEq F.niCmp F.niLt x y)
  | _, _ => none

/-- The same for `ip_address`, `ip_network` and their iterators. -/
def Spec.anyOperators (c : Cfg) (ss : Bool) : AnyObj → AnyObj → Option (Res CmpOps)
  | .addr a, .addr b => some (cmpOps ss (anyEquals c.val) (anyCompare c.val) (anyLess c.val) a b)
  | .net n, .net m => some (cmpOps ss (anyNetEq c) (anyNetCmp c) (anyNetLt c) n m)
  | .ait x, .ait y => some (anyItCmpOps (anyHostsOps c) ss x y)
  | .nit x, .nit y => some (anyItCmpOps (anySubnetsOps c) ss x y)
  | .rait x, .rait y => some (rCmpOps ss (anyHostsOps c).eq (anyHostsOps c).cmp (anyHostsOps c).lt x y)
  | .rnit x, .rnit y => some (rCmpOps ss (anySubnetsOps c).eq (anySubnetsOps c).cmp (anySubnetsOps c).lt x y)
  | _, _ => none

open Spec

theorem opsCmp_ok {e : Res Bool} {o : Res Ordering} {r : CmpOps} (h : opsCmp e o = .ok r) :
    e = .ok r.eq ∧ ∃ x, o = .ok x ∧ r.lt = (x == .lt) ∧ r.gt = (x == .gt) := by
  obtain ⟨e', rfl, h1⟩ := Res.bind_eq_ok.1 h
  clear h
  obtain ⟨o', rfl, h⟩ := Res.bind_eq_ok.1 h1
  cases h
  exact ⟨rfl, _, rfl, rfl, rfl⟩

theorem opsLess_ok {e l g : Res Bool} {r : CmpOps} (h : opsLess e l g = .ok r) : e = .ok r.eq ∧ l = .ok r.lt ∧ g = .ok r.gt := by
  obtain ⟨e', rfl, h1⟩ := Res.bind_eq_ok.1 h
  clear h
  obtain ⟨l', rfl, h2⟩ := Res.bind_eq_ok.1 h1
  clear h1
  obtain ⟨g', rfl, h⟩ := Res.bind_eq_ok.1 h2
  cases h
  exact ⟨rfl, rfl, rfl⟩

/-- C98: two objects of one kind are asked about `==`, `<` (without `<=>`) and `<=>` as the operators of C55 answer.  With `j`
before `i` the answer to `<` is that to `>`. -/
theorem C98_order_answers {A U : Type} (F : Fam A U) (st : List (Obj A U)) (i j : Nat) (o o' : Obj A U) (hi : st[i]? = some o)
    (hj : st[j]? = some o') (r : CmpOps) :
    (operators F false o o' = some (.ok r) → F.ask st (.eq i j) = some (.ok (.bool r.eq)) ∧ F.ask st (.lt i j) = some (.ok (.bool r.lt)) ∧
      F.ask st (.lt j i) = some (.ok (.bool r.gt))) ∧
    (operators F true o o' = some (.ok r) → F.ask st (.eq i j) = some (.ok (.bool r.eq)) ∧
      ∃ x, F.ask st (.cmp i j) = some (.ok (.order x)) ∧ r.lt = (x == .lt) ∧ r.gt = (x == .gt)) := by
  constructor
  · intro h
    cases o <;> cases o' <;> simp only [operators, reduceCtorEq, Option.some.injEq] at h <;>
      simp only [netCmpOps, aiCmpOps, niCmpOps, rCmpOps, cmpOps, Bool.false_eq_true, if_false] at h <;>
      (obtain ⟨h1, h2, h3⟩ := opsLess_ok h; simp only [Fam.ask, hi, hj, h1, h2, h3]; exact ⟨rfl, rfl, rfl⟩)
  · intro h
    cases o <;> cases o' <;> simp only [operators, reduceCtorEq, Option.some.injEq] at h <;>
      simp only [netCmpOps, aiCmpOps, niCmpOps, rCmpOps, cmpOps, if_true] at h <;>
      (obtain ⟨h1, x, h2, h3, h4⟩ := opsCmp_ok h; simp only [Fam.ask, hi, hj, h1, h2]; exact ⟨rfl, x, rfl, h3, h4⟩)

/-- C99: the same for `ip_address`, `ip_network` and their iterators. -/
theorem C99_order_answers (c : Cfg) (st : List AnyObj) (i j : Nat) (o o' : AnyObj) (hi : st[i]? = some o)
    (hj : st[j]? = some o') (r : CmpOps) :
    (anyOperators c false o o' = some (.ok r) → anyAsk c st (.eq i j) = some (.ok (.bool r.eq)) ∧
      anyAsk c st (.lt i j) = some (.ok (.bool r.lt)) ∧ anyAsk c st (.lt j i) = some (.ok (.bool r.gt))) ∧
    (anyOperators c true o o' = some (.ok r) → anyAsk c st (.eq i j) = some (.ok (.bool r.eq)) ∧
      ∃ x, anyAsk c st (.cmp i j) = some (.ok (.order x)) ∧ r.lt = (x == .lt) ∧ r.gt = (x == .gt)) := by
  constructor
  · intro h
    cases o <;> cases o' <;> simp only [anyOperators, reduceCtorEq, Option.some.injEq] at h <;>
      simp only [anyItCmpOps, rCmpOps, cmpOps, Bool.false_eq_true, if_false] at h <;>
      (obtain ⟨h1, h2, h3⟩ := opsLess_ok h; simp only [anyAsk, hi, hj, h1, h2, h3]; exact ⟨rfl, rfl, rfl⟩)
  · intro h
    cases o <;> cases o' <;> simp only [anyOperators, reduceCtorEq, Option.some.injEq] at h <;>
      simp only [anyItCmpOps, rCmpOps, cmpOps, if_true] at h <;>
      (obtain ⟨h1, x, h2, h3, h4⟩ := opsCmp_ok h; simp only [anyAsk, hi, hj, h1, h2]; exact ⟨rfl, x, rfl, h3, h4⟩)

/-- The distance between two iterators of one kind, of reverse iterators as in C37. -/
def Spec.distance {A U : Type} (F : Fam A U) : Obj A U → Obj A U → Option (BitVec 64)
  | .ait x, .ait y => some (F.aiOps.diff x y)
  | .nit x, .nit y => some (F.niOps.diff x y)
  | .rait x, .rait y => some (F.aiOps.rDiff x y)
  | .rnit x, .rnit y => some (F.niOps.rDiff x y)
  | _, _ => none

/-- The same for the iterators over `ip_address` and `ip_network`. -/
def Spec.anyDistance (c : Cfg) : AnyObj → AnyObj → Option (BitVec 64)
  | .ait x, .ait y => some ((anyHostsOps c).ops.diff x y)
  | .nit x, .nit y => some ((anySubnetsOps c).ops.diff x y)
  | .rait x, .rait y => some ((anyHostsOps c).ops.rDiff x y)
  | .rnit x, .rnit y => some ((anySubnetsOps c).ops.rDiff x y)
  | _, _ => none

/-- C98, C99: the difference of two iterators is asked as the operators of C37 and C38 answer. -/
theorem C98_distance_answers {A U : Type} (F : Fam A U) (st : List (Obj A U)) (i j : Nat) (o o' : Obj A U) (hi : st[i]? = some o)
    (hj : st[j]? = some o') : F.ask st (.diff i j) = (distance F o o').map fun d => .ok (.diff d) := by
  cases o <;> cases o' <;> simp only [Fam.ask, hi, hj] <;> rfl

theorem C99_distance_answers (c : Cfg) (st : List AnyObj) (i j : Nat) (o o' : AnyObj) (hi : st[i]? = some o)
    (hj : st[j]? = some o') : anyAsk c st (.diff i j) = (anyDistance c o o').map fun d => .ok (.diff d) := by
  cases o <;> cases o' <;> simp only [anyAsk, hi, hj] <;> rfl

/-- Reverse iterators at the last and the last but one address of `10.1.2.0/30`: the first one is less. -/
example : ∃ st, anyDoAll exCfg [.stmt (.new (.fromAddress 0 30 false)), .stmt (.new (.hosts 1)), .stmt (.new (.last 2)),
      .stmt (.new (.reverse 3)), .stmt (.new (.move 4 .inc))] [.addr (.v4 [10, 1, 2, 3])] = .ok st ∧
    anyAsk exCfg st (.lt 4 5) = some (.ok (.bool true)) ∧ anyAsk exCfg st (.lt 5 4) = some (.ok (.bool false)) ∧
    anyAsk exCfg st (.diff 5 4) = some (.ok (.diff 1)) ∧
    ∃ x y, st[4]? = some x ∧ st[5]? = some y ∧ anyOperators exCfg false x y = some (.ok ⟨false, true, true, false, true, false⟩) :=
  ⟨_, rfl, by decide +kernel, by decide +kernel, by decide +kernel, _, _, rfl, rfl, by decide +kernel⟩

end Ip
