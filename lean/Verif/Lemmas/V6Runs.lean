import Verif.Model.V6
/-
The search for the longest run of zero hextets, on the list of "is zero" flags.
-/
set_option autoImplicit false

namespace Ip

/-- The search for the longest run on the list of "is zero" flags. -/
def runs : List Bool → Nat → RunSt → RunSt
  | [], _, st => st
  | b :: bs, i, st => runs bs (i + 1) (runStep st i b)

/-- `m` has `l` set flags from position `p` on. -/
def maskRun (m : List Bool) (p l : Nat) : Bool := decide (p + l ≤ m.length) && ((m.drop p).take l).all id

/-- What the search must find. -/
def runsGood (m : List Bool) : Bool :=
  let st := runs m 0 ⟨0, -1, 0, -1⟩
  if st.bestLen > 1 then
    decide (0 ≤ st.bestStart) && maskRun m st.bestStart.toNat st.bestLen &&
      (List.range 9).all fun p => (List.range 9).all fun l =>
        !maskRun m p l || (decide (l ≤ st.bestLen) && (decide (l ≠ st.bestLen) || decide (st.bestStart.toNat ≤ p)))
  else (List.range 9).all fun p => (List.range 9).all fun l => !maskRun m p l || decide (l ≤ 1)

theorem runsGood_all : ∀ a b c d e f g h : Bool, runsGood [a, b, c, d, e, f, g, h] = true := by
  decide +kernel

end Ip
