import Verif.Spec.U128
/-
What correct conversion to a binary floating point format means, without an algorithm.
-/
set_option autoImplicit false

namespace Ip.Spec

/-- A natural number with at most `p` significant bits: the non negative integral values of a
format with a `p` bit significand (leaving out the bound on the exponent). -/
def Fits (p n : Nat) : Prop := ∃ m e, m < 2 ^ p ∧ n = m * 2 ^ e

/-- A number whose significand, written with `p` bits, is even. -/
def EvenFits (p n : Nat) : Prop := ∃ m e, m < 2 ^ p ∧ m % 2 = 0 ∧ n = m * 2 ^ e

/-- The distance of two numbers. -/
def dist (a b : Nat) : Nat := (a - b) + (b - a)

/-- `d` is the value `v` rounded to nearest, ties to even. -/
def Nearest (p v d : Nat) : Prop :=
  Fits p d ∧
  (∀ d', Fits p d' → dist v d ≤ dist v d') ∧
  (∀ d', Fits p d' → d' ≠ d → dist v d' = dist v d → EvenFits p d)

/-- `d` is `v` or one of the two neighbours of `v`: no number of the format lies between. -/
def Faithful (p v d : Nat) : Prop :=
  Fits p d ∧ (∀ g, Fits p g → v ≤ g → d ≤ g) ∧ (∀ g, Fits p g → g ≤ v → g ≤ d)

end Ip.Spec
