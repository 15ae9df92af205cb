import Verif.Spec.V6
import Verif.Spec.U128
/-
Specifications for address objects: order of scope ids, reverse pointers.
-/
set_option autoImplicit false

namespace Ip.Spec

/-- Lexicographic order of scope ids, characters ordered by `val`: a proper prefix is smaller, and
otherwise the first differing character decides. -/
def ScopeLt (val : Char → Int) (s t : List Char) : Prop :=
  (∃ x r, t = s ++ x :: r) ∨
  (∃ p x y r r', s = p ++ x :: r ∧ t = p ++ y :: r' ∧ val x < val y)

/-- Order of IPv6 addresses: by value, then by scope id. -/
def V6Lt (val : Char → Int) (v : Nat) (s : List Char) (w : Nat) (t : List Char) : Prop :=
  v < w ∨ (v = w ∧ ScopeLt val s t)

/-- Characters separated by dots. -/
def dotJoin : List Char → List Char
  | [] => []
  | [c] => [c]
  | c :: cs => c :: '.' :: dotJoin cs

/-- The `n` lowest hexadecimal digits of a number, least significant first, lower case. -/
def nibbles : Nat → Nat → List Char
  | 0, _ => []
  | n + 1, v => (v % 16).digitChar :: nibbles n (v / 16)

end Ip.Spec
