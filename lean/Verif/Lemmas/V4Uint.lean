import Verif.Model.V4
import Verif.Spec.V4
import Mathlib.Tactic.IntervalCases
set_option autoImplicit false

namespace Ip
open Spec

/-- Concatenation of four bytes, most significant first. -/
def cat4 (a b c d : BitVec 8) : BitVec 32 := (a ++ b ++ c ++ d : BitVec (8 + 8 + 8 + 8))

theorem toNat_append8 {w : Nat} (x : BitVec w) (y : BitVec 8) :
    (x ++ y).toNat = x.toNat * 256 + y.toNat := by
  rw [BitVec.toNat_append, ← Nat.shiftLeft_add_eq_or_of_lt y.isLt, Nat.shiftLeft_eq]

theorem cat4_toNat (a b c d : BitVec 8) : (cat4 a b c d).toNat = beValue [a, b, c, d] := by
  unfold cat4
  simp only [toNat_append8, beValue, List.length_cons, List.length_nil]
  omega

theorem cat4_getLsbD (a b c d : BitVec 8) (i : Nat) : (cat4 a b c d).getLsbD i =
    if i < 8 then d.getLsbD i else if i < 16 then c.getLsbD (i - 8)
    else if i < 24 then b.getLsbD (i - 16) else a.getLsbD (i - 24) := by
  show BitVec.getLsbD (a ++ b ++ c ++ d : BitVec (8 + 8 + 8 + 8)) i = _
  rw [BitVec.getLsbD_append, BitVec.getLsbD_append, BitVec.getLsbD_append]
  repeat' split
  all_goals first | omega | simp [Nat.sub_sub]

theorem swap32_cat4 (a b c d : BitVec 8) : swap32 (cat4 a b c d) = cat4 d c b a := by
  apply BitVec.eq_of_getLsbD_eq
  intro i hi
  unfold swap32
  interval_cases i <;> simp [-BitVec.getLsbD_eq_getElem, cat4_getLsbD]

theorem pack32 (a b c d : BitVec 8) :
    (d.setWidth 32 <<< 24) ||| (c.setWidth 32 <<< 16) ||| (b.setWidth 32 <<< 8) ||| a.setWidth 32 =
      cat4 d c b a := by
  apply BitVec.eq_of_getLsbD_eq
  intro i hi
  interval_cases i <;> simp [-BitVec.getLsbD_eq_getElem, cat4_getLsbD]

theorem v4ToUint_le (a b c d : BitVec 8) : v4ToUint true [a, b, c, d] = .ok (cat4 a b c d) := by
  simp [v4ToUint, rd]
  rw [pack32, swap32_cat4]

theorem v4ToUint_be (a b c d : BitVec 8) : v4ToUint false [a, b, c, d] = .ok (cat4 d c b a) := by
  simp [v4ToUint, rd]
  rw [pack32]

theorem v4Unpack (a b c d : BitVec 8) :
    let ip := cat4 a b c d
    [(ip &&& 0xFF#32).setWidth 8, ((ip >>> 8) &&& 0xFF#32).setWidth 8,
     ((ip >>> 16) &&& 0xFF#32).setWidth 8, ((ip >>> 24) &&& 0xFF#32).setWidth 8] = [d, c, b, a] := by
  simp only [List.cons.injEq, and_true]
  refine ⟨?_, ?_, ?_, ?_⟩
  all_goals
    apply BitVec.eq_of_getLsbD_eq; intro i hi
    interval_cases i <;> simp [-BitVec.getLsbD_eq_getElem, cat4_getLsbD]

theorem v4FromUint_le (a b c d : BitVec 8) : v4FromUint true (cat4 a b c d) = [a, b, c, d] := by
  simp only [v4FromUint, if_true, swap32_cat4]
  exact v4Unpack d c b a

theorem v4FromUint_be (a b c d : BitVec 8) : v4FromUint false (cat4 a b c d) = [d, c, b, a] := by
  simp only [v4FromUint]
  exact v4Unpack a b c d

theorem split32 (x : BitVec 32) : ∃ a b c d : BitVec 8, x = cat4 a b c d := by
  refine ⟨x.extractLsb' 24 8, x.extractLsb' 16 8, x.extractLsb' 8 8, x.extractLsb' 0 8, ?_⟩
  apply BitVec.eq_of_getLsbD_eq
  intro i hi
  interval_cases i <;> simp [-BitVec.getLsbD_eq_getElem, cat4_getLsbD]

end Ip
