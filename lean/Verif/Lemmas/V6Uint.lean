import Verif.Model.V6Addr
import Verif.Lemmas.V4Uint
import Verif.Lemmas.U128
set_option autoImplicit false

namespace Ip
open Spec

/-- Concatenation of eight bytes, most significant first. -/
def cat8 (a b c d e f g h : BitVec 8) : BitVec 64 :=
  (a ++ b ++ c ++ d ++ e ++ f ++ g ++ h : BitVec (8 + 8 + 8 + 8 + 8 + 8 + 8 + 8))

theorem cat8_toNat (a b c d e f g h : BitVec 8) :
    (cat8 a b c d e f g h).toNat = beValue [a, b, c, d, e, f, g, h] := by
  unfold cat8
  simp only [toNat_append8, beValue, List.length_cons, List.length_nil]
  omega

theorem cat8_getLsbD (a b c d e f g h : BitVec 8) (i : Nat) : (cat8 a b c d e f g h).getLsbD i =
    if i < 8 then h.getLsbD i else if i < 16 then g.getLsbD (i - 8)
    else if i < 24 then f.getLsbD (i - 16) else if i < 32 then e.getLsbD (i - 24)
    else if i < 40 then d.getLsbD (i - 32) else if i < 48 then c.getLsbD (i - 40)
    else if i < 56 then b.getLsbD (i - 48) else a.getLsbD (i - 56) := by
  show BitVec.getLsbD (a ++ b ++ c ++ d ++ e ++ f ++ g ++ h : BitVec (8 + 8 + 8 + 8 + 8 + 8 + 8 + 8)) i = _
  rw [BitVec.getLsbD_append, BitVec.getLsbD_append, BitVec.getLsbD_append, BitVec.getLsbD_append,
    BitVec.getLsbD_append, BitVec.getLsbD_append, BitVec.getLsbD_append]
  simp only [Nat.sub_sub, Nat.reduceAdd]
  repeat' split
  all_goals first | rfl | omega

theorem split64 (x : BitVec 64) : ∃ a b c d e f g h : BitVec 8, x = cat8 a b c d e f g h := by
  refine ⟨x.extractLsb' 56 8, x.extractLsb' 48 8, x.extractLsb' 40 8, x.extractLsb' 32 8,
    x.extractLsb' 24 8, x.extractLsb' 16 8, x.extractLsb' 8 8, x.extractLsb' 0 8, ?_⟩
  apply BitVec.eq_of_getLsbD_eq
  intro i hi
  interval_cases i <;> simp [-BitVec.getLsbD_eq_getElem, cat8_getLsbD]

theorem pack64 (a b c d e f g h : BitVec 8) :
    0#64 ||| (a.setWidth 64 <<< 56) ||| (b.setWidth 64 <<< 48) ||| (c.setWidth 64 <<< 40) |||
      (d.setWidth 64 <<< 32) ||| (e.setWidth 64 <<< 24) ||| (f.setWidth 64 <<< 16) |||
      (g.setWidth 64 <<< 8) ||| (h.setWidth 64 <<< 0) = cat8 a b c d e f g h := by
  apply BitVec.eq_of_getLsbD_eq
  intro i hi
  interval_cases i <;> simp [-BitVec.getLsbD_eq_getElem, cat8_getLsbD]

theorem pack64r (a b c d e f g h : BitVec 8) :
    0#64 ||| (h.setWidth 64 <<< 0) ||| (g.setWidth 64 <<< 8) ||| (f.setWidth 64 <<< 16) |||
      (e.setWidth 64 <<< 24) ||| (d.setWidth 64 <<< 32) ||| (c.setWidth 64 <<< 40) |||
      (b.setWidth 64 <<< 48) ||| (a.setWidth 64 <<< 56) = cat8 a b c d e f g h := by
  apply BitVec.eq_of_getLsbD_eq
  intro i hi
  interval_cases i <;> simp [-BitVec.getLsbD_eq_getElem, cat8_getLsbD]

theorem unpack64 (a b c d e f g h : BitVec 8) :
    (cat8 a b c d e f g h >>> 56).setWidth 8 = a ∧ (cat8 a b c d e f g h >>> 48).setWidth 8 = b ∧
    (cat8 a b c d e f g h >>> 40).setWidth 8 = c ∧ (cat8 a b c d e f g h >>> 32).setWidth 8 = d ∧
    (cat8 a b c d e f g h >>> 24).setWidth 8 = e ∧ (cat8 a b c d e f g h >>> 16).setWidth 8 = f ∧
    (cat8 a b c d e f g h >>> 8).setWidth 8 = g ∧ (cat8 a b c d e f g h >>> 0).setWidth 8 = h := by
  refine ⟨?_, ?_, ?_, ?_, ?_, ?_, ?_, ?_⟩
  all_goals
    apply BitVec.eq_of_getLsbD_eq; intro i hi
    interval_cases i <;> simp [-BitVec.getLsbD_eq_getElem, cat8_getLsbD]

theorem v6ToUint_le (a b c d e f g h i j k l m n o p : BitVec 8) :
    v6ToUint true [a, b, c, d, e, f, g, h, i, j, k, l, m, n, o, p] =
      .ok ⟨cat8 a b c d e f g h, cat8 i j k l m n o p⟩ := by
  rw [← pack64 a, ← pack64 i]
  rfl

theorem v6ToUint_be (a b c d e f g h i j k l m n o p : BitVec 8) :
    v6ToUint false [a, b, c, d, e, f, g, h, i, j, k, l, m, n, o, p] =
      .ok ⟨cat8 h g f e d c b a, cat8 p o n m l k j i⟩ := by
  rw [← pack64r h, ← pack64r p]
  rfl

theorem v6FromUint_le (a b c d e f g h i j k l m n o p : BitVec 8) :
    v6FromUint true ⟨cat8 a b c d e f g h, cat8 i j k l m n o p⟩ =
      .ok [a, b, c, d, e, f, g, h, i, j, k, l, m, n, o, p] := by
  obtain ⟨h0, h1, h2, h3, h4, h5, h6, h7⟩ := unpack64 a b c d e f g h
  obtain ⟨g0, g1, g2, g3, g4, g5, g6, g7⟩ := unpack64 i j k l m n o p
  simp only [v6FromUint, v6FromUintLoop, v6Shift, if_true, Nat.reduceMul, Nat.reduceSub, Nat.reduceAdd,
    Nat.mul_zero, Nat.sub_zero, Nat.mul_one, h0, h1, h2, h3, h4, h5, h6, h7, g0, g1, g2, g3, g4, g5, g6, g7, Nat.sub_self]
  rfl

theorem v6FromUint_be (a b c d e f g h i j k l m n o p : BitVec 8) :
    v6FromUint false ⟨cat8 h g f e d c b a, cat8 p o n m l k j i⟩ =
      .ok [a, b, c, d, e, f, g, h, i, j, k, l, m, n, o, p] := by
  obtain ⟨h0, h1, h2, h3, h4, h5, h6, h7⟩ := unpack64 h g f e d c b a
  obtain ⟨g0, g1, g2, g3, g4, g5, g6, g7⟩ := unpack64 p o n m l k j i
  simp only [v6FromUint, v6FromUintLoop, v6Shift, Nat.reduceMul, Nat.reduceAdd,
    Nat.mul_zero, Nat.mul_one, h0, h1, h2, h3, h4, h5, h6, h7, g0, g1, g2, g3, g4, g5, g6, g7,
    Bool.false_eq_true, if_false]
  rfl

theorem list16' (b : List (BitVec 8)) (h : b.length = 16) :
    ∃ b0 b1 b2 b3 b4 b5 b6 b7 b8 b9 b10 b11 b12 b13 b14 b15,
      b = [b0, b1, b2, b3, b4, b5, b6, b7, b8, b9, b10, b11, b12, b13, b14, b15] := by
  match b, h with
  | [b0, b1, b2, b3, b4, b5, b6, b7, b8, b9, b10, b11, b12, b13, b14, b15], _ =>
    exact ⟨b0, b1, b2, b3, b4, b5, b6, b7, b8, b9, b10, b11, b12, b13, b14, b15, rfl⟩

/-- `to_uint` on a little endian machine: the value in network order. -/
theorem v6ToUint_val (b : List (BitVec 8)) (h : b.length = 16) :
    ∃ n, v6ToUint true b = .ok n ∧ n.val = beValue b := by
  obtain ⟨a, b, c, d, e, f, g, h, i, j, k, l, m, n, o, p, rfl⟩ := list16' b h
  refine ⟨_, v6ToUint_le .., ?_⟩
  simp only [U128.val, cat8_toNat, beValue, List.length_cons, List.length_nil]
  omega

/-- `from_uint` is total and inverse to `to_uint`, for both byte orders. -/
theorem v6FromUint_inv (le : Bool) (n : U128) :
    ∃ b, v6FromUint le n = .ok b ∧ b.length = 16 ∧ v6ToUint le b = .ok n := by
  obtain ⟨u, l⟩ := n
  obtain ⟨a, b, c, d, e, f, g, h, rfl⟩ := split64 u
  obtain ⟨i, j, k, l, m, n, o, p, rfl⟩ := split64 l
  cases le
  · exact ⟨_, v6FromUint_be .., rfl, v6ToUint_be ..⟩
  · exact ⟨_, v6FromUint_le .., rfl, v6ToUint_le ..⟩

theorem v6ToUint_inv (le : Bool) (b : List (BitVec 8)) (h : b.length = 16) :
    ∃ n, v6ToUint le b = .ok n ∧ v6FromUint le n = .ok b := by
  obtain ⟨a, b, c, d, e, f, g, h, i, j, k, l, m, n, o, p, rfl⟩ := list16' b h
  cases le
  · exact ⟨_, v6ToUint_be .., v6FromUint_be ..⟩
  · exact ⟨_, v6ToUint_le .., v6FromUint_le ..⟩

theorem v6FromUint_val (n : U128) :
    ∃ b, v6FromUint true n = .ok b ∧ b.length = 16 ∧ beValue b = n.val := by
  obtain ⟨b, h1, h2, h3⟩ := v6FromUint_inv true n
  obtain ⟨m, h4, h5⟩ := v6ToUint_val b h2
  rw [h3] at h4
  cases h4
  exact ⟨b, h1, h2, h5.symm⟩

end Ip
