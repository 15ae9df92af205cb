import Verif.Lemmas.ClassNet
/-
The tables as sets of integers.
-/
set_option autoImplicit false

namespace Ip
open Spec

theorem v4Private_any (x : Nat) : (v4PrivateEntries.any fun e => inEntry 32 e x) = true ↔ Private4 x := by
  simp only [v4PrivateEntries, List.any_cons, List.any_nil, Bool.or_eq_true, Bool.false_eq_true, or_false, inEntry, decide_eq_true_eq, quad, Private4]
  omega

/-- The entries without the last one, which is contained in another. -/
def v4PrivateMax : List (Nat × Nat) := v4PrivateEntries.take 13

theorem v4Private_max (x : Nat) (h : Private4 x) : ∃ e ∈ v4PrivateMax, inEntry 32 e x = true := by
  rw [← List.any_eq_true]
  simp only [v4PrivateMax, v4PrivateEntries, List.take, List.any_cons, List.any_nil, Bool.or_eq_true, Bool.false_eq_true, or_false, inEntry,
    decide_eq_true_eq, quad]
  simp only [Private4, quad] at h
  omega

/-- For every entry, an address of its parent block that is not private. -/
def v4Outside : List Nat :=
  [quad 1 0 0 0, quad 11 0 0 0, quad 126 0 0 0, quad 169 255 0 0, quad 172 0 0 0, quad 192 0 0 8, quad 192 0 0 168,
   quad 192 0 3 0, quad 192 169 0 0, quad 198 16 0 0, quad 198 51 101 0, quad 203 0 112 0, quad 224 0 0 0]

theorem v4Outside_ok : ∀ e ∈ v4PrivateMax, e.2 ≤ 32 ∧ e.1 % 2 ^ (32 - e.2) = 0 ∧
    ∃ y, ¬ Private4 y ∧ y / 2 ^ (32 - e.2 + 1) = e.1 / 2 ^ (32 - e.2 + 1) := by
  have h : ∀ p ∈ v4PrivateMax.zip v4Outside, p.1.2 ≤ 32 ∧ p.1.1 % 2 ^ (32 - p.1.2) = 0 ∧
      (v4PrivateEntries.any fun e => inEntry 32 e p.2) = false ∧
      p.2 / 2 ^ (32 - p.1.2 + 1) = p.1.1 / 2 ^ (32 - p.1.2 + 1) := by decide +kernel
  intro e he
  obtain ⟨i, hi, rfl⟩ := List.mem_iff_getElem.mp he
  have hl : v4PrivateMax.length = v4Outside.length := by decide
  have := h (v4PrivateMax[i], v4Outside[i]) (List.mem_iff_getElem.mpr ⟨i, by rw [List.length_zip]; omega, List.getElem_zip⟩)
  refine ⟨this.1, this.2.1, v4Outside[i], ?_, this.2.2.2⟩
  rw [← v4Private_any, this.2.2.1]
  simp

theorem v6Private_any (x : Nat) :
    (v6PrivateEntries.any fun e => inEntry 128 e x) = true ↔ Private6 x ∨ Mapped6 x := by
  simp only [v6PrivateEntries, List.any_cons, List.any_nil, Bool.or_eq_true, Bool.false_eq_true, or_false, inEntry, decide_eq_true_eq, octo, Private6,
    Mapped6]
  omega

/-- Maximal blocks of private addresses. -/
def v6PrivateMax : List (Nat × Nat) :=
  [(0, 127), (octo 0 0 0 0 0 0xffff 0 0, 96), (octo 0x100 0 0 0 0 0 0 0, 64), (octo 0x2001 0 0 0 0 0 0 0, 23),
   (octo 0x2001 0xdb8 0 0 0 0 0 0, 32), (octo 0xfc00 0 0 0 0 0 0 0, 7), (octo 0xfe80 0 0 0 0 0 0 0, 10)]

theorem v6Private_max (x : Nat) (h : Private6 x ∨ Mapped6 x) : ∃ e ∈ v6PrivateMax, inEntry 128 e x = true := by
  rw [← List.any_eq_true]
  simp only [v6PrivateMax, List.any_cons, List.any_nil, Bool.or_eq_true, Bool.false_eq_true, or_false, inEntry, decide_eq_true_eq, octo]
  simp only [Private6, Mapped6, octo] at h
  omega

/-- For every entry, an address of its parent block that is not private. -/
def v6Outside : List Nat :=
  [2, octo 0 0 0 0 0 0xfffe 0 0, octo 0x100 0 0 1 0 0 0 0, octo 0x2001 0x200 0 0 0 0 0 0,
   octo 0x2001 0xdb9 0 0 0 0 0 0, octo 0xfe00 0 0 0 0 0 0 0, octo 0xfec0 0 0 0 0 0 0 0]

theorem v6Outside_ok : ∀ e ∈ v6PrivateMax, e.2 ≤ 128 ∧ e.1 % 2 ^ (128 - e.2) = 0 ∧
    ∃ y, ¬ (Private6 y ∨ Mapped6 y) ∧ y / 2 ^ (128 - e.2 + 1) = e.1 / 2 ^ (128 - e.2 + 1) := by
  have h : ∀ p ∈ v6PrivateMax.zip v6Outside, p.1.2 ≤ 128 ∧ p.1.1 % 2 ^ (128 - p.1.2) = 0 ∧
      (v6PrivateEntries.any fun e => inEntry 128 e p.2) = false ∧
      p.2 / 2 ^ (128 - p.1.2 + 1) = p.1.1 / 2 ^ (128 - p.1.2 + 1) := by decide +kernel
  intro e he
  obtain ⟨i, hi, rfl⟩ := List.mem_iff_getElem.mp he
  have hl : v6PrivateMax.length = v6Outside.length := by decide
  have := h (v6PrivateMax[i], v6Outside[i]) (List.mem_iff_getElem.mpr ⟨i, by rw [List.length_zip]; omega, List.getElem_zip⟩)
  refine ⟨this.1, this.2.1, v6Outside[i], ?_, this.2.2.2⟩
  rw [← v6Private_any, this.2.2.1]
  simp

theorem v6Reserved_any (x : Nat) : (v6ReservedEntries.any fun e => inEntry 128 e x) = true ↔ Reserved6 x := by
  simp only [v6ReservedEntries, List.any_cons, List.any_nil, Bool.or_eq_true, Bool.false_eq_true, or_false, inEntry, decide_eq_true_eq, octo, Reserved6]
  omega

end Ip
