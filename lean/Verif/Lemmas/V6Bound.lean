import Verif.Lemmas.V6Split
/-
`get_parts_bound` and `parse_parts`.
-/
set_option autoImplicit false

namespace Ip
open Spec

theorem FsRel.part {fs : List FStr} {P : List (List Char)} (h : FsRel fs P) (i : Nat) (p : List Char)
    (hp : P[i]? = some p) :
    ∃ f, rd fs i = .ok f ∧ f.contents = p ∧ f.WF ∧ f.data.length = 4 ∧ f.length = p.length := by
  obtain ⟨⟨g, hg⟩, hw⟩ := h
  have h1 : (fs.map FStr.contents)[i]? = some p := by
    rw [hg, List.getElem?_append_left (List.getElem?_eq_some_iff.1 hp).1, hp]
  rw [List.getElem?_map] at h1
  cases hf : fs[i]? with
  | none => rw [hf] at h1; cases h1
  | some f =>
    rw [hf] at h1
    have hc : f.contents = p := by simpa using h1
    obtain ⟨w1, w2⟩ := hw f (List.mem_of_getElem? hf)
    exact ⟨f, by simp [Ip.rd, hf], hc, w1, w2, by rw [← hc, FStr.contents_length f w1]⟩

/-- Part `i` is empty. -/
def emptyAt (P : List (List Char)) (i : Nat) : Prop := P[i]? = some []

instance (P : List (List Char)) (i : Nat) : Decidable (emptyAt P i) := by unfold emptyAt; infer_instance

theorem FsRel.part_empty {fs : List FStr} {P : List (List Char)} (h : FsRel fs P) (i : Nat)
    (hi : i < P.length) : ∃ f, rd fs i = .ok f ∧ (f.length = 0 ↔ emptyAt P i) := by
  obtain ⟨f, h1, h2, h3, h4, h5⟩ := h.part i P[i] (List.getElem?_eq_getElem hi)
  refine ⟨f, h1, ?_⟩
  rw [h5, emptyAt, List.getElem?_eq_getElem hi, List.length_eq_zero_iff, Option.some.injEq]

theorem boundLoop_skip {fs : List FStr} {P : List (List Char)} (h : FsRel fs P) :
    ∀ (m i skip : Nat), i + m ≤ P.length → (∀ j, i ≤ j → j < i + m → ¬ emptyAt P j) →
    boundLoop fs P.length m i skip = .ok skip
  | 0, _, _, _, _ => rfl
  | m + 1, i, skip, hl, hn => by
    obtain ⟨f, h1, h2⟩ := h.part_empty i (by omega)
    simp only [boundLoop, h1, Res.ok_bind]
    rw [if_neg (by rw [h2]; exact hn i (by omega) (by omega))]
    exact boundLoop_skip h m (i + 1) skip (by omega) (fun j hj hj' => hn j (by omega) (by omega))

theorem boundLoop_err {fs : List FStr} {P : List (List Char)} (h : FsRel fs P) :
    ∀ (m i skip : Nat), i + m ≤ P.length → skip ≠ 0 → (∃ j, i ≤ j ∧ j < i + m ∧ emptyAt P j) →
    ∃ e v, boundLoop fs P.length m i skip = .err e v
  | 0, i, _, _, _, ⟨j, h1, h2, _⟩ => by omega
  | m + 1, i, skip, hl, hs, ⟨j, hj1, hj2, hj3⟩ => by
    obtain ⟨f, h1, h2⟩ := h.part_empty i (by omega)
    simp only [boundLoop, h1, Res.ok_bind]
    by_cases he : emptyAt P i
    · rw [if_pos (h2.2 he), if_pos hs]; exact ⟨_, _, rfl⟩
    · rw [if_neg (fun hh => he (h2.1 hh))]
      refine boundLoop_err h m (i + 1) skip (by omega) hs ⟨j, ?_, by omega, hj3⟩
      by_cases hji : j = i
      · rw [hji] at hj3; exact absurd hj3 he
      · omega

theorem boundLoop_cases {fs : List FStr} {P : List (List Char)} (h : FsRel fs P) :
    ∀ (m i : Nat), i + m ≤ P.length → 1 ≤ i →
    ((∀ j, i ≤ j → j < i + m → ¬ emptyAt P j) ∧ boundLoop fs P.length m i 0 = .ok 0) ∨
    (∃ k, i ≤ k ∧ k < i + m ∧ emptyAt P k ∧ (∀ j, i ≤ j → j < i + m → j ≠ k → ¬ emptyAt P j) ∧
      boundLoop fs P.length m i 0 = .ok k) ∨
    (∃ k k', i ≤ k ∧ k < k' ∧ k' < i + m ∧ emptyAt P k ∧ emptyAt P k' ∧
      ∃ e v, boundLoop fs P.length m i 0 = .err e v)
  | 0, i, _, _ => Or.inl ⟨by intros; omega, rfl⟩
  | m + 1, i, hl, hi => by
    obtain ⟨f, h1, h2⟩ := h.part_empty i (by omega)
    simp only [boundLoop, h1, Res.ok_bind]
    by_cases he : emptyAt P i
    · rw [if_pos (h2.2 he)]
      simp only [ne_eq, not_true_eq_false, if_false]
      by_cases hx : ∃ j, i + 1 ≤ j ∧ j < i + 1 + m ∧ emptyAt P j
      · obtain ⟨e, v, hev⟩ := boundLoop_err h m (i + 1) i (by omega) (by omega) hx
        obtain ⟨j, j1, j2, j3⟩ := hx
        exact Or.inr (Or.inr ⟨i, j, by omega, by omega, by omega, he, j3, e, v, hev⟩)
      · have hx' : ∀ j, i + 1 ≤ j → j < i + 1 + m → ¬ emptyAt P j := fun j a b c => hx ⟨j, a, b, c⟩
        refine Or.inr (Or.inl ⟨i, by omega, by omega, he, ?_, boundLoop_skip h m (i + 1) i (by omega) hx'⟩)
        intro j a b c
        exact hx' j (by omega) (by omega)
    · rw [if_neg (fun hh => he (h2.1 hh))]
      rcases boundLoop_cases h m (i + 1) (by omega) (by omega) with ⟨a, b⟩ | ⟨k, a, b, c, d, e⟩ | ⟨k, k', a, b, c, d, e, f⟩
      · refine Or.inl ⟨?_, b⟩
        intro j j1 j2
        by_cases hji : j = i
        · rw [hji]; exact he
        · exact a j (by omega) (by omega)
      · refine Or.inr (Or.inl ⟨k, by omega, by omega, c, ?_, e⟩)
        intro j j1 j2 j3
        by_cases hji : j = i
        · rw [hji]; exact he
        · exact d j (by omega) (by omega) j3
      · exact Or.inr (Or.inr ⟨k, k', by omega, b, by omega, d, e, f⟩)

/-- Index form of what `get_parts_bound` accepts. -/
inductive BoundIx (P : List (List Char)) : Nat × Nat × Nat → Prop
  | full : P.length = 8 → (∀ j, j < 8 → ¬ emptyAt P j) → BoundIx P (8, 0, 0)
  | comp (k hi lo : Nat) : 1 ≤ k → k + 1 < P.length → emptyAt P k →
      (∀ j, 1 ≤ j → j + 1 < P.length → j ≠ k → ¬ emptyAt P j) →
      (emptyAt P 0 ∧ k = 1 ∧ hi = 0 ∨ ¬ emptyAt P 0 ∧ hi = k) →
      (emptyAt P (P.length - 1) ∧ k + 2 = P.length ∧ lo = 0 ∨
        ¬ emptyAt P (P.length - 1) ∧ lo = P.length - k - 1) →
      hi + lo ≤ 7 → BoundIx P (hi, lo, 8 - (hi + lo))

theorem partsBound_rel {fs : List FStr} {P : List (List Char)} (h : FsRel fs P) (h3 : 3 ≤ P.length)
    (h9 : P.length ≤ 9) :
    (∃ x, BoundIx P x ∧ partsBound fs P.length = .ok x) ∨
    ((¬ ∃ x, BoundIx P x) ∧ ∃ e v, partsBound fs P.length = .err e v) := by
  obtain ⟨f0, r0, z0⟩ := h.part_empty 0 (by omega)
  obtain ⟨fl, rl, zl⟩ := h.part_empty (P.length - 1) (by omega)
  simp only [partsBound]
  rw [if_neg (by omega)]
  rcases boundLoop_cases h (P.length - 1 - 1) 1 (by omega) (by omega) with
    ⟨a, b⟩ | ⟨k, a, b, c, d, e⟩ | ⟨k, k', a, b, c, d, e, er, v, f⟩
  · rw [b, Res.ok_bind]
    simp only [ne_eq, not_true_eq_false, if_false]
    have noComp : ∀ k, 1 ≤ k → k + 1 < P.length → emptyAt P k → False :=
      fun k k1 k2 k3 => a k (by omega) (by omega) k3
    by_cases h8 : P.length = 8
    · rw [if_neg (by simp [h8]), r0, Res.ok_bind, rl, Res.ok_bind]
      by_cases e0 : emptyAt P 0
      · right
        rw [if_pos (z0.2 e0)]
        refine ⟨?_, ⟨_, _, rfl⟩⟩
        rintro ⟨x, hx⟩
        cases hx with
        | full q1 q2 => exact q2 0 (by omega) e0
        | comp k hi lo q1 q2 q3 => exact noComp k q1 q2 q3
      · rw [if_neg (fun hh => e0 (z0.1 hh))]
        by_cases el : emptyAt P (P.length - 1)
        · right
          rw [if_pos (zl.2 el)]
          refine ⟨?_, ⟨_, _, rfl⟩⟩
          rintro ⟨x, hx⟩
          cases hx with
          | full q1 q2 => exact q2 (P.length - 1) (by omega) el
          | comp k hi lo q1 q2 q3 => exact noComp k q1 q2 q3
        · left
          rw [if_neg (fun hh => el (zl.1 hh)), h8]
          refine ⟨_, BoundIx.full h8 ?_, rfl⟩
          intro j hj
          by_cases hj0 : j = 0
          · rw [hj0]; exact e0
          · by_cases hjl : j = P.length - 1
            · rw [hjl]; exact el
            · exact a j (by omega) (by omega)
    · right
      rw [if_pos h8]
      refine ⟨?_, ⟨_, _, rfl⟩⟩
      rintro ⟨x, hx⟩
      cases hx with
      | full q1 q2 => exact h8 q1
      | comp k hi lo q1 q2 q3 => exact noComp k q1 q2 q3
  · rw [e, Res.ok_bind]
    have uniq : ∀ k2, 1 ≤ k2 → k2 + 1 < P.length → emptyAt P k2 → k2 = k := by
      intro k2 k1 k2' k3
      by_cases hh : k2 = k
      · exact hh
      · exact absurd k3 (d k2 (by omega) (by omega) hh)
    have noFull : ¬ BoundIx P (8, 0, 0) ∨ True := Or.inr trivial
    rw [if_pos (by omega), if_neg (by omega), r0, Res.ok_bind, rl]
    by_cases e0 : emptyAt P 0
    · rw [if_pos (z0.2 e0)]
      by_cases hk : k = 1
      · rw [if_neg (by omega), Res.ok_bind, Res.ok_bind]
        by_cases el : emptyAt P (P.length - 1)
        · rw [if_pos (zl.2 el), if_neg (by omega)]
          by_cases hk2 : k + 2 = P.length
          · left
            rw [if_neg (by omega), Res.ok_bind, if_neg (by omega), if_neg (by omega)]
            have hx := BoundIx.comp (P := P) k 0 0 (by omega) (by omega) c
              (fun j j1 j2 j3 => d j (by omega) (by omega) j3) (Or.inl ⟨e0, hk, rfl⟩)
              (Or.inl ⟨el, hk2, rfl⟩) (by omega)
            refine ⟨_, hx, ?_⟩
            have q1 : k - 1 = 0 := by omega
            have q2 : P.length - k - 1 - 1 = 0 := by omega
            rw [q1, q2]
          · right
            rw [if_pos (by omega)]
            refine ⟨?_, ⟨_, _, rfl⟩⟩
            rintro ⟨x, hx⟩
            cases hx with
            | full q1 q2 => exact q2 k (by omega) c
            | comp k2 hi lo q1 q2 q3 q4 q5 q6 =>
              have := uniq k2 q1 q2 q3
              rcases q6 with ⟨_, q6, _⟩ | ⟨q6, _⟩
              · omega
              · exact q6 el
        · rw [if_neg (fun hh => el (zl.1 hh)), Res.ok_bind, if_neg (by omega)]
          by_cases h7 : P.length - k - 1 ≤ 7
          · left
            rw [if_neg (by omega)]
            have hx := BoundIx.comp (P := P) k 0 (P.length - k - 1) (by omega) (by omega) c
              (fun j j1 j2 j3 => d j (by omega) (by omega) j3) (Or.inl ⟨e0, hk, rfl⟩)
              (Or.inr ⟨el, rfl⟩) (by omega)
            refine ⟨_, hx, ?_⟩
            have q1 : k - 1 = 0 := by omega
            rw [q1]
          · omega
      · right
        rw [if_pos (by omega)]
        refine ⟨?_, ⟨_, _, rfl⟩⟩
        rintro ⟨x, hx⟩
        cases hx with
        | full q1 q2 => exact q2 k (by omega) c
        | comp k2 hi lo q1 q2 q3 q4 q5 q6 =>
          have := uniq k2 q1 q2 q3
          rcases q5 with ⟨_, q5, _⟩ | ⟨q5, _⟩
          · omega
          · exact q5 e0
    · rw [if_neg (fun hh => e0 (z0.1 hh)), Res.ok_bind, Res.ok_bind]
      by_cases el : emptyAt P (P.length - 1)
      · rw [if_pos (zl.2 el), if_neg (by omega)]
        by_cases hk2 : k + 2 = P.length
        · left
          rw [if_neg (by omega), Res.ok_bind, if_neg (by omega), if_neg (by omega)]
          have hx := BoundIx.comp (P := P) k k 0 (by omega) (by omega) c
            (fun j j1 j2 j3 => d j (by omega) (by omega) j3) (Or.inr ⟨e0, rfl⟩)
            (Or.inl ⟨el, hk2, rfl⟩) (by omega)
          refine ⟨_, hx, ?_⟩
          have q2 : P.length - k - 1 - 1 = 0 := by omega
          rw [q2]
        · right
          rw [if_pos (by omega)]
          refine ⟨?_, ⟨_, _, rfl⟩⟩
          rintro ⟨x, hx⟩
          cases hx with
          | full q1 q2 => exact q2 k (by omega) c
          | comp k2 hi lo q1 q2 q3 q4 q5 q6 =>
            have := uniq k2 q1 q2 q3
            rcases q6 with ⟨_, q6, _⟩ | ⟨q6, _⟩
            · omega
            · exact q6 el
      · rw [if_neg (fun hh => el (zl.1 hh)), Res.ok_bind, if_neg (by omega)]
        by_cases h7 : P.length ≤ 8
        · left
          rw [if_neg (by omega)]
          have hx := BoundIx.comp (P := P) k k (P.length - k - 1) (by omega) (by omega) c
            (fun j j1 j2 j3 => d j (by omega) (by omega) j3) (Or.inr ⟨e0, rfl⟩)
            (Or.inr ⟨el, rfl⟩) (by omega)
          exact ⟨_, hx, rfl⟩
        · right
          rw [if_pos (by omega)]
          refine ⟨?_, ⟨_, _, rfl⟩⟩
          rintro ⟨x, hx⟩
          cases hx with
          | full q1 q2 => exact q2 k (by omega) c
          | comp k2 hi lo q1 q2 q3 q4 q5 q6 q7 =>
            have := uniq k2 q1 q2 q3
            rcases q5 with ⟨q5, _, _⟩ | ⟨q5, q5'⟩
            · exact e0 q5
            · rcases q6 with ⟨q6, _, _⟩ | ⟨q6, q6'⟩
              · exact el q6
              · omega
  · right
    rw [f]
    refine ⟨?_, ⟨_, _, rfl⟩⟩
    rintro ⟨x, hx⟩
    cases hx with
    | full q1 q2 => exact q2 k (by omega) d
    | comp k2 hi lo q1 q2 q3 q4 q5 q6 =>
      by_cases hk : k = k2
      · exact q4 k' (by omega) (by omega) (by omega) e
      · exact q4 k (by omega) (by omega) hk d

end Ip
