import Verif.Spec.Utf8Loose
import Verif.Lemmas.Unicode
set_option autoImplicit false

namespace Ip
open Spec

theorem Spec.Loose.cons {cp : Nat} {us : List (BitVec 8)} (h : Loose cp us) : ∃ a t, us = a :: t := by
  cases h <;> exact ⟨_, _, rfl⟩

/-- The code point and the bytes taken are determined by the text. -/
theorem Spec.Loose.unique {cp cp' : Nat} {us us' r r' : List (BitVec 8)} (h : Loose cp us) (h' : Loose cp' us')
    (e : us ++ r = us' ++ r') : cp = cp' ∧ us = us' ∧ r = r' := by
  cases h <;> cases h' <;>
    simp only [List.cons_append, List.nil_append, List.cons.injEq] at e <;>
    obtain ⟨rfl, e⟩ := e <;> first
    | omega
    | (obtain ⟨rfl, rfl⟩ := e; exact ⟨rfl, rfl, rfl⟩)
    | (obtain ⟨rfl, rfl, rfl⟩ := e; exact ⟨rfl, rfl, rfl⟩)
    | (obtain ⟨rfl, rfl, rfl, rfl⟩ := e; exact ⟨rfl, rfl, rfl⟩)
    | (subst e; exact ⟨rfl, rfl, rfl⟩)

theorem Spec.LooseRead.unique {us : List (BitVec 8)} {evs : List Ev} (h : LooseRead us evs) :
    ∀ {evs' : List Ev}, LooseRead us evs' → evs = evs' := by
  induction h with
  | nil =>
    intro evs' h'
    generalize hu : ([] : List (BitVec 8)) = us at h'
    cases h' with
    | nil => rfl
    | char cp us r evs hl _ _ => obtain ⟨a, t, rfl⟩ := hl.cons; cases hu
    | symbol cp us r hl _ => obtain ⟨a, t, rfl⟩ := hl.cons; cases hu
    | wrong us hn _ => exact absurd hu.symm hn
  | char cp us r evs hl hc _ ih =>
    intro evs' h'
    generalize hu : us ++ r = w at h'
    cases h' with
    | nil => obtain ⟨a, t, rfl⟩ := hl.cons; cases hu
    | char cp' us' r' evs' hl' _ hr =>
      obtain ⟨rfl, rfl, rfl⟩ := hl.unique hl' hu
      rw [ih hr]
    | symbol cp' us' r' hl' hc' =>
      obtain ⟨rfl, rfl, rfl⟩ := hl.unique hl' hu
      omega
    | wrong us' hn hw => exact absurd hu.symm (hw _ _ _ hl)
  | symbol cp us r hl hc =>
    intro evs' h'
    generalize hu : us ++ r = w at h'
    cases h' with
    | nil => obtain ⟨a, t, rfl⟩ := hl.cons; cases hu
    | char cp' us' r' evs' hl' _ hr =>
      obtain ⟨rfl, rfl, rfl⟩ := hl.unique hl' hu
      omega
    | symbol cp' us' r' hl' hc' =>
      obtain ⟨rfl, rfl, rfl⟩ := hl.unique hl' hu
      rfl
    | wrong us' hn hw => exact absurd hu.symm (hw _ _ _ hl)
  | wrong us hn hw =>
    intro evs' h'
    cases h' with
    | nil => exact absurd rfl hn
    | char cp' us' r' evs' hl' _ hr => exact absurd rfl (hw _ _ _ hl')
    | symbol cp' us' r' hl' hc' => exact absurd rfl (hw _ _ _ hl')
    | wrong => rfl

theorem utf8Trailing_cons (b : BitVec 8) (r : List (BitVec 8)) :
    utf8Trailing (b :: r) = (BitVec.ofNat 32 (midBits b), decide (Trailing8 b), r) := by
  rw [utf8Trailing_eq]
  by_cases h : Trailing8 b
  · rw [if_pos (show 128 ≤ b.toNat ∧ b.toNat < 192 from h), midBits, if_pos h, decide_eq_true h]
  · rw [if_neg (show ¬ (128 ≤ b.toNat ∧ b.toNat < 192) from h), midBits, if_neg h, decide_eq_false h]

theorem midBits_lt (b : BitVec 8) : midBits b < 64 := by
  by_cases h : Trailing8 b
  · rw [midBits, if_pos h]
    have := h.2
    omega
  · rw [midBits, if_neg h]
    omega

theorem utf8Trail_cons (n v : Nat) (hv : v < 2 ^ 20) (ok : Bool) (b : BitVec 8) (r : List (BitVec 8)) :
    utf8Trail (n + 1) (BitVec.ofNat 32 v) ok (b :: r) =
      utf8Trail n (BitVec.ofNat 32 (v * 64 + midBits b)) (decide (Trailing8 b)) r := by
  rw [utf8Trail, utf8Trailing_cons, shl6_ofNat v _ hv (midBits_lt b)]

/-- The outcome of reading one code point. -/
def looseEv (cp : Nat) : Ev := if cp < 128 then .ch (Char.ofNat cp) else .bad .unexpected_symbol cp

theorem utf8Fin_trail (v : Nat) (hv : v < 2 ^ 26) (z : BitVec 8) (r : List (BitVec 8)) :
    utf8Fin (BitVec.ofNat 32 (v * 64 + midBits z), decide (Trailing8 z), r) =
      if Trailing8 z then (looseEv (v * 64 + (z.toNat - 128)), r) else (.bad .wrong_encoding_sequence 0, r) := by
  have hm := midBits_lt z
  by_cases h : Trailing8 z
  · have e : midBits z = z.toNat - 128 := by unfold midBits; rw [if_pos h]
    rw [if_pos h, decide_eq_true h, utf8Fin_ok _ _ (v * 64 + (z.toNat - 128)) (by simp; omega)]
    rfl
  · rw [if_neg h]
    simp [utf8Fin, h]

theorem utf8Next_loose (b : BitVec 8) (rest : List (BitVec 8)) :
    (∃ cp us r, Loose cp us ∧ b :: rest = us ++ r ∧ utf8Next b rest = (looseEv cp, r)) ∨
    ((∀ cp us r, Loose cp us → b :: rest ≠ us ++ r) ∧ ∃ r, utf8Next b rest = (.bad .wrong_encoding_sequence 0, r)) := by
  have hb := b.isLt
  have hcp := utf8CodePoint_eq b
  by_cases c1 : b.toNat < 128
  · rw [if_pos c1] at hcp
    refine Or.inl ⟨b.toNat, [b], rest, .one b c1, rfl, ?_⟩
    rw [utf8Next_of b rest _ 0 hcp, utf8Trail, utf8Fin_ok _ _ b.toNat (by simp; omega)]
    rfl
  rw [if_neg c1] at hcp
  by_cases c2 : b.toNat < 192
  · rw [if_pos c2] at hcp
    refine Or.inr ⟨?_, ⟨rest, by simp [utf8Next, hcp]⟩⟩
    intro cp us r hl e
    cases hl <;> simp only [List.cons_append, List.nil_append, List.cons.injEq] at e <;> obtain ⟨rfl, e⟩ := e <;> omega
  rw [if_neg c2] at hcp
  by_cases c3 : b.toNat < 224
  · rw [if_pos c3] at hcp
    rw [utf8Next_of b rest _ 1 hcp]
    match rest with
    | [] =>
      refine Or.inr ⟨?_, ⟨_, by simp [utf8Fin, utf8Trail_nil]; rfl⟩⟩
      intro cp us r hl e
      cases hl <;> simp only [List.cons_append, List.nil_append, List.cons.injEq] at e <;> obtain ⟨rfl, e⟩ := e <;>
        first | omega | cases e
    | z :: r =>
      rw [utf8Trail_cons _ _ (by omega), utf8Trail, utf8Fin_trail _ (by omega)]
      by_cases hz : Trailing8 z
      · exact Or.inl ⟨_, [b, z], r, .two b z (by omega) c3 hz, rfl, by rw [if_pos hz]⟩
      · refine Or.inr ⟨?_, ⟨_, by rw [if_neg hz]⟩⟩
        intro cp us r hl e
        cases hl <;> simp only [List.cons_append, List.nil_append, List.cons.injEq] at e <;> obtain ⟨rfl, e⟩ := e <;>
          first | omega | (obtain ⟨rfl, e⟩ := e; exact hz ‹_›)
  rw [if_neg c3] at hcp
  by_cases c4 : b.toNat < 240
  · rw [if_pos c4] at hcp
    rw [utf8Next_of b rest _ 2 hcp]
    match rest with
    | [] =>
      refine Or.inr ⟨?_, ⟨_, by simp [utf8Fin, utf8Trail_nil]; rfl⟩⟩
      intro cp us r hl e
      cases hl <;> simp only [List.cons_append, List.nil_append, List.cons.injEq] at e <;> obtain ⟨rfl, e⟩ := e <;>
        first | omega | cases e
    | [x] =>
      rw [utf8Trail_cons _ _ (by omega)]
      refine Or.inr ⟨?_, ⟨_, by simp [utf8Fin, utf8Trail_nil]; rfl⟩⟩
      intro cp us r hl e
      cases hl <;> simp only [List.cons_append, List.nil_append, List.cons.injEq] at e <;> obtain ⟨rfl, e⟩ := e <;>
        first | omega | (obtain ⟨rfl, e⟩ := e; cases e)
    | x :: z :: r =>
      have hx := midBits_lt x
      rw [utf8Trail_cons _ _ (by omega), utf8Trail_cons _ _ (by omega), utf8Trail, utf8Fin_trail _ (by omega)]
      by_cases hz : Trailing8 z
      · exact Or.inl ⟨_, [b, x, z], r, .three b x z (by omega) c4 hz, rfl, by rw [if_pos hz]⟩
      · refine Or.inr ⟨?_, ⟨_, by rw [if_neg hz]⟩⟩
        intro cp us r hl e
        cases hl <;> simp only [List.cons_append, List.nil_append, List.cons.injEq] at e <;> obtain ⟨rfl, e⟩ := e <;>
          first | omega | (obtain ⟨rfl, rfl, e⟩ := e; exact hz ‹_›)
  rw [if_neg c4] at hcp
  by_cases c5 : b.toNat < 248
  · rw [if_pos c5] at hcp
    rw [utf8Next_of b rest _ 3 hcp]
    match rest with
    | [] =>
      refine Or.inr ⟨?_, ⟨_, by simp [utf8Fin, utf8Trail_nil]; rfl⟩⟩
      intro cp us r hl e
      cases hl <;> simp only [List.cons_append, List.nil_append, List.cons.injEq] at e <;> obtain ⟨rfl, e⟩ := e <;>
        first | omega | cases e
    | [x] =>
      rw [utf8Trail_cons _ _ (by omega)]
      refine Or.inr ⟨?_, ⟨_, by simp [utf8Fin, utf8Trail_nil]; rfl⟩⟩
      intro cp us r hl e
      cases hl <;> simp only [List.cons_append, List.nil_append, List.cons.injEq] at e <;> obtain ⟨rfl, e⟩ := e <;>
        first | omega | (obtain ⟨rfl, e⟩ := e; cases e)
    | [x, y] =>
      have hx := midBits_lt x
      rw [utf8Trail_cons _ _ (by omega), utf8Trail_cons _ _ (by omega)]
      refine Or.inr ⟨?_, ⟨_, by simp [utf8Fin, utf8Trail_nil]; rfl⟩⟩
      intro cp us r hl e
      cases hl <;> simp only [List.cons_append, List.nil_append, List.cons.injEq] at e <;> obtain ⟨rfl, e⟩ := e <;>
        first | omega | (obtain ⟨rfl, rfl, e⟩ := e; cases e)
    | x :: y :: z :: r =>
      have hx := midBits_lt x
      have hy := midBits_lt y
      rw [utf8Trail_cons _ _ (by omega), utf8Trail_cons _ _ (by omega), utf8Trail_cons _ _ (by omega), utf8Trail,
        utf8Fin_trail _ (by omega)]
      by_cases hz : Trailing8 z
      · exact Or.inl ⟨_, [b, x, y, z], r, .four b x y z (by omega) c5 hz, rfl, by rw [if_pos hz]⟩
      · refine Or.inr ⟨?_, ⟨_, by rw [if_neg hz]⟩⟩
        intro cp us r hl e
        cases hl <;> simp only [List.cons_append, List.nil_append, List.cons.injEq] at e <;> obtain ⟨rfl, e⟩ := e <;>
          first | omega | (obtain ⟨rfl, rfl, rfl, e⟩ := e; exact hz ‹_›)
  rw [if_neg c5] at hcp
  refine Or.inr ⟨?_, ⟨rest, by simp [utf8Next, hcp]⟩⟩
  intro cp us r hl e
  cases hl <;> simp only [List.cons_append, List.nil_append, List.cons.injEq] at e <;> obtain ⟨rfl, e⟩ := e <;> omega

theorem utf8Events_loose (us : List (BitVec 8)) : LooseRead us (utf8Events us) := by
  induction hn : us.length using Nat.strong_induction_on generalizing us with
  | _ n ih =>
    cases us with
    | nil => rw [utf8Events]; exact .nil
    | cons b rest =>
      rcases utf8Next_loose b rest with ⟨cp, vs, r, hl, e, h⟩ | ⟨hw, r, h⟩
      · rw [utf8Events]
        unfold looseEv at h
        obtain ⟨a, t, rfl⟩ := hl.cons
        have hr : r.length < rest.length + 1 := by
          have := congrArg List.length e
          simp at this; omega
        by_cases hc : cp < 128
        · rw [if_pos hc] at h
          simp only [h, if_pos hr]
          rw [e]
          exact .char cp _ r _ hl hc (ih _ (by rw [← hn]; simpa using hr) r rfl)
        · rw [if_neg hc] at h
          simp only [h]
          rw [e]
          exact .symbol cp _ r hl (by omega)
      · rw [utf8Events]
        simp only [h]
        exact .wrong _ (by simp) hw

end Ip
