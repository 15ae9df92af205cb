import Verif.Lemmas.Class
/-
Networks and the registry tables.
-/
set_option autoImplicit false

namespace Ip
open Spec

section
variable {A U : Type} {F : Fam A U} {WF : A → Prop} {val : U → Nat}

/-- First and last address of a network. -/
theorem net_ends (L : F.Law WF val) (n : Net A) (hn : NetOk F WF n) :
    ∃ b, F.broadcast n = .ok b ∧ WF b ∧ F.v b = F.v n.addr + 2 ^ (F.maxPrefix - n.plen) - 1 ∧
      F.v n.addr ≤ F.v b ∧
      ∀ x, InNet F.maxPrefix n.plen (F.v n.addr) x ↔ F.v n.addr ≤ x ∧ x ≤ F.v b := by
  obtain ⟨b, b1, b2, b3⟩ := broadcast_eq L n hn
  have := Nat.two_pow_pos (F.maxPrefix - n.plen)
  refine ⟨_, b1, L.wf_ofBytes b b2, by rw [L.v_ofBytes, b3], by rw [L.v_ofBytes, b3]; omega, fun x => ?_⟩
  rw [inNet_interval L n hn, L.v_ofBytes, b3]
  omega

/-- A predicate of addresses that describes an interval, applied to both ends of a network. -/
theorem bothEnds_interval (L : F.Law WF val) (p : A → Res Bool) (lo hi : Nat)
    (hp : ∀ a, WF a → ∃ r, p a = .ok r ∧ (r = true ↔ lo ≤ F.v a ∧ F.v a ≤ hi)) (n : Net A) (hn : NetOk F WF n) :
    ∃ r, F.bothEnds p n = .ok r ∧
      (r = true ↔ ∀ x, InNet F.maxPrefix n.plen (F.v n.addr) x → lo ≤ x ∧ x ≤ hi) := by
  obtain ⟨b, b1, b2, b3, b4, b5⟩ := net_ends L n hn
  obtain ⟨r, r1, r2⟩ := hp n.addr hn.wf
  obtain ⟨s, s1, s2⟩ := hp b b2
  simp only [Fam.bothEnds, r1, Res.ok_bind, b1, s1, b5]
  refine ⟨r && s, by cases r <;> rfl, ?_⟩
  rw [Bool.and_eq_true, r2, s2]
  constructor
  · rintro h x hx; omega
  · intro h
    exact ⟨h _ ⟨Nat.le_refl _, b4⟩, h _ ⟨b4, Nat.le_refl _⟩⟩

/-- A block of `2^k` numbers inside a union of entries lies inside one of them, if every entry has
a number outside the union in its parent block. -/
theorem cover (w : Nat) (E : List (Nat × Nat)) (P : Nat → Prop)
    (hE : ∀ e ∈ E, e.2 ≤ w ∧ e.1 % 2 ^ (w - e.2) = 0 ∧
      ∃ y, ¬ P y ∧ y / 2 ^ (w - e.2 + 1) = e.1 / 2 ^ (w - e.2 + 1))
    (hP : ∀ x, P x → ∃ e ∈ E, inEntry w e x = true) (a k : Nat) (ha : a % 2 ^ k = 0)
    (h : ∀ x, a ≤ x → x < a + 2 ^ k → P x) :
    ∃ e ∈ E, inEntry w e a = true ∧ inEntry w e (a + 2 ^ k - 1) = true := by
  have hk := Nat.two_pow_pos k
  obtain ⟨e, he, hin⟩ := hP a (h a (Nat.le_refl _) (by omega))
  refine ⟨e, he, hin, ?_⟩
  obtain ⟨h1, h2, y, h3, h4⟩ := hE e he
  simp only [inEntry, decide_eq_true_eq] at hin ⊢
  rcases Nat.lt_or_ge (w - e.2) k with hlt | hge
  · exfalso
    have e1 : a / 2 ^ (w - e.2) = e.1 / 2 ^ (w - e.2) := (block_iff _ _ _ h2).mpr hin
    have d : ∀ z j, j ≤ k → z / 2 ^ k = z / 2 ^ j / 2 ^ (k - j) := by
      intro z j hj
      rw [Nat.div_div_eq_div_mul, ← Nat.pow_add, Nat.add_sub_cancel' hj]
    have e2 : y / 2 ^ k = a / 2 ^ k := by
      rw [d y (w - e.2 + 1) (by omega), h4, ← d _ _ (by omega), d a (w - e.2) (by omega), e1, ← d _ _ (by omega)]
    exact h3 (h y ((block_iff _ _ _ ha).mp e2).1 ((block_iff _ _ _ ha).mp e2).2)
  · have := blocks_nested k (w - e.2) a e.1 hge ha h2 ⟨a, ⟨Nat.le_refl _, by omega⟩, hin⟩
    omega

end

end Ip
