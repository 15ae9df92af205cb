import Verif.Spec.Compare
import Verif.Lemmas.NIter
/-
Helper lemmas on the comparison operators.
-/
set_option autoImplicit false

namespace Ip
open Spec

theorem opsCmp_describes {eq : Res Bool} {cmp : Res Ordering} {e : Bool} {o : Ordering} {L E G : Prop}
    (he : eq = .ok e) (ho : cmp = .ok o) (h1 : e = true ↔ E) (h2 : o = .lt ↔ L) (h3 : o = .eq ↔ E) (h4 : o = .gt ↔ G) :
    ∃ r, opsCmp eq cmp = .ok r ∧ Describes r L E G := by
  subst he ho
  refine ⟨_, rfl, ?_⟩
  constructor <;> simp only [← h1, ← h2, ← h4]
  · cases e <;> simp
  · cases o <;> simp
  · cases o <;> simp
  · cases o <;> simp [h1, ← h3]
  · cases o <;> simp [h1, ← h3]

theorem opsLess_describes {eq lt gt : Res Bool} {e l g : Bool} {L E G : Prop} (t : OneOf L E G)
    (he : eq = .ok e) (hl : lt = .ok l) (hg : gt = .ok g) (h1 : e = true ↔ E) (h2 : l = true ↔ L) (h3 : g = true ↔ G) :
    ∃ r, opsLess eq lt gt = .ok r ∧ Describes r L E G := by
  subst he hl hg
  refine ⟨_, rfl, ?_⟩
  obtain ⟨t1, t2, t3, t4⟩ := t
  rw [← h1, ← h2, ← h3] at *
  constructor <;> cases e <;> cases l <;> cases g <;> simp_all

theorem cmpOps_describes {T : Type} (spaceship : Bool) {eq : T → T → Res Bool} {cmp : T → T → Res Ordering}
    {lt : T → T → Res Bool} {a b : T} {e l g : Bool} {o : Ordering} {L E G : Prop} (t : OneOf L E G)
    (he : eq a b = .ok e) (ho : cmp a b = .ok o) (hl : lt a b = .ok l) (hg : lt b a = .ok g)
    (h1 : e = true ↔ E) (h2 : o = .lt ↔ L) (h3 : o = .eq ↔ E) (h4 : o = .gt ↔ G) (h5 : l = true ↔ L) (h6 : g = true ↔ G) :
    ∃ r, cmpOps spaceship eq cmp lt a b = .ok r ∧ Describes r L E G := by
  unfold cmpOps
  split
  · exact opsCmp_describes he ho h1 h2 h3 h4
  · exact opsLess_describes t he hl hg h1 h5 h6

/-- The three way comparison of numbers. -/
theorem nat_cases (a b : Nat) : OneOf (a < b) (a = b) (b < a) := by unfold OneOf; omega

theorem nat_compare (a b : Nat) : (compare a b = .lt ↔ a < b) ∧ (compare a b = .eq ↔ a = b) ∧ (compare a b = .gt ↔ b < a) :=
  ⟨Nat.compare_eq_lt, Nat.compare_eq_eq, Nat.compare_eq_gt⟩

/-- Classes whose operators compare a number. -/
theorem cmpOps_nat {T : Type} (spaceship : Bool) {eq : T → T → Res Bool} {cmp : T → T → Res Ordering}
    {lt : T → T → Res Bool} {a b : T} (f : T → Nat) (he : eq a b = .ok (decide (f a = f b)))
    (ho : cmp a b = .ok (compare (f a) (f b))) (hl : lt a b = .ok (decide (f a < f b))) (hg : lt b a = .ok (decide (f b < f a))) :
    ∃ r, cmpOps spaceship eq cmp lt a b = .ok r ∧ Describes r (f a < f b) (f a = f b) (f b < f a) := by
  obtain ⟨c1, c2, c3⟩ := nat_compare (f a) (f b)
  exact cmpOps_describes spaceship (nat_cases _ _) he ho hl hg decide_eq_true_iff c1 c2 c3 decide_eq_true_iff decide_eq_true_iff

/-- Operators in the opposite order. -/
theorem Describes.swap {o : CmpOps} {L E G : Prop} (h : Describes o L E G) :
    Describes ⟨o.eq, o.ne, o.gt, o.lt, o.ge, o.le⟩ G E L := ⟨h.eq, h.ne, h.gt, h.lt, h.ge, h.le⟩

end Ip
