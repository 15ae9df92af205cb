import Verif.Model.StdAlgo
import Verif.Spec.StdAlgo
import Verif.Lemmas.AnyNet
import Verif.Lemmas.IterLaws
/-
Iterators that walk along a list, and the algorithms of the standard library on them.
-/
set_option autoImplicit false

namespace Ip
open Spec

/-! ### Walks -/

section
variable {I V U : Type}

/-- `R i x`: the iterator `x` stands at the place `i` of the list `l`; the places go from `-1`, before the first
element, to `l.length`, after the last one.  Jumps of at most `K` steps are possible. -/
structure Walk (O : RaOps I V U) (l : List V) (K : Nat) (R : Int → I → Prop) : Prop where
  inj : ∀ (i : Int) x y, R i x → R i y → x = y
  deref : ∀ (i : Nat) x (h : i < l.length), R i x → O.deref x = l[i]
  inc : ∀ (i : Int) x, -1 ≤ i → i < l.length → R i x → ∃ y, O.inc x = .ok y ∧ R (i + 1) y
  dec : ∀ (i : Int) x, 0 ≤ i → i ≤ l.length → R i x → ∃ y, O.dec x = .ok y ∧ R (i - 1) y
  addI : ∀ (i : Int) x (k : Nat), -1 ≤ i → i + k ≤ l.length → k ≤ K → R i x → ∃ y, O.addI x (BitVec.ofNat 64 k) = .ok y ∧ R (i + k) y
  subI : ∀ (i : Int) x (k : Nat), i ≤ l.length → -1 ≤ i - k → k ≤ K → R i x → ∃ y, O.subI x (BitVec.ofNat 64 k) = .ok y ∧ R (i - k) y
  atI : ∀ (i : Int) x (k j : Nat) (h : j < l.length), -1 ≤ i → i + k = j → k ≤ K → R i x → O.atI x (BitVec.ofNat 64 k) = .ok l[j]
  eq : ∀ (i j : Int) x y, -1 ≤ i → i ≤ l.length → -1 ≤ j → j ≤ l.length → R i x → R j y → O.eq x y = .ok (decide (i = j))

/-- The difference of two iterators is the number of steps. -/
def Measured (O : RaOps I V U) (l : List V) (R : Int → I → Prop) : Prop :=
  ∀ (i j : Int) x y, -1 ≤ i → i ≤ j → j ≤ l.length → j - i ≤ l.length → R i x → R j y → (O.diff y x).toInt = j - i

variable {O : RaOps I V U} {l : List V} {K : Nat} {R : Int → I → Prop}

/-- Reverse iterators walk along the reversed list. -/
theorem Walk.rev (W : Walk O l K R) : Walk O.rev l.reverse K (fun i r => R (l.length - 1 - i) r.it) where
  inj i x y hx hy := by
    have := W.inj _ _ _ hx hy
    cases x; cases y; simp_all
  deref i x h hx := by
    have h' : i < l.length := by simpa using h
    have e : ((l.length : Int) - 1 - i) = ((l.length - 1 - i : Nat) : Int) := by omega
    rw [e] at hx
    rw [List.getElem_reverse]
    exact W.deref _ _ (by omega) hx
  inc i x h1 h2 hx := by
    rw [List.length_reverse] at h2
    obtain ⟨y, y1, y2⟩ := W.dec _ _ (by omega) (by omega) hx
    refine ⟨⟨y⟩, by simp only [RaOps.rev, y1, Res.ok_bind], ?_⟩
    rw [show (l.length : Int) - 1 - (i + 1) = l.length - 1 - i - 1 by omega]; exact y2
  dec i x h1 h2 hx := by
    rw [List.length_reverse] at h2
    obtain ⟨y, y1, y2⟩ := W.inc _ _ (by omega) (by omega) hx
    refine ⟨⟨y⟩, by simp only [RaOps.rev, y1, Res.ok_bind], ?_⟩
    rw [show (l.length : Int) - 1 - (i - 1) = l.length - 1 - i + 1 by omega]; exact y2
  addI i x k h1 h2 hk hx := by
    rw [List.length_reverse] at h2
    obtain ⟨y, y1, y2⟩ := W.subI _ _ k (by omega) (by omega) hk hx
    refine ⟨⟨y⟩, by simp only [RaOps.rev, y1, Res.ok_bind], ?_⟩
    rw [show (l.length : Int) - 1 - (i + k) = l.length - 1 - i - k by omega]; exact y2
  subI i x k h1 h2 hk hx := by
    rw [List.length_reverse] at h1
    obtain ⟨y, y1, y2⟩ := W.addI _ _ k (by omega) (by omega) hk hx
    refine ⟨⟨y⟩, by simp only [RaOps.rev, y1, Res.ok_bind], ?_⟩
    rw [show (l.length : Int) - 1 - (i - k) = l.length - 1 - i + k by omega]; exact y2
  atI i x k j h h1 h2 hk hx := by
    have h' : j < l.length := by simpa using h
    obtain ⟨y, y1, y2⟩ := W.subI _ _ k (by omega) (by omega) hk hx
    have e : ((l.length : Int) - 1 - i - k) = ((l.length - 1 - j : Nat) : Int) := by omega
    rw [e] at y2
    simp only [RaOps.rev, y1, Res.ok_bind]
    rw [List.getElem_reverse, W.deref _ _ (by omega) y2]
  eq i j x y h1 h2 h3 h4 hx hy := by
    rw [List.length_reverse] at h2 h4
    show O.eq y.it x.it = _
    rw [W.eq _ _ _ _ (by omega) (by omega) (by omega) (by omega) hy hx]
    congr 1
    rw [decide_eq_decide]; omega

theorem Measured.rev (M : Measured O l R) : Measured O.rev l.reverse (fun i r => R (l.length - 1 - i) r.it) := by
  intro i j x y h1 h2 h3 h4 hx hy
  rw [List.length_reverse] at h3 h4
  show (O.diff x.it y.it).toInt = _
  rw [M _ _ _ _ (by omega) (by omega) (by omega) (by omega) hy hx]
  omega

/-- `std::copy`. -/
theorem Walk.copy_eq (W : Walk O l K R) : ∀ (k i : Nat) (x y : I), i + k = l.length → R i x → R l.length y →
    ∀ fuel, k < fuel → O.copy fuel x y = .ok (l.drop i) := by
  intro k
  induction k with
  | zero =>
    intro i x y hi hx hy fuel hf
    obtain ⟨f, rfl⟩ : ∃ f, fuel = f + 1 := ⟨fuel - 1, by omega⟩
    simp only [RaOps.copy, W.eq i l.length x y (by omega) (by omega) (by omega) (by omega) hx hy, Res.ok_bind]
    rw [if_pos (by simp; omega), List.drop_eq_nil_of_le (by omega)]
  | succ k ih =>
    intro i x y hi hx hy fuel hf
    obtain ⟨f, rfl⟩ : ∃ f, fuel = f + 1 := ⟨fuel - 1, by omega⟩
    obtain ⟨z, z1, z2⟩ := W.inc i x (by omega) (by omega) hx
    have := ih (i + 1) z y (by omega) (by exact_mod_cast z2) hy f (by omega)
    have he := W.eq i l.length x y (by omega) (by omega) (by omega) (by omega) hx hy
    rw [decide_eq_false (by omega)] at he
    simp only [RaOps.copy, RaOps.postInc, he, Res.ok_bind, z1, Bool.false_eq_true, if_false]
    rw [this, Res.ok_bind, W.deref i x (by omega) hx, List.drop_eq_getElem_cons (i := i) (by omega)]

/-- `std::copy_backward`. -/
theorem Walk.copyBackward_eq (W : Walk O l K R) : ∀ (k : Nat) (x y : I), k ≤ l.length → R 0 x → R k y →
    ∀ fuel, k < fuel → O.copyBackward fuel x y = .ok (l.take k).reverse := by
  intro k
  induction k with
  | zero =>
    intro x y hi hx hy fuel hf
    obtain ⟨f, rfl⟩ : ∃ f, fuel = f + 1 := ⟨fuel - 1, by omega⟩
    simp only [RaOps.copyBackward, W.eq 0 _ x y (by omega) (by omega) (by omega) (by omega) hx hy, Res.ok_bind]
    rw [if_pos (by simp)]; rfl
  | succ k ih =>
    intro x y hi hx hy fuel hf
    obtain ⟨f, rfl⟩ : ∃ f, fuel = f + 1 := ⟨fuel - 1, by omega⟩
    obtain ⟨z, z1, z2⟩ := W.dec _ y (by omega) (by omega) hy
    rw [show ((k + 1 : Nat) : Int) - 1 = k by omega] at z2
    have := ih x z (by omega) hx z2 f (by omega)
    have he := W.eq 0 _ x y (by omega) (by omega) (by omega) (by omega) hx hy
    rw [decide_eq_false (by omega)] at he
    simp only [RaOps.copyBackward, he, Res.ok_bind, z1, Bool.false_eq_true, if_false]
    rw [this, Res.ok_bind, W.deref k z (by omega) z2, List.take_succ_eq_append_getElem (i := k) (by omega),
      List.reverse_append]
    rfl

/-- `std::partition_point`. -/
theorem Walk.partitionLoop_eq (W : Walk O l K R) (hK : l.length ≤ K + 1) (before : V → Res Bool) (p : V → Bool)
    (hb : ∀ a ∈ l, before a = .ok (p a)) (hp : l.Pairwise (fun a b => p b = true → p a = true)) :
    ∀ (count i : Nat) (x : I), i + count ≤ l.length → R i x → (∀ a ∈ l.take i, p a = true) →
      (∀ a ∈ l.drop (i + count), p a = false) →
      ∃ r it, O.partitionLoop before x count = .ok it ∧ R (r : Nat) it ∧ r ≤ l.length ∧ (∀ a ∈ l.take r, p a = true) ∧
        ∀ a ∈ l.drop r, p a = false := by
  rw [List.pairwise_iff_getElem] at hp
  intro count
  induction count using Nat.strongRecOn with
  | ind count ih =>
    intro i x hi hx h1 h2
    rw [RaOps.partitionLoop]
    by_cases h0 : count = 0
    · rw [dif_pos h0]
      subst h0
      exact ⟨i, x, rfl, hx, by omega, h1, h2⟩
    rw [dif_neg h0]
    obtain ⟨y, y1, y2⟩ := W.addI i x (count / 2) (by omega) (by omega) (by omega) hx
    have hm : i + count / 2 < l.length := by omega
    have hd := W.deref (i + count / 2) y hm (by exact_mod_cast y2)
    simp only [y1, Res.ok_bind, hd, hb _ (List.getElem_mem hm)]
    cases hpm : p l[i + count / 2] with
    | true =>
      obtain ⟨z, z1, z2⟩ := W.inc _ y (by omega) (by omega) y2
      simp only [if_true, z1, Res.ok_bind]
      refine ih _ (by omega) (i + count / 2 + 1) z (by omega) (by exact_mod_cast z2) ?_ ?_
      · intro a ha
        obtain ⟨j, hj, rfl⟩ := List.mem_iff_getElem.mp ha
        rw [List.getElem_take]
        rw [List.length_take] at hj
        by_cases e : j = i + count / 2
        · subst e; exact hpm
        · exact hp j (i + count / 2) (by omega) hm (by omega) hpm
      · intro a ha
        exact h2 a (by rw [show i + count = i + count / 2 + 1 + (count - (count / 2 + 1)) by omega]; exact ha)
    | false =>
      simp only [Bool.false_eq_true, if_false]
      refine ih _ (by omega) i x (by omega) hx h1 ?_
      intro a ha
      obtain ⟨j, hj, rfl⟩ := List.mem_iff_getElem.mp ha
      rw [List.length_drop] at hj
      rw [List.getElem_drop]
      by_cases e : j = 0
      · subst e; exact hpm
      · cases hq : p l[i + count / 2 + j] with
        | false => rfl
        | true => rw [hp (i + count / 2) _ hm (by omega) (by omega) hq] at hpm; exact hpm

/-- Loops and accesses that agree with the list `l`. -/
def GoodAccess (O : RaOps I V U) (l : List V) (first last : I) : Prop :=
  (∀ fuel, l.length < fuel → O.copy fuel first last = .ok l ∧ O.copyBackward fuel first last = .ok l.reverse) ∧
  ∀ i (h : i < l.length), O.atI first (BitVec.ofNat 64 i) = .ok l[i] ∧
    ∃ it, O.addI first (BitVec.ofNat 64 i) = .ok it ∧ O.deref it = l[i] ∧ O.eq it last = .ok false ∧
      O.subI it (BitVec.ofNat 64 i) = .ok first ∧
      ∃ jt, O.subI last (BitVec.ofNat 64 (i + 1)) = .ok jt ∧ O.deref jt = l[l.length - 1 - i] ∧
        O.addI jt (BitVec.ofNat 64 (i + 1)) = .ok last

/-- As `GoodAccess`, without the jump over the whole sequence. -/
def GoodAccessInner (O : RaOps I V U) (l : List V) (first last : I) : Prop :=
  (∀ fuel, l.length < fuel → O.copy fuel first last = .ok l ∧ O.copyBackward fuel first last = .ok l.reverse) ∧
  ∀ i (h : i < l.length), O.atI first (BitVec.ofNat 64 i) = .ok l[i] ∧
    ∃ it, O.addI first (BitVec.ofNat 64 i) = .ok it ∧ O.deref it = l[i] ∧ O.eq it last = .ok false ∧
      O.subI it (BitVec.ofNat 64 i) = .ok first ∧
      (i + 1 < l.length → ∃ jt, O.subI last (BitVec.ofNat 64 (i + 1)) = .ok jt ∧ O.deref jt = l[l.length - 1 - i] ∧
        O.addI jt (BitVec.ofNat 64 (i + 1)) = .ok last)

/-- Distances and binary searches that agree with the list `l`, sorted by `rel`. -/
def GoodSearch (O : RaOps I V U) (lt : V → V → Res Bool) (rel : V → V → Prop) (good : V → Prop) (l : List V)
    (first last : I) : Prop :=
  O.distance first last = l.length ∧
  ∀ v, good v →
    (∃ r it, O.lowerBound lt first last v = .ok it ∧ IsPartition l (fun a => rel a v) r ∧ O.distance first it = r ∧
      (r = l.length → it = last) ∧ ∀ h : r < l.length, O.deref it = l[r]) ∧
    (∃ r it, O.upperBound lt first last v = .ok it ∧ IsPartition l (fun a => ¬ rel v a) r ∧ O.distance first it = r ∧
      (r = l.length → it = last) ∧ ∀ h : r < l.length, O.deref it = l[r]) ∧
    ∃ b, O.binarySearch lt first last v = .ok b ∧ (b = true ↔ v ∈ l)

theorem Walk.access (W : Walk O l K R) (first last : I) (h1 : R 0 first) (h2 : R l.length last) :
    (l.length ≤ K → GoodAccess O l first last) ∧ (l.length ≤ K + 1 → GoodAccessInner O l first last) := by
  have hc : ∀ fuel, l.length < fuel → O.copy fuel first last = .ok l ∧ O.copyBackward fuel first last = .ok l.reverse := by
    intro fuel hf
    refine ⟨?_, ?_⟩
    · rw [W.copy_eq l.length 0 first last (by omega) h1 h2 fuel hf]; rfl
    · rw [W.copyBackward_eq l.length first last (by omega) h1 h2 fuel hf, List.take_length]
  have ha : l.length ≤ K + 1 → ∀ i (h : i < l.length), O.atI first (BitVec.ofNat 64 i) = .ok l[i] ∧
      ∃ it, O.addI first (BitVec.ofNat 64 i) = .ok it ∧ O.deref it = l[i] ∧ O.eq it last = .ok false ∧
      O.subI it (BitVec.ofNat 64 i) = .ok first := by
    intro hK i h
    refine ⟨W.atI 0 first i i h (by omega) (by omega) (by omega) h1, ?_⟩
    obtain ⟨y, y1, y2⟩ := W.addI 0 first i (by omega) (by omega) (by omega) h1
    rw [Int.zero_add] at y2
    obtain ⟨z, z1, z2⟩ := W.subI i y i (by omega) (by omega) (by omega) y2
    rw [Int.sub_self] at z2
    refine ⟨y, y1, W.deref i y h y2, ?_, ?_⟩
    · rw [W.eq i l.length y last (by omega) (by omega) (by omega) (by omega) y2 h2, decide_eq_false (by omega)]
    · rw [z1, W.inj _ _ _ z2 h1]
  have hj : ∀ i (h : i < l.length), i + 1 ≤ K → ∃ jt, O.subI last (BitVec.ofNat 64 (i + 1)) = .ok jt ∧
      O.deref jt = l[l.length - 1 - i] ∧ O.addI jt (BitVec.ofNat 64 (i + 1)) = .ok last := by
    intro i h hK
    obtain ⟨z, z1, z2⟩ := W.subI l.length last (i + 1) (by omega) (by omega) hK h2
    obtain ⟨u, u1, u2⟩ := W.addI _ z (i + 1) (by omega) (by omega) hK z2
    rw [show (l.length : Int) - ((i + 1 : Nat) : Int) = ((l.length - 1 - i : Nat) : Int) by omega] at z2
    rw [show (l.length : Int) - ((i + 1 : Nat) : Int) + ((i + 1 : Nat) : Int) = l.length by omega] at u2
    exact ⟨z, z1, W.deref _ z (by omega) z2, by rw [u1, W.inj _ _ _ u2 h2]⟩
  refine ⟨fun hK => ⟨hc, fun i h => ?_⟩, fun hK => ⟨hc, fun i h => ?_⟩⟩
  · obtain ⟨a1, it, a2, a3, a4, a5⟩ := ha (by omega) i h
    exact ⟨a1, it, a2, a3, a4, a5, hj i h (by omega)⟩
  · obtain ⟨a1, it, a2, a3, a4, a5⟩ := ha hK i h
    exact ⟨a1, it, a2, a3, a4, a5, fun h' => hj i h (by omega)⟩

theorem Walk.partition (W : Walk O l K R) (M : Measured O l R) (hK : l.length ≤ K + 1) (first last : I) (h1 : R 0 first)
    (h2 : R l.length last) (before : V → Res Bool) (p : V → Bool) (hb : ∀ a ∈ l, before a = .ok (p a))
    (hp : l.Pairwise (fun a b => p b = true → p a = true)) :
    ∃ r it, O.partitionPoint before first last = .ok it ∧ IsPartition l (fun a => p a = true) r ∧ O.distance first it = r ∧
      (r = l.length → it = last) ∧ (∀ h : r < l.length, O.deref it = l[r]) ∧ R (r : Nat) it := by
  have hd : O.distance first last = l.length := by
    rw [RaOps.distance, M 0 l.length first last (by omega) (by omega) (by omega) (by omega) h1 h2]; omega
  obtain ⟨r, it, e1, e2, e3, e4, e5⟩ := W.partitionLoop_eq hK before p hb hp l.length 0 first (by omega) h1 (by simp)
    (by rw [Nat.zero_add, List.drop_length]; intro a ha; exact absurd ha (by simp))
  refine ⟨r, it, by rw [RaOps.partitionPoint, hd]; exact e1, ⟨e3, e4, fun a ha => by show ¬ p a = true; rw [e5 a ha]; simp⟩, ?_, ?_, ?_, e2⟩
  · rw [RaOps.distance, M 0 r first it (by omega) (by omega) (by omega) (by omega) h1 e2]; omega
  · intro h; subst h; exact W.inj _ _ _ e2 h2
  · intro h; exact W.deref r it h e2

theorem Walk.search (W : Walk O l K R) (M : Measured O l R) (hK : l.length ≤ K + 1) (first last : I) (h1 : R 0 first)
    (h2 : R l.length last) (lt : V → V → Res Bool) (rel : V → V → Prop) (good : V → Prop)
    (hl : ∀ a ∈ l, good a) (hlt : ∀ a b, good a → good b → ∃ t, lt a b = .ok t ∧ (t = true ↔ rel a b))
    (irr : ∀ a b, rel a b → ¬ rel b a) (tr : ∀ a b d, rel a b → rel b d → rel a d)
    (tri : ∀ a b, good a → good b → ¬ rel a b → ¬ rel b a → a = b) (hs : l.Pairwise rel) :
    GoodSearch O lt rel good l first last := by
  classical
  have hd : O.distance first last = l.length := by
    rw [RaOps.distance, M 0 l.length first last (by omega) (by omega) (by omega) (by omega) h1 h2]; omega
  refine ⟨hd, fun v hv => ?_⟩
  have dec : ∀ a b, good a → good b → lt a b = .ok (decide (rel a b)) := by
    intro a b ha hb
    obtain ⟨t, t1, t2⟩ := hlt a b ha hb
    rw [t1]; congr 1
    rw [Bool.eq_iff_iff, decide_eq_true_iff, t2]
  obtain ⟨r, it, e1, e2, e3, e4, e5, e6⟩ := W.partition M hK first last h1 h2 (fun a => lt a v) (fun a => decide (rel a v))
    (fun a ha => dec a v (hl a ha) hv)
    (hs.imp (fun {a b} h h' => by simp only [decide_eq_true_iff] at *; exact tr _ _ _ h h'))
  obtain ⟨r', it', f1, f2, f3, f4, f5, f6⟩ := W.partition M hK first last h1 h2 (fun a => do
      let b ← lt v a
      .ok (!b)) (fun a => !decide (rel v a))
    (fun a ha => by rw [dec v a hv (hl a ha)]; rfl)
    (hs.imp (fun {a b} h h' => by
      simp only [Bool.not_eq_true', decide_eq_false_iff_not] at *
      exact fun h'' => h' (tr _ _ _ h'' h)))
  simp only [decide_eq_true_iff] at e2
  simp only [Bool.not_eq_true', decide_eq_false_iff_not] at f2
  refine ⟨⟨r, it, e1, e2, e3, e4, e5⟩, ⟨r', it', f1, f2, f3, f4, f5⟩, ?_⟩
  have hr := e2.1
  have he := W.eq r l.length it last (by omega) (by omega) (by omega) (by omega) e6 h2
  by_cases hlen : r = l.length
  · refine ⟨false, ?_, by
      simp only [Bool.false_eq_true, false_iff]
      intro hm
      have := e2.2.1 v (by rw [hlen, List.take_length]; exact hm)
      exact irr _ _ this this⟩
    rw [RaOps.binarySearch, RaOps.lowerBound, e1, Res.ok_bind, he, Res.ok_bind, decide_eq_true (by omega)]
    rfl
  · have hlt' : r < l.length := by omega
    have hg := hl _ (List.getElem_mem hlt')
    refine ⟨!decide (rel v l[r]), ?_, ?_⟩
    · rw [RaOps.binarySearch, RaOps.lowerBound, e1, Res.ok_bind, he, Res.ok_bind, decide_eq_false (by omega)]
      simp only [Bool.false_eq_true, if_false, e5 hlt', dec v _ hv hg, Res.ok_bind]
    · simp only [Bool.not_eq_true', decide_eq_false_iff_not]
      have hdrop : ∀ j (hj : j < l.length), r ≤ j → ¬ rel l[j] v := by
        intro j hj hrj
        apply e2.2.2
        rw [List.mem_iff_getElem]
        exact ⟨j - r, by rw [List.length_drop]; omega, by rw [List.getElem_drop]; congr 1; omega⟩
      constructor
      · intro h
        rw [tri v l[r] hv hg h (hdrop r hlt' (Nat.le_refl r))]
        exact List.getElem_mem hlt'
      · intro hm hrel
        obtain ⟨j, hj, rfl⟩ := List.mem_iff_getElem.mp hm
        by_cases hjr : r ≤ j
        · rw [List.pairwise_iff_getElem] at hs
          by_cases e : r = j
          · subst e; exact irr _ _ hrel hrel
          · exact irr _ _ hrel (hs r j hlt' hj (by omega))
        · have := e2.2.1 l[j] (by
            rw [List.mem_iff_getElem]
            exact ⟨j, by rw [List.length_take]; omega, by rw [List.getElem_take]⟩)
          exact irr _ _ this this

end

/-! ### Iterators around other iterators -/

section
variable {I V U I' V' U' : Type}

/-- The iterators `f x` of `O'` do what the iterators `x` of `O` do. -/
structure RaHom (O : RaOps I V U) (O' : RaOps I' V' U') (f : I → I') (g : V → V') : Prop where
  deref : ∀ x, O'.deref (f x) = g (O.deref x)
  inc : ∀ x y, O.inc x = .ok y → O'.inc (f x) = .ok (f y)
  dec : ∀ x y, O.dec x = .ok y → O'.dec (f x) = .ok (f y)
  addI : ∀ x n y, O.addI x n = .ok y → O'.addI (f x) n = .ok (f y)
  subI : ∀ x n y, O.subI x n = .ok y → O'.subI (f x) n = .ok (f y)
  atI : ∀ x n v, O.atI x n = .ok v → O'.atI (f x) n = .ok (g v)
  eq : ∀ x y, O'.eq (f x) (f y) = O.eq x y
  diff : ∀ x y, O'.diff (f x) (f y) = O.diff x y

theorem RaHom.id (O : RaOps I V U) : RaHom O O (fun x => x) (fun v => v) :=
  ⟨fun _ => rfl, fun _ _ h => h, fun _ _ h => h, fun _ _ _ h => h, fun _ _ _ h => h, fun _ _ _ h => h, fun _ _ => rfl,
    fun _ _ => rfl⟩

variable {O : RaOps I V U} {O' : RaOps I' V' U'} {f : I → I'} {g : V → V'} {l : List V} {K : Nat} {R : Int → I → Prop}

theorem Walk.hom (W : Walk O l K R) (H : RaHom O O' f g) : Walk O' (l.map g) K (fun i x' => ∃ x, x' = f x ∧ R i x) where
  inj i x y := by
    rintro ⟨x, rfl, hx⟩ ⟨y, rfl, hy⟩
    rw [W.inj i x y hx hy]
  deref i x h := by
    rintro ⟨x, rfl, hx⟩
    rw [H.deref, W.deref i x (by simpa using h) hx, List.getElem_map]
  inc i x h1 h2 := by
    rintro ⟨x, rfl, hx⟩
    obtain ⟨y, y1, y2⟩ := W.inc i x h1 (by simpa using h2) hx
    exact ⟨_, H.inc _ _ y1, y, rfl, y2⟩
  dec i x h1 h2 := by
    rintro ⟨x, rfl, hx⟩
    obtain ⟨y, y1, y2⟩ := W.dec i x h1 (by simpa using h2) hx
    exact ⟨_, H.dec _ _ y1, y, rfl, y2⟩
  addI i x k h1 h2 hk := by
    rintro ⟨x, rfl, hx⟩
    obtain ⟨y, y1, y2⟩ := W.addI i x k h1 (by simpa using h2) hk hx
    exact ⟨_, H.addI _ _ _ y1, y, rfl, y2⟩
  subI i x k h1 h2 hk := by
    rintro ⟨x, rfl, hx⟩
    obtain ⟨y, y1, y2⟩ := W.subI i x k (by simpa using h1) h2 hk hx
    exact ⟨_, H.subI _ _ _ y1, y, rfl, y2⟩
  atI i x k j h h1 h2 hk := by
    rintro ⟨x, rfl, hx⟩
    rw [H.atI _ _ _ (W.atI i x k j (by simpa using h) h1 h2 hk hx), List.getElem_map]
  eq i j x y h1 h2 h3 h4 := by
    rintro ⟨x, rfl, hx⟩ ⟨y, rfl, hy⟩
    rw [H.eq, W.eq i j x y h1 (by simpa using h2) h3 (by simpa using h4) hx hy]

theorem Measured.hom (M : Measured O l R) (H : RaHom O O' f g) : Measured O' (l.map g) (fun i x' => ∃ x, x' = f x ∧ R i x) := by
  rintro i j x y h1 h2 h3 h4 ⟨x, rfl, hx⟩ ⟨y, rfl, hy⟩
  rw [List.length_map] at h3 h4
  rw [H.diff, M i j x y h1 h2 h3 h4 hx hy]

end

/-! ### Walks from iterators on a circle -/

section
variable {I V U : Type} {IO : IterOps I V U} {good : I → Prop} {pos : I → Nat} {M s : Nat} {dist : U → Nat}
  {found : Nat → V → Prop}

/-- The iterator `x` stands `i` steps from the position `a`. -/
def Circle (good : I → Prop) (pos : I → Nat) (M s a : Nat) (i : Int) (x : I) : Prop :=
  good x ∧ (pos x : Int) = ((a : Int) + i * s) % M

theorem circle_add {p a q M s d k : Nat} {i : Int} (hp : (p : Int) = ((a : Int) + i * s) % M) (hd : d = k * s)
    (hq : q = (p + d) % M) : (q : Int) = ((a : Int) + (i + k) * s) % M := by
  rw [hq, Int.natCast_emod, Int.natCast_add, hp, Int.emod_add_emod, hd, Int.natCast_mul, Int.add_mul, Int.add_assoc]

theorem circle_sub {p a q M s d k : Nat} {i : Int} (hp : (p : Int) = ((a : Int) + i * s) % M) (hd : d = k * s) (hM : d ≤ M)
    (hq : q = (p + (M - d)) % M) : (q : Int) = ((a : Int) + (i - k) * s) % M := by
  have e : ((a : Int) + i * s) + ((M - d : Nat) : Int) = (a + (i - k) * s) + M := by
    rw [Int.sub_mul, Int.natCast_sub hM, hd, Int.natCast_mul]; omega
  rw [hq, Int.natCast_emod, Int.natCast_add, hp, Int.emod_add_emod, e, Int.add_emod_right]

theorem circle_inj {a M s n : Nat} {i j : Int} (hs : 0 < s) (hn : (n + 1) * s < M) (h1 : -1 ≤ i) (h2 : i ≤ n) (h3 : -1 ≤ j)
    (h4 : j ≤ n) (h : ((a : Int) + i * s) % M = ((a : Int) + j * s) % M) : i = j := by
  have key : ∀ i j : Int, -1 ≤ i → i ≤ j → j ≤ n → ((a : Int) + i * s) % M = ((a : Int) + j * s) % M → i = j := by
    intro i j h1 h2 h3 h
    have hd : (M : Int) ∣ (j - i) * s := by
      have := Int.emod_emod_of_dvd
      have h' := Int.sub_emod ((a : Int) + j * s) ((a : Int) + i * s) M
      rw [h, Int.sub_self, Int.zero_emod] at h'
      have := Int.dvd_of_emod_eq_zero h'
      rwa [show (a : Int) + j * s - (a + i * s) = (j - i) * s by rw [Int.sub_mul]; omega] at this
    obtain ⟨k, hk⟩ : ∃ k : Nat, j - i = k := ⟨(j - i).toNat, by omega⟩
    rw [hk, ← Int.natCast_mul, Int.natCast_dvd_natCast] at hd
    have hkn : k ≤ n + 1 := by omega
    have hlt : k * s < M := Nat.lt_of_le_of_lt (Nat.mul_le_mul_right s hkn) hn
    have h0 := Nat.eq_zero_of_dvd_of_lt hd hlt
    have : k = 0 := by
      rcases Nat.mul_eq_zero.mp h0 with e | e <;> omega
    omega
  rcases Int.le_total i j with hij | hij
  · exact key i j h1 hij h4 h
  · exact (key j i h3 hij h2 h.symm).symm

/-- An iterator on a circle walks along the list of what it finds there. -/
theorem IterLaw.walk (L : IterLaw IO good pos M s dist found) (O : RaOps I V U) (conv : BitVec 64 → U) (K : Nat)
    (e1 : O.deref = IO.deref) (e2 : O.inc = IO.inc) (e3 : O.dec = IO.dec) (e4 : ∀ x n, O.addI x n = IO.add x (conv n))
    (e5 : ∀ x n, O.subI x n = IO.sub x (conv n)) (e6 : O.eq = IO.eq)
    (e7 : ∀ x n y, good x → IO.add x (conv n) = .ok y → O.atI x n = .ok (IO.deref y))
    (hd : ∀ k, k ≤ K → dist (conv (BitVec.ofNat 64 k)) = k * s) (hs : 0 < s) (l : List V) (a : Nat)
    (hlen : (l.length + 1) * s < M) (hl : ∀ i (h : i < l.length), found ((a + i * s) % M) l[i]) :
    Walk O l K (Circle good pos M s a) := by
  have hs1 : s = 1 * s := (Nat.one_mul s).symm
  have dr : ∀ (i : Nat) x (h : i < l.length), Circle good pos M s a i x → IO.deref x = l[i] := by
    intro i x h hx
    have e : pos x = (a + i * s) % M := by exact_mod_cast hx.2
    exact L.found_inj _ _ _ (L.deref x hx.1) (by rw [e]; exact hl i h)
  refine ⟨?_, ?_, ?_, ?_, ?_, ?_, ?_, ?_⟩
  · intro i x y hx hy
    exact L.inj x y hx.1 hy.1 (by have := hx.2.trans hy.2.symm; omega)
  · intro i x h hx
    rw [e1]; exact dr i x h hx
  · intro i x _ _ hx
    obtain ⟨y, y1, y2, y3⟩ := L.inc x hx.1
    exact ⟨y, by rw [e2]; exact y1, y2, circle_add hx.2 hs1 y3⟩
  · intro i x _ _ hx
    obtain ⟨y, y1, y2, y3⟩ := L.dec x hx.1
    exact ⟨y, by rw [e3]; exact y1, y2, circle_sub hx.2 hs1 L.s_le y3⟩
  · intro i x k _ _ hk hx
    obtain ⟨y, y1, y2, y3⟩ := L.add x (conv (BitVec.ofNat 64 k)) hx.1
    exact ⟨y, by rw [e4]; exact y1, y2, circle_add hx.2 (hd k hk) y3⟩
  · intro i x k _ _ hk hx
    obtain ⟨y, y1, y2, y3⟩ := L.sub x (conv (BitVec.ofNat 64 k)) hx.1
    exact ⟨y, by rw [e5]; exact y1, y2, circle_sub hx.2 (hd k hk) (L.dist_le _) y3⟩
  · intro i x k j h _ hj hk hx
    obtain ⟨y, y1, y2, y3⟩ := L.add x (conv (BitVec.ofNat 64 k)) hx.1
    rw [e7 x _ y hx.1 y1]
    congr 1
    refine dr j y h ⟨y2, ?_⟩
    rw [← hj]
    exact circle_add hx.2 (hd k hk) y3
  · intro i j x y h1 h2 h3 h4 hx hy
    rw [e6, L.eq x y hx.1 hy.1]
    congr 1
    rw [decide_eq_decide]
    constructor
    · intro h
      exact circle_inj hs hlen h1 h2 h3 h4 (by rw [← hx.2, ← hy.2, h])
    · intro h
      have h1 := hx.2
      have h2 := hy.2
      rw [h, ← h2] at h1
      exact_mod_cast h1

end

/-! ### Address and network iterators -/

section
variable {A U : Type} {F : Fam A U} {WF : A → Prop} {val : U → Nat}

theorem ofNat_toNat64 (k : Nat) (h : k < 2 ^ 63) : (BitVec.ofNat 64 k).toNat = k := by
  rw [BitVec.toNat_ofNat, Nat.mod_eq_of_lt (by omega)]

theorem aiWalk (L : F.Law WF val) (l : List A) (a K : Nat) (hK : K < 2 ^ 63) (hKw : K < 2 ^ F.maxPrefix)
    (hlen : l.length < 2 ^ F.maxPrefix) (hl : ∀ i (h : i < l.length), IsAddr F ((a + i) % 2 ^ F.maxPrefix) l[i]) :
    Walk F.aiRa l K (Circle (AIter.Ok F val) (AIter.pos F val) (2 * 2 ^ F.maxPrefix) 1 a) := by
  refine (aiLaw L).walk F.aiRa F.ops.ofI64 K rfl rfl rfl (fun _ _ => rfl) (fun _ _ => rfl) rfl ?_ ?_ (by decide) l a ?_ ?_
  · intro x n y hx h
    obtain ⟨⟨y', _, h1, _, _, _, _, _, _, h2, _⟩, _⟩ := aiter_laws L x hx (F.ops.ofI64 n) (F.ops.ofI64 n)
    have e : y = y' := by have := h.symm.trans h1; injection this
    subst e; exact h2
  · intro k hk
    rw [ofI64_small L _ (by rw [ofNat_toNat64 k (by omega)]; omega) (by rw [ofNat_toNat64 k (by omega)]; omega),
      ofNat_toNat64 k (by omega), Nat.mul_one]
  · have := two_le_W L; omega
  · intro i h
    rw [Nat.mul_one, Nat.mod_mod_of_dvd _ ⟨2, by omega⟩]
    exact hl i h

/-- The difference of address iterators. -/
theorem aiMeasured (L : F.Law WF val) (l : List A) (a : Nat) (hlen : l.length < 2 ^ F.maxPrefix) (h63 : l.length < 2 ^ 63) :
    Measured F.aiRa l (Circle (AIter.Ok F val) (AIter.pos F val) (2 * 2 ^ F.maxPrefix) 1 a) := by
  intro i j x y h1 h2 h3 h4 hx hy
  obtain ⟨k, hk⟩ : ∃ k : Nat, j - i = k := ⟨(j - i).toNat, by omega⟩
  have hk' : k ≤ l.length := by omega
  have hpos : y.pos F val = (x.pos F val + k) % (2 * 2 ^ F.maxPrefix) := by
    have e := circle_add (q := (x.pos F val + k) % (2 * 2 ^ F.maxPrefix)) hx.2 (Nat.mul_one k).symm rfl
    rw [show i + (k : Int) = j by omega, ← hy.2] at e
    omega
  have ho := off_of_pos L x y k hpos
  have hx1 := L.ops.val_lt x.off
  have hv : val (F.ops.sub y.off x.off) = k := by
    rw [L.ops.sub, ho, Nat.mod_add_mod, show val x.off + k + (2 ^ F.maxPrefix - val x.off) = k + 2 ^ F.maxPrefix by omega,
      Nat.add_mod_right, Nat.mod_eq_of_lt (by omega)]
  have ht : (F.aiDiff y x).toNat = k := by
    rw [Fam.aiDiff, L.ops.toI64, hv, Nat.mod_eq_of_lt (by omega)]
  show (F.aiDiff y x).toInt = _
  rw [BitVec.toInt_eq_toNat_cond, ht, if_pos (by omega), hk]

theorem niWalk (L : F.Law WF val) (step : U) (p : Nat) (hst : val step = 2 ^ (F.maxPrefix - p)) (l : List (Net A)) (a K : Nat)
    (hK : K < 2 ^ 63) (hKw : K * val step < 2 ^ F.maxPrefix) (hlen : l.length * val step ≤ 2 ^ F.maxPrefix)
    (hl : ∀ i (h : i < l.length), IsNet F p ((a + i * val step) % 2 ^ F.maxPrefix) l[i]) :
    Walk F.niRa l K (Circle (NIter.Ok F val step p) (NIter.pos F val) (2 * 2 ^ F.maxPrefix) (val step) a) := by
  have hal : val step % 2 ^ (F.maxPrefix - p) = 0 := by rw [hst, Nat.mod_self]
  have hS : 0 < val step := by rw [hst]; exact Nat.two_pow_pos _
  refine (niLaw L step p hal).walk F.niRa F.ops.ofI64 K rfl rfl rfl (fun _ _ => rfl) (fun _ _ => rfl) rfl ?_ ?_ hS l a ?_ ?_
  · intro x n y hx h
    obtain ⟨⟨y', _, h1, _, _, _, _, _, _, _, h2, _⟩, _⟩ := niter_laws L step p hal x hx (F.ops.ofI64 n) (F.ops.ofI64 n)
    have e : y = y' := by have := h.symm.trans h1; injection this
    subst e; exact h2
  · intro k hk
    have h1 : k ≤ k * val step := Nat.le_mul_of_pos_right k hS
    have h2 : k * val step ≤ K * val step := Nat.mul_le_mul_right _ hk
    show val step * _ % _ = _
    rw [ofI64_small L _ (by rw [ofNat_toNat64 k (by omega)]; omega) (by rw [ofNat_toNat64 k (by omega)]; omega),
      ofNat_toNat64 k (by omega), Nat.mul_comm, Nat.mod_eq_of_lt (by omega)]
  · have := L.ops.val_lt step
    rw [Nat.add_mul, Nat.one_mul]; omega
  · intro i h
    show IsNet F p (_ % (2 * 2 ^ F.maxPrefix) % 2 ^ F.maxPrefix) _
    rw [Nat.mod_mod_of_dvd _ ⟨2, by omega⟩]
    exact hl i h

/-- The walk along `hosts()`. -/
theorem hosts_walk (L : F.Law WF val) (n : Net A) (hn : NetOk F WF n) (hf : HostsFit F n) :
    ∃ s l r1 r2 R, F.hosts n = .ok s ∧ Lists (l.map F.v) (IsHost F.maxPrefix n.plen (F.v n.addr) F.isV6) ∧
      F.aiOps.rMk s.last = .ok r1 ∧ F.aiOps.rMk s.first = .ok r2 ∧
      (∀ a ∈ l, ∃ b, a = F.ofBytes b ∧ 8 * b.length = F.maxPrefix) ∧ l.length < 2 ^ F.maxPrefix ∧
      R 0 s.first ∧ R (l.length : Nat) s.last ∧ R (l.length - 1) r1.it ∧ R (-1) r2.it ∧
      (∀ K, K < 2 ^ 63 → K < 2 ^ F.maxPrefix → Walk F.aiRa l K R) ∧ (l.length < 2 ^ 63 → Measured F.aiRa l R) ∧
      val (F.aiUintDiff s.last s.first) = l.length ∧ (2 ^ (F.maxPrefix - n.plen) ≤ 2 ^ 63 → l.length < 2 ^ 63) := by
  obtain ⟨s, k, s1, s2, s3, k1, k2, k3, k4, k5⟩ := hosts_range L n hn hf
  obtain ⟨l, r1, r2, e1, e2, e3, e4, _, e5, _⟩ := range_spec L s k s2 s3 k1 k2 k3 k4
  have hlen : l.length = k := by
    have := congrArg List.length e1
    simpa using this
  have hA : ∀ i (h : i < l.length), IsAddr F ((s.first.pos F val + i) % 2 ^ F.maxPrefix) l[i] := by
    intro i h
    obtain ⟨b, b1, b2⟩ := e2 _ (List.getElem_mem h)
    refine ⟨b, b1, b2, ?_⟩
    have h1 : (l.map F.v)[i]'(by simpa using h) = s.first.pos F val + i := by
      simp only [e1, List.getElem_range']; omega
    rw [List.getElem_map, b1, L.v_ofBytes] at h1
    rw [h1, Nat.mod_eq_of_lt (by omega)]
  have hM := AIter.pos_lt L s.first
  have hM' := AIter.pos_lt L s.last
  have f0 : Circle (AIter.Ok F val) (AIter.pos F val) (2 * 2 ^ F.maxPrefix) 1 (s.first.pos F val) 0 s.first :=
    ⟨s2, by rw [Int.zero_mul, Int.add_zero, Int.emod_eq_of_lt (by omega) (by exact_mod_cast hM)]⟩
  have f1 : Circle (AIter.Ok F val) (AIter.pos F val) (2 * 2 ^ F.maxPrefix) 1 (s.first.pos F val) l.length s.last := by
    refine ⟨s3, ?_⟩
    have := circle_add (q := (s.first.pos F val + k) % (2 * 2 ^ F.maxPrefix)) f0.2 (Nat.mul_one k).symm rfl
    rw [Nat.mod_eq_of_lt (by omega), ← k3, Int.zero_add] at this
    rw [hlen]; exact this
  have rv : ∀ i x r, Circle (AIter.Ok F val) (AIter.pos F val) (2 * 2 ^ F.maxPrefix) 1 (s.first.pos F val) i x →
      F.aiOps.rMk x = .ok r → Circle (AIter.Ok F val) (AIter.pos F val) (2 * 2 ^ F.maxPrefix) 1 (s.first.pos F val) (i - 1) r.it := by
    intro i x r hx hr
    obtain ⟨y, y1, y2, y3⟩ := (aiLaw L).reverse x hx.1
    rw [IterOps.rMk, y1, Res.ok_bind] at hr
    injection hr with hr
    subst hr
    exact ⟨y2, circle_sub (k := 1) hx.2 (Nat.one_mul 1).symm (by have := two_le_W L; omega) y3⟩
  refine ⟨s, l, r1, r2, Circle (AIter.Ok F val) (AIter.pos F val) (2 * 2 ^ F.maxPrefix) 1 (s.first.pos F val), s1,
    ⟨by rw [e1]; exact pairwise_range' _ _, fun x => by rw [e1, mem_range'_iff, k5]⟩, e3, e4, e2, by omega, f0, f1,
    rv _ _ _ f1 e3, rv _ _ _ f0 e4, fun K h1 h2 => aiWalk L l _ K h1 h2 (by omega) hA, fun h => aiMeasured L l _ (by omega) h, e5,
    fun h => ?_⟩
  rw [hlen]
  have i1 := (k5 (s.first.pos F val)).mp ⟨by omega, by omega⟩
  have i2 := (k5 (s.first.pos F val + k - 1)).mp ⟨by omega, by omega⟩
  unfold IsHost at i1 i2
  simp only [inNet_interval L n hn] at i1 i2
  obtain ⟨⟨j1, j2⟩, j3⟩ := i1
  obtain ⟨⟨j4, j5⟩, _⟩ := i2
  have hp := hn.plen
  rcases j3 with h1 | ⟨⟨y, h1, h2⟩, _⟩
  · have : 2 ^ (F.maxPrefix - n.plen) ≤ 2 ^ 1 := Nat.pow_le_pow_right (by decide) (by omega)
    omega
  · omega

/-- The addresses without scope id. -/
def PlainAddr (F : Fam A U) (a : A) : Prop := ∃ b, a = F.ofBytes b ∧ 8 * b.length = F.maxPrefix

/-- The algorithms on `hosts()`, forward and backward, for networks with fewer than `2^63` hosts; for the iterators
themselves and for iterators around them. -/
theorem hosts_algo (L : F.Law WF val) (n : Net A) (hn : NetOk F WF n) (hf : HostsFit F n)
    (h63 : 2 ^ (F.maxPrefix - n.plen) ≤ 2 ^ 63) {I' V' U' : Type} (O' : RaOps I' V' U') (f : AIter A U → I') (g : A → V')
    (H : RaHom F.aiRa O' f g) (lt' : V' → V' → Res Bool) (key : V' → Nat) (hkey : ∀ a, key (g a) = F.v a)
    (hlt' : ∀ a b, PlainAddr F a → PlainAddr F b → lt' (g a) (g b) = F.lt a b) :
    ∃ s, ∃ l : List A, ∃ r1 r2, F.hosts n = .ok s ∧ Lists (l.map F.v) (IsHost F.maxPrefix n.plen (F.v n.addr) F.isV6) ∧
      (∀ a ∈ l, PlainAddr F a) ∧ F.aiOps.rMk s.last = .ok r1 ∧ F.aiOps.rMk s.first = .ok r2 ∧
      GoodAccess O' (l.map g) (f s.first) (f s.last) ∧ GoodAccess O'.rev (l.map g).reverse ⟨f r1.it⟩ ⟨f r2.it⟩ ∧
      GoodSearch O' lt' (fun a b => key a < key b) (fun v => ∃ a, v = g a ∧ PlainAddr F a) (l.map g) (f s.first) (f s.last) ∧
      GoodSearch O'.rev (fun a b => lt' b a) (fun a b => key b < key a) (fun v => ∃ a, v = g a ∧ PlainAddr F a)
        (l.map g).reverse ⟨f r1.it⟩ ⟨f r2.it⟩ := by
  obtain ⟨s, l, r1, r2, R, s1, g1, g2, g3, g4, g5, x0, x1, y0, y1, gw, gm, _, gl⟩ := hosts_walk L n hn hf
  have hlen := gl h63
  have hm : (l.map g).length = l.length := List.length_map _
  have W := (gw l.length hlen g5).hom H
  have M := (gm hlen).hom H
  have x0' : ∃ x, f s.first = f x ∧ R 0 x := ⟨_, rfl, x0⟩
  have x1' : ∃ x, f s.last = f x ∧ R ((l.map g).length : Nat) x := ⟨_, rfl, by rw [hm]; exact x1⟩
  have y0' : ∃ x, f r1.it = f x ∧ R (((l.map g).length : Int) - 1 - 0) x := ⟨_, rfl, by rw [hm, Int.sub_zero]; exact y0⟩
  have y1' : ∃ x, f r2.it = f x ∧ R (((l.map g).length : Int) - 1 - ((l.map g).reverse.length : Nat)) x :=
    ⟨_, rfl, by rw [List.length_reverse, hm, show (l.length : Int) - 1 - l.length = -1 by omega]; exact y1⟩
  have g4' : ∀ v ∈ l.map g, ∃ a, v = g a ∧ PlainAddr F a := by
    intro v hv
    obtain ⟨a, ha, rfl⟩ := List.mem_map.mp hv
    exact ⟨a, rfl, g4 a ha⟩
  have hlt : ∀ x y, (∃ a, x = g a ∧ PlainAddr F a) → (∃ a, y = g a ∧ PlainAddr F a) →
      ∃ t, lt' x y = .ok t ∧ (t = true ↔ key x < key y) := by
    rintro _ _ ⟨a, rfl, ha⟩ ⟨b, rfl, hb⟩
    rw [hlt' a b ha hb, hkey, hkey]
    obtain ⟨x, rfl, hx⟩ := ha
    obtain ⟨y, rfl, hy⟩ := hb
    refine ⟨_, L.lt x y hx hy, ?_⟩
    rw [decide_eq_true_iff, L.v_ofBytes, L.v_ofBytes]
  have tri : ∀ x y, (∃ a, x = g a ∧ PlainAddr F a) → (∃ a, y = g a ∧ PlainAddr F a) → ¬ key x < key y → ¬ key y < key x →
      x = y := by
    rintro _ _ ⟨a, rfl, ha⟩ ⟨b, rfl, hb⟩ h1 h2
    rw [hkey, hkey] at h1 h2
    obtain ⟨x, rfl, hx⟩ := ha
    obtain ⟨y, rfl, hy⟩ := hb
    rw [L.v_ofBytes, L.v_ofBytes] at h1 h2
    rw [beValue_inj x y (by omega) (by omega)]
  have hs : (l.map g).Pairwise (fun a b => key a < key b) := by
    rw [List.pairwise_map]
    simp only [hkey]
    exact List.pairwise_map.mp g1.1
  refine ⟨s, l, r1, r2, s1, g1, g4, g2, g3, (W.access _ _ x0' x1').1 (by omega),
    (W.rev.access _ _ y0' y1').1 (by rw [List.length_reverse]; omega), ?_, ?_⟩
  · exact W.search M (by omega) _ _ x0' x1' lt' _ _ g4' hlt
      (fun a b h h' => Nat.lt_asymm h h') (fun a b d h h' => Nat.lt_trans h h') tri hs
  · exact W.rev.search M.rev (by rw [List.length_reverse]; omega) _ _ y0' y1' (fun a b => lt' b a) _ _
      (fun a ha => g4' a (List.mem_reverse.mp ha)) (fun a b ha hb => hlt b a hb ha)
      (fun a b h h' => Nat.lt_asymm h h') (fun a b d h h' => Nat.lt_trans h' h) (fun a b ha hb h1 h2 => (tri b a hb ha h1 h2).symm)
      (List.pairwise_reverse.mpr hs)

/-- Networks without scope id of prefix length `p`. -/
def PlainNet (F : Fam A U) (p : Nat) (m : Net A) : Prop := ∃ v, IsNet F p v m

theorem netLt_isNet (L : F.Law WF val) {p v u : Nat} {a b : Net A} (ha : IsNet F p v a) (hb : IsNet F p u b) :
    F.netLt a b = .ok (decide (v < u)) := by
  have hm : a.mask = b.mask := by have := ha.mask.symm.trans hb.mask; injection this
  obtain ⟨m, m1, m2, m3⟩ := L.fromPrefix p hb.le
  have e2 : b.mask = F.ofBytes m := by have := hb.mask.symm.trans m1; injection this
  simp only [Fam.netLt, ha.addr.eq L hb.addr, Res.ok_bind]
  by_cases h : v = u
  · rw [if_pos (by simpa using h), hm, e2, L.eq m m m2 m2, Res.ok_bind, decide_eq_true rfl, if_pos rfl, decide_eq_false (by omega)]
  · rw [if_neg (by simpa using h), ha.addr.lt L hb.addr]

theorem netOk_isNet (L : F.Law WF val) {n : Net A} (hn : NetOk F WF n) (hp : PlainAddr F n.addr) :
    IsNet F n.plen (F.v n.addr) n := by
  obtain ⟨x, x1, x2⟩ := hp
  obtain ⟨m, m1, m2, m3⟩ := hn.mask
  obtain ⟨b, b1, b2, b3⟩ := L.fromPrefix n.plen hn.plen
  refine ⟨⟨x, x1, x2, by rw [x1, L.v_ofBytes]⟩, rfl, ?_, hn.plen, hn.aligned⟩
  rw [b1, m1, beValue_inj b m (by omega) (by omega)]

/-- The algorithms on `subnets()`: loops and accesses, distances, and searches among networks of one address. -/
theorem subnets_algo (L : F.Law WF val) (n : Net A) (hn : NetOk F WF n) (d : Nat) (hw : F.maxPrefix < 2 ^ 64)
    (hd : n.plen + d ≤ F.maxPrefix) (hdw : d < F.maxPrefix) (h0 : n.plen + d ≠ 0) (hfit : SubnetsFit F n) (hd63 : d < 63)
    {I' V' U' : Type} (O' : RaOps I' V' U') (f : NIter A U → I') (g : Net A → V') (H : RaHom F.niRa O' f g)
    (lt' : V' → V' → Res Bool) (key : V' → Nat) (hkey : ∀ a, key (g a) = F.v a.addr)
    (hlt' : ∀ a b, lt' (g a) (g b) = F.netLt a b) :
    ∃ s, ∃ l : List (Net A), ∃ r1 r2, F.subnets n d none = .ok s ∧ l.length = 2 ^ d ∧ (∀ m ∈ l, PlainNet F (n.plen + d) m) ∧
      l.map (fun m => F.v m.addr) = (List.range (2 ^ d)).map (fun i => F.v n.addr + i * 2 ^ (F.maxPrefix - (n.plen + d))) ∧
      F.niOps.rMk s.last = .ok r1 ∧ F.niOps.rMk s.first = .ok r2 ∧
      GoodAccessInner O' (l.map g) (f s.first) (f s.last) ∧ GoodAccessInner O'.rev (l.map g).reverse ⟨f r1.it⟩ ⟨f r2.it⟩ ∧
      (n.plen ≠ 0 → GoodAccess O' (l.map g) (f s.first) (f s.last) ∧
        GoodAccess O'.rev (l.map g).reverse ⟨f r1.it⟩ ⟨f r2.it⟩) ∧
      (F.niDiff s.last s.first).toNat = 2 ^ (F.maxPrefix - n.plen) % 2 ^ F.maxPrefix % 2 ^ 64 ∧
      (n.plen ≠ 0 → n.plen + d = F.maxPrefix →
        GoodSearch O' lt' (fun a b => key a < key b) (fun v => ∃ a, v = g a ∧ PlainNet F F.maxPrefix a) (l.map g)
          (f s.first) (f s.last)) := by
  obtain ⟨s, step, s1, _, q1, q2, q3, _, q5, q6⟩ := subnets_range L n hn d hw hd hdw h0 hfit
  have hv := L.v_lt _ hn.wf
  have hal : F.v n.addr % 2 ^ (F.maxPrefix - n.plen) = 0 := hn.aligned
  have hroom : F.v n.addr + 2 ^ (F.maxPrefix - n.plen) ≤ 2 ^ F.maxPrefix :=
    aligned_room F.maxPrefix _ _ (Nat.sub_le ..) hv hal
  have hPS : 2 ^ (F.maxPrefix - n.plen) = 2 ^ d * val step := by
    rw [q3, ← Nat.pow_add]; congr 1; omega
  obtain ⟨l, r1, r2, l1, l2, l3, l4, _⟩ := nrange_spec L s step (n.plen + d) (2 ^ d) q1 q2 q3 (Nat.two_pow_pos d)
    (by rw [q6, q5, hPS]) (by rw [q5, ← hPS]; exact hroom)
  have hS : 0 < val step := by rw [q3]; exact Nat.two_pow_pos _
  have hd2 : 2 ^ d < 2 ^ 63 := Nat.pow_lt_pow_right (by decide) hd63
  have hmul : ∀ i, i < 2 ^ d → i * val step + val step ≤ 2 ^ d * val step := by
    intro i hi
    have := Nat.mul_le_mul_right (val step) (show i + 1 ≤ 2 ^ d from hi)
    rwa [Nat.add_mul, Nat.one_mul] at this
  have hA : ∀ i (h : i < l.length), IsNet F (n.plen + d) ((s.first.pos F val + i * val step) % 2 ^ F.maxPrefix) l[i] := by
    intro i h
    have := hmul i (by omega)
    rw [Nat.mod_eq_of_lt (by omega)]
    exact l2 i h
  have W : ∀ K, K < 2 ^ 63 → K * val step < 2 ^ F.maxPrefix → Walk F.niRa l K
      (Circle (NIter.Ok F val step (n.plen + d)) (NIter.pos F val) (2 * 2 ^ F.maxPrefix) (val step) (s.first.pos F val)) :=
    fun K h1 h2 => niWalk L step (n.plen + d) q3 l _ K h1 h2 (by rw [l1, ← hPS]; omega) hA
  have hM : s.first.pos F val < 2 * 2 ^ F.maxPrefix := AIter.pos_lt L s.first.it
  have hM' : s.last.pos F val < 2 * 2 ^ F.maxPrefix := AIter.pos_lt L s.last.it
  generalize hR : Circle (NIter.Ok F val step (n.plen + d)) (NIter.pos F val) (2 * 2 ^ F.maxPrefix) (val step)
    (s.first.pos F val) = R at W
  have f0 : R 0 s.first := by
    rw [← hR]
    exact ⟨q1, by rw [Int.zero_mul, Int.add_zero, Int.emod_eq_of_lt (by omega) (by exact_mod_cast hM)]⟩
  have f1 : R (l.length : Nat) s.last := by
    have f0' := f0
    rw [← hR] at f0' ⊢
    refine ⟨q2, ?_⟩
    have := circle_add (q := (s.first.pos F val + 2 ^ d * val step) % (2 * 2 ^ F.maxPrefix)) f0'.2 rfl rfl
    rw [Nat.mod_eq_of_lt (by omega), ← hPS, q5, ← q6, Int.zero_add] at this
    rw [l1, q5]; exact this
  have rv : ∀ i x r, R i x → F.niOps.rMk x = .ok r → R (i - 1) r.it := by
    intro i x r hx hr
    rw [← hR] at hx ⊢
    obtain ⟨y, y1, y2, y3⟩ := (niLaw L step (n.plen + d) (by rw [q3, Nat.mod_self])).reverse x hx.1
    rw [IterOps.rMk, y1, Res.ok_bind] at hr
    injection hr with hr
    subst hr
    exact ⟨y2, circle_sub (k := 1) hx.2 (Nat.one_mul _).symm (by have := L.ops.val_lt step; omega) y3⟩
  have y0 : R ((l.length : Int) - 1 - 0) r1.it := by
    rw [Int.sub_zero]; exact rv _ _ _ f1 l3
  have y1 : R ((l.length : Int) - 1 - (l.reverse.length : Nat)) r2.it := by
    have := rv _ _ _ f0 l4
    rw [List.length_reverse, show (l.length : Int) - 1 - l.length = 0 - 1 by omega]; exact this
  have hm : (l.map g).length = l.length := List.length_map _
  have x0' : ∃ x, f s.first = f x ∧ R 0 x := ⟨_, rfl, f0⟩
  have x1' : ∃ x, f s.last = f x ∧ R ((l.map g).length : Nat) x := ⟨_, rfl, by rw [hm]; exact f1⟩
  have y0' : ∃ x, f r1.it = f x ∧ R (((l.map g).length : Int) - 1 - 0) x := ⟨_, rfl, by rw [hm]; exact y0⟩
  have y1' : ∃ x, f r2.it = f x ∧ R (((l.map g).length : Int) - 1 - ((l.map g).reverse.length : Nat)) x :=
    ⟨_, rfl, by rw [List.length_reverse, hm, ← List.length_reverse]; rw [List.length_reverse] at y1 ⊢; exact y1⟩
  have hlr : (l.map g).reverse.length = l.length := by rw [List.length_reverse, hm]
  have hp2 := Nat.two_pow_pos d
  have WK := (W (2 ^ d - 1) (by omega) (by
    have := hmul (2 ^ d - 1) (by omega)
    omega)).hom H
  have hbig : n.plen ≠ 0 → 2 ^ d * val step < 2 ^ F.maxPrefix := by
    intro h
    rw [← hPS]
    exact Nat.pow_lt_pow_right (by decide) (by have := hn.plen; omega)
  refine ⟨s, l, r1, r2, s1, l1, ?_, ?_, l3, l4, (WK.access _ _ x0' x1').2 (by omega),
    (WK.rev.access ⟨f r1.it⟩ ⟨f r2.it⟩ y0' y1').2 (by omega), fun h => ?_, ?_, fun h hw1 => ?_⟩
  · intro m hm
    obtain ⟨i, hi, rfl⟩ := List.mem_iff_getElem.mp hm
    exact ⟨_, l2 i hi⟩
  · apply List.ext_getElem (by simp [l1])
    intro i h1 h2
    rw [List.getElem_map, List.getElem_map, (l2 i (by simpa using h1)).v_eq L, List.getElem_range, q5, q3]
  · have W' := (W (2 ^ d) hd2 (hbig h)).hom H
    exact ⟨(W'.access _ _ x0' x1').1 (by omega), (W'.rev.access ⟨f r1.it⟩ ⟨f r2.it⟩ y0' y1').1 (by omega)⟩
  · have hv' : val (F.ops.sub s.last.it.off s.first.it.off) = 2 ^ (F.maxPrefix - n.plen) % 2 ^ F.maxPrefix := by
      have e1 : s.first.it.pos F val % 2 ^ F.maxPrefix = val s.first.it.off := AIter.pos_mod L s.first.it
      have e2 : s.last.it.pos F val % 2 ^ F.maxPrefix = val s.last.it.off := AIter.pos_mod L s.last.it
      have q5' : s.first.it.pos F val = F.v n.addr := q5
      have q6' : s.last.it.pos F val = F.v n.addr + 2 ^ (F.maxPrefix - n.plen) := q6
      rw [L.ops.sub, ← e1, ← e2, q5', q6', Nat.mod_eq_of_lt hv, Nat.mod_add_mod,
        show F.v n.addr + 2 ^ (F.maxPrefix - n.plen) + (2 ^ F.maxPrefix - F.v n.addr) =
          2 ^ (F.maxPrefix - n.plen) + 2 ^ F.maxPrefix by omega, Nat.add_mod_right]
    rw [Fam.niDiff, Fam.aiDiff, L.ops.toI64, hv']
  · have W' := W (2 ^ d) hd2 (hbig h)
    have hone : val step = 1 := by rw [q3, hw1, Nat.sub_self]; rfl
    have hP : ∀ m ∈ l, PlainNet F F.maxPrefix m := by
      intro m hm
      obtain ⟨i, hi, rfl⟩ := List.mem_iff_getElem.mp hm
      rw [← hw1]
      exact ⟨_, l2 i hi⟩
    have Ms : Measured F.niRa l R := by
      intro i j x y h1 h2 h3 h4 hx hy
      rw [← hR, hone] at hx hy
      rw [l1] at h3 h4
      obtain ⟨k, hk⟩ : ∃ k : Nat, j - i = k := ⟨(j - i).toNat, by omega⟩
      have hpos : y.it.pos F val = (x.it.pos F val + k) % (2 * 2 ^ F.maxPrefix) := by
        have e := circle_add (q := (x.it.pos F val + k) % (2 * 2 ^ F.maxPrefix)) hx.2 (Nat.mul_one k).symm rfl
        rw [show i + (k : Int) = j by omega, ← hy.2] at e
        exact_mod_cast e.symm
      have ho := off_of_pos L x.it y.it k hpos
      have hx1 := L.ops.val_lt x.it.off
      have hkw : k < 2 ^ F.maxPrefix := by
        have := hbig h
        rw [hone, Nat.mul_one] at this
        omega
      have hvd : val (F.ops.sub y.it.off x.it.off) = k := by
        rw [L.ops.sub, ho, Nat.mod_add_mod, show val x.it.off + k + (2 ^ F.maxPrefix - val x.it.off) = k + 2 ^ F.maxPrefix by omega,
          Nat.add_mod_right, Nat.mod_eq_of_lt hkw]
      have ht : (F.aiDiff y.it x.it).toNat = k := by
        rw [Fam.aiDiff, L.ops.toI64, hvd, Nat.mod_eq_of_lt (by omega)]
      show (F.aiDiff y.it x.it).toInt = _
      rw [BitVec.toInt_eq_toNat_cond, ht, if_pos (by omega), hk]
    refine (W'.hom H).search (Ms.hom H) (by omega) _ _ x0' x1' lt' _ (fun v => ∃ a, v = g a ∧ PlainNet F F.maxPrefix a) ?_ ?_
      (fun a b h h' => Nat.lt_asymm h h') (fun a b d h h' => Nat.lt_trans h h') ?_ ?_
    · intro v hv
      obtain ⟨a, ha, rfl⟩ := List.mem_map.mp hv
      exact ⟨a, rfl, hP a ha⟩
    · rintro _ _ ⟨a, rfl, v, ha⟩ ⟨b, rfl, u, hb⟩
      rw [hlt', hkey, hkey]
      refine ⟨_, netLt_isNet L ha hb, ?_⟩
      rw [decide_eq_true_iff, ha.v_eq L, hb.v_eq L]
    · rintro _ _ ⟨a, rfl, v, ha⟩ ⟨b, rfl, u, hb⟩ h1 h2
      rw [hkey, hkey, ha.v_eq L, hb.v_eq L] at h1 h2
      rw [show u = v by omega] at hb
      rw [IsNet.inj ha hb]
    · rw [List.pairwise_map, List.pairwise_iff_getElem]
      intro i j hi hj hij
      rw [hkey, hkey, (l2 i hi).v_eq L, (l2 j hj).v_eq L, hone]
      omega

/-- In networks of `2^64` addresses and more with hosts up to the last address the difference of the ends is `-1`
as a signed number of 64 bits, and the searches stop at once. -/
theorem hosts_wide (L : F.Law WF val) (n : Net A) (hn : NetOk F WF n) (h6 : F.isV6 = true) (hp : n.plen + 64 ≤ F.maxPrefix)
    (hfit : F.v n.addr + 2 ^ (F.maxPrefix - n.plen) < 2 ^ F.maxPrefix) :
    ∃ s, F.hosts n = .ok s ∧ F.aiRa.distance s.first s.last = -1 ∧
      ∀ v, PlainAddr F v → F.aiRa.lowerBound F.lt s.first s.last v = .ok s.first ∧
        F.aiRa.upperBound F.lt s.first s.last v = .ok s.first ∧
        F.aiRa.binarySearch F.lt s.first s.last v = .ok (decide (F.v n.addr < F.v v)) := by
  obtain ⟨s, s1, s2, s3, s4⟩ := hosts_eq L n hn
  rcases s4 with ⟨h, _⟩ | ⟨h, _⟩ | ⟨_, e1, e2⟩
  · omega
  · omega
  rw [h6, if_pos rfl] at e2
  have hP : 2 ^ 64 ≤ 2 ^ (F.maxPrefix - n.plen) := Nat.pow_le_pow_right (by decide) (by omega)
  have hQ : 2 ^ (F.maxPrefix - n.plen) = 2 ^ (F.maxPrefix - n.plen - 64) * 2 ^ 64 := by
    rw [← Nat.pow_add]; congr 1; omega
  rw [Nat.mod_eq_of_lt (by omega), show F.v n.addr + (2 ^ (F.maxPrefix - n.plen) - 1) + 1 =
    F.v n.addr + 2 ^ (F.maxPrefix - n.plen) by omega] at e2
  have o1 := AIter.pos_mod L s.first
  have o2 := AIter.pos_mod L s.last
  rw [e1, Nat.mod_eq_of_lt (by omega)] at o1
  rw [e2, Nat.mod_eq_of_lt (by omega)] at o2
  have ht : (F.aiDiff s.last s.first).toNat = 2 ^ 64 - 1 := by
    rw [Fam.aiDiff, L.ops.toI64, L.ops.sub, ← o1, ← o2, show F.v n.addr + 2 ^ (F.maxPrefix - n.plen) +
      (2 ^ F.maxPrefix - (F.v n.addr + 1)) = 2 ^ (F.maxPrefix - n.plen) - 1 + 2 ^ F.maxPrefix by omega, Nat.add_mod_right,
      Nat.mod_eq_of_lt (b := 2 ^ F.maxPrefix) (by omega)]
    have hQ0 := Nat.two_pow_pos (F.maxPrefix - n.plen - 64)
    generalize 2 ^ (F.maxPrefix - n.plen - 64) = q at hQ hQ0
    omega
  have hdist : F.aiRa.distance s.first s.last = -1 := by
    show (F.aiDiff s.last s.first).toInt = -1
    rw [BitVec.toInt_eq_toNat_cond, ht, if_neg (by omega)]
    decide
  have hpp : ∀ before, F.aiRa.partitionPoint before s.first s.last = .ok s.first := by
    intro before
    unfold RaOps.partitionPoint
    rw [hdist, RaOps.partitionLoop]
    rfl
  refine ⟨s, s1, hdist, fun v hv => ⟨hpp _, hpp _, ?_⟩⟩
  have heq : F.aiRa.eq s.first s.last = .ok false := by
    have := (aiLaw L).eq s.first s.last s2 s3
    show F.aiEq s.first s.last = _
    rw [show F.aiEq s.first s.last = _ from this, e1, e2, decide_eq_false (by omega)]
  have hl : F.aiRa.lowerBound F.lt s.first s.last v = .ok s.first := hpp _
  obtain ⟨x, rfl, hx⟩ := hv
  have hlt : F.lt (F.ofBytes x) (F.aiRa.deref s.first) = .ok (decide (beValue x < val s.first.off)) :=
    IsAddr.lt L ⟨x, rfl, hx, rfl⟩ s2.cur
  rw [RaOps.binarySearch, hl, Res.ok_bind, heq, Res.ok_bind, if_neg (by decide), hlt, Res.ok_bind, L.v_ofBytes, ← o1,
    ← decide_not]
  congr 1
  rw [decide_eq_decide]
  omega

end

/-! ### Version agnostic iterators -/

theorem lo32_ofI64 (n : BitVec 64) : lo32 (U128.ofI64 n) = n.setWidth 32 := rfl

theorem anyHosts_hom4 (c : Cfg) : RaHom (fam4 c.le).aiRa (anyHostsOps c).ra (anyHostsOps c).mk4 AnyAddr.v4 where
  deref _ := rfl
  inc x y h := by
    show ((fam4 c.le).aiAdd x (lo32 (U128.ofI64 1#64)) >>= _) = _
    rw [lo32_one, show (fam4 c.le).aiAdd x 1#32 = .ok y from h]; rfl
  dec x y h := by
    show ((fam4 c.le).aiSub x (lo32 (U128.ofI64 1#64)) >>= _) = _
    rw [lo32_one, show (fam4 c.le).aiSub x 1#32 = .ok y from h]; rfl
  addI x n y h := by
    show ((fam4 c.le).aiAdd x (lo32 (U128.ofI64 n)) >>= _) = _
    rw [lo32_ofI64, show (fam4 c.le).aiAdd x (n.setWidth 32) = .ok y from h]; rfl
  subI x n y h := by
    show ((fam4 c.le).aiSub x (lo32 (U128.ofI64 n)) >>= _) = _
    rw [lo32_ofI64, show (fam4 c.le).aiSub x (n.setWidth 32) = .ok y from h]; rfl
  atI x n v h := by
    show ((fam4 c.le).aiAt x (lo32 (U128.ofI64 n)) >>= _) = _
    rw [lo32_ofI64, show (fam4 c.le).aiAt x (n.setWidth 32) = .ok v from h]; rfl
  eq _ _ := rfl
  diff _ _ := rfl

theorem anyHosts_hom6 (c : Cfg) : RaHom (fam6 c).aiRa (anyHostsOps c).ra (anyHostsOps c).mk6 AnyAddr.v6 where
  deref _ := rfl
  inc x y h := by
    show ((fam6 c).aiAdd x (U128.ofI64 1#64) >>= _) = _
    rw [show (fam6 c).aiAdd x (U128.ofI64 1#64) = .ok y from h]; rfl
  dec x y h := by
    show ((fam6 c).aiSub x (U128.ofI64 1#64) >>= _) = _
    rw [show (fam6 c).aiSub x (U128.ofI64 1#64) = .ok y from h]; rfl
  addI x n y h := by
    show ((fam6 c).aiAdd x (U128.ofI64 n) >>= _) = _
    rw [show (fam6 c).aiAdd x (U128.ofI64 n) = .ok y from h]; rfl
  subI x n y h := by
    show ((fam6 c).aiSub x (U128.ofI64 n) >>= _) = _
    rw [show (fam6 c).aiSub x (U128.ofI64 n) = .ok y from h]; rfl
  atI x n v h := by
    show ((fam6 c).aiAt x (U128.ofI64 n) >>= _) = _
    rw [show (fam6 c).aiAt x (U128.ofI64 n) = .ok v from h]; rfl
  eq _ _ := rfl
  diff _ _ := rfl

theorem anySubnets_hom4 (c : Cfg) : RaHom (fam4 c.le).niRa (anySubnetsOps c).ra (anySubnetsOps c).mk4 AnyNet.v4 where
  deref _ := rfl
  inc x y h := by
    show ((fam4 c.le).niAdd x (lo32 (U128.ofI64 1#64)) >>= _) = _
    rw [lo32_one, show (fam4 c.le).niAdd x 1#32 = .ok y from h]; rfl
  dec x y h := by
    show ((fam4 c.le).niSub x (lo32 (U128.ofI64 1#64)) >>= _) = _
    rw [lo32_one, show (fam4 c.le).niSub x 1#32 = .ok y from h]; rfl
  addI x n y h := by
    show ((fam4 c.le).niAdd x (lo32 (U128.ofI64 n)) >>= _) = _
    rw [lo32_ofI64, show (fam4 c.le).niAdd x (n.setWidth 32) = .ok y from h]; rfl
  subI x n y h := by
    show ((fam4 c.le).niSub x (lo32 (U128.ofI64 n)) >>= _) = _
    rw [lo32_ofI64, show (fam4 c.le).niSub x (n.setWidth 32) = .ok y from h]; rfl
  atI x n v h := by
    show ((fam4 c.le).niAt x (lo32 (U128.ofI64 n)) >>= _) = _
    rw [lo32_ofI64, show (fam4 c.le).niAt x (n.setWidth 32) = .ok v from h]; rfl
  eq _ _ := rfl
  diff _ _ := rfl

theorem anySubnets_hom6 (c : Cfg) : RaHom (fam6 c).niRa (anySubnetsOps c).ra (anySubnetsOps c).mk6 AnyNet.v6 where
  deref _ := rfl
  inc x y h := by
    show ((fam6 c).niAdd x (U128.ofI64 1#64) >>= _) = _
    rw [show (fam6 c).niAdd x (U128.ofI64 1#64) = .ok y from h]; rfl
  dec x y h := by
    show ((fam6 c).niSub x (U128.ofI64 1#64) >>= _) = _
    rw [show (fam6 c).niSub x (U128.ofI64 1#64) = .ok y from h]; rfl
  addI x n y h := by
    show ((fam6 c).niAdd x (U128.ofI64 n) >>= _) = _
    rw [show (fam6 c).niAdd x (U128.ofI64 n) = .ok y from h]; rfl
  subI x n y h := by
    show ((fam6 c).niSub x (U128.ofI64 n) >>= _) = _
    rw [show (fam6 c).niSub x (U128.ofI64 n) = .ok y from h]; rfl
  atI x n v h := by
    show ((fam6 c).niAt x (U128.ofI64 n) >>= _) = _
    rw [show (fam6 c).niAt x (U128.ofI64 n) = .ok v from h]; rfl
  eq _ _ := rfl
  diff _ _ := rfl

theorem anyLt_bytes (c : Cfg) (a b : List (BitVec 8)) (h : a.length = b.length) :
    anyLt c (.v4 a) (.v4 b) = (fam4 c.le).lt a b := by
  show _ = Res.ok (bytesLess a b)
  unfold anyLt
  split
  · simp only [anyCompare, Res.ok_bind]
    rw [bytesCmp_eq a b h, bytesLess_dec a b h]
    congr 1
    rw [decide_eq_decide, Nat.compare_eq_lt]
  · rfl

theorem anyLt_sixteen (c : Cfg) (a b : V6) : anyLt c (.v6 a) (.v6 b) = (fam6 c).lt a b := rfl

end Ip
