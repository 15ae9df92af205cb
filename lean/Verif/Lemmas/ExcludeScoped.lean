import Verif.Lemmas.ExcludeCtor
import Verif.Spec.ExcludeCtor
/-
The excluding iterator where the excluded network has a scope id: it equals none of the halves.
-/
set_option autoImplicit false

namespace Ip
open Spec

section
variable {A U : Type} {F : Fam A U} {WF : A → Prop} {val : U → Nat}

/-- A network `u/q` that equals no network without scope id, yet can be a subnet of one. -/
structure Foreign (F : Fam A U) (o : Net A) (q u : Nat) : Prop where
  eq : ∀ p v m, IsNet F p v m → F.netEq m o = .ok false
  sub : ∀ p v m, IsNet F p v m →
    F.subnetOf o m = .ok (decide (v ≤ u ∧ u + 2 ^ (F.maxPrefix - q) ≤ v + 2 ^ (F.maxPrefix - p)))

theorem exInc_foreign {o a b cur : Net A} {q u p v r t : Nat} (H : Foreign F o q u) (ha : IsNet F p v a) (hb : IsNet F r t b) :
    F.exInc ⟨o, a, b, cur⟩ =
      (if v ≤ u ∧ u + 2 ^ (F.maxPrefix - q) ≤ v + 2 ^ (F.maxPrefix - p) then do
        if !(← F.netEq cur b) then do
          let h ← F.halves a
          .ok ⟨o, h.1, h.2, b⟩
        else F.exDefault
      else if t ≤ u ∧ u + 2 ^ (F.maxPrefix - q) ≤ t + 2 ^ (F.maxPrefix - r) then do
        if !(← F.netEq cur a) then do
          let h ← F.halves b
          .ok ⟨o, h.1, h.2, a⟩
        else F.exDefault
      else .ub) := by
  simp only [Fam.exInc, H.eq _ _ a ha, H.eq _ _ b hb, H.sub _ _ a ha, H.sub _ _ b hb, Res.ok_bind, Bool.not_false, Bool.and_self,
    if_true, decide_eq_true_eq]

/-- The end of the loop: `d` is the default network. -/
theorem exVisit_end {d : Net A} (L : F.Law WF val) (hd : IsNet F F.maxPrefix 0 d) (fuel : Nat) (hf : 0 < fuel) :
    F.exVisit fuel ⟨d, d, d, d⟩ ⟨d, d, d, d⟩ = .ok [] := by
  obtain ⟨f, rfl⟩ : ∃ f, fuel = f + 1 := ⟨fuel - 1, by omega⟩
  have hdd : F.netEq d d = .ok true := by rw [netEq_isNet L hd hd]; simp
  simp [Fam.exVisit, Fam.exEq, hdd]

/-- One round of the loop. -/
theorem exVisit_step {d : Net A} (L : F.Law WF val) (hd : IsNet F F.maxPrefix 0 d) (fuel : Nat) (x : ExIter A) (p v : Nat)
    (hx : IsNet F p v x.cur) : F.exVisit (fuel + 1) x ⟨d, d, d, d⟩ =
      if v = 0 ∧ p = F.maxPrefix then .ok [] else
        F.exInc x >>= fun y => F.exVisit fuel y ⟨d, d, d, d⟩ >>= fun l => .ok (x.cur :: l) := by
  simp only [Fam.exVisit, Fam.exEq, netEq_isNet L hx hd, Res.ok_bind, decide_eq_true_eq]

/-- From a state where the excluded network is properly inside `v/p`: the two iterators. -/
theorem scoped_run (L : F.Law WF val) (S : SafeLaw F WF val) (h2 : 1 < F.maxPrefix) (o o' : Net A) (q u : Nat) (H : Foreign F o q u)
    (ho : IsNet F q u o') (d : Net A) (dd : F.exDefault = .ok ⟨d, d, d, d⟩) (hd : IsNet F F.maxPrefix 0 d) :
    ∀ (k p v : Nat) (a b cur : Net A), q = p + (k + 1) → v % 2 ^ (F.maxPrefix - p) = 0 →
      IsNet F (p + 1) v a → IsNet F (p + 1) (v + 2 ^ (F.maxPrefix - (p + 1))) b →
      (v ≤ u ∧ u + 2 ^ (F.maxPrefix - q) ≤ v + 2 ^ (F.maxPrefix - p)) →
      F.netEq cur a = .ok false → F.netEq cur b = .ok false →
      ∃ y y' l, F.exInc ⟨o, a, b, cur⟩ = .ok y ∧ F.exInc ⟨o', a, b, cur⟩ = .ok y' ∧
        (∀ fuel, k + 1 < fuel → F.exVisit fuel y' ⟨d, d, d, d⟩ = .ok l) ∧
        (q < F.maxPrefix → (∀ fuel, F.exVisit fuel y ⟨d, d, d, d⟩ = .ub) ∧ F.exSteps l.length y = .ub ∧
          ∀ i (h : i < l.length), ∃ x, F.exSteps i y = .ok x ∧ x.cur = l[i] ∧ F.exEq x ⟨d, d, d, d⟩ = .ok false) ∧
        (q = F.maxPrefix → ∃ e, (∀ fuel, k + 2 < fuel → F.exVisit fuel y ⟨d, d, d, d⟩ = .ok (l ++ e)) ∧
          e.map F.vp = lastVisited F.maxPrefix u) := by
  have hw := S.size
  have hqw := ho.le
  have hO := Nat.two_pow_pos (F.maxPrefix - q)
  have huv := ho.v_lt L
  intro k
  induction k with
  | zero =>
    intro p v a b cur hq hv ha hb hin ca cb
    rw [Nat.zero_add] at hq
    subst hq
    have hhalf : 2 ^ (F.maxPrefix - p) = 2 * 2 ^ (F.maxPrefix - (p + 1)) := by
      rw [← Nat.pow_succ']; congr 1; omega
    have hsplit := half_or (F.maxPrefix - (p + 1)) (F.maxPrefix - (p + 1)) v u (by omega) ho.aligned
      (by rw [show F.maxPrefix - (p + 1) + 1 = F.maxPrefix - p by omega]; exact hv)
      (by rw [show F.maxPrefix - (p + 1) + 1 = F.maxPrefix - p by omega]; exact hin)
    -- the sibling of the excluded network
    obtain ⟨sib, vs, hsib, hvs, e1, e2, e3⟩ : ∃ sib vs, IsNet F (p + 1) vs sib ∧
        ((u = v ∧ vs = v + 2 ^ (F.maxPrefix - (p + 1))) ∨ (u = v + 2 ^ (F.maxPrefix - (p + 1)) ∧ vs = v)) ∧
        F.exInc ⟨o, a, b, cur⟩ = (F.halves o' >>= fun h => .ok ⟨o, h.1, h.2, sib⟩) ∧
        F.exInc ⟨o', a, b, cur⟩ = .ok ⟨o', a, b, sib⟩ ∧ F.exInc ⟨o', a, b, sib⟩ = .ok ⟨d, d, d, d⟩ := by
      have f1 := netEq_isNet L ha ho
      have f2 := netEq_isNet L hb ho
      have f3 := netEq_isNet L ha ha
      have f4 := netEq_isNet L hb hb
      rw [decide_eq_true ⟨rfl, rfl⟩] at f3 f4
      by_cases hu : u = v
      · subst hu
        cases IsNet.inj ha ho
        rw [decide_eq_true ⟨rfl, rfl⟩] at f1
        refine ⟨b, _, hb, .inl ⟨rfl, rfl⟩, ?_, ?_, ?_⟩
        · rw [exInc_foreign H ha hb, if_pos (by omega), cb]; rfl
        · simp [Fam.exInc, f1, f2, cb]
        · simp [Fam.exInc, f1, f2, f4, dd]
      · have hu' : u = v + 2 ^ (F.maxPrefix - (p + 1)) := by omega
        subst hu'
        cases IsNet.inj hb ho
        rw [decide_eq_true ⟨rfl, rfl⟩] at f2
        rw [decide_eq_false (by omega)] at f1
        refine ⟨a, _, ha, .inr ⟨rfl, rfl⟩, ?_, ?_, ?_⟩
        · rw [exInc_foreign H ha hb, if_neg (by omega), if_pos (by omega), ca]; rfl
        · simp [Fam.exInc, f1, f2, ca]
        · simp [Fam.exInc, f1, f2, f3, dd]
    by_cases c : p + 1 < F.maxPrefix
    · obtain ⟨x, y, g1, g2, g3⟩ := halves_eq L hw ho c
      have hh2 : 2 ^ (F.maxPrefix - (p + 1)) = 2 * 2 ^ (F.maxPrefix - (p + 1 + 1)) := by
        rw [← Nat.pow_succ']; congr 1; omega
      have last : F.exInc ⟨o, x, y, sib⟩ = .ub := by
        rw [exInc_foreign H g2 g3, if_neg (by omega), if_neg (by omega)]
      refine ⟨⟨o, x, y, sib⟩, ⟨o', a, b, sib⟩, [sib], by rw [e1, g1]; rfl, e2, ?_, fun _ => ⟨?_, ?_, ?_⟩, fun h => by omega⟩
      · intro fuel hf
        obtain ⟨f, rfl⟩ : ∃ f, fuel = f + 1 := ⟨fuel - 1, by omega⟩
        rw [exVisit_step L hd f ⟨o', a, b, sib⟩ _ _ hsib, if_neg (by omega), e3, Res.ok_bind, exVisit_end L hd f (by omega)]
        rfl
      · intro fuel
        cases fuel with
        | zero => rfl
        | succ f => rw [exVisit_step L hd f ⟨o, x, y, sib⟩ _ _ hsib, if_neg (by omega), last]; rfl
      · show (F.exInc _ >>= _) = _
        rw [last]; rfl
      · intro i h
        obtain rfl : i = 0 := by simpa using h
        refine ⟨_, rfl, rfl, ?_⟩
        rw [Fam.exEq, netEq_isNet L hsib hd, decide_eq_false (by omega)]
    · have hp : p + 1 = F.maxPrefix := by omega
      rw [hp] at ha hb ho hin hO hhalf H hsib hvs
      rw [Nat.sub_self, Nat.pow_zero] at hin hb hhalf hvs
      have hok := ho.netOk L
      have hv' := ho.v_eq L
      obtain ⟨x, y, g1, g2, g3⟩ := halves_host L o' hok ho.plen
      rw [hv'] at g2 g3
      cases IsNet.inj g2 ho
      have even : v % 2 = 0 := by rwa [hhalf] at hv
      have hW := L.pos
      have hW4 : 4 ≤ 2 ^ F.maxPrefix := Nat.pow_le_pow_right (n := 2) (by decide) h2
      have hmod : (u + 1) % 2 ^ F.maxPrefix = if u + 1 = 2 ^ F.maxPrefix then 0 else u + 1 := by
        split
        · next h => rw [h, Nat.mod_self]
        · exact Nat.mod_eq_of_lt (by omega)
      have d1 := netEq_isNet L hsib g3
      have d2 := netEq_isNet L g3 g3
      rw [decide_eq_true ⟨rfl, rfl⟩] at d2
      have n2 : F.exInc ⟨o, o', y, y⟩ = .ok ⟨d, d, d, d⟩ := by
        rw [exInc_foreign H g2 g3, if_pos (by omega), d2]
        simp only [Res.ok_bind, Bool.not_true, Bool.false_eq_true, if_false]
        exact dd
      refine ⟨⟨o, o', y, sib⟩, ⟨o', a, b, sib⟩, if vs = 0 then [] else [sib], by rw [e1, g1]; rfl, e2, ?_, fun h => by omega, fun _ => ?_⟩
      · intro fuel hf
        obtain ⟨f, rfl⟩ : ∃ f, fuel = f + 1 := ⟨fuel - 1, by omega⟩
        rw [exVisit_step L hd f ⟨o', a, b, sib⟩ _ _ hsib, e3, Res.ok_bind, exVisit_end L hd f (by omega)]
        by_cases hz : vs = 0
        · rw [if_pos ⟨hz, rfl⟩, if_pos hz]
        · rw [if_neg (fun h => hz h.1), if_neg hz]; rfl
      · rcases hvs with ⟨hu, hvs⟩ | ⟨hu, hvs⟩
        · have hvv := hsib.v_lt L
          have e : (u + 1) % 2 ^ F.maxPrefix = u + 1 := Nat.mod_eq_of_lt (by omega)
          rw [decide_eq_true ⟨by omega, rfl⟩] at d1
          have n1 : F.exInc ⟨o, o', y, sib⟩ = .ok ⟨d, d, d, d⟩ := by
            rw [exInc_foreign H g2 g3, if_pos (by omega), d1]
            simp only [Res.ok_bind, Bool.not_true, Bool.false_eq_true, if_false]
            exact dd
          refine ⟨[], ?_, ?_⟩
          · intro fuel hf
            obtain ⟨f, rfl⟩ : ∃ f, fuel = f + 1 := ⟨fuel - 1, by omega⟩
            rw [exVisit_step L hd f ⟨o, o', y, sib⟩ _ _ hsib, n1, Res.ok_bind, exVisit_end L hd f (by omega), if_neg (by omega),
              if_neg (by omega)]
            rfl
          · rw [lastVisited, if_neg (by omega)]; rfl
        · rw [decide_eq_false (by rw [hmod]; split <;> omega)] at d1
          have n1 : F.exInc ⟨o, o', y, sib⟩ = .ok ⟨o, o', y, y⟩ := by
            rw [exInc_foreign H g2 g3, if_pos (by omega), d1]
            simp only [Res.ok_bind, Bool.not_false, if_true, g1]
          refine ⟨if vs = 0 ∨ u + 1 = 2 ^ F.maxPrefix then [] else [y], ?_, ?_⟩
          · intro fuel hf
            obtain ⟨f, rfl⟩ : ∃ f, fuel = f + 1 + 1 := ⟨fuel - 2, by omega⟩
            rw [exVisit_step L hd (f + 1) ⟨o, o', y, sib⟩ _ _ hsib, n1, Res.ok_bind, exVisit_step L hd f ⟨o, o', y, y⟩ _ _ g3, n2,
              Res.ok_bind, exVisit_end L hd f (by omega)]
            by_cases hz : vs = 0
            · rw [if_pos ⟨hz, rfl⟩, if_pos hz, if_pos (.inl hz)]; rfl
            · rw [if_neg (fun h => hz h.1), if_neg hz]
              by_cases hy : u + 1 = 2 ^ F.maxPrefix
              · rw [if_pos ⟨by rw [hmod, if_pos hy], rfl⟩, if_pos (.inr hy)]; rfl
              · rw [if_neg (by rw [hmod, if_neg hy]; omega), if_neg (by omega)]; rfl
          · unfold lastVisited
            by_cases hz : vs = 0 ∨ u + 1 = 2 ^ F.maxPrefix
            · rw [if_pos hz, if_neg (by omega)]; rfl
            · rw [if_neg hz, if_pos (by omega)]
              show [(F.v y.addr, y.plen)] = _
              rw [g3.v_eq L, g3.plen, hmod, if_neg (fun h => hz (.inr h))]
  | succ k ih =>
    intro p v a b cur hq hv ha hb hin ca cb
    have hhalf : 2 ^ (F.maxPrefix - p) = 2 * 2 ^ (F.maxPrefix - (p + 1)) := by
      rw [← Nat.pow_succ']; congr 1; omega
    have hsplit := half_or (F.maxPrefix - (p + 1)) (F.maxPrefix - q) v u (by omega) ho.aligned
      (by rw [show F.maxPrefix - (p + 1) + 1 = F.maxPrefix - p by omega]; exact hv)
      (by rw [show F.maxPrefix - (p + 1) + 1 = F.maxPrefix - p by omega]; exact hin)
    have f1 := netEq_isNet L ha ho
    have f2 := netEq_isNet L hb ho
    have f3 := subnetOf_isNet L ho ha
    have f4 := subnetOf_isNet L ho hb
    rw [decide_eq_false (by omega)] at f1 f2
    obtain ⟨s, v', sib, vs, x, y, hs, g1, g2, g3, hsib, hin', e1, e2⟩ : ∃ s v' sib vs x y, IsNet F (p + 1) v' s ∧
        F.halves s = .ok (x, y) ∧ IsNet F (p + 1 + 1) v' x ∧ IsNet F (p + 1 + 1) (v' + 2 ^ (F.maxPrefix - (p + 1 + 1))) y ∧
        IsNet F (p + 1) vs sib ∧ (v' ≤ u ∧ u + 2 ^ (F.maxPrefix - q) ≤ v' + 2 ^ (F.maxPrefix - (p + 1))) ∧
        F.exInc ⟨o, a, b, cur⟩ = .ok ⟨o, x, y, sib⟩ ∧ F.exInc ⟨o', a, b, cur⟩ = .ok ⟨o', x, y, sib⟩ := by
      by_cases hs : u + 2 ^ (F.maxPrefix - q) ≤ v + 2 ^ (F.maxPrefix - (p + 1))
      · obtain ⟨x, y, g1, g2, g3⟩ := halves_eq L hw ha (by omega)
        rw [decide_eq_true ⟨hin.1, hs⟩] at f3
        refine ⟨a, v, b, _, x, y, ha, g1, g2, g3, hb, ⟨hin.1, hs⟩, ?_, ?_⟩
        · rw [exInc_foreign H ha hb, if_pos ⟨hin.1, hs⟩, cb, Res.ok_bind, g1]; rfl
        · simp [Fam.exInc, f1, f2, f3, cb, g1]
      · obtain ⟨x, y, g1, g2, g3⟩ := halves_eq L hw hb (by omega)
        have hs2 : v + 2 ^ (F.maxPrefix - (p + 1)) ≤ u := by omega
        rw [decide_eq_false (by omega)] at f3
        rw [decide_eq_true ⟨hs2, by omega⟩] at f4
        refine ⟨b, _, a, v, x, y, hb, g1, g2, g3, ha, ⟨hs2, by omega⟩, ?_, ?_⟩
        · rw [exInc_foreign H ha hb, if_neg (by omega), if_pos ⟨hs2, by omega⟩, ca, Res.ok_bind, g1]; rfl
        · simp [Fam.exInc, f1, f2, f3, f4, ca, g1]
    have c1 : F.netEq sib x = .ok false := by rw [netEq_isNet L hsib g2, decide_eq_false (by omega)]
    have c2 : F.netEq sib y = .ok false := by rw [netEq_isNet L hsib g3, decide_eq_false (by omega)]
    obtain ⟨z, z', l, i1, i2, i3, i4, i5⟩ := ih (p + 1) v' x y sib (by omega) hs.aligned g2 g3 hin' c1 c2
    refine ⟨_, _, sib :: l, e1, e2, ?_, fun h => ?_, fun h => ?_⟩
    · intro fuel hf
      obtain ⟨f, rfl⟩ : ∃ f, fuel = f + 1 := ⟨fuel - 1, by omega⟩
      rw [exVisit_step L hd f ⟨o', x, y, sib⟩ _ _ hsib, if_neg (by omega), i2, Res.ok_bind, i3 f (by omega)]
      rfl
    · obtain ⟨j1, j2, j3⟩ := i4 h
      refine ⟨?_, ?_, ?_⟩
      · intro fuel
        cases fuel with
        | zero => rfl
        | succ f =>
          rw [exVisit_step L hd f ⟨o, x, y, sib⟩ _ _ hsib, if_neg (by omega), i1, Res.ok_bind, j1 f]
          rfl
      · show (F.exInc _ >>= _) = _
        rw [i1]; exact j2
      · intro i hi
        cases i with
        | zero =>
          refine ⟨_, rfl, rfl, ?_⟩
          rw [Fam.exEq, netEq_isNet L hsib hd, decide_eq_false (by omega)]
        | succ i =>
          obtain ⟨t, t1, t2, t3⟩ := j3 i (by simpa using hi)
          refine ⟨t, ?_, t2, t3⟩
          show (F.exInc _ >>= _) = _
          rw [i1]; exact t1
    · obtain ⟨e, j1, j2⟩ := i5 h
      refine ⟨e, ?_, j2⟩
      intro fuel hf
      obtain ⟨f, rfl⟩ : ∃ f, fuel = f + 1 := ⟨fuel - 1, by omega⟩
      rw [exVisit_step L hd f ⟨o, x, y, sib⟩ _ _ hsib, if_neg (by omega), i1, Res.ok_bind, j1 f (by omega)]
      rfl

/-- Strictly inside: the sequence made by the constructor and that of `address_exclude`. -/
theorem scoped_inside (L : F.Law WF val) (S : SafeLaw F WF val) (T : ∀ a b, WF a → WF b → ∃ r, F.eq a b = .ok r) (h2 : 1 < F.maxPrefix)
    (n o : Net A) (hn : NetOk F WF n) (ho : NetOk F WF o) (H : Foreign F o o.plen (F.v o.addr)) (hlt : n.plen < o.plen)
    (hin : Part F.maxPrefix o.plen (F.v o.addr) n.plen (F.v n.addr)) :
    ∃ s s' l, F.exSeqMk n o = .ok s ∧ F.exMk n o = .ok s.first ∧ F.addressExclude n o = .ok s' ∧ s.last = s'.last ∧
      (∀ fuel, F.maxPrefix + 1 < fuel → F.exVisit fuel s'.first s'.last = .ok l) ∧
      (o.plen < F.maxPrefix → (∀ fuel, F.exVisit fuel s.first s.last = .ub) ∧ F.exSteps l.length s.first = .ub ∧
        ∀ i (h : i < l.length), ∃ x, F.exSteps i s.first = .ok x ∧ x.cur = l[i] ∧ F.exEq x s.last = .ok false) ∧
      (o.plen = F.maxPrefix → ∃ e, (∀ fuel, F.maxPrefix + 1 < fuel → F.exVisit fuel s.first s.last = .ok (l ++ e)) ∧
        e.map F.vp = lastVisited F.maxPrefix (F.v o.addr)) := by
  have hol := ho.plen
  obtain ⟨l, a, b, l1, l2, h1, h2', ha, hb⟩ := halves_ok L S n hn (by omega)
  obtain ⟨o', o1, o2⟩ := removeScopeNet_eq L S.plain o ho
  obtain ⟨d, d1, d2⟩ := default_isNet L
  have dd : F.exDefault = .ok ⟨d, d, d, d⟩ := by simp only [Fam.exDefault, d1, Res.ok_bind]
  have c1 : ∀ p v m, IsNet F p v m → n.plen < p → F.netEq n m = .ok false := fun p v m hm hp =>
    netEq_plen L T n m hn (hm.netOk L) (by rw [hm.plen]; omega)
  have c2 : ∀ p v m, IsNet F p v m → n.plen < p → F.netEq l m = .ok false := fun p v m hm hp =>
    netEq_plen L T l m (l2.netOk L) (hm.netOk L) (by rw [hm.plen, l2.plen]; omega)
  have key : ∀ x, F.exInc ⟨x, a, b, n⟩ = F.exInc ⟨x, a, b, l⟩ := by
    intro x
    unfold Fam.exInc
    simp only [c1 _ _ a ha (by omega), c1 _ _ b hb (by omega), c2 _ _ a ha (by omega), c2 _ _ b hb (by omega)]
  obtain ⟨k, hk⟩ : ∃ k, o.plen = n.plen + (k + 1) := ⟨o.plen - n.plen - 1, by omega⟩
  obtain ⟨y, y', r, r1, r2, r3, r4, r5⟩ := scoped_run L S h2 o o' _ _ H o2 d dd d2 k n.plen _ a b n hk hn.aligned ha hb hin
    (c1 _ _ a ha (by omega)) (c1 _ _ b hb (by omega))
  have hx : F.exMk n o = .ok y := by simp only [Fam.exMk, h1, Res.ok_bind]; exact r1
  have hne : ¬ (F.v n.addr = F.v o.addr ∧ n.plen = o.plen) := by omega
  refine ⟨⟨y, ⟨d, d, d, d⟩⟩, ⟨y', ⟨d, d, d, d⟩⟩, r, ?_, hx, ?_, rfl, fun fuel hf => r3 fuel (by omega), r4, fun h => ?_⟩
  · simp only [Fam.exSeqMk, hx, dd, Res.ok_bind]
  · simp only [Fam.addressExclude, l1, o1, Fam.noexcept, Res.ok_bind, subnetOf_isNet L o2 l2, netEq_isNet L l2 o2,
      decide_eq_true (show _ ∧ _ from hin), decide_eq_false hne, Bool.not_true, Bool.false_eq_true, if_false]
    rw [key] at r2
    simp only [Fam.exSeqMk, Fam.exMk, h2', Res.ok_bind, r2, dd]
  · obtain ⟨e, e1, e2⟩ := r5 h
    exact ⟨e, fun fuel hf => e1 fuel (by omega), e2⟩

/-- Not strictly inside, for networks of more than one address. -/
theorem scoped_outside (L : F.Law WF val) (S : SafeLaw F WF val)
    (n o : Net A) (hn : NetOk F WF n) (H : Foreign F o o.plen (F.v o.addr)) (hp : n.plen < F.maxPrefix)
    (hout : ¬ (n.plen < o.plen ∧ Part F.maxPrefix o.plen (F.v o.addr) n.plen (F.v n.addr))) : F.exMk n o = .ub := by
  obtain ⟨l, a, b, l1, l2, h1, h2, ha, hb⟩ := halves_ok L S n hn hp
  have hhalf : 2 ^ (F.maxPrefix - n.plen) = 2 * 2 ^ (F.maxPrefix - (n.plen + 1)) := by
    rw [← Nat.pow_succ']; congr 1; omega
  have hO := Nat.two_pow_pos (F.maxPrefix - o.plen)
  have big : o.plen ≤ n.plen → 2 ^ (F.maxPrefix - n.plen) ≤ 2 ^ (F.maxPrefix - o.plen) :=
    fun h => Nat.pow_le_pow_right (by decide) (by omega)
  have n3 : ¬ (F.v n.addr ≤ F.v o.addr ∧ F.v o.addr + 2 ^ (F.maxPrefix - o.plen) ≤ F.v n.addr + 2 ^ (F.maxPrefix - (n.plen + 1))) := by
    rintro ⟨h1, h2⟩
    refine hout ⟨?_, h1, by omega⟩
    by_contra h
    have := big (by omega)
    omega
  have n4 : ¬ (F.v n.addr + 2 ^ (F.maxPrefix - (n.plen + 1)) ≤ F.v o.addr ∧ F.v o.addr + 2 ^ (F.maxPrefix - o.plen) ≤
      F.v n.addr + 2 ^ (F.maxPrefix - (n.plen + 1)) + 2 ^ (F.maxPrefix - (n.plen + 1))) := by
    rintro ⟨h1, h2⟩
    refine hout ⟨?_, by omega, by omega⟩
    by_contra h
    have := big (by omega)
    omega
  simp only [Fam.exMk, h1, Res.ok_bind]
  rw [exInc_foreign H ha hb, if_neg n3, if_neg n4]

/-- Networks of one address. -/
theorem scoped_host (L : F.Law WF val) (h2 : 1 < F.maxPrefix) (n o : Net A) (hn : NetOk F WF n) (ho : NetOk F WF o) (sn so : Bool)
    (Ho : if so then Foreign F o o.plen (F.v o.addr) else IsNet F o.plen (F.v o.addr) o)
    (Hn : ∀ p v m, IsNet F p v m → F.netEq n m = .ok (decide (v = F.v n.addr ∧ p = n.plen) && !sn))
    (hp : n.plen = F.maxPrefix) (d : Net A) (dd : F.exDefault = .ok ⟨d, d, d, d⟩) (hd : IsNet F F.maxPrefix 0 d) :
    (∀ self, o.plen = F.maxPrefix → F.v o.addr = (if self then F.v n.addr else (F.v n.addr + 1) % 2 ^ F.maxPrefix) →
      ∃ y l, F.exMk n o = .ok y ∧ (∀ fuel, 2 < fuel → F.exVisit fuel y ⟨d, d, d, d⟩ = .ok l) ∧
        l.map F.vp = hostVisited F.maxPrefix (F.v n.addr) self sn so) ∧
    (¬ (o.plen = F.maxPrefix ∧ (F.v o.addr = F.v n.addr ∨ F.v o.addr = (F.v n.addr + 1) % 2 ^ F.maxPrefix)) →
        F.exMk n o = .ub) := by
  obtain ⟨a, s, h1, ha, hs⟩ := halves_host L n hn hp
  have hv := L.v_lt _ hn.wf
  have hW4 : 4 ≤ 2 ^ F.maxPrefix := Nat.pow_le_pow_right (n := 2) (by decide) h2
  have mod1 : (F.v n.addr + 1) % 2 ^ F.maxPrefix = if F.v n.addr + 1 = 2 ^ F.maxPrefix then 0 else F.v n.addr + 1 := by
    split
    · next h => rw [h, Nat.mod_self]
    · exact Nat.mod_eq_of_lt (by omega)
  have c1 := Hn _ _ _ ha
  have c2 := Hn _ _ _ hs
  rw [decide_eq_true ⟨rfl, hp.symm⟩, Bool.true_and] at c1
  rw [decide_eq_false (by rw [mod1]; split <;> omega), Bool.false_and] at c2
  have g1 := netEq_isNet L ha hs
  have g2 := netEq_isNet L ha ha
  have g3 := netEq_isNet L hs hs
  rw [decide_eq_true ⟨rfl, rfl⟩] at g2 g3
  rw [decide_eq_false (by rw [mod1]; split <;> omega)] at g1
  have one : ∀ f (x : ExIter A), F.exInc x = .ok ⟨d, d, d, d⟩ → ∀ v, IsNet F F.maxPrefix v x.cur → 1 < f →
      F.exVisit f x ⟨d, d, d, d⟩ = .ok (if v = 0 then [] else [x.cur]) := by
    intro f x hx v hc hf
    obtain ⟨f, rfl⟩ : ∃ g, f = g + 1 := ⟨f - 1, by omega⟩
    rw [exVisit_step L hd f x _ _ hc, hx, Res.ok_bind, exVisit_end L hd f (by omega)]
    by_cases h : v = 0
    · rw [if_pos ⟨h, rfl⟩, if_pos h]
    · rw [if_neg (fun e => h e.1), if_neg h]; rfl
  have first : (if (F.v n.addr + 1) % 2 ^ F.maxPrefix = 0 then [] else [s]).map F.vp =
      if F.v n.addr + 1 = 2 ^ F.maxPrefix then [] else [(F.v n.addr + 1, F.maxPrefix)] := by
    by_cases h : F.v n.addr + 1 = 2 ^ F.maxPrefix
    · rw [if_pos (by rw [mod1, if_pos h]), if_pos h]; rfl
    · rw [if_neg (by rw [mod1, if_neg h]; omega), if_neg h]
      show [(F.v s.addr, s.plen)] = _
      rw [hs.v_eq L, hs.plen, mod1, if_neg h]
  have pw : o.plen ≤ F.maxPrefix → o.plen ≠ F.maxPrefix → 1 < 2 ^ (F.maxPrefix - o.plen) := by
    intro h h'
    have : 2 ^ 1 ≤ 2 ^ (F.maxPrefix - o.plen) := Nat.pow_le_pow_right (by decide) (by omega)
    omega
  have p1 : o.plen = F.maxPrefix → 2 ^ (F.maxPrefix - o.plen) = 1 := fun h => by rw [h, Nat.sub_self]; rfl
  have hol := ho.plen
  have nself : (F.v n.addr + 1) % 2 ^ F.maxPrefix ≠ F.v n.addr := by rw [mod1]; split <;> omega
  cases so with
  | false =>
    have hoi : IsNet F o.plen (F.v o.addr) o := by simpa using Ho
    have e1 := netEq_isNet L ha hoi
    have e2 := netEq_isNet L hs hoi
    refine ⟨?_, ?_⟩
    · intro self q1 q2
      cases self with
      | true =>
        rw [if_pos rfl] at q2
        rw [decide_eq_true ⟨q2.symm, q1.symm⟩] at e1
        rw [decide_eq_false (by omega)] at e2
        refine ⟨⟨o, a, s, s⟩, _, ?_, fun fuel hf => one fuel ⟨o, a, s, s⟩ ?_ _ hs (by omega), ?_⟩
        · simp [Fam.exMk, Fam.exInc, h1, e1, e2, c2]
        · simp [Fam.exInc, e1, e2, g3, dd]
        · rw [first]; rfl
      | false =>
        have q2 : F.v o.addr = (F.v n.addr + 1) % 2 ^ F.maxPrefix := q2
        rw [decide_eq_true ⟨q2.symm, q1.symm⟩] at e2
        rw [decide_eq_false (by omega)] at e1
        cases sn with
        | false =>
          refine ⟨⟨d, d, d, d⟩, [], ?_, fun fuel hf => exVisit_end L hd fuel (by omega), ?_⟩
          · simp [Fam.exMk, Fam.exInc, h1, e1, e2, c1, dd]
          · simp [hostVisited]
        | true =>
          refine ⟨⟨o, a, s, a⟩, _, ?_, fun fuel hf => one fuel ⟨o, a, s, a⟩ ?_ _ ha (by omega), ?_⟩
          · simp [Fam.exMk, Fam.exInc, h1, e1, e2, c1]
          · simp [Fam.exInc, e1, e2, g2, dd]
          · by_cases h : F.v n.addr = 0
            · simp [hostVisited, h]
            · simp only [hostVisited, h, if_false, Bool.false_eq_true, Bool.true_eq_false, or_self, false_and]
              show [(F.v a.addr, a.plen)] = _
              rw [ha.v_eq L, ha.plen]
    · intro q
      have f1 := subnetOf_isNet L hoi ha
      have f2 := subnetOf_isNet L hoi hs
      rw [Nat.sub_self, Nat.pow_zero] at f1 f2
      rw [decide_eq_false (by omega)] at e1 e2
      rw [decide_eq_false (by by_cases h : o.plen = F.maxPrefix <;> [have := p1 h; have := pw hol h] <;> omega)] at f1 f2
      simp [Fam.exMk, Fam.exInc, h1, e1, e2, f1, f2]
  | true =>
    have H : Foreign F o o.plen (F.v o.addr) := by simpa using Ho
    have mk : F.exMk n o = F.exInc ⟨o, a, s, n⟩ := by simp only [Fam.exMk, h1, Res.ok_bind]
    rw [mk]
    refine ⟨?_, ?_⟩
    · intro self q1 q2
      have q3 := p1 q1
      cases self with
      | true =>
        rw [if_pos rfl] at q2
        obtain ⟨a', s', k1, ka, ks⟩ := halves_host L a (ha.netOk L) ha.plen
        rw [ha.v_eq L] at ka ks
        cases IsNet.inj ka ha
        cases IsNet.inj ks hs
        refine ⟨⟨o, a, s, s⟩, _, ?_, fun fuel hf => one fuel ⟨o, a, s, s⟩ ?_ _ hs (by omega), ?_⟩
        · rw [exInc_foreign H ha hs, if_pos (by rw [Nat.sub_self, Nat.pow_zero]; omega), c2]
          simp only [Res.ok_bind, Bool.not_false, if_true, k1]
        · rw [exInc_foreign H ha hs, if_pos (by rw [Nat.sub_self, Nat.pow_zero]; omega), g3]
          simp only [Res.ok_bind, Bool.not_true, Bool.false_eq_true, if_false]
          exact dd
        · rw [first]; rfl
      | false =>
        have q2 : F.v o.addr = (F.v n.addr + 1) % 2 ^ F.maxPrefix := q2
        cases sn with
        | false =>
          refine ⟨⟨d, d, d, d⟩, [], ?_, fun fuel hf => exVisit_end L hd fuel (by omega), ?_⟩
          · rw [exInc_foreign H ha hs, if_neg (by rw [Nat.sub_self, Nat.pow_zero]; omega),
              if_pos (by rw [Nat.sub_self, Nat.pow_zero]; omega), c1]
            simp only [Res.ok_bind, Bool.not_true, Bool.not_false, Bool.false_eq_true, if_false]
            exact dd
          · simp [hostVisited]
        | true =>
          obtain ⟨s', t, k1, ks, kt⟩ := halves_host L s (hs.netOk L) hs.plen
          rw [hs.v_eq L] at ks kt
          cases IsNet.inj ks hs
          have mod2 : ((F.v n.addr + 1) % 2 ^ F.maxPrefix + 1) % 2 ^ F.maxPrefix = (F.v n.addr + 2) % 2 ^ F.maxPrefix := by
            rw [Nat.mod_add_mod]
          rw [mod2] at kt
          have mod2' : (F.v n.addr + 2) % 2 ^ F.maxPrefix =
              if F.v n.addr + 2 = 2 ^ F.maxPrefix then 0 else if F.v n.addr + 1 = 2 ^ F.maxPrefix then 1 else F.v n.addr + 2 := by
            rw [← mod2, mod1]
            split
            · next h => rw [if_neg (by omega), Nat.mod_eq_of_lt (by omega)]
            · split
              · next h => rw [show F.v n.addr + 1 + 1 = 2 ^ F.maxPrefix by omega, Nat.mod_self]
              · rw [Nat.mod_eq_of_lt (by omega)]
          have m1 := netEq_isNet L ha kt
          have m2 := netEq_isNet L kt kt
          rw [decide_eq_true ⟨rfl, rfl⟩] at m2
          rw [decide_eq_false (by rw [mod2']; split <;> [skip; split] <;> omega)] at m1
          have i1 : F.exInc ⟨o, s, t, a⟩ = .ok ⟨o, s, t, t⟩ := by
            rw [exInc_foreign H hs kt, if_pos (by rw [Nat.sub_self, Nat.pow_zero]; omega), m1]
            simp only [Res.ok_bind, Bool.not_false, if_true, k1]
          have i2 : F.exInc ⟨o, s, t, t⟩ = .ok ⟨d, d, d, d⟩ := by
            rw [exInc_foreign H hs kt, if_pos (by rw [Nat.sub_self, Nat.pow_zero]; omega), m2]
            simp only [Res.ok_bind, Bool.not_true, Bool.false_eq_true, if_false]
            exact dd
          refine ⟨⟨o, s, t, a⟩, if F.v n.addr = 0 then [] else a :: (if (F.v n.addr + 2) % 2 ^ F.maxPrefix = 0 then [] else [t]),
            ?_, ?_, ?_⟩
          · rw [exInc_foreign H ha hs, if_neg (by rw [Nat.sub_self, Nat.pow_zero]; omega),
              if_pos (by rw [Nat.sub_self, Nat.pow_zero]; omega), c1]
            simp only [Res.ok_bind, Bool.not_true, Bool.not_false, if_true, k1]
          · intro fuel hf
            obtain ⟨f, rfl⟩ : ∃ g, fuel = g + 1 := ⟨fuel - 1, by omega⟩
            rw [exVisit_step L hd f ⟨o, s, t, a⟩ _ _ ha, i1, Res.ok_bind, one f ⟨o, s, t, t⟩ i2 _ kt (by omega)]
            by_cases h : F.v n.addr = 0
            · rw [if_pos ⟨h, rfl⟩, if_pos h]
            · rw [if_neg (fun e => h e.1), if_neg h]; rfl
          · by_cases h : F.v n.addr = 0
            · simp [hostVisited, h]
            · have e : F.v n.addr + 2 = 2 ^ F.maxPrefix ↔ (F.v n.addr + 2) % 2 ^ F.maxPrefix = 0 := by
                rw [mod2']
                split <;> [skip; split] <;> omega
              simp only [hostVisited, h, if_false, Bool.false_eq_true, Bool.true_eq_false, or_self, true_and, ne_eq, e]
              by_cases h' : (F.v n.addr + 2) % 2 ^ F.maxPrefix = 0
              · rw [if_pos h', if_neg (not_not.mpr h')]
                show [(F.v a.addr, a.plen)] = _
                rw [ha.v_eq L, ha.plen]
              · rw [if_neg h', if_pos h']
                show [(F.v a.addr, a.plen), (F.v t.addr, t.plen)] = _
                rw [ha.v_eq L, ha.plen, kt.v_eq L, kt.plen]
    · intro q
      rw [exInc_foreign H ha hs, if_neg, if_neg]
      all_goals
        rw [Nat.sub_self, Nat.pow_zero]
        by_cases h : o.plen = F.maxPrefix <;> [have := p1 h; have := pw hol h] <;> omega

end
end Ip
