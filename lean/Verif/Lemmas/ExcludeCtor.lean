import Verif.Lemmas.Undefined
/-
The constructors of the excluding iterator and of the excluding sequence.
-/
set_option autoImplicit false

namespace Ip
open Spec

section
variable {A U : Type} {F : Fam A U} {WF : A → Prop} {val : U → Nat}

/-- The two halves of a network that may have a scope id. -/
theorem halves_ok (L : F.Law WF val) (S : SafeLaw F WF val) (n : Net A) (hn : NetOk F WF n) (hp : n.plen < F.maxPrefix) :
    ∃ l a b, F.removeScopeNet n = .ok l ∧ IsNet F n.plen (F.v n.addr) l ∧ F.halves n = .ok (a, b) ∧ F.halves l = .ok (a, b) ∧
      IsNet F (n.plen + 1) (F.v n.addr) a ∧ IsNet F (n.plen + 1) (F.v n.addr + 2 ^ (F.maxPrefix - (n.plen + 1))) b := by
  obtain ⟨l, l1, l2⟩ := removeScopeNet_eq L S.plain n hn
  have hw := S.size
  have hpos := L.pos
  have hv := L.v_lt _ hn.wf
  obtain ⟨b, a, s, step, h1, h2, h3, h4, h5, h6, h7, h8, h9⟩ := subnetsMk_eq L n hn 1 (by omega) (by omega) (by omega) (by omega)
  obtain ⟨g1, _⟩ := subnets_go n 1 (by omega) hw (by omega) a b s h1 h2 h3
  have hroom : F.v n.addr + 2 ^ (F.maxPrefix - n.plen) ≤ 2 ^ F.maxPrefix := aligned_room F.maxPrefix _ _ (Nat.sub_le ..) hv hn.aligned
  have hhalf : 2 ^ (F.maxPrefix - n.plen) = 2 * 2 ^ (F.maxPrefix - (n.plen + 1)) := by
    rw [← Nat.pow_succ']; congr 1; omega
  have hH := Nat.two_pow_pos (F.maxPrefix - (n.plen + 1))
  have hsal : val step % 2 ^ (F.maxPrefix - (n.plen + 1)) = 0 := by rw [h4, Nat.mod_self]
  have Ln := niLaw L step (n.plen + 1) hsal
  obtain ⟨x, x1, x2, x3⟩ := NIter.add_law L step (n.plen + 1) hsal s.first h5 (F.ops.ofI64 0#64)
  obtain ⟨y, y1, y2, y3⟩ := NIter.add_law L step (n.plen + 1) hsal s.first h5 (F.ops.ofI64 1#64)
  rw [val_zero L, Nat.mul_zero, Nat.zero_mod, Nat.add_zero, h8, Nat.mod_eq_of_lt (by omega)] at x3
  rw [val_one L, Nat.mul_one, h4, h8, Nat.mod_eq_of_lt (a := 2 ^ (F.maxPrefix - (n.plen + 1))) (by omega),
    Nat.mod_eq_of_lt (by omega)] at y3
  have hx := Ln.deref x x2
  have hy := Ln.deref y y2
  rw [x3, Nat.mod_eq_of_lt (by omega)] at hx
  rw [y3, Nat.mod_eq_of_lt (by omega)] at hy
  obtain ⟨a', b', k1, k2, k3⟩ := halves_eq L hw l2 hp
  cases IsNet.inj hx k2
  cases IsNet.inj hy k3
  refine ⟨l, x.cur, y.cur, l1, l2, ?_, k1, hx, hy⟩
  simp only [Fam.halves, g1, Fam.subnetsAt, x1, y1, Res.ok_bind]

/-- The two networks taken for the halves of a network of one address: the network and its successor. -/
theorem halves_host (L : F.Law WF val) (n : Net A) (hn : NetOk F WF n) (hp : n.plen = F.maxPrefix) :
    ∃ a b, F.halves n = .ok (a, b) ∧ IsNet F F.maxPrefix (F.v n.addr) a ∧
      IsNet F F.maxPrefix ((F.v n.addr + 1) % 2 ^ F.maxPrefix) b := by
  have hv := L.v_lt _ hn.wf
  have hW := two_le_W L
  obtain ⟨a, s, step, h1, h2, h3, h4, h5, h6, h7, h8⟩ := subnetsMk1_eq L n hn hp
  have g1 := subnets_go1 n hp 1 none a s h1 h2
  rw [hp] at h4
  have hsal : val step % 2 ^ (F.maxPrefix - F.maxPrefix) = 0 := by rw [Nat.sub_self]; exact Nat.mod_one _
  have Ln := niLaw L step F.maxPrefix hsal
  obtain ⟨x, x1, x2, x3⟩ := NIter.add_law L step F.maxPrefix hsal s.first h4 (F.ops.ofI64 0#64)
  obtain ⟨y, y1, y2, y3⟩ := NIter.add_law L step F.maxPrefix hsal s.first h4 (F.ops.ofI64 1#64)
  rw [val_zero L, Nat.mul_zero, Nat.zero_mod, Nat.add_zero, h7, Nat.mod_eq_of_lt (by omega)] at x3
  rw [val_one L, Nat.mul_one, h3, h7, Nat.mod_eq_of_lt (a := 1) (by omega), Nat.mod_eq_of_lt (by omega)] at y3
  have hx := Ln.deref x x2
  have hy := Ln.deref y y2
  rw [x3, Nat.mod_eq_of_lt (by omega)] at hx
  rw [y3] at hy
  refine ⟨x.cur, y.cur, ?_, hx, hy⟩
  simp only [Fam.halves, g1, Fam.subnetsAt, x1, y1, Res.ok_bind]

/-- Networks of different prefix lengths are not equal, whatever the scope ids. -/
theorem netEq_plen (L : F.Law WF val) (T : ∀ a b, WF a → WF b → ∃ r, F.eq a b = .ok r) (a b : Net A) (ha : NetOk F WF a)
    (hb : NetOk F WF b) (h : a.plen ≠ b.plen) : F.netEq a b = .ok false := by
  obtain ⟨m, m1, m2, m3⟩ := ha.mask
  obtain ⟨m', n1, n2, n3⟩ := hb.mask
  obtain ⟨r, hr⟩ := T _ _ ha.wf hb.wf
  have hm : F.eq a.mask b.mask = .ok false := by
    rw [m1, n1, L.eq m m' m2 n2, m3, n3, decide_eq_false]
    exact fun e => h (pow_inj_le _ _ _ ha.plen hb.plen e)
  simp only [Fam.netEq, hr, Res.ok_bind, hm]
  split <;> rfl

/-- With a network strictly inside, the constructor makes the sequence of `address_exclude`. -/
theorem exSeqMk_inside (L : F.Law WF val) (S : SafeLaw F WF val) (T : ∀ a b, WF a → WF b → ∃ r, F.eq a b = .ok r)
    (n o : Net A) (hn : NetOk F WF n) (ho : NetOk F WF o) (hs : ∃ x, o.addr = F.ofBytes x) (hlt : n.plen < o.plen)
    (hin : Part F.maxPrefix o.plen (F.v o.addr) n.plen (F.v n.addr)) :
    F.exSeqMk n o = F.addressExclude n o ∧ ∃ s, F.exSeqMk n o = .ok s ∧ F.exMk n o = .ok s.first := by
  have hol := ho.plen
  obtain ⟨l, a, b, l1, l2, h1, h2, ha, hb⟩ := halves_ok L S n hn (by omega)
  obtain ⟨o', o1, o2⟩ := removeScopeNet_eq L S.plain o ho
  have hoi := ho.isNet L hs
  cases IsNet.inj o2 hoi
  have e1 : ∀ p v m, p ≠ n.plen → IsNet F p v m → F.netEq n m = F.netEq l m := by
    intro p v m hp hm
    rw [netEq_plen L T n m hn (hm.netOk L) (by rw [hm.plen]; omega),
      netEq_plen L T l m (l2.netOk L) (hm.netOk L) (by rw [hm.plen, l2.plen]; omega)]
  have key : F.exInc ⟨o, a, b, n⟩ = F.exInc ⟨o, a, b, l⟩ := by
    unfold Fam.exInc
    simp only [e1 _ _ a (by omega) ha, e1 _ _ b (by omega) hb]
  obtain ⟨t, t1, t2⟩ := halves_part L S l2 hoi hin hlt l ⟨_, _, l2⟩
  rw [h2] at t1
  cases t1
  obtain ⟨y, y1, y2⟩ := exInc_yields L S _ t2
  obtain ⟨z, z1, z2⟩ := exDefault_yields L
  have hm : F.exSeqMk n o = .ok ⟨y, z⟩ := by
    simp only [Fam.exSeqMk, Fam.exMk, h1, Res.ok_bind, key]
    rw [y1, z1]; rfl
  have hx : F.exMk n o = .ok y := by
    simp only [Fam.exMk, h1, Res.ok_bind, key]
    exact y1
  refine ⟨?_, _, hm, hx⟩
  have hne : ¬ (F.v n.addr = F.v o.addr ∧ n.plen = o.plen) := by omega
  rw [hm]
  simp only [Fam.addressExclude, l1, o1, Fam.noexcept, Res.ok_bind, subnetOf_isNet L hoi l2, netEq_isNet L l2 hoi,
    decide_eq_true (show _ ∧ _ from hin), decide_eq_false hne, Bool.not_true, Bool.false_eq_true, if_false]
  simp only [Fam.exSeqMk, Fam.exMk, h2, Res.ok_bind]
  rw [y1, z1]; rfl

/-- With any other network the constructor ends in `std::terminate`, for networks of more than one address. -/
theorem exMk_outside (L : F.Law WF val) (S : SafeLaw F WF val) (T : ∀ a b, WF a → WF b → ∃ r, F.eq a b = .ok r)
    (n o : Net A) (hn : NetOk F WF n) (ho : NetOk F WF o) (hs : ∃ x, o.addr = F.ofBytes x) (hp : n.plen < F.maxPrefix)
    (hout : ¬ (n.plen < o.plen ∧ Part F.maxPrefix o.plen (F.v o.addr) n.plen (F.v n.addr))) :
    F.exMk n o = .ub ∧ F.exSeqMk n o = .ub := by
  obtain ⟨l, a, b, l1, l2, h1, h2, ha, hb⟩ := halves_ok L S n hn hp
  have hoi := ho.isNet L hs
  have hhalf : 2 ^ (F.maxPrefix - n.plen) = 2 * 2 ^ (F.maxPrefix - (n.plen + 1)) := by
    rw [← Nat.pow_succ']; congr 1; omega
  have hO := Nat.two_pow_pos (F.maxPrefix - o.plen)
  have big : o.plen ≤ n.plen → 2 ^ (F.maxPrefix - n.plen) ≤ 2 ^ (F.maxPrefix - o.plen) :=
    fun h => Nat.pow_le_pow_right (by decide) (by omega)
  have hx : F.exMk n o = .ub := by
    have n1 : ¬ (F.v n.addr = F.v o.addr ∧ n.plen + 1 = o.plen) := by
      rintro ⟨h1, h2⟩
      refine hout ⟨by omega, ?_⟩
      unfold Part
      rw [← h2]
      omega
    have n2 : ¬ (F.v n.addr + 2 ^ (F.maxPrefix - (n.plen + 1)) = F.v o.addr ∧ n.plen + 1 = o.plen) := by
      rintro ⟨h1, h2⟩
      refine hout ⟨by omega, ?_⟩
      unfold Part
      rw [← h2]
      omega
    have n3 : ¬ (F.v n.addr ≤ F.v o.addr ∧ F.v o.addr + 2 ^ (F.maxPrefix - o.plen) ≤ F.v n.addr + 2 ^ (F.maxPrefix - (n.plen + 1))) := by
      rintro ⟨h1, h2⟩
      refine hout ⟨?_, h1, by omega⟩
      by_contra h
      have := big (by omega)
      omega
    have n4 : ¬ (F.v n.addr + 2 ^ (F.maxPrefix - (n.plen + 1)) ≤ F.v o.addr ∧ F.v o.addr + 2 ^ (F.maxPrefix - o.plen) ≤
        F.v n.addr + 2 ^ (F.maxPrefix - (n.plen + 1)) + 2 ^ (F.maxPrefix - (n.plen + 1))) := by
      rintro ⟨h1, h2⟩
      refine hout ⟨?_, by omega, by omega⟩
      by_contra h
      have := big (by omega)
      omega
    simp only [Fam.exMk, h1, Res.ok_bind, Fam.exInc, netEq_isNet L ha hoi, netEq_isNet L hb hoi, subnetOf_isNet L hoi ha,
      subnetOf_isNet L hoi hb, decide_eq_false n1, decide_eq_false n2, decide_eq_false n3, decide_eq_false n4,
      Bool.not_false, Bool.and_self, if_true, Bool.false_eq_true, if_false]
  refine ⟨hx, ?_⟩
  simp only [Fam.exSeqMk, hx, Res.ub_bind]

/-- A network of one address without scope id: what the constructor makes of it. -/
theorem exMk_host (L : F.Law WF val) (n o : Net A) (hn : NetOk F WF n) (ho : NetOk F WF o)
    (hs : ∃ x, o.addr = F.ofBytes x) (hs' : ∃ x, n.addr = F.ofBytes x) (hp : n.plen = F.maxPrefix) :
    ∃ s d, F.exDefault = .ok d ∧ IsNet F F.maxPrefix ((F.v n.addr + 1) % 2 ^ F.maxPrefix) s ∧
      (o.plen = F.maxPrefix → F.v o.addr = F.v n.addr →
        F.exMk n o = .ok ⟨o, n, s, s⟩ ∧ F.exInc ⟨o, n, s, s⟩ = .ok d) ∧
      (o.plen = F.maxPrefix → F.v o.addr = (F.v n.addr + 1) % 2 ^ F.maxPrefix → F.exMk n o = .ok d) ∧
      (¬ (o.plen = F.maxPrefix ∧ (F.v o.addr = F.v n.addr ∨ F.v o.addr = (F.v n.addr + 1) % 2 ^ F.maxPrefix)) →
        F.exMk n o = .ub) := by
  obtain ⟨a, s, h1, h2, h3⟩ := halves_host L n hn hp
  obtain ⟨d, d1, d2⟩ := exDefault_yields L
  have hv := L.v_lt _ hn.wf
  have hW := two_le_W L
  have hoi := ho.isNet L hs
  have hni := hn.isNet L hs'
  rw [hp] at hni
  cases IsNet.inj h2 hni
  have hne : (F.v n.addr + 1) % 2 ^ F.maxPrefix ≠ F.v n.addr := by
    rw [add_mod_if _ _ _ hv (by omega)]
    split <;> omega
  have e1 := netEq_isNet L h2 hoi
  have e2 := netEq_isNet L h3 hoi
  have e3 := netEq_isNet L h2 h3
  have e4 := netEq_isNet L h2 h2
  have e5 := netEq_isNet L h3 h3
  have f1 := subnetOf_isNet L hoi h2
  have f2 := subnetOf_isNet L hoi h3
  rw [decide_eq_false (by omega)] at e3
  rw [decide_eq_true ⟨rfl, rfl⟩] at e4 e5
  rw [Nat.sub_self, Nat.pow_zero] at f1 f2
  refine ⟨s, d, d1, h3, ?_, ?_, ?_⟩
  · intro q1 q2
    rw [decide_eq_true ⟨q2.symm, q1.symm⟩] at e1
    simp [Fam.exMk, Fam.exInc, h1, e1, e2, e3, e5, d1]
  · intro q1 q2
    rw [decide_eq_true ⟨q2.symm, q1.symm⟩] at e2
    rw [decide_eq_false (by omega)] at e1
    simp [Fam.exMk, Fam.exInc, h1, e1, e2, e4, d1]
  · intro q
    have hol := ho.plen
    have pw : o.plen ≠ F.maxPrefix → 1 < 2 ^ (F.maxPrefix - o.plen) := by
      intro h
      have : 2 ^ 1 ≤ 2 ^ (F.maxPrefix - o.plen) := Nat.pow_le_pow_right (by decide) (by omega)
      omega
    have p1 : o.plen = F.maxPrefix → 2 ^ (F.maxPrefix - o.plen) = 1 := fun h => by rw [h, Nat.sub_self]; rfl
    rw [decide_eq_false (by omega)] at e1 e2
    rw [decide_eq_false (by by_cases h : o.plen = F.maxPrefix <;> [have := p1 h; have := pw h] <;> omega)] at f1 f2
    simp [Fam.exMk, Fam.exInc, h1, e1, e2, f1, f2]

end
end Ip
