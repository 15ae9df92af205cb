import Verif.Lemmas.Subnets
/-
The sequence made by `address_exclude()`.
-/
set_option autoImplicit false

namespace Ip
open Spec

section
variable {A U : Type} {F : Fam A U} {WF : A → Prop} {val : U → Nat}

/-- The two halves of a network. -/
theorem halves_eq (L : F.Law WF val) (hw : F.maxPrefix < 2 ^ 64) {p v : Nat} {n : Net A} (hn : IsNet F p v n)
    (hp : p < F.maxPrefix) :
    ∃ a b, F.halves n = .ok (a, b) ∧ IsNet F (p + 1) v a ∧ IsNet F (p + 1) (v + 2 ^ (F.maxPrefix - (p + 1))) b := by
  have hok := hn.netOk L
  have hpl := hn.plen
  have hpos := L.pos
  have hv := hn.v_lt L
  have hal := hn.aligned
  obtain ⟨b, a, s, step, h1, h2, h3, h4, h5, h6, h7, h8, h9⟩ := subnetsMk_eq L n hok 1 (by omega) (by omega) (by omega) (by omega)
  obtain ⟨g1, _⟩ := subnets_go n 1 (by omega) hw (by omega) a b s h1 h2 h3
  rw [hpl] at h4 h5 h6
  rw [hn.v_eq L] at h8
  have hroom : v + 2 ^ (F.maxPrefix - p) ≤ 2 ^ F.maxPrefix := aligned_room F.maxPrefix _ _ (Nat.sub_le ..) hv hal
  have hhalf : 2 ^ (F.maxPrefix - p) = 2 * 2 ^ (F.maxPrefix - (p + 1)) := by
    rw [← Nat.pow_succ']; congr 1; omega
  have hH := Nat.two_pow_pos (F.maxPrefix - (p + 1))
  have hsal : val step % 2 ^ (F.maxPrefix - (p + 1)) = 0 := by rw [h4, Nat.mod_self]
  have Ln := niLaw L step (p + 1) hsal
  obtain ⟨x, x1, x2, x3⟩ := NIter.add_law L step (p + 1) hsal s.first h5 (F.ops.ofI64 0#64)
  obtain ⟨y, y1, y2, y3⟩ := NIter.add_law L step (p + 1) hsal s.first h5 (F.ops.ofI64 1#64)
  rw [val_zero L, Nat.mul_zero, Nat.zero_mod, Nat.add_zero, h8, Nat.mod_eq_of_lt (by omega)] at x3
  rw [val_one L, Nat.mul_one, h4, h8, Nat.mod_eq_of_lt (a := 2 ^ (F.maxPrefix - (p + 1))) (by omega),
    Nat.mod_eq_of_lt (by omega)] at y3
  have hx := Ln.deref x x2
  have hy := Ln.deref y y2
  rw [x3, Nat.mod_eq_of_lt (by omega)] at hx
  rw [y3, Nat.mod_eq_of_lt (by omega)] at hy
  refine ⟨x.cur, y.cur, ?_, hx, hy⟩
  simp only [Fam.halves, g1, Fam.subnetsAt, x1, y1, Res.ok_bind]

theorem default_isNet (L : F.Law WF val) : ∃ d, F.defaultNet = .ok d ∧ IsNet F F.maxPrefix 0 d := by
  obtain ⟨m, m1, m2, m3⟩ := L.fromPrefix F.maxPrefix (Nat.le_refl _)
  obtain ⟨z, z1, z2, z3⟩ := L.zero
  exact ⟨⟨F.zero, F.ofBytes m, F.maxPrefix⟩, by simp only [Fam.defaultNet, m1, Res.ok_bind],
    ⟨z, z1, z2, z3⟩, rfl, m1, Nat.le_refl _, Nat.zero_mod _⟩

/-- The state of the iterator while the excluded network `u/q` is properly inside the network `v/p`
whose halves are `s1` and `s2`, and the current network is neither of them. -/
structure ExState (F : Fam A U) (x : ExIter A) (p v q u : Nat) : Prop where
  other : IsNet F q u x.other
  s1 : IsNet F (p + 1) v x.s1
  s2 : IsNet F (p + 1) (v + 2 ^ (F.maxPrefix - (p + 1))) x.s2
  lt : p < q
  inside : v ≤ u ∧ u + 2 ^ (F.maxPrefix - q) ≤ v + 2 ^ (F.maxPrefix - p)
  cur : ∃ pc vc, IsNet F pc vc x.cur ∧ ¬ (pc = p + 1 ∧ (vc = v ∨ vc = v + 2 ^ (F.maxPrefix - (p + 1))))

/-- The iterator after `++`, where `none` stands for the default iterator. -/
def Fam.exNext (F : Fam A U) (x : ExIter A) : Res (Option (ExIter A)) := do
  if (!(← F.netEq x.s1 x.other)) && !(← F.netEq x.s2 x.other) then
    if ← F.subnetOf x.other x.s1 then
      if !(← F.netEq x.cur x.s2) then do
        let h ← F.halves x.s1
        .ok (some ⟨x.other, h.1, h.2, x.s2⟩)
      else .ok none
    else if ← F.subnetOf x.other x.s2 then
      if !(← F.netEq x.cur x.s1) then do
        let h ← F.halves x.s2
        .ok (some ⟨x.other, h.1, h.2, x.s1⟩)
      else .ok none
    else .ub
  else if ← F.netEq x.s1 x.other then
    if !(← F.netEq x.cur x.s2) then .ok (some ⟨x.other, x.s1, x.s2, x.s2⟩) else .ok none
  else if ← F.netEq x.s2 x.other then
    if !(← F.netEq x.cur x.s1) then .ok (some ⟨x.other, x.s1, x.s2, x.s1⟩) else .ok none
  else .ub

/-- The loop, where `isEnd` compares with the end iterator. -/
def Fam.exRun (F : Fam A U) (isEnd : Net A → Res Bool) : Nat → Option (ExIter A) → Res (List (Net A))
  | 0, _ => .ub
  | _ + 1, none => .ok []
  | fuel + 1, some x => do
    if ← isEnd x.cur then .ok []
    else do
      let next ← F.exNext x
      let rest ← exRun F isEnd fuel next
      .ok (x.cur :: rest)

theorem exInc_next (x : ExIter A) (d : ExIter A) (hd : F.exDefault = .ok d) (r : Option (ExIter A)) (h : F.exNext x = .ok r) :
    F.exInc x = .ok (r.getD d) := by
  revert h
  unfold Fam.exNext Fam.exInc
  cases h1 : F.netEq x.s1 x.other <;> simp only [Res.ok_bind, Res.err_bind, Res.ub_bind, reduceCtorEq, false_imp_iff]
  cases h2 : F.netEq x.s2 x.other <;> simp only [Res.ok_bind, Res.err_bind, Res.ub_bind, reduceCtorEq, false_imp_iff]
  rename_i a b
  cases a <;> cases b <;> simp only [Res.ok_bind, Bool.not_true, Bool.not_false, Bool.and_true, Bool.and_false, Bool.and_self,
    if_true, Bool.false_eq_true, if_false]
  · cases h3 : F.subnetOf x.other x.s1 <;> simp only [Res.ok_bind, Res.err_bind, Res.ub_bind, reduceCtorEq, false_imp_iff]
    rename_i b3
    cases b3 <;> simp only [if_true, Bool.false_eq_true, if_false]
    · cases h4 : F.subnetOf x.other x.s2 <;> simp only [Res.ok_bind, Res.err_bind, Res.ub_bind, reduceCtorEq, false_imp_iff]
      rename_i b4
      cases b4 <;> simp only [if_true, Bool.false_eq_true, if_false, reduceCtorEq, false_imp_iff]
      cases h5 : F.netEq x.cur x.s1 <;> simp only [Res.ok_bind, Res.err_bind, Res.ub_bind, reduceCtorEq, false_imp_iff]
      rename_i b5
      cases b5 <;> simp only [Bool.not_true, Bool.not_false, if_true, Bool.false_eq_true, if_false]
      · cases h6 : F.halves x.s2 <;> simp only [Res.ok_bind, Res.err_bind, Res.ub_bind, reduceCtorEq, false_imp_iff]
        intro e; cases e; rfl
      · intro e; cases e; exact hd
    · cases h5 : F.netEq x.cur x.s2 <;> simp only [Res.ok_bind, Res.err_bind, Res.ub_bind, reduceCtorEq, false_imp_iff]
      rename_i b5
      cases b5 <;> simp only [Bool.not_true, Bool.not_false, if_true, Bool.false_eq_true, if_false]
      · cases h6 : F.halves x.s1 <;> simp only [Res.ok_bind, Res.err_bind, Res.ub_bind, reduceCtorEq, false_imp_iff]
        intro e; cases e; rfl
      · intro e; cases e; exact hd
  all_goals
    try (cases h5 : F.netEq x.cur x.s1 <;> simp only [Res.ok_bind, Res.err_bind, Res.ub_bind, reduceCtorEq, false_imp_iff])
    try (cases h6 : F.netEq x.cur x.s2 <;> simp only [Res.ok_bind, Res.err_bind, Res.ub_bind, reduceCtorEq, false_imp_iff])
    all_goals
      rename_i b5
      cases b5 <;> simp only [Bool.not_true, Bool.not_false, if_true, Bool.false_eq_true, if_false]
      · intro e; cases e; rfl
      · intro e; cases e; exact hd

/-- Two aligned blocks of which the first is smaller: in one half or the other. -/
theorem half_or (k j v u : Nat) (hjk : j ≤ k) (hu : u % 2 ^ j = 0) (hv : v % 2 ^ (k + 1) = 0)
    (h : v ≤ u ∧ u + 2 ^ j ≤ v + 2 ^ (k + 1)) :
    (u + 2 ^ j ≤ v + 2 ^ k) ∨ (v + 2 ^ k ≤ u) := by
  have e : 2 ^ (k + 1) = 2 * 2 ^ k := Nat.pow_succ'
  have hv2 : v % 2 ^ k = 0 := by
    rw [← Nat.mod_mod_of_dvd v (Nat.pow_dvd_pow 2 (show k ≤ k + 1 by omega)), hv, Nat.zero_mod]
  by_cases c : v + 2 ^ k ≤ u
  · exact .inr c
  · left
    have hp := Nat.two_pow_pos j
    exact (blocks_nested j k u v hjk hu hv2 ⟨u, by omega, by omega⟩).2

theorem exNext_state (L : F.Law WF val) (hw : F.maxPrefix < 2 ^ 64) (x : ExIter A) (p v q u : Nat)
    (h : ExState F x p v q u) (hv : v % 2 ^ (F.maxPrefix - p) = 0) :
    ∃ y sib v', F.exNext x = .ok (some y) ∧ y.cur = sib ∧ y.other = x.other ∧
      ((v' = v ∧ IsNet F (p + 1) (v + 2 ^ (F.maxPrefix - (p + 1))) sib) ∨
        (v' = v + 2 ^ (F.maxPrefix - (p + 1)) ∧ IsNet F (p + 1) v sib)) ∧
      ((q = p + 1 ∧ u = v' ∧ F.exNext y = .ok none) ∨
        (p + 1 < q ∧ ExState F y (p + 1) v' q u ∧ v' % 2 ^ (F.maxPrefix - (p + 1)) = 0)) := by
  obtain ⟨pc, vc, c1, c2⟩ := h.cur
  have hq := h.other.le
  have hpq := h.lt
  have ho := h.other.aligned
  have hhalf : 2 ^ (F.maxPrefix - p) = 2 * 2 ^ (F.maxPrefix - (p + 1)) := by
    rw [← Nat.pow_succ']; congr 1; omega
  have hH := Nat.two_pow_pos (F.maxPrefix - (p + 1))
  have hO := Nat.two_pow_pos (F.maxPrefix - q)
  have hin := h.inside
  have hsplit := half_or (F.maxPrefix - (p + 1)) (F.maxPrefix - q) v u (by omega) ho
    (by rw [show F.maxPrefix - (p + 1) + 1 = F.maxPrefix - p by omega]; exact hv)
    (by rw [show F.maxPrefix - (p + 1) + 1 = F.maxPrefix - p by omega]; exact hin)
  have hva := h.s1.aligned
  have hvb := h.s2.aligned
  have e1 := netEq_isNet L h.s1 h.other
  have e2 := netEq_isNet L h.s2 h.other
  have ec1 := netEq_isNet L c1 h.s1
  have ec2 := netEq_isNet L c1 h.s2
  have d1 := subnetOf_isNet L h.other h.s1
  have d2 := subnetOf_isNet L h.other h.s2
  have hc1 : ¬ (vc = v ∧ pc = p + 1) := fun e => c2 ⟨e.2, .inl e.1⟩
  have hc2 : ¬ (vc = v + 2 ^ (F.maxPrefix - (p + 1)) ∧ pc = p + 1) := fun e => c2 ⟨e.2, .inr e.1⟩
  have e12 := netEq_isNet L h.s1 h.s2
  have e22 := netEq_isNet L h.s2 h.s2
  have e11 := netEq_isNet L h.s1 h.s1
  rw [decide_eq_false hc1] at ec1
  rw [decide_eq_false hc2] at ec2
  rw [decide_eq_true ⟨rfl, rfl⟩] at e22 e11
  by_cases hqp : q = p + 1
  · subst hqp
    -- one of the halves is the excluded network
    have hu : u = v ∨ u = v + 2 ^ (F.maxPrefix - (p + 1)) := by
      rcases hsplit with hs | hs <;> omega
    rcases hu with hu | hu
    · rw [decide_eq_true ⟨hu.symm, rfl⟩] at e1
      refine ⟨⟨x.other, x.s1, x.s2, x.s2⟩, x.s2, v, ?_, rfl, rfl, .inl ⟨rfl, h.s2⟩, .inl ⟨rfl, hu, ?_⟩⟩
      · simp [Fam.exNext, e1, ec2, e2]
      · simp [Fam.exNext, e1, e2, e22]
    · have hne : ¬ (v = u ∧ p + 1 = p + 1) := by omega
      rw [decide_eq_false hne] at e1
      rw [decide_eq_true ⟨hu.symm, rfl⟩] at e2
      refine ⟨⟨x.other, x.s1, x.s2, x.s1⟩, x.s1, v + 2 ^ (F.maxPrefix - (p + 1)), ?_, rfl, rfl, .inr ⟨rfl, h.s1⟩, .inl ⟨rfl, hu, ?_⟩⟩
      · simp [Fam.exNext, e1, ec1, e2]
      · simp [Fam.exNext, e1, e2, e11]
  · have hlt : p + 1 < q := by omega
    rw [decide_eq_false (by omega)] at e1 e2
    have hh2 : 2 ^ (F.maxPrefix - (p + 1)) = 2 * 2 ^ (F.maxPrefix - (p + 1 + 1)) := by
      rw [← Nat.pow_succ']; congr 1; omega
    rcases hsplit with hs | hs
    · rw [decide_eq_true ⟨hin.1, hs⟩] at d1
      obtain ⟨a, b, g1, g2, g3⟩ := halves_eq L hw h.s1 (by omega)
      refine ⟨⟨x.other, a, b, x.s2⟩, x.s2, v, ?_, rfl, rfl, .inl ⟨rfl, h.s2⟩, .inr ⟨hlt, ?_, hva⟩⟩
      · simp [Fam.exNext, e1, e2, d1, ec2, g1]
      · exact ⟨h.other, g2, g3, hlt, ⟨hin.1, hs⟩, ⟨_, _, h.s2, by omega⟩⟩
    · rw [decide_eq_false (by omega)] at d1
      rw [decide_eq_true ⟨hs, by omega⟩] at d2
      obtain ⟨a, b, g1, g2, g3⟩ := halves_eq L hw h.s2 (by omega)
      refine ⟨⟨x.other, a, b, x.s1⟩, x.s1, v + 2 ^ (F.maxPrefix - (p + 1)), ?_, rfl, rfl, .inr ⟨rfl, h.s1⟩, .inr ⟨hlt, ?_, hvb⟩⟩
      · simp [Fam.exNext, e1, e2, d1, d2, ec1, g1]
      · exact ⟨h.other, g2, g3, hlt, ⟨hs, by omega⟩, ⟨_, _, h.s1, by omega⟩⟩

/-- The iterator from a state: `all` are the networks of the difference, and the loop visits them all,
except that it stops early when the last one equals the default network. -/
theorem exclude_run (L : F.Law WF val) (hw : F.maxPrefix < 2 ^ 64) (q u : Nat) (isEnd : Net A → Res Bool) (z : Bool)
    (hE : ∀ p v n, IsNet F p v n → isEnd n = .ok (z && decide (v = 0 ∧ p = F.maxPrefix))) :
    ∀ (k p v : Nat) (x : ExIter A), q = p + (k + 1) → ExState F x p v q u → v % 2 ^ (F.maxPrefix - p) = 0 →
      ∃ (y : ExIter A) (all : List (Net A)), F.exNext x = .ok (some y) ∧ all.length = k + 1 ∧
        (∀ n ∈ all, ∃ pn vn, IsNet F pn vn n ∧ v ≤ vn ∧ vn + 2 ^ (F.maxPrefix - pn) ≤ v + 2 ^ (F.maxPrefix - p)) ∧
        all.Pairwise (fun a b => ∀ t, ¬ (InNet F.maxPrefix a.plen (F.v a.addr) t ∧ InNet F.maxPrefix b.plen (F.v b.addr) t)) ∧
        (∀ t, (∃ a ∈ all, InNet F.maxPrefix a.plen (F.v a.addr) t) ↔
          (v ≤ t ∧ t < v + 2 ^ (F.maxPrefix - p)) ∧ ¬ (u ≤ t ∧ t < u + 2 ^ (F.maxPrefix - q))) ∧
        (∀ fuel, k + 1 < fuel → F.exRun isEnd fuel (some y) =
          .ok (if z = true ∧ q = F.maxPrefix ∧ u = 1 ∧ v = 0 then all.dropLast else all)) := by
  have hdv : ∀ fuel, 0 < fuel → F.exRun isEnd fuel none = .ok [] := by
    intro fuel hf
    obtain ⟨f, rfl⟩ : ∃ f, fuel = f + 1 := ⟨fuel - 1, by omega⟩
    rfl
  intro k
  induction k with
  | zero =>
    intro p v x hq hx hv
    obtain ⟨y, sib, v', y1, y2, y3, y4, y5⟩ := exNext_state L hw x p v q u hx hv
    have hle := hx.other.le
    have hhalf : 2 ^ (F.maxPrefix - p) = 2 * 2 ^ (F.maxPrefix - (p + 1)) := by
      rw [← Nat.pow_succ']; congr 1; omega
    have hH := Nat.two_pow_pos (F.maxPrefix - (p + 1))
    obtain ⟨_, hu, hfin⟩ : q = p + 1 ∧ u = v' ∧ F.exNext y = .ok none := by
      rcases y5 with h | h
      · exact h
      · omega
    rw [Nat.zero_add] at hq
    subst hq
    obtain ⟨vs, hsib, hvs⟩ : ∃ vs, IsNet F (p + 1) vs sib ∧ ((u = v ∧ vs = v + 2 ^ (F.maxPrefix - (p + 1))) ∨
        (u = v + 2 ^ (F.maxPrefix - (p + 1)) ∧ vs = v)) := by
      rcases y4 with ⟨h1, h2⟩ | ⟨h1, h2⟩
      · exact ⟨_, h2, .inl ⟨by omega, rfl⟩⟩
      · exact ⟨_, h2, .inr ⟨by omega, rfl⟩⟩
    have hint := fun t => inNet_interval L sib (hsib.netOk L) t
    rw [hsib.v_eq L, hsib.plen] at hint
    refine ⟨y, [sib], y1, rfl, ?_, List.pairwise_singleton .., ?_, ?_⟩
    · intro n hn
      rw [List.mem_singleton] at hn
      subst hn
      exact ⟨_, _, hsib, by omega, by omega⟩
    · intro t
      simp only [List.mem_singleton, exists_eq_left]
      rw [hsib.v_eq L, hsib.plen, hint]
      omega
    · intro fuel hf
      obtain ⟨f, rfl⟩ : ∃ f, fuel = f + 1 := ⟨fuel - 1, by omega⟩
      have heq : isEnd y.cur = .ok (z && decide (vs = 0 ∧ p + 1 = F.maxPrefix)) := by rw [y2]; exact hE _ _ _ hsib
      simp only [Fam.exRun, heq, Res.ok_bind, hfin]
      by_cases c : z = true ∧ vs = 0 ∧ p + 1 = F.maxPrefix
      · have hH1 : 2 ^ (F.maxPrefix - (p + 1)) = 1 := by rw [← c.2.2, Nat.sub_self]; rfl
        rw [if_pos (by simpa using c), if_pos ⟨c.1, by omega⟩]
        rfl
      · have : ¬ (z = true ∧ p + 1 = F.maxPrefix ∧ u = 1 ∧ v = 0) := by
          rintro ⟨h0, h1, h2, h3⟩
          have hH1 : 2 ^ (F.maxPrefix - (p + 1)) = 1 := by rw [← h1, Nat.sub_self]; rfl
          exact c ⟨h0, by omega⟩
        rw [if_neg (by simpa using c), if_neg this]
        show (F.exRun isEnd f none >>= _) = _
        rw [hdv f (by omega), Res.ok_bind, y2]
  | succ k ih =>
    intro p v x hq hx hv
    obtain ⟨y, sib, v', y1, y2, y3, y4, y5⟩ := exNext_state L hw x p v q u hx hv
    have hle := hx.other.le
    have hhalf : 2 ^ (F.maxPrefix - p) = 2 * 2 ^ (F.maxPrefix - (p + 1)) := by
      rw [← Nat.pow_succ']; congr 1; omega
    have hH := Nat.two_pow_pos (F.maxPrefix - (p + 1))
    have hO := Nat.two_pow_pos (F.maxPrefix - q)
    obtain ⟨_, hst, hval⟩ : p + 1 < q ∧ ExState F y (p + 1) v' q u ∧ v' % 2 ^ (F.maxPrefix - (p + 1)) = 0 := by
      rcases y5 with h | h
      · omega
      · exact h
    obtain ⟨w, all, z1, z2, z3, z4, z5, z6⟩ := ih (p + 1) v' y (by omega) hst hval
    have hins := hst.inside
    obtain ⟨vs, hsib, hvs⟩ : ∃ vs, IsNet F (p + 1) vs sib ∧ ((v' = v ∧ vs = v + 2 ^ (F.maxPrefix - (p + 1))) ∨
        (v' = v + 2 ^ (F.maxPrefix - (p + 1)) ∧ vs = v)) := by
      rcases y4 with ⟨h1, h2⟩ | ⟨h1, h2⟩
      · exact ⟨_, h2, .inl ⟨h1, rfl⟩⟩
      · exact ⟨_, h2, .inr ⟨h1, rfl⟩⟩
    have hint := fun t => inNet_interval L sib (hsib.netOk L) t
    rw [hsib.v_eq L, hsib.plen] at hint
    refine ⟨y, sib :: all, y1, by simp [z2], ?_, ?_, ?_, ?_⟩
    · intro n hn
      rcases List.mem_cons.mp hn with rfl | hn
      · exact ⟨_, _, hsib, by omega, by omega⟩
      · obtain ⟨pn, vn, h1, h2, h3⟩ := z3 n hn
        exact ⟨pn, vn, h1, by omega, by omega⟩
    · rw [List.pairwise_cons]
      refine ⟨?_, z4⟩
      intro b hb t ht
      obtain ⟨pn, vn, h1, h2, h3⟩ := z3 b hb
      have hb' := inNet_interval L b (h1.netOk L) t
      rw [h1.v_eq L, h1.plen] at hb' ht
      rw [hsib.v_eq L, hsib.plen, hint, hb'] at ht
      omega
    · intro t
      have := z5 t
      simp only [List.mem_cons, exists_eq_or_imp]
      rw [this, hsib.v_eq L, hsib.plen, hint]
      omega
    · intro fuel hf
      obtain ⟨f, rfl⟩ : ∃ f, fuel = f + 1 := ⟨fuel - 1, by omega⟩
      have heq : isEnd y.cur = .ok (z && decide (vs = 0 ∧ p + 1 = F.maxPrefix)) := by rw [y2]; exact hE _ _ _ hsib
      simp only [Fam.exRun, heq, Res.ok_bind, z1]
      rw [if_neg (by simp; omega)]
      show (F.exRun isEnd f (some w) >>= _) = _
      rw [z6 f (by omega), Res.ok_bind, y2]
      congr 1
      have hvv : (z = true ∧ q = F.maxPrefix ∧ u = 1 ∧ v' = 0) ↔ (z = true ∧ q = F.maxPrefix ∧ u = 1 ∧ v = 0) := by
        have h1 : 1 < 2 ^ (F.maxPrefix - (p + 1)) := by
          have : 2 ^ 1 ≤ 2 ^ (F.maxPrefix - (p + 1)) := Nat.pow_le_pow_right (by decide) (by omega)
          omega
        apply and_congr_right; intro _
        omega
      by_cases c : z = true ∧ q = F.maxPrefix ∧ u = 1 ∧ v = 0
      · rw [if_pos c, if_pos (hvv.mpr c)]
        cases all with
        | nil => simp at z2
        | cons a t => rfl
      · rw [if_neg c, if_neg (fun e => c (hvv.mp e))]

/-- The loop over the sequence in terms of `exRun`. -/
theorem exVisit_run (d : ExIter A) (hd : F.exDefault = .ok d) (hdd : F.netEq d.cur d.cur = .ok true) :
    ∀ (fuel : Nat) (x : ExIter A) (l : List (Net A)), F.exRun (fun n => F.netEq n d.cur) fuel (some x) = .ok l → F.exVisit fuel x d = .ok l := by
  intro fuel
  induction fuel with
  | zero => intro x l h; exact absurd h (by simp [Fam.exRun])
  | succ f ih =>
    intro x l h
    simp only [Fam.exRun] at h
    simp only [Fam.exVisit, Fam.exEq]
    cases he : F.netEq x.cur d.cur <;> simp only [he, Res.ok_bind, Res.err_bind, Res.ub_bind, reduceCtorEq] at h ⊢
    rename_i b
    cases b <;> simp only [Bool.false_eq_true, if_false, if_true] at h ⊢
    · cases hn : F.exNext x <;> simp only [hn, Res.ok_bind, Res.err_bind, Res.ub_bind, reduceCtorEq] at h
      rename_i r
      rw [exInc_next x d hd r hn, Res.ok_bind]
      cases r with
      | none =>
        cases f with
        | zero => exact absurd h (by simp [Fam.exRun])
        | succ f =>
          simp only [Fam.exRun, Res.ok_bind] at h
          simp only [Option.getD, Fam.exVisit, Fam.exEq, hdd, Res.ok_bind, if_true]
          exact h
      | some y =>
        cases hr : F.exRun (fun n => F.netEq n d.cur) f (some y) <;> simp only [hr, Res.ok_bind, Res.err_bind, Res.ub_bind, reduceCtorEq] at h
        simp only [Option.getD]
        rw [ih y _ hr, Res.ok_bind]
        exact h
    · exact h

/-- The networks that remain when `o` is excluded from `n`, both without scope id, and the loop over them. -/
theorem exclude_core (L : F.Law WF val) (hw : F.maxPrefix < 2 ^ 64) {p v q u : Nat} {n o : Net A} (hn : IsNet F p v n)
    (ho : IsNet F q u o) (hlt : p < q) (hin : v ≤ u ∧ u + 2 ^ (F.maxPrefix - q) ≤ v + 2 ^ (F.maxPrefix - p))
    (isEnd : Net A → Res Bool) (z : Bool)
    (hE : ∀ p v n, IsNet F p v n → isEnd n = .ok (z && decide (v = 0 ∧ p = F.maxPrefix))) :
    ∃ (a b : Net A) (y : ExIter A) (all : List (Net A)), F.halves n = .ok (a, b) ∧ F.exNext ⟨o, a, b, n⟩ = .ok (some y) ∧
      all.length = q - p ∧ (∀ m ∈ all, NetOk F WF m ∧ ∃ x, m.addr = F.ofBytes x) ∧
      Partitions F.maxPrefix (all.map F.vp) (fun t => InNet F.maxPrefix p v t ∧ ¬ InNet F.maxPrefix q u t) ∧
      (∀ fuel, all.length < fuel → F.exRun isEnd fuel (some y) =
        .ok (if z = true ∧ q = F.maxPrefix ∧ u = 1 ∧ v = 0 then all.dropLast else all)) := by
  have hq := ho.le
  obtain ⟨a, b, g1, g2, g3⟩ := halves_eq L hw hn (by omega)
  obtain ⟨y, all, y1, y2, y3, y4, y5, y6⟩ := exclude_run L hw q u isEnd z hE (q - p - 1) p v ⟨o, a, b, n⟩ (by omega)
    ⟨ho, g2, g3, hlt, hin, ⟨_, _, hn, by omega⟩⟩ hn.aligned
  refine ⟨a, b, y, all, g1, y1, by omega, ?_, ⟨?_, fun t => ?_⟩, fun fuel hf => y6 fuel (by omega)⟩
  · intro m hm
    obtain ⟨pn, vn, h1, _⟩ := y3 m hm
    exact ⟨h1.netOk L, h1.addr.plain⟩
  · rw [List.pairwise_map]
    exact y4
  · beta_reduce
    have i1 := inNet_interval L n (hn.netOk L) t
    have i2 := inNet_interval L o (ho.netOk L) t
    rw [hn.v_eq L, hn.plen] at i1
    rw [ho.v_eq L, ho.plen] at i2
    rw [i1, i2, ← y5 t]
    constructor
    · rintro ⟨p, hp, hx⟩
      obtain ⟨m, hm, rfl⟩ := List.mem_map.mp hp
      exact ⟨m, hm, hx⟩
    · rintro ⟨m, hm, hx⟩
      exact ⟨_, List.mem_map.mpr ⟨m, hm, rfl⟩, hx⟩

/-- `Base::remove_scope_id` of a network. -/
theorem removeScopeNet_eq (L : F.Law WF val) (h4 : F.isV6 = false → ∀ a : A, ∃ x, a = F.ofBytes x) (n : Net A) (hn : NetOk F WF n) :
    ∃ m, F.removeScopeNet n = .ok m ∧ IsNet F n.plen (F.v n.addr) m := by
  unfold Fam.removeScopeNet
  cases hv : F.isV6
  · exact ⟨n, rfl, hn.isNet L (h4 hv _)⟩
  · rw [if_pos rfl, L.removeScope _ hn.wf, Res.ok_bind]
    exact fromAddress_isNet L ⟨_, rfl, L.len _ hn.wf, rfl⟩ hn.plen hn.aligned

/-- `address_exclude`. -/
theorem addressExclude_spec (L : F.Law WF val) (hw : F.maxPrefix < 2 ^ 64) (h4 : F.isV6 = false → ∀ a : A, ∃ x, a = F.ofBytes x)
    (n o : Net A) (hn : NetOk F WF n) (ho : NetOk F WF o)
    (hsub : ∀ t, InNet F.maxPrefix o.plen (F.v o.addr) t → InNet F.maxPrefix n.plen (F.v n.addr) t) :
    ∃ (s : ExSeq A) (all : List (Net A)), F.addressExclude n o = .ok s ∧ all.length = o.plen - n.plen ∧
      (∀ a ∈ all, NetOk F WF a ∧ ∃ x, a.addr = F.ofBytes x) ∧
      Partitions F.maxPrefix (all.map F.vp)
        (fun t => InNet F.maxPrefix n.plen (F.v n.addr) t ∧ ¬ InNet F.maxPrefix o.plen (F.v o.addr) t) ∧
      (∀ fuel, all.length < fuel → F.exVisit fuel s.first s.last =
        .ok (if o.plen = F.maxPrefix ∧ F.v o.addr = 1 ∧ F.v n.addr = 0 then all.dropLast else all)) := by
  obtain ⟨l, l1, l2⟩ := removeScopeNet_eq L h4 n hn
  obtain ⟨r, r1, r2⟩ := removeScopeNet_eq L h4 o ho
  obtain ⟨dn, d1, d2⟩ := default_isNet L
  have hd : F.exDefault = .ok ⟨dn, dn, dn, dn⟩ := by simp only [Fam.exDefault, d1, Res.ok_bind]
  have hP := Nat.two_pow_pos (F.maxPrefix - n.plen)
  have hO := Nat.two_pow_pos (F.maxPrefix - o.plen)
  simp only [inNet_interval L n hn, inNet_interval L o ho] at hsub
  have hin : F.v n.addr ≤ F.v o.addr ∧ F.v o.addr + 2 ^ (F.maxPrefix - o.plen) ≤ F.v n.addr + 2 ^ (F.maxPrefix - n.plen) := by
    have a := hsub (F.v o.addr) ⟨by omega, by omega⟩
    have b := hsub (F.v o.addr + 2 ^ (F.maxPrefix - o.plen) - 1) ⟨by omega, by omega⟩
    omega
  have hsb := subnetOf_isNet L r2 l2
  rw [decide_eq_true hin] at hsb
  have heq := netEq_isNet L l2 r2
  have hpl := hn.plen
  have hol := ho.plen
  have hpo : n.plen ≤ o.plen := by
    have : 2 ^ (F.maxPrefix - o.plen) ≤ 2 ^ (F.maxPrefix - n.plen) := by omega
    have := (Nat.pow_le_pow_iff_right (show 1 < 2 by decide)).mp this
    omega
  by_cases c : F.v n.addr = F.v o.addr ∧ n.plen = o.plen
  · rw [decide_eq_true c] at heq
    refine ⟨⟨⟨dn, dn, dn, dn⟩, ⟨dn, dn, dn, dn⟩⟩, [], ?_, by simp; omega, fun a ha => absurd ha (by simp), ⟨List.Pairwise.nil, fun t => ?_⟩, ?_⟩
    · simp only [Fam.addressExclude, l1, r1, Fam.noexcept, Res.ok_bind, hsb, heq, Fam.exSeqDefault, hd, Bool.not_true]
      simp
    · rw [c.1, c.2]; simp
    · intro fuel hf
      obtain ⟨f, rfl⟩ : ∃ f, fuel = f + 1 := ⟨fuel - 1, by omega⟩
      have : F.exEq (⟨dn, dn, dn, dn⟩ : ExIter A) ⟨dn, dn, dn, dn⟩ = .ok true := by
        rw [Fam.exEq, netEq_isNet L d2 d2]; simp
      simp only [Fam.exVisit, this, Res.ok_bind, if_true]
      simp
  · rw [decide_eq_false c] at heq
    have hlt : n.plen < o.plen := by
      rcases Nat.lt_or_ge n.plen o.plen with h | h
      · exact h
      · exfalso
        have e : n.plen = o.plen := by omega
        rw [e] at hin
        exact c ⟨by omega, e⟩
    have hdd : F.netEq dn dn = .ok true := by rw [netEq_isNet L d2 d2]; simp
    obtain ⟨a, b, y, all, g1, y1, y2, y3, y4, y5⟩ := exclude_core L hw l2 r2 hlt hin (fun m => F.netEq m dn) true (by
      intro p v m hm
      rw [netEq_isNet L hm d2, Bool.true_and])
    refine ⟨⟨y, ⟨dn, dn, dn, dn⟩⟩, all, ?_, y2, y3, y4, fun fuel hf => ?_⟩
    · simp only [Fam.addressExclude, l1, r1, Fam.noexcept, Res.ok_bind, hsb, heq, Fam.exSeqMk, Fam.exMk, g1,
        exInc_next _ _ hd _ y1, hd, Bool.not_true, Option.getD]
      simp
    · have := exVisit_run ⟨dn, dn, dn, dn⟩ hd hdd fuel y _ (y5 fuel hf)
      simp only [true_and] at this
      exact this

/-- The error of `address_exclude`. -/
theorem addressExclude_error (L : F.Law WF val) (hw : F.maxPrefix < 2 ^ 64) (h4 : F.isV6 = false → ∀ a : A, ∃ x, a = F.ofBytes x)
    (n o : Net A) (hn : NetOk F WF n) (ho : NetOk F WF o) :
    (¬ (∀ t, InNet F.maxPrefix o.plen (F.v o.addr) t → InNet F.maxPrefix n.plen (F.v n.addr) t) →
      F.addressExclude n o = .err .not_contained_network 0) ∧
    ((∀ t, InNet F.maxPrefix o.plen (F.v o.addr) t → InNet F.maxPrefix n.plen (F.v n.addr) t) →
      ∃ s, F.addressExclude n o = .ok s) := by
  constructor
  · intro h
    obtain ⟨l, l1, l2⟩ := removeScopeNet_eq L h4 n hn
    obtain ⟨r, r1, r2⟩ := removeScopeNet_eq L h4 o ho
    have hsb := subnetOf_isNet L r2 l2
    simp only [inNet_interval L n hn, inNet_interval L o ho] at h
    have hne : ¬ (F.v n.addr ≤ F.v o.addr ∧ F.v o.addr + 2 ^ (F.maxPrefix - o.plen) ≤ F.v n.addr + 2 ^ (F.maxPrefix - n.plen)) := by
      intro e; apply h; intro t ht; omega
    rw [decide_eq_false hne] at hsb
    simp [Fam.addressExclude, l1, r1, Fam.noexcept, hsb]
  · intro h
    obtain ⟨s, _, h1, _⟩ := addressExclude_spec L hw h4 n o hn ho h
    exact ⟨s, h1⟩

end
end Ip
