import Verif.Spec.AnyNet
import Verif.Lemmas.Exclude
/-
Version agnostic iterators and sequences.
-/
set_option autoImplicit false

namespace Ip
open Spec

/-! ### Iterators -/

section
variable {I4 V4 I6 V6 V : Type} {O : AnyItOps I4 V4 I6 V6 V}

/-- `++` and `--` of the wrapped iterators move by one. -/
structure AnyItOps.Std (O : AnyItOps I4 V4 I6 V6 V) : Prop where
  inc4 : ∀ x, O.o4.inc x = O.o4.add x 1#32
  dec4 : ∀ x, O.o4.dec x = O.o4.sub x 1#32
  inc6 : ∀ x, O.o6.inc x = O.o6.add x (U128.ofI64 1#64)
  dec6 : ∀ x, O.o6.dec x = O.o6.sub x (U128.ofI64 1#64)

theorem lo32_one : lo32 (U128.ofI64 1#64) = 1#32 := by decide

theorem lo32_val (u : U128) (h : u.val < 2 ^ 32) : (lo32 u).toNat = u.val := by
  unfold lo32
  rw [BitVec.toNat_setWidth]
  unfold U128.val at *
  omega

theorem ofU64_val32 (d : BitVec 32) : (U128.ofU64 (d.setWidth 64)).val = d.toNat := by
  unfold U128.ofU64 U128.val
  have := d.isLt
  simp only [BitVec.toNat_setWidth]
  rw [Nat.mod_eq_of_lt (by omega)]
  simp

theorem visit4 (S : O.Std) : ∀ fuel x y l, O.o4.visit fuel x y = .ok l →
    O.ops.visit fuel (O.mk4 x) (O.mk4 y) = .ok (l.map O.emb4) := by
  intro fuel
  induction fuel with
  | zero => intro x y l h; exact absurd h (by simp [IterOps.visit])
  | succ f ih =>
    intro x y l h
    simp only [IterOps.visit] at h
    obtain ⟨b, b1, h⟩ := Res.bind_eq_ok.mp h
    have e : O.ops.eq (O.mk4 x) (O.mk4 y) = .ok b := b1
    simp only [IterOps.visit, e, Res.ok_bind]
    cases b with
    | true =>
      simp only [if_true] at h ⊢
      cases h; rfl
    | false =>
      simp only [Bool.false_eq_true, if_false] at h ⊢
      obtain ⟨n, n1, h⟩ := Res.bind_eq_ok.mp h
      obtain ⟨r, r1, h⟩ := Res.bind_eq_ok.mp h
      rw [S.inc4] at n1
      have e2 : O.ops.inc (O.mk4 x) = .ok (O.mk4 n) := by
        show (O.o4.add x (lo32 (U128.ofI64 1#64)) >>= _) = _
        rw [lo32_one, n1]; rfl
      rw [e2, Res.ok_bind, ih _ _ _ r1]
      cases h; rfl

theorem visit6 (S : O.Std) : ∀ fuel x y l, O.o6.visit fuel x y = .ok l →
    O.ops.visit fuel (O.mk6 x) (O.mk6 y) = .ok (l.map O.emb6) := by
  intro fuel
  induction fuel with
  | zero => intro x y l h; exact absurd h (by simp [IterOps.visit])
  | succ f ih =>
    intro x y l h
    simp only [IterOps.visit] at h
    obtain ⟨b, b1, h⟩ := Res.bind_eq_ok.mp h
    have e : O.ops.eq (O.mk6 x) (O.mk6 y) = .ok b := b1
    simp only [IterOps.visit, e, Res.ok_bind]
    cases b with
    | true =>
      simp only [if_true] at h ⊢
      cases h; rfl
    | false =>
      simp only [Bool.false_eq_true, if_false] at h ⊢
      obtain ⟨n, n1, h⟩ := Res.bind_eq_ok.mp h
      obtain ⟨r, r1, h⟩ := Res.bind_eq_ok.mp h
      rw [S.inc6] at n1
      have e2 : O.ops.inc (O.mk6 x) = .ok (O.mk6 n) := by
        show (O.o6.add x (U128.ofI64 1#64) >>= _) = _
        rw [n1]; rfl
      rw [e2, Res.ok_bind, ih _ _ _ r1]
      cases h; rfl

theorem rMk4 (x : I4) (r : RIter I4) (h : O.o4.rMk x = .ok r) : O.ops.rMk (O.mk4 x) = .ok ⟨O.mk4 r.it⟩ := by
  unfold IterOps.rMk at *
  obtain ⟨y, y1, h⟩ := Res.bind_eq_ok.mp h
  cases h
  have : O.ops.reverse (O.mk4 x) = .ok (O.mk4 y) := by
    show (O.o4.reverse x >>= _) = _
    rw [y1]; rfl
  rw [this]; rfl

theorem rMk6 (x : I6) (r : RIter I6) (h : O.o6.rMk x = .ok r) : O.ops.rMk (O.mk6 x) = .ok ⟨O.mk6 r.it⟩ := by
  unfold IterOps.rMk at *
  obtain ⟨y, y1, h⟩ := Res.bind_eq_ok.mp h
  cases h
  have : O.ops.reverse (O.mk6 x) = .ok (O.mk6 y) := by
    show (O.o6.reverse x >>= _) = _
    rw [y1]; rfl
  rw [this]; rfl

theorem rVisit4 (S : O.Std) : ∀ fuel (x y : RIter I4) l, O.o4.rVisit fuel x y = .ok l →
    O.ops.rVisit fuel ⟨O.mk4 x.it⟩ ⟨O.mk4 y.it⟩ = .ok (l.map O.emb4) := by
  intro fuel
  induction fuel with
  | zero => intro x y l h; exact absurd h (by simp [IterOps.rVisit])
  | succ f ih =>
    intro x y l h
    simp only [IterOps.rVisit] at h
    obtain ⟨b, b1, h⟩ := Res.bind_eq_ok.mp h
    have e : O.ops.rEq ⟨O.mk4 x.it⟩ ⟨O.mk4 y.it⟩ = .ok b := b1
    simp only [IterOps.rVisit, e, Res.ok_bind]
    cases b with
    | true =>
      simp only [if_true] at h ⊢
      cases h; rfl
    | false =>
      simp only [Bool.false_eq_true, if_false] at h ⊢
      obtain ⟨n, n1, h⟩ := Res.bind_eq_ok.mp h
      obtain ⟨r, r1, h3⟩ := Res.bind_eq_ok.mp h
      clear h
      unfold IterOps.rInc at n1
      rw [S.dec4] at n1
      obtain ⟨m, m1, m2⟩ := Res.bind_eq_ok.mp n1
      cases m2
      have e2 : O.ops.rInc ⟨O.mk4 x.it⟩ = .ok ⟨O.mk4 m⟩ := by
        show ((O.o4.sub x.it (lo32 (U128.ofI64 1#64)) >>= _) >>= _) = _
        rw [lo32_one, m1]; rfl
      rw [e2, Res.ok_bind, ih ⟨m⟩ _ _ r1]
      cases h3; rfl

theorem rVisit6 (S : O.Std) : ∀ fuel (x y : RIter I6) l, O.o6.rVisit fuel x y = .ok l →
    O.ops.rVisit fuel ⟨O.mk6 x.it⟩ ⟨O.mk6 y.it⟩ = .ok (l.map O.emb6) := by
  intro fuel
  induction fuel with
  | zero => intro x y l h; exact absurd h (by simp [IterOps.rVisit])
  | succ f ih =>
    intro x y l h
    simp only [IterOps.rVisit] at h
    obtain ⟨b, b1, h⟩ := Res.bind_eq_ok.mp h
    have e : O.ops.rEq ⟨O.mk6 x.it⟩ ⟨O.mk6 y.it⟩ = .ok b := b1
    simp only [IterOps.rVisit, e, Res.ok_bind]
    cases b with
    | true =>
      simp only [if_true] at h ⊢
      cases h; rfl
    | false =>
      simp only [Bool.false_eq_true, if_false] at h ⊢
      obtain ⟨n, n1, h⟩ := Res.bind_eq_ok.mp h
      obtain ⟨r, r1, h3⟩ := Res.bind_eq_ok.mp h
      clear h
      unfold IterOps.rInc at n1
      rw [S.dec6] at n1
      obtain ⟨m, m1, m2⟩ := Res.bind_eq_ok.mp n1
      cases m2
      have e2 : O.ops.rInc ⟨O.mk6 x.it⟩ = .ok ⟨O.mk6 m⟩ := by
        show ((O.o6.sub x.it (U128.ofI64 1#64) >>= _) >>= _) = _
        rw [m1]; rfl
      rw [e2, Res.ok_bind, ih ⟨m⟩ _ _ r1]
      cases h3; rfl

/-- What a sequence with the elements `l` does, apart from `size()`: forward and backward loops, `empty()`,
indexing and ends. -/
def GoodAny (O : AnyItOps I4 V4 I6 V6 V) (s : AnySeq I4 I6 V) (l : List V) : Prop :=
  ∃ (r1 r2 : RIter (AnyIt I4 I6 V)), O.ops.rMk s.last = .ok r1 ∧ O.ops.rMk s.first = .ok r2 ∧
    (∀ fuel, l.length < fuel → O.ops.visit fuel s.first s.last = .ok l ∧ O.ops.rVisit fuel r1 r2 = .ok l.reverse) ∧
    O.seqEmpty s = .ok l.isEmpty ∧
    (∀ i (h : i < l.length) u, U128.val u = i → O.seqAt s u = .ok l[i]) ∧
    ∃ h : l ≠ [], AnyItOps.seqFront s = l.head h ∧ O.seqBack s = .ok (l.getLast h)

theorem goodAny4 (S : O.Std) (x y : I4) (l : List V4) (r1 r2 : RIter I4) (h1 : O.o4.rMk y = .ok r1)
    (h2 : O.o4.rMk x = .ok r2)
    (hv : ∀ fuel, l.length < fuel → O.o4.visit fuel x y = .ok l ∧ O.o4.rVisit fuel r1 r2 = .ok l.reverse)
    (he : O.o4.eq x y = .ok l.isEmpty) (hlen : l.length < 2 ^ 32)
    (hat : ∀ i (h : i < l.length) u, u.toNat = i → (O.o4.add x u >>= fun z => .ok (O.o4.deref z)) = .ok l[i])
    (hne : l ≠ []) (hf : O.o4.deref x = l.head hne)
    (hb : (O.o4.sub y 1#32 >>= fun z => .ok (O.o4.deref z)) = .ok (l.getLast hne)) :
    GoodAny O ⟨O.mk4 x, O.mk4 y⟩ (l.map O.emb4) := by
  refine ⟨⟨O.mk4 r1.it⟩, ⟨O.mk4 r2.it⟩, rMk4 _ _ h1, rMk4 _ _ h2, fun fuel hfu => ?_, ?_, ?_, ?_⟩
  · rw [List.length_map] at hfu
    obtain ⟨a, b⟩ := hv fuel hfu
    refine ⟨visit4 S _ _ _ _ a, ?_⟩
    rw [← List.map_reverse]
    exact rVisit4 S _ _ _ _ b
  · show O.o4.eq x y = _
    rw [he, List.isEmpty_map]
  · intro i hi u hu
    have hi' : i < l.length := by rwa [List.length_map] at hi
    have := hat i hi' (lo32 u) (by rw [lo32_val u (by omega), hu])
    obtain ⟨z, z1, z2⟩ := Res.bind_eq_ok.mp this
    injection z2 with z2
    show ((O.o4.add x (lo32 u) >>= _) >>= _) = _
    rw [z1]
    show Res.ok (O.emb4 (O.o4.deref z)) = _
    rw [z2, List.getElem_map]
  · refine ⟨by simpa using hne, ?_, ?_⟩
    · show O.emb4 (O.o4.deref x) = _
      rw [hf, List.head_map]
    · obtain ⟨z, z1, z2⟩ := Res.bind_eq_ok.mp hb
      injection z2 with z2
      show ((O.o4.sub y (lo32 (U128.ofI64 1#64)) >>= _) >>= _) = _
      rw [lo32_one, z1]
      show Res.ok (O.emb4 (O.o4.deref z)) = _
      rw [z2, List.getLast_map]

theorem goodAny6 (S : O.Std) (x y : I6) (l : List V6) (r1 r2 : RIter I6) (h1 : O.o6.rMk y = .ok r1)
    (h2 : O.o6.rMk x = .ok r2)
    (hv : ∀ fuel, l.length < fuel → O.o6.visit fuel x y = .ok l ∧ O.o6.rVisit fuel r1 r2 = .ok l.reverse)
    (he : O.o6.eq x y = .ok l.isEmpty)
    (hat : ∀ i (h : i < l.length) u, U128.val u = i → (O.o6.add x u >>= fun z => .ok (O.o6.deref z)) = .ok l[i])
    (hne : l ≠ []) (hf : O.o6.deref x = l.head hne)
    (hb : (O.o6.sub y (U128.ofI64 1#64) >>= fun z => .ok (O.o6.deref z)) = .ok (l.getLast hne)) :
    GoodAny O ⟨O.mk6 x, O.mk6 y⟩ (l.map O.emb6) := by
  refine ⟨⟨O.mk6 r1.it⟩, ⟨O.mk6 r2.it⟩, rMk6 _ _ h1, rMk6 _ _ h2, fun fuel hfu => ?_, ?_, ?_, ?_⟩
  · rw [List.length_map] at hfu
    obtain ⟨a, b⟩ := hv fuel hfu
    refine ⟨visit6 S _ _ _ _ a, ?_⟩
    rw [← List.map_reverse]
    exact rVisit6 S _ _ _ _ b
  · show O.o6.eq x y = _
    rw [he, List.isEmpty_map]
  · intro i hi u hu
    have hi' : i < l.length := by rwa [List.length_map] at hi
    have := hat i hi' u hu
    obtain ⟨z, z1, z2⟩ := Res.bind_eq_ok.mp this
    injection z2 with z2
    show ((O.o6.add x u >>= _) >>= _) = _
    rw [z1]
    show Res.ok (O.emb6 (O.o6.deref z)) = _
    rw [z2, List.getElem_map]
  · refine ⟨by simpa using hne, ?_, ?_⟩
    · show O.emb6 (O.o6.deref x) = _
      rw [hf, List.head_map]
    · obtain ⟨z, z1, z2⟩ := Res.bind_eq_ok.mp hb
      injection z2 with z2
      show ((O.o6.sub y (U128.ofI64 1#64) >>= _) >>= _) = _
      rw [z1]
      show Res.ok (O.emb6 (O.o6.deref z)) = _
      rw [z2, List.getLast_map]

end

theorem anyHosts_std (c : Cfg) : (anyHostsOps c).Std := ⟨fun _ => rfl, fun _ => rfl, fun _ => rfl, fun _ => rfl⟩
theorem anySubnets_std (c : Cfg) : (anySubnetsOps c).Std := ⟨fun _ => rfl, fun _ => rfl, fun _ => rfl, fun _ => rfl⟩

/-! ### `size()` of the subnetworks -/

section
variable {A U : Type} {F : Fam A U} {WF : A → Prop} {val : U → Nat}

/-- `end().uint_diff(begin())` of the sequence of subnetworks. -/
theorem subnets_uintDiff (L : F.Law WF val) (n : Net A) (hn : NetOk F WF n) (d : Nat) (hw : F.maxPrefix < 2 ^ 64)
    (hd : n.plen + d ≤ F.maxPrefix) (hdw : d < F.maxPrefix) (h0 : n.plen + d ≠ 0) (s : SubnetsSeq A U)
    (hs : F.subnets n d none = .ok s) :
    ∃ k, F.niUintDiff s.last s.first = .ok k ∧ val k = if n.plen = 0 then 0 else 2 ^ d := by
  have hv := L.v_lt _ hn.wf
  have hW := two_le_W L
  have hpl := hn.plen
  have key : ∃ step, val step = 2 ^ (F.maxPrefix - (n.plen + d)) ∧ s.last.step = step ∧
      val s.first.it.off = F.v n.addr ∧ val s.last.it.off = (F.v n.addr + 2 ^ (F.maxPrefix - n.plen)) % 2 ^ F.maxPrefix := by
    by_cases hp : n.plen = F.maxPrefix
    · have hd0 : d = 0 := by omega
      subst hd0
      obtain ⟨a, s', step, h1, h2, h3, h4, h5, h6, h7, h8⟩ := subnetsMk1_eq L n hn hp
      have := subnets_go1 n hp 0 none a s' h1 h2
      rw [hs] at this
      injection this with this
      subst this
      refine ⟨step, by rw [h3, Nat.add_zero, hp, Nat.sub_self]; rfl, h5.step, ?_, ?_⟩
      · rw [← AIter.pos_mod L]
        show s.first.pos F val % _ = _
        rw [h7, Nat.mod_eq_of_lt hv]
      · rw [← AIter.pos_mod L]
        show s.last.pos F val % _ = _
        rw [h8, hp, Nat.sub_self]; rfl
    · have hlt : n.plen < F.maxPrefix := by omega
      obtain ⟨b, a, s', step, h1, h2, h3, h4, h5, h6, h7, h8, h9⟩ := subnetsMk_eq L n hn d hlt hd hdw h0
      have := (subnets_go n d hlt hw hd a b s' h1 h2 h3).1
      rw [hs] at this
      injection this with this
      subst this
      refine ⟨step, h4, h6.step, ?_, ?_⟩
      · rw [← AIter.pos_mod L]
        show s.first.pos F val % _ = _
        rw [h8, Nat.mod_eq_of_lt hv]
      · rw [← AIter.pos_mod L]
        show s.last.pos F val % _ = _
        rw [h9]
        have hal : F.v n.addr % 2 ^ (F.maxPrefix - n.plen) = 0 := hn.aligned
        split
        · rename_i h
          rw [h, Nat.sub_zero] at hal ⊢
          rw [Nat.mod_eq_of_lt hv] at hal
          rw [hal]; simp
        · rw [Nat.mod_mod]
  obtain ⟨step, k1, k2, k3, k4⟩ := key
  have hS : 0 < val step := by rw [k1]; exact Nat.two_pow_pos _
  obtain ⟨r, r1, r2⟩ := L.ops.div (F.aiUintDiff s.last.it s.first.it) step (by omega)
  refine ⟨r, by rw [Fam.niUintDiff, k2, r1], ?_⟩
  have hdiff : val (F.aiUintDiff s.last.it s.first.it) = 2 ^ (F.maxPrefix - n.plen) % 2 ^ F.maxPrefix := by
    rw [Fam.aiUintDiff, L.ops.sub, k3, k4]
    have hP := Nat.two_pow_pos (F.maxPrefix - n.plen)
    have hPW : 2 ^ (F.maxPrefix - n.plen) ≤ 2 ^ F.maxPrefix := Nat.pow_le_pow_right (by decide) (by omega)
    generalize 2 ^ (F.maxPrefix - n.plen) = P at *
    generalize 2 ^ F.maxPrefix = W at *
    rw [add_mod_if _ _ _ hv hPW]
    rcases Nat.lt_or_ge P W with h | h
    · rw [Nat.mod_eq_of_lt h]
      split
      · rw [show F.v n.addr + P + (W - F.v n.addr) = P + W by omega, Nat.add_mod_right, Nat.mod_eq_of_lt h]
      · rw [Nat.mod_eq_of_lt (by omega)]; omega
    · have : P = W := by omega
      subst this
      rw [Nat.mod_self, if_neg (by omega)]
      rw [show F.v n.addr + P - P + (P - F.v n.addr) = P by omega, Nat.mod_self]
  rw [r2, hdiff, k1]
  split
  · rename_i h
    rw [h, Nat.sub_zero, Nat.mod_self, Nat.zero_div]
  · rw [Nat.mod_eq_of_lt (Nat.pow_lt_pow_right (by decide) (by omega)), Nat.pow_div (by omega) (by decide)]
    congr 1; omega

end

/-! ### `address_exclude` -/

section
variable {A U : Type} {F : Fam A U} {WF : A → Prop} {val : U → Nat} {c : Cfg} {e : Net A → AnyNet}

/-- The version agnostic iterator that wraps the networks of `x`. -/
def anyEx (e : Net A → AnyNet) (x : ExIter A) : AnyEx := ⟨e x.other, e x.s1, e x.s2, e x.cur⟩

/-- What is used of the embedding of one family. -/
structure AnyEmb (F : Fam A U) (c : Cfg) (e : Net A → AnyNet) : Prop where
  eq : ∀ a b, anyNetEq c (e a) (e b) = F.netEq a b
  sub : ∀ a b, anyNetSubnetOf c (e a) (e b) = F.subnetOf a b
  halves : ∀ n a b, F.halves n = .ok (a, b) → anyHalves c (e n) = .ok (e a, e b)

theorem anyExInc_next (E : AnyEmb F c e) (x : ExIter A) (d : AnyEx) (hd : anyExDefault c = .ok d) (r : Option (ExIter A))
    (h : F.exNext x = .ok r) : anyExInc c (anyEx e x) = .ok ((r.map (anyEx e)).getD d) := by
  revert h
  unfold Fam.exNext anyExInc
  simp only [anyEx, E.eq, E.sub]
  cases h1 : F.netEq x.s1 x.other <;> simp only [Res.ok_bind, Res.err_bind, Res.ub_bind, reduceCtorEq, false_imp_iff]
  cases h2 : F.netEq x.s2 x.other <;> simp only [Res.ok_bind, Res.err_bind, Res.ub_bind, reduceCtorEq, false_imp_iff]
  rename_i a b
  cases a <;> cases b <;> simp only [Bool.not_true, Bool.not_false, Bool.and_true, Bool.and_false, Bool.and_self,
    if_true, Bool.false_eq_true, if_false]
  · cases h3 : F.subnetOf x.other x.s1 <;> simp only [Res.ok_bind, Res.err_bind, Res.ub_bind, reduceCtorEq, false_imp_iff]
    rename_i b3
    cases b3 <;> simp only [if_true, Bool.false_eq_true, if_false]
    · cases h4 : F.subnetOf x.other x.s2 <;> simp only [Res.ok_bind, Res.err_bind, Res.ub_bind, reduceCtorEq, false_imp_iff]
      rename_i b4
      cases b4 <;> simp only [if_true, Bool.false_eq_true, if_false, reduceCtorEq, false_imp_iff]
      cases h5 : F.netEq x.cur x.s1 <;> simp only [Res.ok_bind, Res.err_bind, Res.ub_bind, reduceCtorEq, false_imp_iff]
      rename_i b5
      cases b5 <;> simp only [Bool.not_true, Bool.not_false, if_true, Bool.false_eq_true, if_false]
      · cases h6 : F.halves x.s2 <;> simp only [Res.ok_bind, Res.err_bind, Res.ub_bind, reduceCtorEq, false_imp_iff]
        rw [E.halves _ _ _ h6, Res.ok_bind]
        intro e; cases e; rfl
      · intro e; cases e; exact hd
    · cases h5 : F.netEq x.cur x.s2 <;> simp only [Res.ok_bind, Res.err_bind, Res.ub_bind, reduceCtorEq, false_imp_iff]
      rename_i b5
      cases b5 <;> simp only [Bool.not_true, Bool.not_false, if_true, Bool.false_eq_true, if_false]
      · cases h6 : F.halves x.s1 <;> simp only [Res.ok_bind, Res.err_bind, Res.ub_bind, reduceCtorEq, false_imp_iff]
        rw [E.halves _ _ _ h6, Res.ok_bind]
        intro e; cases e; rfl
      · intro e; cases e; exact hd
  all_goals
    try (cases h5 : F.netEq x.cur x.s1 <;> simp only [Res.ok_bind, Res.err_bind, Res.ub_bind, reduceCtorEq, false_imp_iff])
    try (cases h6 : F.netEq x.cur x.s2 <;> simp only [Res.ok_bind, Res.err_bind, Res.ub_bind, reduceCtorEq, false_imp_iff])
    all_goals
      rename_i b5
      cases b5 <;> simp only [Bool.not_true, Bool.not_false, if_true, Bool.false_eq_true, if_false]
      · intro e; cases e; rfl
      · intro e; cases e; exact hd

theorem anyExVisit_run (E : AnyEmb F c e) (d : AnyEx) (hd : anyExDefault c = .ok d) (hdd : anyNetEq c d.cur d.cur = .ok true) :
    ∀ (fuel : Nat) (x : ExIter A) (l : List (Net A)), F.exRun (fun n => anyNetEq c (e n) d.cur) fuel (some x) = .ok l →
      anyExVisit c fuel (anyEx e x) d = .ok (l.map e) := by
  intro fuel
  induction fuel with
  | zero => intro x l h; exact absurd h (by simp [Fam.exRun])
  | succ f ih =>
    intro x l h
    simp only [Fam.exRun] at h
    simp only [anyExVisit, anyExEq]
    change (anyNetEq c (e x.cur) d.cur >>= _) = _
    cases he : anyNetEq c (e x.cur) d.cur <;> simp only [he, Res.ok_bind, Res.err_bind, Res.ub_bind, reduceCtorEq] at h ⊢
    rename_i b
    cases b <;> simp only [Bool.false_eq_true, if_false, if_true] at h ⊢
    · cases hn : F.exNext x <;> simp only [hn, Res.ok_bind, Res.err_bind, Res.ub_bind, reduceCtorEq] at h
      rename_i r
      rw [anyExInc_next E x d hd r hn, Res.ok_bind]
      cases r with
      | none =>
        cases f with
        | zero => exact absurd h (by simp [Fam.exRun])
        | succ f =>
          simp only [Fam.exRun, Res.ok_bind] at h
          simp only [Option.map, Option.getD, anyExVisit, anyExEq, hdd, Res.ok_bind, if_true]
          cases h; rfl
      | some y =>
        cases hr : F.exRun (fun n => anyNetEq c (e n) d.cur) f (some y) <;>
          simp only [hr, Res.ok_bind, Res.err_bind, Res.ub_bind, reduceCtorEq] at h
        simp only [Option.map, Option.getD]
        rw [ih y _ hr, Res.ok_bind]
        cases h; rfl
    · cases h; rfl

/-- What `address_exclude` does when the versions agree; `z` says that the default network, which ends the
sequence, has the same version. -/
theorem anyExclude_spec (L : F.Law WF val) (hw : F.maxPrefix < 2 ^ 64) (E : AnyEmb F c e) (n o : Net A) (hn : NetOk F WF n)
    (ho : NetOk F WF o) (l r : Net A) (l1 : anyNetRemoveScope c (e n) = .ok (e l)) (l2 : IsNet F n.plen (F.v n.addr) l)
    (r1 : anyNetRemoveScope c (e o) = .ok (e r)) (r2 : IsNet F o.plen (F.v o.addr) r)
    (dn : AnyNet) (hdn : anyNetDefault c = .ok dn) (hdd : anyNetEq c dn dn = .ok true) (z : Bool)
    (hE : ∀ p v n, IsNet F p v n → anyNetEq c (e n) dn = .ok (z && decide (v = 0 ∧ p = F.maxPrefix)))
    (hx : anyNetExclude c (e n) (e o) = do
      let lhs ← Fam.noexcept (anyNetRemoveScope c (e n))
      let rhs ← Fam.noexcept (anyNetRemoveScope c (e o))
      if !(← anyNetSubnetOf c rhs lhs) then .err .not_contained_network 0
      else if ← anyNetEq c lhs rhs then do
        let d ← anyExDefault c
        .ok (d, d)
      else Fam.noexcept (do
        let x ← anyExMk c lhs rhs
        let d ← anyExDefault c
        .ok (x, d))) :
    (¬ (∀ t, InNet F.maxPrefix o.plen (F.v o.addr) t → InNet F.maxPrefix n.plen (F.v n.addr) t) →
      anyNetExclude c (e n) (e o) = .err .not_contained_network 0) ∧
    ((∀ t, InNet F.maxPrefix o.plen (F.v o.addr) t → InNet F.maxPrefix n.plen (F.v n.addr) t) →
      ∃ (s : AnyEx × AnyEx) (all : List (Net A)), anyNetExclude c (e n) (e o) = .ok s ∧ all.length = o.plen - n.plen ∧
        (∀ a ∈ all, NetOk F WF a ∧ ∃ x, a.addr = F.ofBytes x) ∧
        Partitions F.maxPrefix (all.map F.vp)
          (fun t => InNet F.maxPrefix n.plen (F.v n.addr) t ∧ ¬ InNet F.maxPrefix o.plen (F.v o.addr) t) ∧
        (∀ fuel, all.length < fuel → anyExVisit c fuel s.1 s.2 =
          .ok ((if z = true ∧ o.plen = F.maxPrefix ∧ F.v o.addr = 1 ∧ F.v n.addr = 0 then all.dropLast else all).map e))) := by
  have hd : anyExDefault c = .ok ⟨dn, dn, dn, dn⟩ := by simp only [anyExDefault, hdn, Res.ok_bind]
  have hsb := subnetOf_isNet L r2 l2
  have heq := netEq_isNet L l2 r2
  have hP := Nat.two_pow_pos (F.maxPrefix - n.plen)
  have hO := Nat.two_pow_pos (F.maxPrefix - o.plen)
  constructor
  · intro h
    simp only [inNet_interval L n hn, inNet_interval L o ho] at h
    have hne : ¬ (F.v n.addr ≤ F.v o.addr ∧ F.v o.addr + 2 ^ (F.maxPrefix - o.plen) ≤ F.v n.addr + 2 ^ (F.maxPrefix - n.plen)) := by
      intro e; apply h; intro t ht; omega
    rw [decide_eq_false hne] at hsb
    rw [hx]
    simp [l1, r1, Fam.noexcept, E.sub, hsb]
  · intro hsub
    simp only [inNet_interval L n hn, inNet_interval L o ho] at hsub
    have hin : F.v n.addr ≤ F.v o.addr ∧ F.v o.addr + 2 ^ (F.maxPrefix - o.plen) ≤ F.v n.addr + 2 ^ (F.maxPrefix - n.plen) := by
      have a := hsub (F.v o.addr) ⟨by omega, by omega⟩
      have b := hsub (F.v o.addr + 2 ^ (F.maxPrefix - o.plen) - 1) ⟨by omega, by omega⟩
      omega
    rw [decide_eq_true hin] at hsb
    have hpl := hn.plen
    have hol := ho.plen
    have hpo : n.plen ≤ o.plen := by
      have : 2 ^ (F.maxPrefix - o.plen) ≤ 2 ^ (F.maxPrefix - n.plen) := by omega
      have := (Nat.pow_le_pow_iff_right (show 1 < 2 by decide)).mp this
      omega
    by_cases cc : F.v n.addr = F.v o.addr ∧ n.plen = o.plen
    · rw [decide_eq_true cc] at heq
      refine ⟨(⟨dn, dn, dn, dn⟩, ⟨dn, dn, dn, dn⟩), [], ?_, by simp; omega, fun a ha => absurd ha (by simp),
        ⟨List.Pairwise.nil, fun t => ?_⟩, ?_⟩
      · rw [hx]
        simp [l1, r1, Fam.noexcept, E.sub, E.eq, hsb, heq, hd]
      · rw [cc.1, cc.2]; simp
      · intro fuel hf
        obtain ⟨f, rfl⟩ : ∃ f, fuel = f + 1 := ⟨fuel - 1, by omega⟩
        simp only [anyExVisit, anyExEq, hdd, Res.ok_bind, if_true]
        simp
    · rw [decide_eq_false cc] at heq
      have hlt : n.plen < o.plen := by
        rcases Nat.lt_or_ge n.plen o.plen with h | h
        · exact h
        · exfalso
          have e : n.plen = o.plen := by omega
          rw [e] at hin
          exact cc ⟨by omega, e⟩
      obtain ⟨a, b, y, all, g1, y1, y2, y3, y4, y5⟩ := exclude_core L hw l2 r2 hlt hin (fun m => anyNetEq c (e m) dn) z hE
      refine ⟨(anyEx e y, ⟨dn, dn, dn, dn⟩), all, ?_, y2, y3, y4, fun fuel hf => ?_⟩
      · rw [hx]
        have h2 : anyExMk c (e l) (e r) = .ok (anyEx e y) := by
          unfold anyExMk
          rw [E.halves _ _ _ g1, Res.ok_bind]
          exact anyExInc_next E _ _ hd _ y1
        simp [l1, r1, Fam.noexcept, E.sub, E.eq, hsb, heq, hd, h2]
      · exact anyExVisit_run E ⟨dn, dn, dn, dn⟩ hd hdd fuel y _ (y5 fuel hf)

end
end Ip
