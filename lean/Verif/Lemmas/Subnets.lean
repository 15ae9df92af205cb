import Verif.Lemmas.Hosts
/-
The sequence made by `subnets()`.
-/
set_option autoImplicit false

namespace Ip
open Spec

theorem ones_shr (a d : Nat) (h : d ≤ a) : (2 ^ a - 1) / 2 ^ d = 2 ^ (a - d) - 1 := by
  have e := two_pow_split a d h
  have h1 := Nat.two_pow_pos d
  have h2 := Nat.two_pow_pos (a - d)
  rw [e]
  generalize 2 ^ d = D at *
  generalize 2 ^ (a - d) = E at *
  apply Nat.le_antisymm
  · have : (E * D - 1) / D < E := by
      rw [Nat.div_lt_iff_lt_mul h1]
      have : 0 < E * D := Nat.mul_pos h2 h1
      omega
    omega
  · rw [Nat.le_div_iff_mul_le h1, Nat.sub_mul, Nat.one_mul]
    have : D ≤ E * D := Nat.le_mul_of_pos_left D h2
    omega

section
variable {A U : Type} {F : Fam A U} {WF : A → Prop} {val : U → Nat}

/-- Address and prefix length of a network. -/
def Fam.vp (F : Fam A U) (n : Net A) : Nat × Nat := (F.v n.addr, n.plen)

/-- Where the iterators of `subnets()` stand, for a network of more than one address. -/
theorem subnetsMk_eq (L : F.Law WF val) (n : Net A) (hn : NetOk F WF n) (d : Nat) (hp : n.plen < F.maxPrefix)
    (hd : n.plen + d ≤ F.maxPrefix) (hdw : d < F.maxPrefix) (h0 : n.plen + d ≠ 0) :
    ∃ (b a : A) (s : SubnetsSeq A U) (step : U), F.removeScope n.addr = .ok a ∧ F.broadcast n = .ok b ∧
      F.subnetsMk a b (F.hostmask n) d (n.plen + d) = .ok s ∧
      val step = 2 ^ (F.maxPrefix - (n.plen + d)) ∧
      s.first.Ok F val step (n.plen + d) ∧ s.last.Ok F val step (n.plen + d) ∧ val s.size = 2 ^ d ∧
      s.first.pos F val = F.v n.addr ∧
      s.last.pos F val = if n.plen = 0 then 2 ^ F.maxPrefix
        else (F.v n.addr + 2 ^ (F.maxPrefix - n.plen)) % 2 ^ F.maxPrefix := by
  obtain ⟨b, b1, b2, b3⟩ := broadcast_eq L n hn
  obtain ⟨m, m1, m2, m3⟩ := hostmask_eq L n hn
  have hv := L.v_lt _ hn.wf
  have hal : F.v n.addr % 2 ^ (F.maxPrefix - n.plen) = 0 := hn.aligned
  have hroom : F.v n.addr + 2 ^ (F.maxPrefix - n.plen) ≤ 2 ^ F.maxPrefix :=
    aligned_room F.maxPrefix _ _ (Nat.sub_le ..) hv hal
  have hW := two_le_W L
  have hP := Nat.two_pow_pos (F.maxPrefix - n.plen)
  have hS := Nat.two_pow_pos (F.maxPrefix - (n.plen + d))
  have hSW : 2 ^ (F.maxPrefix - (n.plen + d)) < 2 ^ F.maxPrefix := Nat.pow_lt_pow_right (by decide) (by omega)
  have hPS : 2 ^ (F.maxPrefix - n.plen) = 2 ^ d * 2 ^ (F.maxPrefix - (n.plen + d)) := by
    rw [← Nat.pow_add]; congr 1; omega
  have hda := L.removeScope _ hn.wf
  have ha : IsAddr F (F.v n.addr) (F.ofBytes (F.bytes n.addr)) := ⟨_, rfl, L.len _ hn.wf, rfl⟩
  obtain ⟨nu, n1, n2⟩ := ha.toUint L
  have hb : IsAddr F (F.v n.addr + 2 ^ (F.maxPrefix - n.plen) - 1) (F.ofBytes b) := ⟨b, rfl, b2, b3⟩
  obtain ⟨bu, u1, u2⟩ := hb.toUint L
  have hm : IsAddr F (2 ^ (F.maxPrefix - n.plen) - 1) (F.hostmask n) := ⟨m, m1, m2, m3⟩
  obtain ⟨hu, h1, h2⟩ := hm.toUint L
  obtain ⟨sh, s1, s2⟩ := L.ops.shr hu d hdw
  rw [h2, ones_shr _ _ (by omega), Nat.sub_sub] at s2
  have hstep : val (F.ops.add sh (F.ops.ofI64 1#64)) = 2 ^ (F.maxPrefix - (n.plen + d)) := by
    rw [L.ops.add, val_one L, s2, Nat.sub_add_cancel hS, Nat.mod_eq_of_lt hSW]
  obtain ⟨f, f1, f2⟩ := fromUint_isAddr L nu
  obtain ⟨l, l1, l2⟩ := fromUint_isAddr L (F.ops.add bu (F.ops.ofI64 1#64))
  have hlv : val (F.ops.add bu (F.ops.ofI64 1#64)) = (F.v n.addr + 2 ^ (F.maxPrefix - n.plen)) % 2 ^ F.maxPrefix := by
    rw [L.ops.add, val_one L, u2, Nat.sub_add_cancel (by omega)]
  rw [n2] at f2
  rw [hlv] at l2
  have hdvd : 2 ^ (F.maxPrefix - (n.plen + d)) ∣ 2 ^ (F.maxPrefix - n.plen) := Nat.pow_dvd_pow 2 (by omega)
  have hal' : F.v n.addr % 2 ^ (F.maxPrefix - (n.plen + d)) = 0 := by
    rw [← Nat.mod_mod_of_dvd _ hdvd, hal, Nat.zero_mod]
  have hal2 : (F.v n.addr + 2 ^ (F.maxPrefix - n.plen)) % 2 ^ F.maxPrefix % 2 ^ (F.maxPrefix - (n.plen + d)) = 0 := by
    rw [Nat.mod_mod_of_dvd _ (Nat.pow_dvd_pow 2 (by omega)), Nat.add_mod, hal', Nat.mod_eq_zero_of_dvd hdvd]; rfl
  obtain ⟨x, x1, x2, x3, x4⟩ := niMk_ok L _ f f2 (F.ops.add sh (F.ops.ofI64 1#64)) (n.plen + d) hd hal' 0 (.inl rfl)
  have hse := f2.eq L l2
  obtain ⟨y, y1, y2, y3, y4⟩ := niMk_ok L _ l l2 (F.ops.add sh (F.ops.ofI64 1#64)) (n.plen + d) hd hal2
    (if decide (F.v n.addr = (F.v n.addr + 2 ^ (F.maxPrefix - n.plen)) % 2 ^ F.maxPrefix) = true then 1 else 0) (by split <;> simp)
  obtain ⟨q, q1, q2⟩ := L.ops.div (F.ops.sub bu nu) (F.ops.add sh (F.ops.ofI64 1#64)) (by rw [hstep]; omega)
  have hq : val q = 2 ^ d - 1 := by
    rw [q2, hstep, L.ops.sub, u2, n2, show F.v n.addr + 2 ^ (F.maxPrefix - n.plen) - 1 + (2 ^ F.maxPrefix - F.v n.addr) =
      2 ^ (F.maxPrefix - n.plen) - 1 + 2 ^ F.maxPrefix by omega, Nat.add_mod_right, Nat.mod_eq_of_lt (by omega),
      ones_shr _ _ (by omega)]
    congr 2; omega
  have hdW : 2 ^ d < 2 ^ F.maxPrefix := Nat.pow_lt_pow_right (by decide) hdw
  refine ⟨_, _, ⟨x, y, F.ops.add q (F.ops.ofI64 1#64)⟩, _, hda, b1, ?_, hstep, x2, y2, ?_, ?_, ?_⟩
  · simp only [Fam.subnetsMk, n1, u1, f1, l1, h1, s1, x1, hse, y1, q1, Res.ok_bind]
  · show val (F.ops.add q _) = _
    have := Nat.two_pow_pos d
    rw [L.ops.add, val_one L, hq, Nat.sub_add_cancel this, Nat.mod_eq_of_lt hdW]
  · show AIter.pos F val x.it = _
    rw [pos_of_carry0 _ x3, x4]
  · show AIter.pos F val y.it = _
    by_cases hz : n.plen = 0
    · rw [if_pos hz]
      rw [hz, Nat.sub_zero] at hroom hal y3 y4
      have hv0 : F.v n.addr = 0 := by omega
      rw [hv0, Nat.zero_add, Nat.mod_self, if_pos (by simp)] at y3
      rw [hv0, Nat.zero_add, Nat.mod_self] at y4
      rw [pos_of_carry1 _ y3, y4]; rfl
    · rw [if_neg hz]
      have hlt : 2 ^ (F.maxPrefix - n.plen) < 2 ^ F.maxPrefix := Nat.pow_lt_pow_right (by decide) (by omega)
      have hne : ¬ F.v n.addr = (F.v n.addr + 2 ^ (F.maxPrefix - n.plen)) % 2 ^ F.maxPrefix := by
        rw [add_mod_if _ _ _ hv (by omega)]
        split <;> omega
      rw [if_neg (by simpa using hne)] at y3
      rw [pos_of_carry0 _ y3, y4]

/-- The sequence for a network of one address. -/
theorem subnetsMk1_eq (L : F.Law WF val) (n : Net A) (hn : NetOk F WF n) (hp : n.plen = F.maxPrefix) :
    ∃ (a : A) (s : SubnetsSeq A U) (step : U), F.removeScope n.addr = .ok a ∧
      F.subnetsMk1 a n.plen = .ok s ∧ val step = 1 ∧
      s.first.Ok F val step n.plen ∧ s.last.Ok F val step n.plen ∧ val s.size = 1 ∧
      s.first.pos F val = F.v n.addr ∧ s.last.pos F val = F.v n.addr + 1 := by
  have hv := L.v_lt _ hn.wf
  have hW := two_le_W L
  have hda := L.removeScope _ hn.wf
  have ha : IsAddr F (F.v n.addr) (F.ofBytes (F.bytes n.addr)) := ⟨_, rfl, L.len _ hn.wf, rfl⟩
  obtain ⟨nu, n1, n2⟩ := ha.toUint L
  obtain ⟨l, l1, l2⟩ := fromUint_isAddr L (F.ops.add nu (F.ops.ofI64 1#64))
  have hlv : val (F.ops.add nu (F.ops.ofI64 1#64)) = (F.v n.addr + 1) % 2 ^ F.maxPrefix := by
    rw [L.ops.add, val_one L, n2]
  rw [hlv] at l2
  have h1 : ∀ t, t % 2 ^ (F.maxPrefix - n.plen) = 0 := by
    intro t; rw [hp, Nat.sub_self]; exact Nat.mod_one t
  have hbb := L.bytes_ofBytes (F.bytes n.addr)
  obtain ⟨x, x1, x2, x3, x4⟩ := niMk_ok L _ _ ha (F.ops.ofI64 1#64) n.plen hn.plen (h1 _) 0 (.inl rfl)
  have hlt := l2.lt L ha
  obtain ⟨y, y1, y2, y3, y4⟩ := niMk_ok L _ l l2 (F.ops.ofI64 1#64) n.plen hn.plen (h1 _)
    (if decide ((F.v n.addr + 1) % 2 ^ F.maxPrefix < F.v n.addr) = true then 1 else 0) (by split <;> simp)
  refine ⟨_, ⟨x, y, F.ops.ofI64 1#64⟩, _, hda, ?_, val_one L, x2, y2, val_one L, ?_, ?_⟩
  · simp only [Fam.subnetsMk1, n1, l1, hbb, x1, hlt, y1, Res.ok_bind]
  · show AIter.pos F val x.it = _
    rw [pos_of_carry0 _ x3, x4]
  · show AIter.pos F val y.it = _
    rw [add_mod_if _ _ _ hv (by omega)] at y3 y4
    by_cases h : F.v n.addr + 1 < 2 ^ F.maxPrefix
    · rw [if_pos h, if_neg (by simp)] at y3
      rw [if_pos h] at y4
      rw [pos_of_carry0 _ y3, y4]
    · rw [if_neg h, if_pos (by simp; omega)] at y3
      rw [if_neg h] at y4
      rw [pos_of_carry1 _ y3, y4]; omega

/-- A range of networks that does not go beyond the last address. -/
theorem nrange_spec (L : F.Law WF val) (s : SubnetsSeq A U) (step : U) (q k : Nat)
    (hx : s.first.Ok F val step q) (hy : s.last.Ok F val step q) (hstep : val step = 2 ^ (F.maxPrefix - q))
    (hk : 0 < k) (he : s.last.pos F val = s.first.pos F val + k * val step)
    (hle : s.first.pos F val + k * val step ≤ 2 ^ F.maxPrefix) :
    ∃ (l : List (Net A)) (r1 r2 : RIter (NIter A U)), l.length = k ∧
      (∀ i (h : i < l.length), IsNet F q (s.first.pos F val + i * val step) l[i]) ∧
      F.niOps.rMk s.last = .ok r1 ∧ F.niOps.rMk s.first = .ok r2 ∧
      (∀ fuel, l.length < fuel → F.niOps.visit fuel s.first s.last = .ok l ∧ F.niOps.rVisit fuel r1 r2 = .ok l.reverse) ∧
      F.subnetsEmpty s = .ok l.isEmpty ∧
      (∀ i (h : i < l.length) u, val u = i → F.subnetsAt s u = .ok l[i]) ∧
      ∃ h : l ≠ [], s.front = l.head h ∧ F.subnetsBack s = .ok (l.getLast h) := by
  have hal : val step % 2 ^ (F.maxPrefix - q) = 0 := by rw [hstep, Nat.mod_self]
  have Ln := niLaw L step q hal
  have hS : 0 < val step := by rw [hstep]; exact Nat.two_pow_pos _
  have hSW := L.ops.val_lt step
  have hM : s.first.pos F val < 2 * 2 ^ F.maxPrefix := AIter.pos_lt L s.first.it
  have hkS : val step ≤ k * val step := Nat.le_mul_of_pos_left _ hk
  have he' : s.last.pos F val = (s.first.pos F val + k * val step) % (2 * 2 ^ F.maxPrefix) := by
    rw [Nat.mod_eq_of_lt (by omega), he]
  obtain ⟨l, l1, l2, l3⟩ := Ln.visit_eq hS k _ _ hx hy (by omega) he'
  obtain ⟨l', r1, r2, r3, r4, r5⟩ := Ln.reverse_visit hS k _ _ hx hy (by omega) he'
  have hll : l' = l := by
    have a := (r5 (k + 1) (by omega)).1
    have b := l3 (k + 1) (by omega)
    have := a.symm.trans b
    injection this
  subst hll
  have hmul : ∀ i, i < k → i * val step + val step ≤ k * val step := by
    intro i hi
    have := Nat.mul_le_mul_right (val step) (show i + 1 ≤ k from hi)
    rwa [Nat.add_mul, Nat.one_mul] at this
  have hA : ∀ i (hi : i < l'.length), IsNet F q (s.first.pos F val + i * val step) l'[i] := by
    intro i hi
    have h : IsNet F q ((s.first.pos F val + i * val step) % (2 * 2 ^ F.maxPrefix) % 2 ^ F.maxPrefix) l'[i] := l2 i hi
    have := hmul i (by omega)
    rw [Nat.mod_eq_of_lt (a := _ + i * val step) (b := 2 * _) (by omega), Nat.mod_eq_of_lt (by omega)] at h
    exact h
  have hne : l' ≠ [] := by intro e; rw [e] at l1; simp at l1; omega
  refine ⟨l', r1, r2, l1, hA, r3, r4, fun fuel hf => r5 fuel (by omega), ?_, ?_, hne, ?_, ?_⟩
  · rw [Fam.subnetsEmpty, NIter.eq_law L step q _ _ hx hy, decide_eq_false (by omega)]
    congr 1
    cases l' with
    | nil => exact absurd rfl hne
    | cons => rfl
  · intro i hi u hu
    obtain ⟨y, y1, y2, y3⟩ := NIter.add_law L step q hal s.first hx u
    have hm := hmul i (by omega)
    rw [hu, Nat.mul_comm, Nat.mod_eq_of_lt (a := i * _) (by omega), Nat.mod_eq_of_lt (by omega)] at y3
    simp only [Fam.subnetsAt, y1, Res.ok_bind]
    congr 1
    have hc := Ln.deref y y2
    rw [y3, Nat.mod_eq_of_lt (by omega)] at hc
    exact IsNet.inj hc (hA i hi)
  · have hc := Ln.deref s.first hx
    rw [Nat.mod_eq_of_lt (by omega)] at hc
    have h0 := hA 0 (by omega)
    rw [Nat.zero_mul, Nat.add_zero] at h0
    rw [List.head_eq_getElem]
    exact IsNet.inj hc h0
  · obtain ⟨y, y1, y2, y3⟩ := NIter.sub_law L step q hal s.last hy (F.ops.ofI64 1#64)
    have hk1 : k * val step = (k - 1) * val step + val step := by
      obtain ⟨j, rfl⟩ : ∃ j, k = j + 1 := ⟨k - 1, by omega⟩
      rw [Nat.add_mul, Nat.one_mul, Nat.add_sub_cancel]
    rw [val_one L, Nat.mul_one, Nat.mod_eq_of_lt hSW, he,
      show s.first.pos F val + k * val step + (2 * 2 ^ F.maxPrefix - val step) =
        s.first.pos F val + (k - 1) * val step + 2 * 2 ^ F.maxPrefix by omega,
      Nat.add_mod_right, Nat.mod_eq_of_lt (by omega)] at y3
    simp only [Fam.subnetsBack, y1, Res.ok_bind]
    congr 1
    have hc := Ln.deref y y2
    rw [y3, Nat.mod_eq_of_lt (by omega)] at hc
    rw [List.getLast_eq_getElem]
    have := hA (l'.length - 1) (by omega)
    exact IsNet.inj (by rw [l1]; exact hc) this

/-- Consecutive blocks of size `S` partition the interval they cover. -/
theorem blocks_partition (L : F.Law WF val) (l : List (Net A)) (f q : Nat)
    (hA : ∀ i (h : i < l.length), IsNet F q (f + i * 2 ^ (F.maxPrefix - q)) l[i]) :
    Increasing F.maxPrefix (l.map F.vp) ∧
    Partitions F.maxPrefix (l.map F.vp) (fun x => f ≤ x ∧ x < f + l.length * 2 ^ (F.maxPrefix - q)) := by
  have hin : ∀ i (h : i < l.length) x, InNet F.maxPrefix (F.vp l[i]).2 (F.vp l[i]).1 x ↔
      f + i * 2 ^ (F.maxPrefix - q) ≤ x ∧ x < f + i * 2 ^ (F.maxPrefix - q) + 2 ^ (F.maxPrefix - q) := by
    intro i h x
    have := inNet_interval L l[i] ((hA i h).netOk L) x
    rw [(hA i h).v_eq L, (hA i h).plen] at this
    simp only [Fam.vp, (hA i h).v_eq L, (hA i h).plen]
    exact this
  have hmul : ∀ i j, i < j → i * 2 ^ (F.maxPrefix - q) + 2 ^ (F.maxPrefix - q) ≤ j * 2 ^ (F.maxPrefix - q) := by
    intro i j hi
    have := Nat.mul_le_mul_right (2 ^ (F.maxPrefix - q)) (show i + 1 ≤ j from hi)
    rwa [Nat.add_mul, Nat.one_mul] at this
  have hpw : Increasing F.maxPrefix (l.map F.vp) := by
    unfold Increasing
    rw [List.pairwise_map, List.pairwise_iff_getElem]
    intro i j hi hj hij x y hx hy
    rw [hin] at hx hy
    have := hmul i j hij
    omega
  refine ⟨hpw, ?_, fun x => ?_⟩
  · exact List.Pairwise.imp (fun h x hx => Nat.lt_irrefl x (h x x hx.1 hx.2)) hpw
  · have hS := Nat.two_pow_pos (F.maxPrefix - q)
    constructor
    · rintro ⟨a, ha, hx⟩
      obtain ⟨n, hn, rfl⟩ := List.mem_map.mp ha
      obtain ⟨i, hi, rfl⟩ := List.mem_iff_getElem.mp hn
      rw [hin] at hx
      have := hmul i l.length hi
      omega
    · rintro ⟨h1, h2⟩
      have hi : (x - f) / 2 ^ (F.maxPrefix - q) < l.length := by
        rw [Nat.div_lt_iff_lt_mul hS]; omega
      refine ⟨_, List.mem_map.mpr ⟨_, List.getElem_mem hi, rfl⟩, ?_⟩
      rw [hin]
      have h3 := Nat.div_add_mod (x - f) (2 ^ (F.maxPrefix - q))
      have h4 := Nat.mod_lt (x - f) hS
      rw [Nat.mul_comm] at h3
      omega

/-- What `subnets(diff)` computes for admissible arguments: `d` is the effective difference. -/
theorem subnets_go (n : Net A) (d : Nat) (hp : n.plen < F.maxPrefix) (hw : F.maxPrefix < 2 ^ 64)
    (hd : n.plen + d ≤ F.maxPrefix) (a b : A) (s : SubnetsSeq A U)
    (ha : F.removeScope n.addr = .ok a) (hb : F.broadcast n = .ok b)
    (hs : F.subnetsMk a b (F.hostmask n) d (n.plen + d) = .ok s) :
    F.subnets n d none = .ok s ∧ F.subnets n 1 (some (n.plen + d)) = .ok s := by
  have hm : (n.plen + d) % 2 ^ 64 = n.plen + d := Nat.mod_eq_of_lt (by omega)
  constructor
  · simp only [Fam.subnets, ha, Fam.noexcept, Res.ok_bind, if_neg (show ¬ n.plen = F.maxPrefix by omega), hm,
      if_neg (show ¬ n.plen + d > F.maxPrefix by omega), hb, hs]
  · simp only [Fam.subnets, ha, Fam.noexcept, Res.ok_bind, if_neg (show ¬ n.plen = F.maxPrefix by omega),
      if_neg (show ¬ n.plen + d < n.plen by omega), ne_eq, not_true_eq_false, if_false, Nat.add_sub_cancel_left, hm,
      if_neg (show ¬ n.plen + d > F.maxPrefix by omega), hb, hs]

theorem subnets_go1 (n : Net A) (hp : n.plen = F.maxPrefix) (diff : Nat) (newp : Option Nat) (a : A) (s : SubnetsSeq A U)
    (ha : F.removeScope n.addr = .ok a) (hs : F.subnetsMk1 a n.plen = .ok s) : F.subnets n diff newp = .ok s := by
  simp only [Fam.subnets, ha, Fam.noexcept, Res.ok_bind, if_pos hp, hs]

/-- The condition under which the sequence of `subnets()` ends where it should. -/
def SubnetsFit (F : Fam A U) (n : Net A) : Prop :=
  n.plen = 0 ∨ n.plen = F.maxPrefix ∨ F.v n.addr + 2 ^ (F.maxPrefix - n.plen) < 2 ^ F.maxPrefix

/-- What a correct sequence of the `2^d` subnetworks of `n` does. -/
def GoodSubnets (F : Fam A U) (WF : A → Prop) (val : U → Nat) (n : Net A) (d : Nat) (s : SubnetsSeq A U) : Prop :=
  ∃ (l : List (Net A)) (r1 r2 : RIter (NIter A U)), l.length = 2 ^ d ∧
    (∀ m ∈ l, NetOk F WF m ∧ m.plen = n.plen + d ∧ ∃ x, m.addr = F.ofBytes x) ∧
    Increasing F.maxPrefix (l.map F.vp) ∧
    Partitions F.maxPrefix (l.map F.vp) (InNet F.maxPrefix n.plen (F.v n.addr)) ∧
    F.niOps.rMk s.last = .ok r1 ∧ F.niOps.rMk s.first = .ok r2 ∧
    (∀ fuel, l.length < fuel → F.niOps.visit fuel s.first s.last = .ok l ∧ F.niOps.rVisit fuel r1 r2 = .ok l.reverse) ∧
    val s.size = l.length ∧ F.subnetsEmpty s = .ok l.isEmpty ∧
    (∀ i (h : i < l.length) u, val u = i → F.subnetsAt s u = .ok l[i]) ∧
    ∃ h : l ≠ [], s.front = l.head h ∧ F.subnetsBack s = .ok (l.getLast h)

theorem good_of_range (L : F.Law WF val) (n : Net A) (hn : NetOk F WF n) (d : Nat) (s : SubnetsSeq A U) (step : U)
    (hd : n.plen + d ≤ F.maxPrefix)
    (hx : s.first.Ok F val step (n.plen + d)) (hy : s.last.Ok F val step (n.plen + d))
    (hstep : val step = 2 ^ (F.maxPrefix - (n.plen + d))) (hsize : val s.size = 2 ^ d)
    (hf : s.first.pos F val = F.v n.addr)
    (he : s.last.pos F val = F.v n.addr + 2 ^ (F.maxPrefix - n.plen)) : GoodSubnets F WF val n d s := by
  have hv := L.v_lt _ hn.wf
  have hal : F.v n.addr % 2 ^ (F.maxPrefix - n.plen) = 0 := hn.aligned
  have hroom : F.v n.addr + 2 ^ (F.maxPrefix - n.plen) ≤ 2 ^ F.maxPrefix :=
    aligned_room F.maxPrefix _ _ (Nat.sub_le ..) hv hal
  have hPS : 2 ^ (F.maxPrefix - n.plen) = 2 ^ d * 2 ^ (F.maxPrefix - (n.plen + d)) := by
    rw [← Nat.pow_add]; congr 1; omega
  obtain ⟨l, r1, r2, l1, l2, l3, l4, l5, l6, l7, l8⟩ := nrange_spec L s step (n.plen + d) (2 ^ d) hx hy hstep (Nat.two_pow_pos d)
    (by rw [hstep, ← hPS, hf, he]) (by rw [hstep, ← hPS, hf]; exact hroom)
  rw [hstep, hf] at l2
  obtain ⟨p1, p2, p3⟩ := blocks_partition L l (F.v n.addr) (n.plen + d) l2
  refine ⟨l, r1, r2, l1, ?_, p1, ⟨p2, fun x => ?_⟩, l3, l4, l5, by rw [hsize, l1], l6, l7, l8⟩
  · intro m hm
    obtain ⟨i, hi, rfl⟩ := List.mem_iff_getElem.mp hm
    exact ⟨(l2 i hi).netOk L, (l2 i hi).plen, (l2 i hi).addr.plain⟩
  · rw [p3, l1, ← hPS, inNet_interval L n hn]

/-- The range of `subnets()`. -/
theorem subnets_range (L : F.Law WF val) (n : Net A) (hn : NetOk F WF n) (d : Nat) (hw : F.maxPrefix < 2 ^ 64)
    (hd : n.plen + d ≤ F.maxPrefix) (hdw : d < F.maxPrefix) (h0 : n.plen + d ≠ 0) (hfit : SubnetsFit F n) :
    ∃ s step, F.subnets n d none = .ok s ∧ F.subnets n 1 (some (n.plen + d)) = .ok s ∧
      s.first.Ok F val step (n.plen + d) ∧ s.last.Ok F val step (n.plen + d) ∧ val step = 2 ^ (F.maxPrefix - (n.plen + d)) ∧
      val s.size = 2 ^ d ∧ s.first.pos F val = F.v n.addr ∧ s.last.pos F val = F.v n.addr + 2 ^ (F.maxPrefix - n.plen) := by
  by_cases hp : n.plen = F.maxPrefix
  · have hd0 : d = 0 := by omega
    subst hd0
    obtain ⟨a, s, step, h1, h2, h3, h4, h5, h6, h7, h8⟩ := subnetsMk1_eq L n hn hp
    refine ⟨s, step, subnets_go1 n hp _ _ a s h1 h2, subnets_go1 n hp _ _ a s h1 h2, h4, h5, ?_, h6, h7, ?_⟩
    · rw [h3, Nat.add_zero, hp, Nat.sub_self]; rfl
    · rw [h8, hp, Nat.sub_self]; rfl
  · have hlt : n.plen < F.maxPrefix := by have := hn.plen; omega
    obtain ⟨b, a, s, step, h1, h2, h3, h4, h5, h6, h7, h8, h9⟩ := subnetsMk_eq L n hn d hlt hd hdw h0
    obtain ⟨g1, g2⟩ := subnets_go n d hlt hw hd a b s h1 h2 h3
    refine ⟨s, step, g1, g2, h5, h6, h4, h7, h8, ?_⟩
    rw [h9]
    rcases hfit with h | h | h
    · rw [if_pos h]
      have hv := L.v_lt _ hn.wf
      have hal : F.v n.addr % 2 ^ (F.maxPrefix - n.plen) = 0 := hn.aligned
      have hroom : F.v n.addr + 2 ^ (F.maxPrefix - n.plen) ≤ 2 ^ F.maxPrefix :=
        aligned_room F.maxPrefix _ _ (Nat.sub_le ..) hv hal
      rw [h, Nat.sub_zero] at *
      omega
    · exact absurd h hp
    · have := Nat.two_pow_pos (F.maxPrefix - n.plen)
      have h0' : n.plen ≠ 0 := by
        intro e; rw [e, Nat.sub_zero] at h; omega
      rw [if_neg h0', Nat.mod_eq_of_lt h]

theorem subnets_spec (L : F.Law WF val) (n : Net A) (hn : NetOk F WF n) (d : Nat) (hw : F.maxPrefix < 2 ^ 64)
    (hd : n.plen + d ≤ F.maxPrefix) (hdw : d < F.maxPrefix) (h0 : n.plen + d ≠ 0) (hfit : SubnetsFit F n) :
    ∃ s, F.subnets n d none = .ok s ∧ F.subnets n 1 (some (n.plen + d)) = .ok s ∧ GoodSubnets F WF val n d s := by
  obtain ⟨s, step, g1, g2, h1, h2, h3, h4, h5, h6⟩ := subnets_range L n hn d hw hd hdw h0 hfit
  exact ⟨s, g1, g2, good_of_range L n hn d s step hd h1 h2 h3 h4 h5 h6⟩

/-- Otherwise the loop goes around the whole address space once more. -/
theorem subnets_wrap (L : F.Law WF val) (n : Net A) (hn : NetOk F WF n) (d : Nat) (hw : F.maxPrefix < 2 ^ 64)
    (hd : n.plen + d ≤ F.maxPrefix) (hdw : d < F.maxPrefix) (hfit : ¬ SubnetsFit F n) :
    ∃ (s : SubnetsSeq A U) (l : List (Net A)), F.subnets n d none = .ok s ∧ val s.size = 2 ^ d ∧
      (∀ fuel, l.length < fuel → F.niOps.visit fuel s.first s.last = .ok l) ∧
      l.length = 2 ^ (n.plen + d) + 2 ^ d ∧
      ∃ m ∈ l, F.v m.addr = 0 ∧ m.plen = n.plen + d ∧ ¬ InNet F.maxPrefix n.plen (F.v n.addr) (F.v m.addr) := by
  have hpl := hn.plen
  unfold SubnetsFit at hfit
  have hp0 : n.plen ≠ 0 := fun h => hfit (.inl h)
  have hpm : n.plen ≠ F.maxPrefix := fun h => hfit (.inr (.inl h))
  have hlt : n.plen < F.maxPrefix := by omega
  obtain ⟨b, a, s, step, h1, h2, h3, h4, h5, h6, h7, h8, h9⟩ := subnetsMk_eq L n hn d hlt hd hdw (by omega)
  obtain ⟨g1, g2⟩ := subnets_go n d hlt hw hd a b s h1 h2 h3
  have hv := L.v_lt _ hn.wf
  have hal : F.v n.addr % 2 ^ (F.maxPrefix - n.plen) = 0 := hn.aligned
  have hroom : F.v n.addr + 2 ^ (F.maxPrefix - n.plen) ≤ 2 ^ F.maxPrefix :=
    aligned_room F.maxPrefix _ _ (Nat.sub_le ..) hv hal
  have htop : F.v n.addr + 2 ^ (F.maxPrefix - n.plen) = 2 ^ F.maxPrefix := by
    have : ¬ F.v n.addr + 2 ^ (F.maxPrefix - n.plen) < 2 ^ F.maxPrefix := fun h => hfit (.inr (.inr h))
    omega
  rw [if_neg hp0, htop, Nat.mod_self] at h9
  have hPS : 2 ^ (F.maxPrefix - n.plen) = 2 ^ d * 2 ^ (F.maxPrefix - (n.plen + d)) := by
    rw [← Nat.pow_add]; congr 1; omega
  have hWS : 2 ^ F.maxPrefix = 2 ^ (n.plen + d) * 2 ^ (F.maxPrefix - (n.plen + d)) := by
    rw [← Nat.pow_add]; congr 1; omega
  have hS := Nat.two_pow_pos (F.maxPrefix - (n.plen + d))
  have hPW : 2 ^ (F.maxPrefix - n.plen) < 2 ^ F.maxPrefix := Nat.pow_lt_pow_right (by decide) (by omega)
  have hk : (2 ^ (n.plen + d) + 2 ^ d) * 2 ^ (F.maxPrefix - (n.plen + d)) = 2 ^ F.maxPrefix + 2 ^ (F.maxPrefix - n.plen) := by
    rw [Nat.add_mul, ← hPS, ← hWS]
  have Ln := niLaw L step (n.plen + d) (by rw [h4, Nat.mod_self])
  obtain ⟨l, l1, l2, l3⟩ := Ln.visit_eq (by rw [h4]; exact hS) (2 ^ (n.plen + d) + 2 ^ d) _ _ h5 h6
    (by rw [h4, hk]; omega)
    (by rw [h4, hk, h8, h9, show F.v n.addr + (2 ^ F.maxPrefix + 2 ^ (F.maxPrefix - n.plen)) = 2 * 2 ^ F.maxPrefix by omega, Nat.mod_self])
  refine ⟨s, l, g1, h7, fun fuel h => l3 fuel (by omega), l1, ?_⟩
  have hi : 2 ^ d < l.length := by
    rw [l1]; have := Nat.two_pow_pos (n.plen + d); omega
  have hm : IsNet F (n.plen + d) ((s.first.pos F val + 2 ^ d * val step) % (2 * 2 ^ F.maxPrefix) % 2 ^ F.maxPrefix) l[2 ^ d] :=
    l2 (2 ^ d) hi
  rw [h8, h4, ← hPS, htop, Nat.mod_eq_of_lt (a := 2 ^ F.maxPrefix) (b := 2 * _) (by have := two_le_W L; omega), Nat.mod_self] at hm
  refine ⟨_, List.getElem_mem hi, hm.v_eq L, hm.plen, ?_⟩
  rw [hm.v_eq L, inNet_interval L n hn]
  omega

/-- The errors of `subnets`. -/
theorem subnets_errors (L : F.Law WF val) (n : Net A) (hn : NetOk F WF n) (diff : Nat) :
    (n.plen = F.maxPrefix → ∀ newp, ∃ s, F.subnets n diff newp = .ok s ∧ GoodSubnets F WF val n 0 s) ∧
    (n.plen < F.maxPrefix → n.plen + diff < 2 ^ 64 →
      (n.plen + diff > F.maxPrefix ↔ F.subnets n diff none = .err .invalid_prefixlen_diff 0)) ∧
    (∀ p, n.plen < F.maxPrefix → p < 2 ^ 64 →
      (p < n.plen ↔ F.subnets n diff (some p) = .err .new_prefix_must_be_longer 0) ∧
      (n.plen ≤ p ∧ diff ≠ 1 ↔ F.subnets n diff (some p) = .err .cannot_set_prefixlen_diff_and_new_prefix 0) ∧
      (p > F.maxPrefix ∧ diff = 1 ↔ F.subnets n diff (some p) = .err .invalid_prefixlen_diff 0)) ∧
    (∀ newp e v, F.subnets n diff newp = .err e v → v = 0 ∧ (e = .invalid_prefixlen_diff ∨ e = .new_prefix_must_be_longer ∨
      e = .cannot_set_prefixlen_diff_and_new_prefix)) := by
  have ha := L.removeScope _ hn.wf
  have hne : ∀ {α : Type} (r : Res α) e v, Fam.noexcept r ≠ .err e v := by
    intro α r e v; cases r <;> simp [Fam.noexcept]
  refine ⟨?_, ?_, ?_, ?_⟩
  · intro hp newp
    obtain ⟨a, s, step, h1, h2, h3, h4, h5, h6, h7, h8⟩ := subnetsMk1_eq L n hn hp
    refine ⟨s, subnets_go1 n hp _ _ a s h1 h2, ?_⟩
    refine good_of_range L n hn 0 s step hn.plen h4 h5 ?_ h6 h7 ?_
    · rw [h3, Nat.add_zero, hp, Nat.sub_self]; rfl
    · rw [h8, hp, Nat.sub_self]; rfl
  · intro hp hlt
    simp only [Fam.subnets, ha, Fam.noexcept, Res.ok_bind, if_neg (show ¬ n.plen = F.maxPrefix by omega),
      Nat.mod_eq_of_lt hlt]
    by_cases h : n.plen + diff > F.maxPrefix
    · rw [if_pos h]; simp [h]
    · rw [if_neg h]
      exact ⟨fun x => absurd x h, fun x => absurd x (hne _ _ _)⟩
  · intro p hp hlt
    simp only [Fam.subnets, ha, Fam.noexcept, Res.ok_bind, if_neg (show ¬ n.plen = F.maxPrefix by omega)]
    by_cases h : p < n.plen
    · rw [if_pos h]
      refine ⟨by simp [h], ⟨fun x => by omega, fun x => by simp at x⟩, ⟨fun x => by omega, fun x => by simp at x⟩⟩
    · rw [if_neg h, show (n.plen + (p - n.plen)) % 2 ^ 64 = p by rw [Nat.mod_eq_of_lt (by omega)]; omega]
      by_cases h1 : diff = 1
      · rw [if_neg (by simpa using h1)]
        by_cases h2 : p > F.maxPrefix
        · rw [if_pos h2]
          refine ⟨⟨fun x => by omega, fun x => by simp at x⟩, ⟨fun x => absurd h1 x.2, fun x => by simp at x⟩, by simp [h1, h2]⟩
        · rw [if_neg h2]
          exact ⟨⟨fun x => absurd x h, fun x => absurd x (hne _ _ _)⟩, ⟨fun x => absurd h1 x.2, fun x => absurd x (hne _ _ _)⟩,
            ⟨fun x => absurd x.1 h2, fun x => absurd x (hne _ _ _)⟩⟩
      · rw [if_pos h1]
        refine ⟨⟨fun x => absurd x h, fun x => by simp at x⟩, by simp [h1]; omega, ⟨fun x => absurd x.2 h1, fun x => by simp at x⟩⟩
  · intro newp e v h
    have hgo : ∀ d, (if (n.plen + d) % 2 ^ 64 > F.maxPrefix then Res.err .invalid_prefixlen_diff 0
        else Fam.noexcept (do
          let b ← F.broadcast n
          F.subnetsMk (F.ofBytes (F.bytes n.addr)) b (F.hostmask n) d ((n.plen + d) % 2 ^ 64))) = .err e v →
        v = 0 ∧ (e = .invalid_prefixlen_diff ∨ e = .new_prefix_must_be_longer ∨
          e = .cannot_set_prefixlen_diff_and_new_prefix) := by
      intro d hd
      by_cases c : (n.plen + d) % 2 ^ 64 > F.maxPrefix
      · rw [if_pos c] at hd; injection hd with h1 h2; exact ⟨h2.symm, .inl h1.symm⟩
      · rw [if_neg c] at hd; exact absurd hd (hne _ _ _)
    unfold Fam.subnets at h
    rw [ha] at h
    change (if n.plen = F.maxPrefix then _ else _) = _ at h
    by_cases hp : n.plen = F.maxPrefix
    · rw [if_pos hp] at h; exact absurd h (hne _ _ _)
    · rw [if_neg hp] at h
      cases newp with
      | none => exact hgo _ h
      | some p =>
        simp only at h
        by_cases c1 : p < n.plen
        · rw [if_pos c1] at h; injection h with h1 h2; exact ⟨h2.symm, .inr (.inl h1.symm)⟩
        · rw [if_neg c1] at h
          by_cases c2 : diff ≠ 1
          · rw [if_pos c2] at h; injection h with h1 h2; exact ⟨h2.symm, .inr (.inr h1.symm)⟩
          · rw [if_neg c2] at h
            exact hgo _ h

/-- The whole address space cannot be divided into single addresses: the shift is by the width. -/
theorem subnets_wide_ub (L : F.Law WF val) (n : Net A) (hn : NetOk F WF n) (hw : F.maxPrefix < 2 ^ 64) (h0 : n.plen = 0) :
    F.subnets n F.maxPrefix none = .ub ∧ F.subnets n 1 (some F.maxPrefix) = .ub := by
  have hpos := L.pos
  have ha := L.removeScope _ hn.wf
  obtain ⟨b, b1, b2, b3⟩ := broadcast_eq L n hn
  obtain ⟨m, m1, m2, m3⟩ := hostmask_eq L n hn
  obtain ⟨nu, n1, n2⟩ := L.toUint _ (L.wf_ofBytes (F.bytes n.addr) (L.len _ hn.wf))
  obtain ⟨bu, u1, u2⟩ := L.toUint _ (L.wf_ofBytes b b2)
  obtain ⟨hu, h1, h2⟩ := L.toUint _ (L.wf_ofBytes m m2)
  obtain ⟨f, f1, f2⟩ := fromUint_isAddr L nu
  obtain ⟨l, l1, l2⟩ := fromUint_isAddr L (F.ops.add bu (F.ops.ofI64 1#64))
  have hmk : F.subnetsMk (F.ofBytes (F.bytes n.addr)) (F.ofBytes b) (F.hostmask n) F.maxPrefix F.maxPrefix = .ub := by
    simp only [Fam.subnetsMk, n1, u1, f1, l1, m1, h1, Res.ok_bind, L.ops.shr_ub, Res.ub_bind]
  have e : (n.plen + F.maxPrefix) % 2 ^ 64 = F.maxPrefix := by rw [h0, Nat.zero_add, Nat.mod_eq_of_lt hw]
  have e2 : F.maxPrefix - n.plen = F.maxPrefix := by omega
  constructor
  · simp only [Fam.subnets, ha, Fam.noexcept, Res.ok_bind, if_neg (show ¬ n.plen = F.maxPrefix by omega), e,
      if_neg (show ¬ F.maxPrefix > F.maxPrefix by omega), b1, hmk]
  · simp only [Fam.subnets, ha, Fam.noexcept, Res.ok_bind, if_neg (show ¬ n.plen = F.maxPrefix by omega),
      if_neg (show ¬ F.maxPrefix < n.plen by omega), ne_eq, not_true_eq_false, if_false, e2, e,
      if_neg (show ¬ F.maxPrefix > F.maxPrefix by omega), b1, hmk]

/-- An iterator that does not move never reaches another one. -/
theorem IterLaw.visit_stuck {I V U : Type} {O : IterOps I V U} {good : I → Prop} {pos : I → Nat} {M : Nat} {dist : U → Nat}
    {found : Nat → V → Prop} (L : IterLaw O good pos M 0 dist found) (x y : I) (hx : good x) (hy : good y)
    (hne : pos x ≠ pos y) : ∀ fuel, O.visit fuel x y = .ub := by
  intro fuel
  induction fuel with
  | zero => rfl
  | succ f ih =>
    obtain ⟨z, z1, z2, z3⟩ := L.inc x hx
    have hz : z = x := L.inj _ _ z2 hx (by rw [z3, Nat.add_zero, Nat.mod_eq_of_lt (L.pos_lt x hx)])
    rw [hz] at z1
    simp only [IterOps.visit, L.eq x y hx hy, Res.ok_bind, z1]
    rw [if_neg (by simpa using hne)]
    show (O.visit f x y >>= _) = _
    rw [ih]; rfl

/-- `subnets(0)` of the whole address space: the step is 0. -/
theorem subnets_zero_step (L : F.Law WF val) (n : Net A) (hn : NetOk F WF n) (h0 : n.plen = 0) :
    ∃ (x y : NIter A U) (step num : U), val step = 0 ∧ x.Ok F val step 0 ∧ y.Ok F val step 0 ∧
      x.pos F val = 0 ∧ y.pos F val = 2 ^ F.maxPrefix ∧
      F.subnets n 0 none = Fam.noexcept (do
        let q ← F.ops.div num step
        .ok ⟨x, y, F.ops.add q (F.ops.ofI64 1#64)⟩) := by
  have hpos := L.pos
  have hW := two_le_W L
  have hwf := L.removeScope _ hn.wf
  obtain ⟨b, b1, b2, b3⟩ := broadcast_eq L n hn
  obtain ⟨m, m1, m2, m3⟩ := hostmask_eq L n hn
  have hv := L.v_lt _ hn.wf
  have hal : F.v n.addr % 2 ^ (F.maxPrefix - n.plen) = 0 := hn.aligned
  rw [h0, Nat.sub_zero, Nat.mod_eq_of_lt hv] at hal
  rw [h0, Nat.sub_zero] at b3 m3
  rw [hal, Nat.zero_add] at b3
  have ha : IsAddr F 0 (F.ofBytes (F.bytes n.addr)) := ⟨_, rfl, L.len _ hn.wf, hal⟩
  obtain ⟨nu, n1, n2⟩ := ha.toUint L
  have hb : IsAddr F (2 ^ F.maxPrefix - 1) (F.ofBytes b) := ⟨b, rfl, b2, b3⟩
  obtain ⟨bu, u1, u2⟩ := hb.toUint L
  have hm : IsAddr F (2 ^ F.maxPrefix - 1) (F.hostmask n) := ⟨m, m1, m2, m3⟩
  obtain ⟨hu, h1, h2⟩ := hm.toUint L
  obtain ⟨sh, s1, s2⟩ := L.ops.shr hu 0 (by omega)
  rw [h2, Nat.pow_zero, Nat.div_one] at s2
  have hstep : val (F.ops.add sh (F.ops.ofI64 1#64)) = 0 := by
    rw [L.ops.add, val_one L, s2, Nat.sub_add_cancel (by omega), Nat.mod_self]
  obtain ⟨f, f1, f2⟩ := fromUint_isAddr L nu
  obtain ⟨l, l1, l2⟩ := fromUint_isAddr L (F.ops.add bu (F.ops.ofI64 1#64))
  rw [L.ops.add, val_one L, u2, Nat.sub_add_cancel (by omega), Nat.mod_self] at l2
  rw [n2] at f2
  obtain ⟨x, x1, x2, x3, x4⟩ := niMk_ok L _ f f2 (F.ops.add sh (F.ops.ofI64 1#64)) 0 (Nat.zero_le _) (Nat.zero_mod _) 0 (.inl rfl)
  obtain ⟨y, y1, y2, y3, y4⟩ := niMk_ok L _ l l2 (F.ops.add sh (F.ops.ofI64 1#64)) 0 (Nat.zero_le _) (Nat.zero_mod _) 1 (.inr rfl)
  have hse := f2.eq L l2
  refine ⟨x, y, _, F.ops.sub bu nu, hstep, x2, y2, ?_, ?_, ?_⟩
  · show AIter.pos F val x.it = _
    rw [pos_of_carry0 _ x3, x4]
  · show AIter.pos F val y.it = _
    rw [pos_of_carry1 _ y3, y4]; rfl
  · simp only [Fam.subnets, hwf, Fam.noexcept, Res.ok_bind, h0, if_neg (show ¬ 0 = F.maxPrefix by omega),
      show (0 + 0) % 2 ^ 64 = 0 from rfl, if_neg (show ¬ 0 > F.maxPrefix by omega), b1, Fam.subnetsMk, n1, u1, f1, l1, h1, s1,
      x1, hse, decide_true, if_true, y1]

/-- When `prefixlen() + prefixlen_diff` exceeds the range of `size_t`, `subnets` ends in undefined
behaviour or in `std::terminate`. -/
theorem subnets_sizet_wrap (L : F.Law WF val) (n : Net A) (hn : NetOk F WF n) (diff : Nat) (hp : n.plen < F.maxPrefix)
    (hw : F.maxPrefix < 2 ^ 64) (hd : diff < 2 ^ 64) (hs : 2 ^ 64 ≤ n.plen + diff) : F.subnets n diff none = .ub := by
  have hpos := L.pos
  have hwf := L.removeScope _ hn.wf
  obtain ⟨b, b1, b2, b3⟩ := broadcast_eq L n hn
  obtain ⟨m, m1, m2, m3⟩ := hostmask_eq L n hn
  have hv := L.v_lt _ hn.wf
  have hal : F.v n.addr % 2 ^ (F.maxPrefix - n.plen) = 0 := hn.aligned
  have hroom : F.v n.addr + 2 ^ (F.maxPrefix - n.plen) ≤ 2 ^ F.maxPrefix :=
    aligned_room F.maxPrefix _ _ (Nat.sub_le ..) hv hal
  have hP := Nat.two_pow_pos (F.maxPrefix - n.plen)
  have ha : IsAddr F (F.v n.addr) (F.ofBytes (F.bytes n.addr)) := ⟨_, rfl, L.len _ hn.wf, rfl⟩
  obtain ⟨nu, n1, n2⟩ := ha.toUint L
  have hb : IsAddr F (F.v n.addr + (2 ^ (F.maxPrefix - n.plen) - 1)) (F.ofBytes b) := ⟨b, rfl, b2, by rw [b3]; omega⟩
  obtain ⟨bu, u1, u2⟩ := hb.toUint L
  have hm : IsAddr F (2 ^ (F.maxPrefix - n.plen) - 1) (F.hostmask n) := ⟨m, m1, m2, m3⟩
  obtain ⟨hu, h1, h2⟩ := hm.toUint L
  obtain ⟨f, f1, f2⟩ := fromUint_isAddr L nu
  obtain ⟨l, l1, l2⟩ := fromUint_isAddr L (F.ops.add bu (F.ops.ofI64 1#64))
  rw [L.ops.add, val_one L, u2] at l2
  rw [n2] at f2
  rw [show F.v n.addr + (2 ^ (F.maxPrefix - n.plen) - 1) + 1 = F.v n.addr + 2 ^ (F.maxPrefix - n.plen) by omega] at l2
  have hq : (n.plen + diff) % 2 ^ 64 = n.plen + diff - 2 ^ 64 := by
    rw [Nat.mod_eq_sub_mod hs, Nat.mod_eq_of_lt (by omega)]
  obtain ⟨q, hq'⟩ : ∃ q, q = n.plen + diff - 2 ^ 64 := ⟨_, rfl⟩
  rw [← hq'] at hq
  have hqp : q < n.plen := by omega
  have hqd : 2 ^ (F.maxPrefix - n.plen) * 2 ^ (n.plen - q) = 2 ^ (F.maxPrefix - q) := by
    rw [← Nat.pow_add]; congr 1; omega
  have h2q : 2 ≤ 2 ^ (n.plen - q) := by
    have : 2 ^ 1 ≤ 2 ^ (n.plen - q) := Nat.pow_le_pow_right (by decide) (by omega)
    omega
  have hPq : 2 ^ (F.maxPrefix - n.plen) < 2 ^ (F.maxPrefix - q) := by
    rw [← hqd]
    calc 2 ^ (F.maxPrefix - n.plen) < 2 ^ (F.maxPrefix - n.plen) * 2 := by omega
      _ ≤ _ := Nat.mul_le_mul_left _ h2q
  -- one of the two ends has host bits
  have hend : F.v n.addr % 2 ^ (F.maxPrefix - q) ≠ 0 ∨
      (F.v n.addr + 2 ^ (F.maxPrefix - n.plen)) % 2 ^ F.maxPrefix % 2 ^ (F.maxPrefix - q) ≠ 0 := by
    by_contra h
    push Not at h
    rw [Nat.mod_mod_of_dvd _ (Nat.pow_dvd_pow 2 (Nat.sub_le ..)), Nat.add_mod, h.1, Nat.zero_add, Nat.mod_mod,
      Nat.mod_eq_of_lt hPq] at h
    omega
  have key : Fam.noexcept (F.subnetsMk (F.ofBytes (F.bytes n.addr)) (F.ofBytes b) (F.hostmask n) diff q) = .ub := by
    simp only [Fam.subnetsMk, n1, u1, f1, l1, h1, Res.ok_bind]
    cases F.ops.shr hu diff with
    | err e v => rfl
    | ub => rfl
    | ok sh =>
      simp only [Res.ok_bind]
      rcases hend with he | he
      · simp only [Fam.niMk, fromAddress_misaligned L f2 (show q ≤ F.maxPrefix by omega) he, Res.err_bind]
        rfl
      · simp only [Fam.niMk, fromAddress_misaligned L l2 (show q ≤ F.maxPrefix by omega) he, Res.err_bind]
        cases F.fromAddress f q true with
        | err e v => rfl
        | ub => rfl
        | ok fn =>
          simp only [Res.ok_bind]
          cases F.aiMk f 0 with
          | err e v => rfl
          | ub => rfl
          | ok fi =>
            simp only [Res.ok_bind]
            cases F.eq f l <;> rfl
  simp only [Fam.subnets, hwf, Fam.noexcept, Res.ok_bind, if_neg (show ¬ n.plen = F.maxPrefix by omega), hq,
    if_neg (show ¬ q > F.maxPrefix by omega), b1]
  exact key

end
end Ip
