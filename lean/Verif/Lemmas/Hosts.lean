import Verif.Lemmas.NIter
import Verif.Spec.NetIter
/-
The sequence made by `hosts()`.
-/
set_option autoImplicit false

namespace Ip
open Spec

section
variable {A U : Type} {F : Fam A U} {WF : A → Prop} {val : U → Nat}

theorem val_flag (L : F.Law WF val) (b : Bool) :
    val (F.ops.ofI64 (if b then 1#64 else 0#64)) = if b then 1 else 0 := by
  cases b
  · exact val_zero L
  · exact val_one L

/-- Where the iterators of `hosts()` stand. -/
theorem hosts_eq (L : F.Law WF val) (n : Net A) (hn : NetOk F WF n) :
    ∃ s, F.hosts n = .ok s ∧ s.first.Ok F val ∧ s.last.Ok F val ∧
      ((n.plen + 1 = F.maxPrefix ∧ s.first.pos F val = F.v n.addr ∧
          s.last.pos F val = (F.v n.addr + 2) % 2 ^ F.maxPrefix) ∨
        (n.plen = F.maxPrefix ∧ s.first.pos F val = F.v n.addr ∧ s.last.pos F val = F.v n.addr + 1) ∨
        (n.plen + 2 ≤ F.maxPrefix ∧ s.first.pos F val = F.v n.addr + 1 ∧
          s.last.pos F val =
            (F.v n.addr + (2 ^ (F.maxPrefix - n.plen) - 1) + if F.isV6 then 1 else 0) % 2 ^ F.maxPrefix)) := by
  obtain ⟨b, b1, b2, b3⟩ := broadcast_eq L n hn
  have hpos := L.pos
  have hp := hn.plen
  have hv := L.v_lt _ hn.wf
  have hroom := aligned_room F.maxPrefix _ _ (Nat.sub_le ..) hv hn.aligned
  change F.v n.addr + _ ≤ _ at hroom
  have hW := two_le_W L
  obtain ⟨nu, n1, n2⟩ := L.toUint _ hn.wf
  change val nu = F.v n.addr at n2
  have hbb : IsAddr F (F.v n.addr + 2 ^ (F.maxPrefix - n.plen) - 1) (F.ofBytes b) := ⟨b, rfl, b2, b3⟩
  obtain ⟨bu, u1, u2⟩ := hbb.toUint L
  by_cases c1 : n.plen = F.maxPrefix - 1
  · obtain ⟨f, f1, f2⟩ := fromUint_isAddr L nu
    obtain ⟨l, l1, l2⟩ := fromUint_isAddr L (F.ops.add bu (F.ops.ofI64 1#64))
    obtain ⟨x, x1, x2, x3, x4, x5⟩ := aiMk_ok L _ f f2 0 (.inl rfl)
    obtain ⟨y, y1, y2, y3, y4, y5⟩ := aiMk_ok L _ l l2 0 (.inl rfl)
    refine ⟨⟨x, y⟩, ?_, x2, y2, .inl ⟨by omega, ?_, ?_⟩⟩
    · simp only [Fam.hosts, b1, Res.ok_bind, Fam.hostsMk, if_pos c1, n1, f1, u1, l1, x1, y1]
    · rw [pos_of_carry0 _ x3, x4, n2]
    · rw [pos_of_carry0 _ y3, y4, L.ops.add, val_one L, u2]
      congr 1
      rw [show F.maxPrefix - n.plen = 1 by omega]; omega
  by_cases c2 : n.plen = F.maxPrefix
  · obtain ⟨f, f1, f2⟩ := fromUint_isAddr L nu
    obtain ⟨l, l1, l2⟩ := fromUint_isAddr L (F.ops.add nu (F.ops.ofI64 1#64))
    obtain ⟨x, x1, x2, x3, x4, x5⟩ := aiMk_ok L _ f f2 0 (.inl rfl)
    have hlt := l2.lt L f2
    obtain ⟨y, y1, y2, y3, y4, y5⟩ := aiMk_ok L _ l l2 (if decide (val (F.ops.add nu (F.ops.ofI64 1#64)) < val nu) = true then 1 else 0)
      (by split <;> simp)
    refine ⟨⟨x, y⟩, ?_, x2, y2, .inr (.inl ⟨c2, ?_, ?_⟩)⟩
    · simp only [Fam.hosts, b1, Res.ok_bind, Fam.hostsMk, if_neg c1, if_pos c2, n1, f1, l1, x1, hlt, y1]
    · rw [pos_of_carry0 _ x3, x4, n2]
    · have e := L.ops.add nu (F.ops.ofI64 1#64)
      rw [val_one L, n2, add_mod_if _ _ _ hv (by omega)] at e
      rw [n2] at y3
      show AIter.pos F val y = _
      by_cases h : F.v n.addr + 1 < 2 ^ F.maxPrefix
      · rw [if_pos h] at e
        rw [e, if_neg (by simp)] at y3
        rw [pos_of_carry0 _ y3, y4, e]
      · rw [if_neg h] at e
        rw [e, if_pos (by simp; omega)] at y3
        rw [pos_of_carry1 _ y3, y4, e]; omega
  · obtain ⟨f, f1, f2⟩ := fromUint_isAddr L (F.ops.add nu (F.ops.ofI64 1#64))
    obtain ⟨l, l1, l2⟩ := fromUint_isAddr L (F.ops.add bu (F.ops.ofI64 (if F.isV6 then 1#64 else 0#64)))
    obtain ⟨x, x1, x2, x3, x4, x5⟩ := aiMk_ok L _ f f2 0 (.inl rfl)
    obtain ⟨y, y1, y2, y3, y4, y5⟩ := aiMk_ok L _ l l2 0 (.inl rfl)
    have h4 : 2 ^ 2 ≤ 2 ^ (F.maxPrefix - n.plen) := Nat.pow_le_pow_right (by decide) (by omega)
    refine ⟨⟨x, y⟩, ?_, x2, y2, .inr (.inr ⟨by omega, ?_, ?_⟩)⟩
    · simp only [Fam.hosts, b1, Res.ok_bind, Fam.hostsMk, if_neg c1, if_neg c2, n1, f1, u1, l1, x1, y1]
    · rw [pos_of_carry0 _ x3, x4, L.ops.add, val_one L, n2, Nat.mod_eq_of_lt (by omega)]
    · rw [pos_of_carry0 _ y3, y4, L.ops.add, val_flag L, u2, Nat.add_sub_assoc (by omega)]

theorem pairwise_range' (s k : Nat) : (List.range' s k).Pairwise (· < ·) := List.pairwise_lt_range'

/-- What a loop over addresses visits when the positions do not go beyond the circle. -/
theorem visit_values (L : F.Law WF val) (l : List A) (s : Nat)
    (h : ∀ i (hi : i < l.length), IsAddr F (s + i) l[i]) : l.map F.v = List.range' s l.length := by
  apply List.ext_getElem (by simp)
  intro i h1 h2
  rw [List.getElem_map, (h i (by simpa using h1)).v_eq L, List.getElem_range']
  omega

/-- A range of addresses that does not go beyond the last address. -/
theorem range_spec (L : F.Law WF val) (s : HostsSeq A U) (k : Nat) (hx : s.first.Ok F val) (hy : s.last.Ok F val)
    (hk : 0 < k) (hkW : k < 2 ^ F.maxPrefix) (he : s.last.pos F val = s.first.pos F val + k)
    (hle : s.first.pos F val + k ≤ 2 ^ F.maxPrefix) :
    ∃ (l : List A) (r1 r2 : RIter (AIter A U)), l.map F.v = List.range' (s.first.pos F val) k ∧
      (∀ a ∈ l, ∃ b, a = F.ofBytes b ∧ 8 * b.length = F.maxPrefix) ∧
      F.aiOps.rMk s.last = .ok r1 ∧ F.aiOps.rMk s.first = .ok r2 ∧
      (∀ fuel, l.length < fuel → F.aiOps.visit fuel s.first s.last = .ok l ∧ F.aiOps.rVisit fuel r1 r2 = .ok l.reverse) ∧
      val (F.hostsSize s) = l.length ∧ F.hostsEmpty s = .ok l.isEmpty ∧
      (∀ i (h : i < l.length) u, val u = i → F.hostsAt s u = .ok l[i]) ∧
      ∃ h : l ≠ [], s.front = l.head h ∧ F.hostsBack s = .ok (l.getLast h) := by
  have hM := AIter.pos_lt L s.first
  have hM' := AIter.pos_lt L s.last
  have he' : s.last.pos F val = (s.first.pos F val + k * 1) % (2 * 2 ^ F.maxPrefix) := by
    rw [Nat.mul_one, Nat.mod_eq_of_lt (by omega), he]
  obtain ⟨l, l1, l2, l3⟩ := (aiLaw L).visit_eq (by decide) k _ _ hx hy (by omega) he'
  obtain ⟨l', r1, r2, r3, r4, r5⟩ := (aiLaw L).reverse_visit (by decide) k _ _ hx hy (by omega) he'
  have hll : l' = l := by
    have a := (r5 (k + 1) (by omega)).1
    have b := l3 (k + 1) (by omega)
    have := a.symm.trans b
    injection this
  subst hll
  have hA : ∀ i (hi : i < l'.length), IsAddr F (s.first.pos F val + i) l'[i] := by
    intro i hi
    have h : IsAddr F ((s.first.pos F val + i * 1) % (2 * 2 ^ F.maxPrefix) % 2 ^ F.maxPrefix) l'[i] := l2 i hi
    rw [Nat.mul_one, Nat.mod_eq_of_lt (a := _ + i) (b := 2 * _) (by omega), Nat.mod_eq_of_lt (by omega)] at h
    exact h
  have hne : l' ≠ [] := by intro e; rw [e] at l1; simp at l1; omega
  refine ⟨l', r1, r2, by rw [visit_values L l' _ hA, l1], ?_, r3, r4, fun fuel hf => r5 fuel (by omega), ?_, ?_, ?_, hne, ?_, ?_⟩
  · intro a ha
    obtain ⟨i, hi, rfl⟩ := List.mem_iff_getElem.mp ha
    obtain ⟨b, b1, b2, _⟩ := hA i hi
    exact ⟨b, b1, b2⟩
  · have h1 := L.ops.val_lt s.first.off
    have h2 := L.ops.val_lt s.last.off
    have e1 := AIter.pos_mod L s.first
    have e2 := AIter.pos_mod L s.last
    rw [Nat.mod_eq_of_lt (by omega)] at e1
    rw [he] at e2
    show val (F.ops.sub s.last.off s.first.off) = _
    rw [L.ops.sub, l1, ← e1, ← e2, Nat.mod_add_mod,
      show s.first.pos F val + k + (2 ^ F.maxPrefix - s.first.pos F val) = k + 2 ^ F.maxPrefix by omega,
      Nat.add_mod_right, Nat.mod_eq_of_lt hkW]
  · rw [Fam.hostsEmpty, AIter.eq_law L _ _ hx hy, decide_eq_false (by omega)]
    congr 1
    cases l' with
    | nil => exact absurd rfl hne
    | cons => rfl
  · intro i hi u hu
    obtain ⟨y, y1, y2, y3⟩ := AIter.add_law L s.first hx u
    rw [hu, Nat.mod_eq_of_lt (by omega)] at y3
    simp only [Fam.hostsAt, y1, Res.ok_bind]
    congr 1
    have hc := y2.cur
    rw [← AIter.pos_mod L y, y3, Nat.mod_eq_of_lt (by omega)] at hc
    exact IsAddr.inj hc (hA i hi)
  · have hc := hx.cur
    rw [← AIter.pos_mod L s.first, Nat.mod_eq_of_lt (by omega)] at hc
    have h0 := hA 0 (by omega)
    rw [List.head_eq_getElem]
    exact IsAddr.inj hc h0
  · obtain ⟨y, y1, y2, y3⟩ := AIter.sub_law L s.last hy (F.ops.ofI64 1#64)
    rw [val_one L, he, show s.first.pos F val + k + (2 * 2 ^ F.maxPrefix - 1) = s.first.pos F val + (k - 1) + 2 * 2 ^ F.maxPrefix
      by omega, Nat.add_mod_right, Nat.mod_eq_of_lt (by omega)] at y3
    simp only [Fam.hostsBack, y1, Res.ok_bind]
    congr 1
    have hc := y2.cur
    rw [← AIter.pos_mod L y, y3, Nat.mod_eq_of_lt (by omega)] at hc
    rw [List.getLast_eq_getElem]
    have := hA (l'.length - 1) (by omega)
    exact IsAddr.inj (by rw [l1]; exact hc) this

theorem mem_range'_iff (s k x : Nat) : x ∈ List.range' s k ↔ s ≤ x ∧ x < s + k := by
  rw [List.mem_range']
  constructor
  · rintro ⟨i, h, rfl⟩; omega
  · rintro ⟨h1, h2⟩; exact ⟨x - s, by omega, by omega⟩

/-- The condition under which `hosts()` works: the address after the last host exists, or the network
has one address. -/
def HostsFit (F : Fam A U) (n : Net A) : Prop :=
  n.plen = F.maxPrefix ∨ F.v n.addr + 2 ^ (F.maxPrefix - n.plen) < 2 ^ F.maxPrefix ∨
    (F.isV6 = false ∧ n.plen + 2 ≤ F.maxPrefix)

/-- What a correct sequence of the hosts of `n` does: forward and backward loops, size, indexing and
ends. -/
def GoodHosts (F : Fam A U) (val : U → Nat) (n : Net A) (s : HostsSeq A U) : Prop :=
  ∃ (l : List A) (r1 r2 : RIter (AIter A U)),
    Lists (l.map F.v) (IsHost F.maxPrefix n.plen (F.v n.addr) F.isV6) ∧
    (∀ a ∈ l, ∃ b, a = F.ofBytes b ∧ 8 * b.length = F.maxPrefix) ∧
    F.aiOps.rMk s.last = .ok r1 ∧ F.aiOps.rMk s.first = .ok r2 ∧
    (∀ fuel, l.length < fuel → F.aiOps.visit fuel s.first s.last = .ok l ∧ F.aiOps.rVisit fuel r1 r2 = .ok l.reverse) ∧
    val (F.hostsSize s) = l.length ∧ F.hostsEmpty s = .ok l.isEmpty ∧
    (∀ i (h : i < l.length) u, val u = i → F.hostsAt s u = .ok l[i]) ∧
    ∃ h : l ≠ [], s.front = l.head h ∧ F.hostsBack s = .ok (l.getLast h)

/-- The range of `hosts()`. -/
theorem hosts_range (L : F.Law WF val) (n : Net A) (hn : NetOk F WF n) (hf : HostsFit F n) :
    ∃ s k, F.hosts n = .ok s ∧ s.first.Ok F val ∧ s.last.Ok F val ∧
      0 < k ∧ k < 2 ^ F.maxPrefix ∧ s.last.pos F val = s.first.pos F val + k ∧
      s.first.pos F val + k ≤ 2 ^ F.maxPrefix ∧
      ∀ x, (s.first.pos F val ≤ x ∧ x < s.first.pos F val + k) ↔ IsHost F.maxPrefix n.plen (F.v n.addr) F.isV6 x := by
  obtain ⟨s, s1, s2, s3, s4⟩ := hosts_eq L n hn
  have hv := L.v_lt _ hn.wf
  have hroom : F.v n.addr + 2 ^ (F.maxPrefix - n.plen) ≤ 2 ^ F.maxPrefix :=
    aligned_room F.maxPrefix _ _ (Nat.sub_le ..) hv hn.aligned
  have hW := two_le_W L
  have hpos := L.pos
  have key : ∃ k, 0 < k ∧ k < 2 ^ F.maxPrefix ∧ s.last.pos F val = s.first.pos F val + k ∧
      s.first.pos F val + k ≤ 2 ^ F.maxPrefix ∧
      ∀ x, (s.first.pos F val ≤ x ∧ x < s.first.pos F val + k) ↔ IsHost F.maxPrefix n.plen (F.v n.addr) F.isV6 x := by
    unfold HostsFit at hf
    unfold IsHost
    simp only [inNet_interval L n hn]
    rcases s4 with ⟨h1, h2, h3⟩ | ⟨h1, h2, h3⟩ | ⟨h1, h2, h3⟩
    · rw [show F.maxPrefix - n.plen = 1 by omega] at *
      have hlt : F.v n.addr + 2 < 2 ^ F.maxPrefix := by
        rcases hf with h | h | h <;> omega
      rw [Nat.mod_eq_of_lt hlt] at h3
      refine ⟨2, by omega, by omega, by omega, by omega, fun x => ?_⟩
      rw [h2]
      exact ⟨fun h => ⟨h, .inl (by omega)⟩, fun h => h.1⟩
    · rw [show F.maxPrefix - n.plen = 0 by omega] at *
      refine ⟨1, by omega, by omega, by omega, by omega, fun x => ?_⟩
      rw [h2]
      exact ⟨fun h => ⟨h, .inl (by omega)⟩, fun h => h.1⟩
    · have h4 : 2 ^ 2 ≤ 2 ^ (F.maxPrefix - n.plen) := Nat.pow_le_pow_right (by decide) (by omega)
      generalize 2 ^ (F.maxPrefix - n.plen) = K at *
      have hnp : ¬ F.maxPrefix ≤ n.plen + 1 := by omega
      by_cases h6 : F.isV6 = true
      · have hlt : F.v n.addr + K < 2 ^ F.maxPrefix := by
          rcases hf with h | h | h
          · omega
          · exact h
          · rw [h6] at h; simp at h
        rw [if_pos h6, Nat.mod_eq_of_lt (by omega)] at h3
        refine ⟨K - 1, by omega, by omega, by omega, by omega, fun x => ?_⟩
        rw [h2]
        constructor
        · intro h
          exact ⟨by omega, .inr ⟨⟨F.v n.addr, by omega, by omega⟩, .inl h6⟩⟩
        · rintro ⟨h, h' | ⟨⟨y, h5, h7⟩, _⟩⟩ <;> omega
      · rw [if_neg h6, Nat.mod_eq_of_lt (by omega)] at h3
        refine ⟨K - 2, by omega, by omega, by omega, by omega, fun x => ?_⟩
        rw [h2]
        constructor
        · intro h
          exact ⟨by omega, .inr ⟨⟨F.v n.addr, by omega, by omega⟩, .inr ⟨F.v n.addr + K - 1, by omega, by omega⟩⟩⟩
        · rintro ⟨h, h' | ⟨⟨y, h5, h7⟩, h8 | ⟨z, h8, h9⟩⟩⟩
          · omega
          · exact absurd h8 h6
          · omega
  obtain ⟨k, h⟩ := key
  exact ⟨s, k, s1, s2, s3, h⟩

theorem hosts_spec (L : F.Law WF val) (n : Net A) (hn : NetOk F WF n) (hf : HostsFit F n) :
    ∃ s, F.hosts n = .ok s ∧ GoodHosts F val n s := by
  suffices ∃ (s : HostsSeq A U) (l : List A) (r1 r2 : RIter (AIter A U)), F.hosts n = .ok s ∧
      Lists (l.map F.v) (IsHost F.maxPrefix n.plen (F.v n.addr) F.isV6) ∧
      (∀ a ∈ l, ∃ b, a = F.ofBytes b ∧ 8 * b.length = F.maxPrefix) ∧
      F.aiOps.rMk s.last = .ok r1 ∧ F.aiOps.rMk s.first = .ok r2 ∧
      (∀ fuel, l.length < fuel → F.aiOps.visit fuel s.first s.last = .ok l ∧ F.aiOps.rVisit fuel r1 r2 = .ok l.reverse) ∧
      val (F.hostsSize s) = l.length ∧ F.hostsEmpty s = .ok l.isEmpty ∧
      (∀ i (h : i < l.length) u, val u = i → F.hostsAt s u = .ok l[i]) ∧
      ∃ h : l ≠ [], s.front = l.head h ∧ F.hostsBack s = .ok (l.getLast h) by
    obtain ⟨s, l, r1, r2, h1, h2⟩ := this
    exact ⟨s, h1, l, r1, r2, h2⟩
  obtain ⟨s, k, s1, s2, s3, k1, k2, k3, k4, k5⟩ := hosts_range L n hn hf
  obtain ⟨l, r1, r2, e1, e2⟩ := range_spec L s k s2 s3 k1 k2 k3 k4
  refine ⟨s, l, r1, r2, s1, ⟨by rw [e1]; exact pairwise_range' _ _, fun x => ?_⟩, e2⟩
  rw [e1, mem_range'_iff, k5]

/-- Otherwise the loop goes around the whole address space once more. -/
theorem hosts_wrap (L : F.Law WF val) (n : Net A) (hn : NetOk F WF n) (hf : ¬ HostsFit F n) :
    ∃ (s : HostsSeq A U) (l : List A), F.hosts n = .ok s ∧
      (∀ fuel, l.length < fuel → F.aiOps.visit fuel s.first s.last = .ok l) ∧
      2 ^ F.maxPrefix < l.length ∧ ∀ v, v < 2 ^ F.maxPrefix → ∃ a ∈ l, F.v a = v := by
  obtain ⟨s, s1, s2, s3, s4⟩ := hosts_eq L n hn
  have hv := L.v_lt _ hn.wf
  have hroom : F.v n.addr + 2 ^ (F.maxPrefix - n.plen) ≤ 2 ^ F.maxPrefix :=
    aligned_room F.maxPrefix _ _ (Nat.sub_le ..) hv hn.aligned
  have hW := two_le_W L
  have hpl := hn.plen
  unfold HostsFit at hf
  have key : s.last.pos F val = 0 ∧ 0 < s.first.pos F val ∧ s.first.pos F val < 2 ^ F.maxPrefix := by
    have hP := Nat.two_pow_pos (F.maxPrefix - n.plen)
    rcases s4 with ⟨h1, h2, h3⟩ | ⟨h1, h2, h3⟩ | ⟨h1, h2, h3⟩
    · rw [show F.maxPrefix - n.plen = 1 by omega] at *
      rw [show F.v n.addr + 2 = 2 ^ F.maxPrefix by omega, Nat.mod_self] at h3
      omega
    · omega
    · have h4 : 2 ^ 2 ≤ 2 ^ (F.maxPrefix - n.plen) := Nat.pow_le_pow_right (by decide) (by omega)
      have h6 : F.isV6 = true := by
        cases h : F.isV6
        · exact absurd (.inr (.inr ⟨h, h1⟩)) hf
        · rfl
      rw [if_pos h6, show F.v n.addr + (2 ^ (F.maxPrefix - n.plen) - 1) + 1 = 2 ^ F.maxPrefix by omega, Nat.mod_self] at h3
      omega
  obtain ⟨k1, k2, k3⟩ := key
  have he : s.last.pos F val = (s.first.pos F val + (2 * 2 ^ F.maxPrefix - s.first.pos F val) * 1) % (2 * 2 ^ F.maxPrefix) := by
    rw [k1, show s.first.pos F val + (2 * 2 ^ F.maxPrefix - s.first.pos F val) * 1 = 2 * 2 ^ F.maxPrefix by omega, Nat.mod_self]
  obtain ⟨l, l1, l2, l3⟩ := (aiLaw L).visit_eq (by decide) _ _ _ s2 s3 (by omega) he
  refine ⟨s, l, s1, fun fuel h => l3 fuel (by omega), by omega, fun v hv => ?_⟩
  have h : IsAddr F ((s.first.pos F val + (2 ^ F.maxPrefix + v - s.first.pos F val) * 1) % (2 * 2 ^ F.maxPrefix) % 2 ^ F.maxPrefix)
      l[2 ^ F.maxPrefix + v - s.first.pos F val] := l2 _ (by omega)
  rw [Nat.mul_one, show s.first.pos F val + (2 ^ F.maxPrefix + v - s.first.pos F val) = 2 ^ F.maxPrefix + v by omega,
    Nat.mod_eq_of_lt (a := _ + v) (by omega), Nat.add_mod_left, Nat.mod_eq_of_lt hv] at h
  exact ⟨_, List.getElem_mem _, h.v_eq L⟩

end
end Ip
