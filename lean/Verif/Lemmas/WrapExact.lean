import Verif.Lemmas.Subnets
/-
What the sequences of `hosts()` and `subnets()` hold when the end of the range is beyond the largest address.
-/
set_option autoImplicit false

namespace Ip
open Spec

section
variable {A U : Type} {F : Fam A U} {WF : A → Prop} {val : U → Nat}

/-- The sequence of `hosts()` when it goes on after the last host: the hosts `l` in increasing order, then every
address of the whole space, `r`, once more.  The size, the indices and the ends are those of the hosts alone. -/
def WrapHosts (F : Fam A U) (val : U → Nat) (n : Net A) (s : HostsSeq A U) : Prop :=
  ∃ (l r : List A) (r1 r2 : RIter (AIter A U)),
    Lists (l.map F.v) (IsHost F.maxPrefix n.plen (F.v n.addr) F.isV6) ∧
    r.map F.v = List.range (2 ^ F.maxPrefix) ∧
    (∀ a ∈ l ++ r, ∃ b, a = F.ofBytes b ∧ 8 * b.length = F.maxPrefix) ∧
    F.aiOps.rMk s.last = .ok r1 ∧ F.aiOps.rMk s.first = .ok r2 ∧
    (∀ fuel, (l ++ r).length < fuel → F.aiOps.visit fuel s.first s.last = .ok (l ++ r) ∧
      F.aiOps.rVisit fuel r1 r2 = .ok (l ++ r).reverse) ∧
    val (F.hostsSize s) = l.length ∧ F.hostsEmpty s = .ok false ∧
    (∀ i (h : i < (l ++ r).length) u, val u = i → F.hostsAt s u = .ok (l ++ r)[i]) ∧
    ∃ h : l ≠ [], s.front = l.head h ∧ F.hostsBack s = .ok (l.getLast h)

theorem hosts_wrap_exact (L : F.Law WF val) (n : Net A) (hn : NetOk F WF n) (hf : ¬ HostsFit F n) :
    ∃ s, F.hosts n = .ok s ∧ WrapHosts F val n s := by
  obtain ⟨s, s1, s2, s3, s4⟩ := hosts_eq L n hn
  have hv := L.v_lt _ hn.wf
  have hroom : F.v n.addr + 2 ^ (F.maxPrefix - n.plen) ≤ 2 ^ F.maxPrefix :=
    aligned_room F.maxPrefix _ _ (Nat.sub_le ..) hv hn.aligned
  have hW := two_le_W L
  have hpl := hn.plen
  unfold HostsFit at hf
  have key : s.last.pos F val = 0 ∧ 0 < s.first.pos F val ∧ s.first.pos F val < 2 ^ F.maxPrefix ∧
      ∀ x, (s.first.pos F val ≤ x ∧ x < 2 ^ F.maxPrefix) ↔ IsHost F.maxPrefix n.plen (F.v n.addr) F.isV6 x := by
    have hP := Nat.two_pow_pos (F.maxPrefix - n.plen)
    unfold IsHost
    simp only [inNet_interval L n hn]
    rcases s4 with ⟨h1, h2, h3⟩ | ⟨h1, h2, h3⟩ | ⟨h1, h2, h3⟩
    · rw [show F.maxPrefix - n.plen = 1 by omega] at *
      have ht : F.v n.addr + 2 = 2 ^ F.maxPrefix := by omega
      rw [ht, Nat.mod_self] at h3
      refine ⟨h3, by omega, by omega, fun x => ?_⟩
      rw [h2]
      exact ⟨fun h => ⟨by omega, .inl (by omega)⟩, fun h => by omega⟩
    · omega
    · have h4 : 2 ^ 2 ≤ 2 ^ (F.maxPrefix - n.plen) := Nat.pow_le_pow_right (by decide) (by omega)
      have h6 : F.isV6 = true := by
        cases h : F.isV6
        · exact absurd (.inr (.inr ⟨h, h1⟩)) hf
        · rfl
      generalize 2 ^ (F.maxPrefix - n.plen) = K at *
      rw [if_pos h6, show F.v n.addr + (K - 1) + 1 = 2 ^ F.maxPrefix by omega, Nat.mod_self] at h3
      refine ⟨h3, by omega, by omega, fun x => ?_⟩
      rw [h2]
      constructor
      · intro h
        exact ⟨by omega, .inr ⟨⟨F.v n.addr, by omega, by omega⟩, .inl h6⟩⟩
      · rintro ⟨h, h' | ⟨⟨y, h5, h7⟩, _⟩⟩ <;> omega
  obtain ⟨k1, k2, k3, k4⟩ := key
  have he : s.last.pos F val = (s.first.pos F val + (2 * 2 ^ F.maxPrefix - s.first.pos F val) * 1) % (2 * 2 ^ F.maxPrefix) := by
    rw [k1, show s.first.pos F val + (2 * 2 ^ F.maxPrefix - s.first.pos F val) * 1 = 2 * 2 ^ F.maxPrefix by omega, Nat.mod_self]
  obtain ⟨t, t1, t2, t3⟩ := (aiLaw L).visit_eq (by decide) _ _ _ s2 s3 (by omega) he
  obtain ⟨t', r1, r2, r3, r4, r5⟩ := (aiLaw L).reverse_visit (by decide) _ _ _ s2 s3 (by omega) he
  have htt : t' = t := by
    have a := (r5 (t.length + 1) (by omega)).1
    have b := t3 (t.length + 1) (by omega)
    have := a.symm.trans b
    injection this
  subst htt
  have hA : ∀ i (hi : i < t'.length), IsAddr F ((s.first.pos F val + i) % 2 ^ F.maxPrefix) t'[i] := by
    intro i hi
    have h : IsAddr F ((s.first.pos F val + i * 1) % (2 * 2 ^ F.maxPrefix) % 2 ^ F.maxPrefix) t'[i] := t2 i hi
    rw [Nat.mul_one, Nat.mod_eq_of_lt (a := _ + i) (b := 2 * _) (by omega)] at h
    exact h
  have hmap : t'.map F.v = List.range' (s.first.pos F val) (2 ^ F.maxPrefix - s.first.pos F val) ++ List.range (2 ^ F.maxPrefix) := by
    apply List.ext_getElem (by simp; omega)
    intro i h1 h2
    rw [List.getElem_map, (hA i (by simpa using h1)).v_eq L, List.getElem_append]
    rw [List.length_map] at h1
    split
    · rename_i h
      rw [List.length_range'] at h
      rw [List.getElem_range', Nat.one_mul, Nat.mod_eq_of_lt (by omega)]
    · rename_i h
      rw [List.length_range'] at h
      rw [List.getElem_range, List.length_range', show s.first.pos F val + i =
        i - (2 ^ F.maxPrefix - s.first.pos F val) + 2 ^ F.maxPrefix by omega, Nat.add_mod_right, Nat.mod_eq_of_lt (by omega)]
  have hcut : t'.take (2 ^ F.maxPrefix - s.first.pos F val) ++ t'.drop (2 ^ F.maxPrefix - s.first.pos F val) = t' :=
    List.take_append_drop ..
  have hl : (t'.take (2 ^ F.maxPrefix - s.first.pos F val)).length = 2 ^ F.maxPrefix - s.first.pos F val := by
    rw [List.length_take]; omega
  have hne : t'.take (2 ^ F.maxPrefix - s.first.pos F val) ≠ [] := by
    intro e; rw [e] at hl; simp at hl; omega
  refine ⟨s, s1, t'.take (2 ^ F.maxPrefix - s.first.pos F val), t'.drop (2 ^ F.maxPrefix - s.first.pos F val), r1, r2, ?_⟩
  simp only [hcut]
  refine ⟨⟨?_, fun x => ?_⟩, ?_, ?_, r3, r4, fun fuel h => r5 fuel (by omega), ?_, ?_, ?_, hne, ?_, ?_⟩
  · rw [List.map_take, hmap, List.take_left' (by simp)]
    exact pairwise_range' _ _
  · rw [List.map_take, hmap, List.take_left' (by simp), mem_range'_iff, ← k4]
    omega
  · rw [List.map_drop, hmap, List.drop_left' (by simp)]
  · intro a ha
    obtain ⟨i, hi, rfl⟩ := List.mem_iff_getElem.mp ha
    obtain ⟨b, b1, b2, _⟩ := hA i hi
    exact ⟨b, b1, b2⟩
  · have e1 := AIter.pos_mod L s.first
    have e2 := AIter.pos_mod L s.last
    rw [Nat.mod_eq_of_lt k3] at e1
    rw [k1, Nat.zero_mod] at e2
    show val (F.ops.sub s.last.off s.first.off) = _
    rw [L.ops.sub, hl, ← e1, ← e2, Nat.zero_add, Nat.mod_eq_of_lt (by omega)]
  · rw [Fam.hostsEmpty, AIter.eq_law L _ _ s2 s3, decide_eq_false (by omega)]
  · intro i hi u hu
    have hub := L.ops.val_lt u
    obtain ⟨y, y1, y2, y3⟩ := AIter.add_law L s.first s2 u
    rw [hu, Nat.mod_eq_of_lt (by omega)] at y3
    simp only [Fam.hostsAt, y1, Res.ok_bind]
    congr 1
    have hc := y2.cur
    rw [← AIter.pos_mod L y, y3] at hc
    exact IsAddr.inj hc (hA i hi)
  · have hc := s2.cur
    rw [← AIter.pos_mod L s.first] at hc
    have h0 := hA 0 (by omega)
    rw [List.head_eq_getElem, List.getElem_take]
    exact IsAddr.inj hc h0
  · obtain ⟨y, y1, y2, y3⟩ := AIter.sub_law L s.last s3 (F.ops.ofI64 1#64)
    rw [val_one L, k1, Nat.zero_add, Nat.mod_eq_of_lt (by omega)] at y3
    simp only [Fam.hostsBack, y1, Res.ok_bind]
    congr 1
    have hc := y2.cur
    rw [← AIter.pos_mod L y, y3] at hc
    rw [List.getLast_eq_getElem, List.getElem_take]
    have := hA ((t'.take (2 ^ F.maxPrefix - s.first.pos F val)).length - 1) (by omega)
    refine IsAddr.inj ?_ this
    rw [hl, show s.first.pos F val + (2 ^ F.maxPrefix - s.first.pos F val - 1) = 2 ^ F.maxPrefix - 1 by omega,
      Nat.mod_eq_of_lt (by omega)]
    rw [show 2 * 2 ^ F.maxPrefix - 1 = 2 ^ F.maxPrefix - 1 + 2 ^ F.maxPrefix by omega, Nat.add_mod_right,
      Nat.mod_eq_of_lt (by omega)] at hc
    exact hc

/-- The sequence of `subnets(d)` when it goes on after the last subnetwork: the subnetworks `l` in increasing order,
then every network of the same prefix length in the whole space, `r`. -/
def WrapSubnets (F : Fam A U) (WF : A → Prop) (val : U → Nat) (n : Net A) (d : Nat) (s : SubnetsSeq A U) : Prop :=
  ∃ (l r : List (Net A)) (r1 r2 : RIter (NIter A U)), l.length = 2 ^ d ∧
    (∀ m ∈ l ++ r, NetOk F WF m ∧ m.plen = n.plen + d ∧ ∃ x, m.addr = F.ofBytes x) ∧
    Increasing F.maxPrefix (l.map F.vp) ∧
    Partitions F.maxPrefix (l.map F.vp) (InNet F.maxPrefix n.plen (F.v n.addr)) ∧
    Increasing F.maxPrefix (r.map F.vp) ∧
    Partitions F.maxPrefix (r.map F.vp) (fun x => x < 2 ^ F.maxPrefix) ∧
    F.niOps.rMk s.last = .ok r1 ∧ F.niOps.rMk s.first = .ok r2 ∧
    (∀ fuel, (l ++ r).length < fuel → F.niOps.visit fuel s.first s.last = .ok (l ++ r) ∧
      F.niOps.rVisit fuel r1 r2 = .ok (l ++ r).reverse) ∧
    val s.size = l.length ∧ F.subnetsEmpty s = .ok false ∧
    (∀ i (h : i < (l ++ r).length) u, val u = i → F.subnetsAt s u = .ok (l ++ r)[i]) ∧
    ∃ h : l ≠ [], s.front = l.head h ∧ F.subnetsBack s = .ok (l.getLast h)

theorem subnets_wrap_exact (L : F.Law WF val) (n : Net A) (hn : NetOk F WF n) (d : Nat) (hw : F.maxPrefix < 2 ^ 64)
    (hd : n.plen + d ≤ F.maxPrefix) (hdw : d < F.maxPrefix) (hfit : ¬ SubnetsFit F n) :
    ∃ s, F.subnets n d none = .ok s ∧ F.subnets n 1 (some (n.plen + d)) = .ok s ∧ WrapSubnets F WF val n d s := by
  have hpl := hn.plen
  unfold SubnetsFit at hfit
  have hp0 : n.plen ≠ 0 := fun h => hfit (.inl h)
  have hpm : n.plen ≠ F.maxPrefix := fun h => hfit (.inr (.inl h))
  have hlt : n.plen < F.maxPrefix := by omega
  obtain ⟨b, a, s, step, h1, h2, h3, h4, h5, h6, h7, h8, h9⟩ := subnetsMk_eq L n hn d hlt hd hdw (by omega)
  obtain ⟨g1, g2⟩ := subnets_go n d hlt hw hd a b s h1 h2 h3
  have hv := L.v_lt _ hn.wf
  have hal : F.v n.addr % 2 ^ (F.maxPrefix - n.plen) = 0 := hn.aligned
  have hroom : F.v n.addr + 2 ^ (F.maxPrefix - n.plen) ≤ 2 ^ F.maxPrefix :=
    aligned_room F.maxPrefix _ _ (Nat.sub_le ..) hv hal
  have htop : F.v n.addr + 2 ^ (F.maxPrefix - n.plen) = 2 ^ F.maxPrefix := by
    have : ¬ F.v n.addr + 2 ^ (F.maxPrefix - n.plen) < 2 ^ F.maxPrefix := fun h => hfit (.inr (.inr h))
    omega
  rw [if_neg hp0, htop, Nat.mod_self] at h9
  have hPS : 2 ^ (F.maxPrefix - n.plen) = 2 ^ d * 2 ^ (F.maxPrefix - (n.plen + d)) := by
    rw [← Nat.pow_add]; congr 1; omega
  have hWS : 2 ^ F.maxPrefix = 2 ^ (n.plen + d) * 2 ^ (F.maxPrefix - (n.plen + d)) := by
    rw [← Nat.pow_add]; congr 1; omega
  have hS := Nat.two_pow_pos (F.maxPrefix - (n.plen + d))
  have hD := Nat.two_pow_pos d
  have hPW : 2 ^ (F.maxPrefix - n.plen) < 2 ^ F.maxPrefix := Nat.pow_lt_pow_right (by decide) (by omega)
  have hDW : 2 ^ d ≤ 2 ^ (n.plen + d) := Nat.pow_le_pow_right (by decide) (by omega)
  have hk : (2 ^ (n.plen + d) + 2 ^ d) * 2 ^ (F.maxPrefix - (n.plen + d)) = 2 ^ F.maxPrefix + 2 ^ (F.maxPrefix - n.plen) := by
    rw [Nat.add_mul, ← hPS, ← hWS]
  have hs0 : val step % 2 ^ (F.maxPrefix - (n.plen + d)) = 0 := by rw [h4, Nat.mod_self]
  have Ln := niLaw L step (n.plen + d) hs0
  have hkk : (2 ^ (n.plen + d) + 2 ^ d) * val step < 2 * 2 ^ F.maxPrefix := by rw [h4, hk]; omega
  have hee : s.last.pos F val = (s.first.pos F val + (2 ^ (n.plen + d) + 2 ^ d) * val step) % (2 * 2 ^ F.maxPrefix) := by
    rw [h4, hk, h8, h9, show F.v n.addr + (2 ^ F.maxPrefix + 2 ^ (F.maxPrefix - n.plen)) = 2 * 2 ^ F.maxPrefix by omega, Nat.mod_self]
  obtain ⟨t, t1, t2, t3⟩ := Ln.visit_eq (by rw [h4]; exact hS) (2 ^ (n.plen + d) + 2 ^ d) _ _ h5 h6 hkk hee
  obtain ⟨t', r1, r2, r3, r4, r5⟩ := Ln.reverse_visit (by rw [h4]; exact hS) (2 ^ (n.plen + d) + 2 ^ d) _ _ h5 h6 hkk hee
  have htt : t' = t := by
    have a := (r5 (t.length + 1) (by omega)).1
    have b := t3 (t.length + 1) (by omega)
    have := a.symm.trans b
    injection this
  subst htt
  have hmul : ∀ i, i < 2 ^ (n.plen + d) + 2 ^ d → i * 2 ^ (F.maxPrefix - (n.plen + d)) + 2 ^ (F.maxPrefix - (n.plen + d)) ≤
      2 ^ F.maxPrefix + 2 ^ (F.maxPrefix - n.plen) := by
    intro i hi
    rw [← hk, ← Nat.succ_mul]
    exact Nat.mul_le_mul_right _ hi
  have hA : ∀ i (hi : i < t'.length),
      IsNet F (n.plen + d) ((F.v n.addr + i * 2 ^ (F.maxPrefix - (n.plen + d))) % 2 ^ F.maxPrefix) t'[i] := by
    intro i hi
    have h : IsNet F (n.plen + d) ((s.first.pos F val + i * val step) % (2 * 2 ^ F.maxPrefix) % 2 ^ F.maxPrefix) t'[i] := t2 i hi
    have := hmul i (by omega)
    rw [h8, h4, Nat.mod_eq_of_lt (a := _ + _) (b := 2 * _) (by omega)] at h
    exact h
  have hl : (t'.take (2 ^ d)).length = 2 ^ d := by rw [List.length_take]; omega
  have hr : (t'.drop (2 ^ d)).length = 2 ^ (n.plen + d) := by rw [List.length_drop]; omega
  have hblock : ∀ i, i < 2 ^ d → i * 2 ^ (F.maxPrefix - (n.plen + d)) + 2 ^ (F.maxPrefix - (n.plen + d)) ≤
      2 ^ (F.maxPrefix - n.plen) := by
    intro i hi
    rw [hPS, ← Nat.succ_mul]
    exact Nat.mul_le_mul_right _ hi
  have hL : ∀ i (hi : i < (t'.take (2 ^ d)).length),
      IsNet F (n.plen + d) (F.v n.addr + i * 2 ^ (F.maxPrefix - (n.plen + d))) (t'.take (2 ^ d))[i] := by
    intro i hi
    rw [hl] at hi
    have h := hA i (by omega)
    have := hblock i hi
    rw [Nat.mod_eq_of_lt (by omega)] at h
    rw [List.getElem_take]
    exact h
  have hR : ∀ i (hi : i < (t'.drop (2 ^ d)).length),
      IsNet F (n.plen + d) (0 + i * 2 ^ (F.maxPrefix - (n.plen + d))) (t'.drop (2 ^ d))[i] := by
    intro i hi
    rw [hr] at hi
    have h := hA (2 ^ d + i) (by omega)
    have : i * 2 ^ (F.maxPrefix - (n.plen + d)) + 2 ^ (F.maxPrefix - (n.plen + d)) ≤ 2 ^ F.maxPrefix := by
      rw [hWS, ← Nat.succ_mul]
      exact Nat.mul_le_mul_right _ hi
    rw [Nat.add_mul, ← hPS, ← Nat.add_assoc, htop, Nat.add_mod_left, Nat.mod_eq_of_lt (by omega)] at h
    rw [List.getElem_drop, Nat.zero_add]
    exact h
  obtain ⟨p1, p2, p3⟩ := blocks_partition L _ _ (n.plen + d) hL
  obtain ⟨q1, q2, q3⟩ := blocks_partition L _ _ (n.plen + d) hR
  have hcut : t'.take (2 ^ d) ++ t'.drop (2 ^ d) = t' := List.take_append_drop ..
  have hne : t'.take (2 ^ d) ≠ [] := by
    intro e; rw [e] at hl; simp at hl; omega
  refine ⟨s, g1, g2, t'.take (2 ^ d), t'.drop (2 ^ d), r1, r2, hl, ?_⟩
  simp only [hcut]
  refine ⟨?_, p1, ⟨p2, fun x => ?_⟩, q1, ⟨q2, fun x => ?_⟩, r3, r4, fun fuel h => r5 fuel (by omega), by rw [h7, hl], ?_, ?_, hne, ?_, ?_⟩
  · intro m hm
    obtain ⟨i, hi, rfl⟩ := List.mem_iff_getElem.mp hm
    exact ⟨(hA i hi).netOk L, (hA i hi).plen, (hA i hi).addr.plain⟩
  · rw [p3, hl, ← hPS, inNet_interval L n hn]
  · rw [q3, hr, ← hWS]; omega
  · have h := Ln.eq _ _ h5 h6
    rw [Fam.subnetsEmpty]
    change F.niEq s.first s.last = _ at h
    rw [h, decide_eq_false]
    rw [h8, h9]
    omega
  · intro i hi u hu
    obtain ⟨y, y1, y2, y3⟩ := NIter.add_law L step (n.plen + d) hs0 s.first h5 u
    rw [hu, h4, h8, Nat.mul_comm] at y3
    simp only [Fam.subnetsAt, y1, Res.ok_bind]
    congr 1
    have hc : IsNet F (n.plen + d) (y.pos F val % 2 ^ F.maxPrefix) y.cur := Ln.deref y y2
    rw [y3, Nat.mod_mod_of_dvd _ ⟨2, Nat.mul_comm ..⟩, Nat.add_mod_mod] at hc
    exact IsNet.inj hc (hA i hi)
  · have hc : IsNet F (n.plen + d) (s.first.pos F val % 2 ^ F.maxPrefix) s.first.cur := Ln.deref s.first h5
    rw [h8, Nat.mod_eq_of_lt hv] at hc
    have h0 := hL 0 (by omega)
    rw [Nat.zero_mul, Nat.add_zero] at h0
    rw [List.head_eq_getElem]
    exact IsNet.inj hc h0
  · obtain ⟨y, y1, y2, y3⟩ := NIter.sub_law L step (n.plen + d) hs0 s.last h6 (F.ops.ofI64 1#64)
    have hk1 : 2 ^ d * 2 ^ (F.maxPrefix - (n.plen + d)) =
        (2 ^ d - 1) * 2 ^ (F.maxPrefix - (n.plen + d)) + 2 ^ (F.maxPrefix - (n.plen + d)) := by
      obtain ⟨j, hj⟩ : ∃ j, 2 ^ d = j + 1 := ⟨2 ^ d - 1, by omega⟩
      rw [hj, Nat.add_mul, Nat.one_mul, Nat.add_sub_cancel]
    rw [val_one L, Nat.mul_one, Nat.mod_eq_of_lt (L.ops.val_lt step), h9, h4, Nat.zero_add, Nat.mod_eq_of_lt (by omega)] at y3
    simp only [Fam.subnetsBack, y1, Res.ok_bind]
    congr 1
    have hc : IsNet F (n.plen + d) (y.pos F val % 2 ^ F.maxPrefix) y.cur := Ln.deref y y2
    rw [y3, show 2 * 2 ^ F.maxPrefix - 2 ^ (F.maxPrefix - (n.plen + d)) =
      F.v n.addr + (2 ^ d - 1) * 2 ^ (F.maxPrefix - (n.plen + d)) + 2 ^ F.maxPrefix by omega, Nat.add_mod_right,
      Nat.mod_eq_of_lt (by omega)] at hc
    rw [List.getLast_eq_getElem]
    have := hL ((t'.take (2 ^ d)).length - 1) (by omega)
    exact IsNet.inj (by rw [hl]; exact hc) this

end
end Ip
