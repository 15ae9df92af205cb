import Verif.Props.Rest
/-
Where exactly C22, C31, C32, C33, C49 and C56 hold: each partial theorem and its negation joined to one equivalence.
-/
set_option autoImplicit false

namespace Ip
open Spec

/-! ### C22 -/

/-- C22, all prefix lengths: the netmask is right exactly up to the width and undefined exactly above it. -/
theorem C22_netmask_exact (p : Nat) :
    ((∃ b, v4FromPrefix true p = .ok b ∧ b.length = 4 ∧ IsMask 32 p (beValue b)) ↔ p ≤ 32) ∧
    (v4FromPrefix true p = .ub ↔ 32 < p) ∧
    ((∃ b, v6FromPrefix p = .ok b ∧ b.length = 16 ∧ IsMask 128 p (beValue b)) ↔ p ≤ 128) ∧
    (v6FromPrefix p = .ub ↔ 128 < p) := by
  obtain ⟨h4, h6⟩ := C22_netmask_partial p
  refine ⟨⟨fun ⟨b, hb, _⟩ => ?_, h4⟩, ⟨fun h => ?_, v4FromPrefix_ub true p⟩, ⟨fun ⟨b, hb, _⟩ => ?_, h6⟩,
    ⟨fun h => ?_, v6FromPrefix_ub p⟩⟩
  · rcases Nat.lt_or_ge 32 p with h | h
    · rw [v4FromPrefix_ub true p h] at hb; cases hb
    · exact h
  · rcases Nat.lt_or_ge 32 p with h' | h'
    · exact h'
    · obtain ⟨b, hb, _⟩ := h4 h'
      rw [h] at hb; cases hb
  · rcases Nat.lt_or_ge 128 p with h | h
    · rw [v6FromPrefix_ub p h] at hb; cases hb
    · exact h
  · rcases Nat.lt_or_ge 128 p with h' | h'
    · exact h'
    · obtain ⟨b, hb, _⟩ := h6 h'
      rw [h] at hb; cases hb

example : v4FromPrefix true 33 = .ub ∧ v6FromPrefix 129 = .ub := by decide

/-! ### C31 -/

/-- Strictly increasing numbers from `a` up to, not including, `N` are at most `N - a`. -/
theorem pairwise_lt_length (N : Nat) : ∀ (l : List Nat) (a : Nat), l.Pairwise (· < ·) → (∀ x ∈ l, a ≤ x ∧ x < N) →
    l.length ≤ N - a
  | [], a, _, _ => Nat.zero_le _
  | x :: l, a, h, hx => by
    obtain ⟨h1, h2⟩ := List.pairwise_cons.1 h
    have := pairwise_lt_length N l (x + 1) h2 (fun y hy => ⟨h1 y hy, (hx y (List.mem_cons_of_mem _ hy)).2⟩)
    have h3 := hx x (List.mem_cons_self ..)
    rw [List.length_cons]
    omega

section
variable {A U : Type} {F : Fam A U} {WF : A → Prop} {val : U → Nat}

theorem hosts_exact (L : F.Law WF val) (n : Net A) (hn : NetOk F WF n) :
    (∃ s, F.hosts n = .ok s ∧ GoodHosts F val n s) ↔ HostsFit F n := by
  refine ⟨fun ⟨s, h1, l, r1, r2, h2, _, _, _, h3, _⟩ => ?_, hosts_spec L n hn⟩
  by_contra hf
  obtain ⟨s', l', e1, e2, e3, _⟩ := hosts_wrap L n hn hf
  rw [h1] at e1
  cases e1
  have e := (h3 (l.length + l'.length + 1) (by omega)).1
  rw [e2 _ (by omega)] at e
  cases e
  have hv := L.v_lt _ hn.wf
  have hroom : F.v n.addr + 2 ^ (F.maxPrefix - n.plen) ≤ 2 ^ F.maxPrefix :=
    aligned_room F.maxPrefix _ _ (Nat.sub_le ..) hv hn.aligned
  have := pairwise_lt_length (2 ^ F.maxPrefix) _ 0 h2.1 (fun x hx => ⟨Nat.zero_le _, by
    have := ((h2.2 x).1 hx).1
    rw [inNet_interval L n hn] at this
    omega⟩)
  rw [List.length_map] at this
  omega

theorem subnets_exact (L : F.Law WF val) (n : Net A) (hn : NetOk F WF n) (d : Nat) (hw : F.maxPrefix < 2 ^ 64)
    (hd : n.plen + d ≤ F.maxPrefix)
    (hz : n.plen = 0 → ¬ ∃ s, F.subnets n 0 none = .ok s ∧ GoodSubnets F WF val n 0 s) :
    (∃ s, F.subnets n d none = .ok s ∧ GoodSubnets F WF val n d s) ↔
      d < F.maxPrefix ∧ n.plen + d ≠ 0 ∧ SubnetsFit F n := by
  constructor
  · rintro ⟨s, h1, h2⟩
    have hdw : d < F.maxPrefix := by
      by_contra h
      obtain rfl : d = F.maxPrefix := by omega
      rw [(subnets_wide_ub L n hn hw (by omega)).1] at h1
      cases h1
    refine ⟨hdw, ?_, ?_⟩
    · intro h0
      obtain ⟨h0, rfl⟩ : n.plen = 0 ∧ d = 0 := by omega
      exact hz h0 ⟨s, h1, h2⟩
    · by_contra hf
      obtain ⟨s', l', e1, _, e2, e3, _⟩ := subnets_wrap L n hn d hw hd hdw hf
      obtain ⟨l, r1, r2, g1, _, _, _, _, _, g2, _⟩ := h2
      rw [h1] at e1
      cases e1
      have e := (g2 (l.length + l'.length + 1) (by omega)).1
      rw [e2 _ (by omega)] at e
      cases e
      have := Nat.two_pow_pos (n.plen + d)
      omega
  · rintro ⟨h1, h2, h3⟩
    obtain ⟨s, s1, _, s2⟩ := subnets_spec L n hn d hw hd h1 h2 h3
    exact ⟨s, s1, s2⟩

end

/-- C31, IPv4, all networks: `hosts()` is right for every network but `255.255.255.254/31`. -/
theorem C31_hosts_v4_exact (n : Net (List (BitVec 8))) (hn : NetOk4 n) :
    (∃ s, (fam4 true).hosts n = .ok s ∧ GoodHosts (fam4 true) BitVec.toNat n s) ↔
      ¬ (n.plen = 31 ∧ beValue n.addr = 2 ^ 32 - 2) := by
  refine ⟨fun h => ?_, C31_hosts_v4_partial n hn⟩
  have hf := (hosts_exact fam4Law n hn).1 h
  change n.plen = 32 ∨ beValue n.addr + 2 ^ (32 - n.plen) < 2 ^ 32 ∨ (false = false ∧ n.plen + 2 ≤ 32) at hf
  rintro ⟨h1, h2⟩
  rw [h1] at hf
  omega

example := C31_hosts_v4_exact exTop31 exTop31_ok

/-- C31, IPv6, all networks: `hosts()` is right exactly for single addresses and networks without the largest address. -/
theorem C31_hosts_v6_exact (c : Cfg) (hc : c.le = true) (n : Net V6) (hn : NetOk6 c n) :
    (∃ s, (fam6 c).hosts n = .ok s ∧ GoodHosts (fam6 c) U128.val n s) ↔
      (n.plen = 128 ∨ ¬ InNet 128 n.plen (beValue n.addr.bytes) (2 ^ 128 - 1)) := by
  refine ⟨fun h => ?_, C31_hosts_v6_partial c hc n hn⟩
  have hf := (hosts_exact (fam6Law c hc) n hn).1 h
  change n.plen = 128 ∨ beValue n.addr.bytes + 2 ^ (128 - n.plen) < 2 ^ 128 ∨ (true = false ∧ n.plen + 2 ≤ 128) at hf
  have hi : InNet 128 n.plen (beValue n.addr.bytes) (2 ^ 128 - 1) ↔ _ :=
    inNet_interval (fam6Law c hc) n hn (2 ^ 128 - 1)
  rw [hi]
  change _ ∨ ¬ (beValue n.addr.bytes ≤ 2 ^ 128 - 1 ∧ 2 ^ 128 - 1 < beValue n.addr.bytes + 2 ^ (128 - n.plen))
  rcases hf with h | h | h
  · exact .inl h
  · right; omega
  · exact Bool.noConfusion h.1

example := C31_hosts_v6_exact exCfg rfl exAll6 exAll6_ok

/-! ### C32 -/

/-- C32, IPv4, all networks and all admissible differences: `subnets(d)` is right exactly if the network does not contain
the largest address or is a single address or the whole space, and it is not a question of dividing the whole space
into one or into `2^32` networks. -/
theorem C32_subnets_v4_exact (n : Net (List (BitVec 8))) (hn : NetOk4 n) (d : Nat) (hd : n.plen + d ≤ 32) :
    (∃ s, (fam4 true).subnets n d none = .ok s ∧ GoodSubnets (fam4 true) WF4 BitVec.toNat n d s) ↔
      ((n.plen = 0 ∧ d ≠ 0 ∧ d ≠ 32) ∨ n.plen = 32 ∨ (n.plen ≠ 0 ∧ ¬ InNet 32 n.plen (beValue n.addr) (2 ^ 32 - 1))) := by
  have hi : InNet 32 n.plen (beValue n.addr) (2 ^ 32 - 1) ↔ _ := inNet_interval fam4Law n hn (2 ^ 32 - 1)
  have hv : beValue n.addr < 2 ^ 32 := fam4Law.v_lt _ hn.wf
  rw [subnets_exact fam4Law n hn d (by decide) hd (fun h0 ⟨s, h, _⟩ => by rw [C32_zero_step_v4 n hn h0] at h; cases h), hi]
  change (d < 32 ∧ n.plen + d ≠ 0 ∧ (n.plen = 0 ∨ n.plen = 32 ∨ beValue n.addr + 2 ^ (32 - n.plen) < 2 ^ 32)) ↔
    (_ ∨ _ ∨ (_ ∧ ¬ (beValue n.addr ≤ 2 ^ 32 - 1 ∧ 2 ^ 32 - 1 < beValue n.addr + 2 ^ (32 - n.plen))))
  have hP := Nat.two_pow_pos (32 - n.plen)
  by_cases h0 : n.plen = 0
  · rw [h0] at hd ⊢; omega
  · generalize 2 ^ (32 - n.plen) = P at *
    omega

example := C32_subnets_v4_exact exTop2 exTop2_ok 5 (by decide)

/-- C32, IPv6, all networks and all admissible differences. -/
theorem C32_subnets_v6_exact (c : Cfg) (hc : c.le = true) (n : Net V6) (hn : NetOk6 c n) (d : Nat) (hd : n.plen + d ≤ 128) :
    (∃ s, (fam6 c).subnets n d none = .ok s ∧ GoodSubnets (fam6 c) (V6.WF c.M) U128.val n d s) ↔
      ((n.plen = 0 ∧ d ≠ 0 ∧ d ≠ 128) ∨ n.plen = 128 ∨
        (n.plen ≠ 0 ∧ ¬ InNet 128 n.plen (beValue n.addr.bytes) (2 ^ 128 - 1))) := by
  have hi : InNet 128 n.plen (beValue n.addr.bytes) (2 ^ 128 - 1) ↔ _ := inNet_interval (fam6Law c hc) n hn (2 ^ 128 - 1)
  have hv : beValue n.addr.bytes < 2 ^ 128 := (fam6Law c hc).v_lt _ hn.wf
  rw [subnets_exact (fam6Law c hc) n hn d (by show 128 < 2 ^ 64; decide) hd (fun h0 ⟨s, h, l, _, _, _, _, _, _, _, _, g, _⟩ => by
    obtain ⟨s', e1, e2⟩ := C32_zero_step_v6 c hc n hn h0
    rw [h] at e1
    cases e1
    have := (g (l.length + 1) (by omega)).1
    rw [e2] at this
    cases this), hi]
  change (d < 128 ∧ n.plen + d ≠ 0 ∧ (n.plen = 0 ∨ n.plen = 128 ∨ beValue n.addr.bytes + 2 ^ (128 - n.plen) < 2 ^ 128)) ↔
    (_ ∨ _ ∨ (_ ∧ ¬ (beValue n.addr.bytes ≤ 2 ^ 128 - 1 ∧ 2 ^ 128 - 1 < beValue n.addr.bytes + 2 ^ (128 - n.plen))))
  have hP := Nat.two_pow_pos (128 - n.plen)
  by_cases h0 : n.plen = 0
  · rw [h0] at hd ⊢; omega
  · generalize 2 ^ (128 - n.plen) = P at *
    omega

example := C32_subnets_v6_exact exCfg rfl ex32 ex32_ok 70 (by decide)

/-! ### C33 -/

theorem supernet_ub_iff {A U : Type} {F : Fam A U} {WF : A → Prop} {val : U → Nat} (L : F.Law WF val) (n : Net A)
    (hn : NetOk F WF n) (diff : Nat) (newp : Option Nat) :
    F.supernet n diff newp = .ub ↔
      n.plen = F.maxPrefix ∧ ((newp = none ∧ diff = F.maxPrefix) ∨ (newp = some 0 ∧ diff = 1)) := by
  have hpos := L.pos
  have hpl := hn.plen
  constructor
  · intro h
    by_cases h0 : n.plen = 0
    · rw [Fam.supernet, if_pos h0] at h; cases h
    · cases newp with
      | none =>
        by_cases hd : diff ≤ n.plen
        · by_cases hw : diff < F.maxPrefix
          · obtain ⟨r, r1, _⟩ := supernet_spec L n hn h0 diff hd hw
            rw [h] at r1; cases r1
          · exact ⟨by omega, .inl ⟨rfl, by omega⟩⟩
        · rw [Fam.supernet, if_neg h0] at h
          simp only [if_pos (show diff > n.plen by omega)] at h
          cases h
      | some p =>
        by_cases hp : p > n.plen
        · rw [Fam.supernet, if_neg h0] at h
          simp only [if_pos hp] at h
          cases h
        · by_cases h1 : diff = 1
          · subst h1
            by_cases hw : n.plen - p < F.maxPrefix
            · obtain ⟨r, r1, r2, _⟩ := supernet_spec L n hn h0 (n.plen - p) (by omega) hw
              rw [show n.plen - (n.plen - p) = p by omega, h] at r2
              cases r2
            · exact ⟨by omega, .inr ⟨by congr 1; omega, rfl⟩⟩
          · rw [Fam.supernet, if_neg h0] at h
            simp only [if_neg hp, ne_eq, h1, not_false_eq_true, if_true] at h
            cases h
  · rintro ⟨h, ⟨rfl, rfl⟩ | ⟨rfl, rfl⟩⟩
    · exact (supernet_ub L n hn h).1
    · exact (supernet_ub L n hn h).2

/-- C33, all networks and arguments: the only undefined call is the one from a single address to the whole space. -/
theorem C33_supernet_undefined_exact (c : Cfg) (hc : c.le = true) (diff : Nat) (newp : Option Nat) :
    (∀ n, NetOk4 n → ((fam4 true).supernet n diff newp = .ub ↔
      n.plen = 32 ∧ ((newp = none ∧ diff = 32) ∨ (newp = some 0 ∧ diff = 1)))) ∧
    (∀ n, NetOk6 c n → ((fam6 c).supernet n diff newp = .ub ↔
      n.plen = 128 ∧ ((newp = none ∧ diff = 128) ∨ (newp = some 0 ∧ diff = 1)))) :=
  ⟨fun n hn => supernet_ub_iff fam4Law n hn diff newp, fun n hn => supernet_ub_iff (fam6Law c hc) n hn diff newp⟩

example := (C33_supernet_undefined_exact exCfg rfl 32 none).1 ⟨[10, 0, 0, 1], [255, 255, 255, 255], 32⟩
  ⟨rfl, by decide, ⟨_, rfl, rfl, by decide⟩, by decide⟩

/-! ### C49 -/

section
variable {A U : Type} {F : Fam A U} {WF : A → Prop} {val : U → Nat}

/-- A partition of the difference without its last part, if no other part contains address 0, lacks exactly address 0. -/
theorem lost_partition (L : F.Law WF val) (n o : Net A) (hn : NetOk F WF n) (ho : NetOk F WF o)
    (h1 : o.plen = F.maxPrefix) (h2 : F.v o.addr = 1) (h3 : F.v n.addr = 0) (all : List (Net A)) (hall : ∀ a ∈ all, NetOk F WF a)
    (hp : Partitions F.maxPrefix (all.map F.vp)
      (fun t => InNet F.maxPrefix n.plen (F.v n.addr) t ∧ ¬ InNet F.maxPrefix o.plen (F.v o.addr) t))
    (hnot : ∀ a ∈ all.dropLast, ¬ (F.v a.addr = 0 ∧ a.plen = F.maxPrefix)) :
    Partitions F.maxPrefix (all.dropLast.map F.vp)
      (fun t => InNet F.maxPrefix n.plen (F.v n.addr) t ∧ ¬ InNet F.maxPrefix o.plen (F.v o.addr) t ∧
        ¬ Lost F.maxPrefix o.plen (F.v o.addr) (F.v n.addr) t) := by
  have hint : ∀ a ∈ all, ∀ x, InNet F.maxPrefix a.plen (F.v a.addr) x ↔ _ := fun a ha x => inNet_interval L a (hall a ha) x
  have h1o : InNet F.maxPrefix o.plen (F.v o.addr) 1 := by
    rw [inNet_interval L o ho, h2]
    have := Nat.two_pow_pos (F.maxPrefix - o.plen)
    omega
  have hzero : ∀ a ∈ all, InNet F.maxPrefix a.plen (F.v a.addr) 0 → F.v a.addr = 0 ∧ a.plen = F.maxPrefix := by
    intro a ha h0
    have ok := hall a ha
    have e0 : F.v a.addr = 0 := by rw [hint a ha] at h0; omega
    refine ⟨e0, ?_⟩
    by_contra hne
    have hp' := ok.plen
    have : InNet F.maxPrefix a.plen (F.v a.addr) 1 := by
      rw [hint a ha, e0]
      have : 2 ^ 1 ≤ 2 ^ (F.maxPrefix - a.plen) := Nat.pow_le_pow_right (by decide) (by omega)
      omega
    exact ((hp.2 1).1 ⟨F.vp a, List.mem_map_of_mem ha, this⟩).2 h1o
  have hnot : ∀ a ∈ all.dropLast, ¬ InNet F.maxPrefix a.plen (F.v a.addr) 0 :=
    fun a ha h0 => hnot a ha (hzero a (List.dropLast_subset _ ha) h0)
  refine ⟨List.Pairwise.sublist (List.Sublist.map _ (List.dropLast_sublist _)) hp.1, fun t => ⟨?_, ?_⟩⟩
  · rintro ⟨a, ha, ht⟩
    obtain ⟨m, hm, rfl⟩ := List.mem_map.1 ha
    obtain ⟨g1, g2⟩ := (hp.2 t).1 ⟨F.vp m, List.mem_map_of_mem (List.dropLast_subset _ hm), ht⟩
    refine ⟨g1, g2, ?_⟩
    rintro ⟨_, _, _, rfl⟩
    exact hnot m hm ht
  · rintro ⟨g1, g2, g3⟩
    obtain ⟨a, ha, ht⟩ := (hp.2 t).2 ⟨g1, g2⟩
    obtain ⟨m, hm, rfl⟩ := List.mem_map.1 ha
    refine ⟨F.vp m, List.mem_map_of_mem ?_, ht⟩
    obtain ⟨z, hz, hz0⟩ : ∃ z ∈ all, InNet F.maxPrefix z.plen (F.v z.addr) 0 := by
      have : InNet F.maxPrefix n.plen (F.v n.addr) 0 := by
        rw [inNet_interval L n hn, h3]
        have := Nat.two_pow_pos (F.maxPrefix - n.plen)
        omega
      have ho0 : ¬ InNet F.maxPrefix o.plen (F.v o.addr) 0 := by rw [inNet_interval L o ho, h2]; omega
      obtain ⟨a, ha, h⟩ := (hp.2 0).2 ⟨this, ho0⟩
      obtain ⟨z, hz, rfl⟩ := List.mem_map.1 ha
      exact ⟨z, hz, h⟩
    have hne : all ≠ [] := List.ne_nil_of_mem hz
    have hsplit := List.dropLast_concat_getLast hne
    have hzl : z = all.getLast hne := by
      have : z ∈ all.dropLast ++ [all.getLast hne] := by rw [hsplit]; exact hz
      rcases List.mem_append.1 this with h | h
      · exact absurd hz0 (hnot z h)
      · simpa using h
    have : m ∈ all.dropLast ++ [all.getLast hne] := by rw [hsplit]; exact hm
    rcases List.mem_append.1 this with h | h
    · exact h
    · exfalso
      have hmz : m = z := by rw [hzl]; simpa using h
      subst hmz
      obtain ⟨e1, e2⟩ := hzero m hz hz0
      have ht : InNet F.maxPrefix m.plen (F.v m.addr) t := ht
      rw [hint m hm, e1, e2, Nat.sub_self] at ht
      exact g3 ⟨h1, h2, h3, by omega⟩

end

/-- A visited `ip_network` is not the end. -/
theorem anyExVisit_ne (c : Cfg) : ∀ (fuel : Nat) (x e : AnyEx) (l : List AnyNet), anyExVisit c fuel x e = .ok l →
    ∀ m ∈ l, anyNetEq c m e.cur = .ok false
  | 0, x, e, l, h => by cases h
  | fuel + 1, x, e, l, h => by
    unfold anyExVisit at h
    obtain ⟨b, hb, h⟩ := Res.bind_eq_ok.1 h
    split at h
    · cases h; simp
    · rename_i hf
      obtain ⟨y, _, h⟩ := Res.bind_eq_ok.1 h
      obtain ⟨r, hr, h⟩ := Res.bind_eq_ok.1 h
      cases h
      intro m hm
      rcases List.mem_cons.1 hm with rfl | hm
      · rw [← anyExEq, hb]; simpa using hf
      · exact anyExVisit_ne c fuel y e r hr m hm

/-- C49, `address_exclude` of IPv4 networks, all pairs: the loop ends; the networks visited are disjoint, and their union is
the set difference, but for address 0 if `0.0.0.1/32` is excluded from a network at 0. -/
theorem C49_exclude_v4_exact (c : Cfg) (hc : c.le = true) (n o : Net (List (BitVec 8))) (hn : NetOk4 n) (ho : NetOk4 o)
    (hsub : ∀ t, InNet 32 o.plen (beValue o.addr) t → InNet 32 n.plen (beValue n.addr) t) :
    ∃ s, ∃ l : List (Net (List (BitVec 8))), anyNetExclude c (.v4 n) (.v4 o) = .ok s ∧
      (∀ fuel, l.length + 1 < fuel → anyExVisit c fuel s.1 s.2 = .ok (l.map AnyNet.v4)) ∧ (∀ a ∈ l, NetOk4 a) ∧
      Partitions 32 (l.map fun m => (beValue m.addr, m.plen))
        (fun t => InNet 32 n.plen (beValue n.addr) t ∧ ¬ InNet 32 o.plen (beValue o.addr) t ∧
          ¬ Lost 32 o.plen (beValue o.addr) (beValue n.addr) t) := by
  obtain ⟨l, l1, l2⟩ := anyRemoveScope4 c hc n hn
  obtain ⟨r, r1, r2⟩ := anyRemoveScope4 c hc o ho
  obtain ⟨d, d1, d2⟩ := anyDefault_eq c hc
  have E := halvesEmb4 c hc
  have hE : ∀ p v m, IsNet (fam4 true) p v m → anyNetEq c (.v4 m) (.v4 d) = .ok (true && decide (v = 0 ∧ p = (fam4 true).maxPrefix)) := by
    intro p v m hm; rw [E.eq, netEq_isNet fam4Law hm d2, Bool.true_and]; rfl
  obtain ⟨_, g2⟩ := anyExclude_spec fam4Law (by decide) E n o hn ho l r l1 l2 r1 r2 (.v4 d) d1
    (by rw [E.eq, netEq_isNet fam4Law d2 d2]; simp) true hE rfl
  obtain ⟨s, all, k1, k2, k3, k4, k5⟩ := g2 hsub
  by_cases hcase : o.plen = 32 ∧ beValue o.addr = 1 ∧ beValue n.addr = 0
  · have hk : ∀ fuel, all.length < fuel → anyExVisit c fuel s.1 s.2 = .ok (all.dropLast.map AnyNet.v4) := by
      intro fuel hf
      have := k5 fuel hf
      rw [if_pos ⟨rfl, hcase⟩] at this
      exact this
    refine ⟨s, all.dropLast, k1, fun fuel hf => hk fuel (by rw [List.length_dropLast] at hf; omega),
      fun a ha => (k3 a (List.dropLast_subset _ ha)).1, ?_⟩
    apply lost_partition fam4Law n o hn ho hcase.1 hcase.2.1 hcase.2.2 all (fun a ha => (k3 a ha).1) k4
    rintro a ha ⟨e1, e2⟩
    have hne := anyExVisit_ne c _ _ _ _ (hk (all.length + 1) (by omega)) (.v4 a) (List.mem_map_of_mem ha)
    have hend : s.2.cur = .v4 d := by
      have hd : anyExDefault c = .ok ⟨.v4 d, .v4 d, .v4 d, .v4 d⟩ := by simp only [anyExDefault, d1, Res.ok_bind]
      have h : (do
        let lhs ← Fam.noexcept (anyNetRemoveScope c (.v4 n))
        let rhs ← Fam.noexcept (anyNetRemoveScope c (.v4 o))
        if !(← anyNetSubnetOf c rhs lhs) then .err .not_contained_network 0
        else if ← anyNetEq c lhs rhs then do
          let d ← anyExDefault c
          .ok (d, d)
        else Fam.noexcept (do
          let x ← anyExMk c lhs rhs
          let d ← anyExDefault c
          .ok (x, d)) : Res (AnyEx × AnyEx)) = .ok s := k1
      obtain ⟨l, _, h⟩ := Res.bind_eq_ok.1 h
      obtain ⟨r, _, h⟩ := Res.bind_eq_ok.1 h
      obtain ⟨b, _, h⟩ := Res.bind_eq_ok.1 h
      split at h
      · cases h
      · obtain ⟨e, _, h⟩ := Res.bind_eq_ok.1 h
        split at h
        · rw [hd] at h
          cases h
          rfl
        · unfold Fam.noexcept at h
          split at h
          · rename_i a ha
            cases h
            obtain ⟨x, _, ha⟩ := Res.bind_eq_ok.1 ha
            rw [hd] at ha
            cases ha
            rfl
          · cases h
    have ham := List.dropLast_subset _ ha
    rw [hend, hE _ _ _ ((k3 a ham).1.isNet fam4Law (k3 a ham).2), e1, e2] at hne
    simp at hne
  · refine ⟨s, all, k1, fun fuel hf => ?_, fun a ha => (k3 a ha).1, k4.1, fun t => ?_⟩
    · have := k5 fuel (by omega)
      rw [if_neg (fun h => hcase h.2)] at this
      exact this
    · refine (k4.2 t).trans ?_
      constructor
      · rintro ⟨g1, g2⟩
        exact ⟨g1, g2, fun g => hcase ⟨g.1, g.2.1, g.2.2.1⟩⟩
      · rintro ⟨g1, g2, _⟩
        exact ⟨g1, g2⟩

example := C49_exclude_v4_exact exCfg rfl ex16 ex17 ex16_ok ex17_ok ex17_in_ex16

/-! ### C56 -/

/-- C56, reverse network iterators, all positions: those behind address 0 come before all others, otherwise the order is
that of the positions.  The position `m` is `step * m` addresses below the one `rbegin()` is at; that product is computed
modulo the size of the address space. -/
theorem C56_reverse_networks_exact (c : Cfg) (hc : c.le = true) (ss : Bool) (p : Nat) :
    (∀ (step : BitVec 32) (x : NIter (List (BitVec 8)) (BitVec 32)) (m n : BitVec 32), 0 < step.toNat →
      step.toNat % 2 ^ (32 - p) = 0 → x.Ok (fam4 true) BitVec.toNat step p → x.it.carry = 0 →
      ∃ q y z r, (fam4 true).niOps.rMk x = .ok q ∧ (fam4 true).niOps.rAdd q m = .ok y ∧ (fam4 true).niOps.rAdd q n = .ok z ∧
        rCmpOps ss (fam4 true).niEq (fam4 true).niCmp (fam4 true).niLt y z = .ok r ∧
        Describes r
          (RevLt (beValue x.it.cur) (step.toNat * m.toNat % 2 ^ 32 + step.toNat - 1) (step.toNat * n.toNat % 2 ^ 32 + step.toNat - 1))
          (step.toNat * m.toNat % 2 ^ 32 = step.toNat * n.toNat % 2 ^ 32)
          (RevLt (beValue x.it.cur) (step.toNat * n.toNat % 2 ^ 32 + step.toNat - 1) (step.toNat * m.toNat % 2 ^ 32 + step.toNat - 1))) ∧
    (∀ (step : U128) (x : NIter V6 U128) (m n : U128), 0 < step.val → step.val % 2 ^ (128 - p) = 0 →
      x.Ok (fam6 c) U128.val step p → x.it.carry = 0 →
      ∃ q y z r, (fam6 c).niOps.rMk x = .ok q ∧ (fam6 c).niOps.rAdd q m = .ok y ∧ (fam6 c).niOps.rAdd q n = .ok z ∧
        rCmpOps ss (fam6 c).niEq (fam6 c).niCmp (fam6 c).niLt y z = .ok r ∧
        Describes r
          (RevLt (beValue x.it.cur.bytes) (step.val * m.val % 2 ^ 128 + step.val - 1) (step.val * n.val % 2 ^ 128 + step.val - 1))
          (step.val * m.val % 2 ^ 128 = step.val * n.val % 2 ^ 128)
          (RevLt (beValue x.it.cur.bytes) (step.val * n.val % 2 ^ 128 + step.val - 1) (step.val * m.val % 2 ^ 128 + step.val - 1))) := by
  have key : ∀ {A U : Type} {F : Fam A U} {WF : A → Prop} {val : U → Nat} (L : F.Law WF val) (step : U) (x : NIter A U) (m n : U),
      0 < val step → val step % 2 ^ (F.maxPrefix - p) = 0 → x.Ok F val step p → x.it.carry = 0 →
      ∃ q y z r, F.niOps.rMk x = .ok q ∧ F.niOps.rAdd q m = .ok y ∧ F.niOps.rAdd q n = .ok z ∧
        rCmpOps ss F.niEq F.niCmp F.niLt y z = .ok r ∧
        Describes r
          (RevLt (F.v x.it.cur) (val step * val m % 2 ^ F.maxPrefix + val step - 1) (val step * val n % 2 ^ F.maxPrefix + val step - 1))
          (val step * val m % 2 ^ F.maxPrefix = val step * val n % 2 ^ F.maxPrefix)
          (RevLt (F.v x.it.cur) (val step * val n % 2 ^ F.maxPrefix + val step - 1) (val step * val m % 2 ^ F.maxPrefix + val step - 1)) := by
    intro A U F WF val L step x m n hs ha hx h0
    have hp : NIter.pos F val x = _ := pos_carry0 L x.it hx.it h0
    have hv := L.v_lt _ (hx.it.cur.wf L)
    have hsl := L.ops.val_lt step
    have hm := Nat.mod_lt (val step * val m) (Nat.two_pow_pos F.maxPrefix)
    have hn := Nat.mod_lt (val step * val n) (Nat.two_pow_pos F.maxPrefix)
    have I := niLaw L step p ha
    obtain ⟨q, q1, q2, q3⟩ := I.reverse x hx
    obtain ⟨y, y1, y2, y3⟩ := I.sub q m q2
    obtain ⟨z, z1, z2, z3⟩ := I.sub q n q2
    obtain ⟨r, r1, r2⟩ := ni_describes L ss step p z y z2 y2
    obtain ⟨r', e1, e2⟩ := r_describes ss y z r1 r2
    refine ⟨⟨q⟩, ⟨y⟩, ⟨z⟩, r', by rw [IterOps.rMk, q1]; rfl, by rw [IterOps.rAdd, y1]; rfl, by rw [IterOps.rAdd, z1]; rfl, e1, ?_⟩
    generalize hW : 2 ^ F.maxPrefix = W at *
    generalize val step * val m % W = dm at *
    generalize val step * val n % W = dn at *
    generalize val step = S at *
    have md : ∀ k, k < W → ∀ t, t = (F.v x.it.cur + (2 * W - S)) % (2 * W) → (t + (2 * W - k)) % (2 * W) =
        if k + S ≤ F.v x.it.cur then F.v x.it.cur - S - k else 2 * W + F.v x.it.cur - S - k := by
      intro k hk t ht
      have e : t = if F.v x.it.cur < S then 2 * W + F.v x.it.cur - S else F.v x.it.cur - S := by
        rw [ht]
        split
        next h => rw [Nat.mod_eq_of_lt (by omega)]; omega
        next h => rw [show F.v x.it.cur + (2 * W - S) = F.v x.it.cur - S + 2 * W by omega, Nat.add_mod_right, Nat.mod_eq_of_lt (by omega)]
      rw [e]
      split
      · rw [if_neg (by omega)]
        rw [show 2 * W + F.v x.it.cur - S + (2 * W - k) = 2 * W + F.v x.it.cur - S - k + 2 * W by omega, Nat.add_mod_right,
          Nat.mod_eq_of_lt (by omega)]
      · split
        · rw [show F.v x.it.cur - S + (2 * W - k) = F.v x.it.cur - S - k + 2 * W by omega, Nat.add_mod_right, Nat.mod_eq_of_lt (by omega)]
        · rw [Nat.mod_eq_of_lt (by omega)]; omega
    rw [hp] at q3
    rw [md _ hm _ q3] at y3
    rw [md _ hn _ q3] at z3
    have f1 : z.pos F val < y.pos F val ↔ RevLt (F.v x.it.cur) (dm + S - 1) (dn + S - 1) := by
      rw [y3, z3]; unfold RevLt
      split <;> split <;> constructor <;> intro h <;> omega
    have f2 : z.pos F val = y.pos F val ↔ dm = dn := by
      rw [y3, z3]
      split <;> split <;> constructor <;> intro h <;> omega
    have f3 : y.pos F val < z.pos F val ↔ RevLt (F.v x.it.cur) (dn + S - 1) (dm + S - 1) := by
      rw [y3, z3]; unfold RevLt
      split <;> split <;> constructor <;> intro h <;> omega
    rw [f1, f2, f3] at e2
    exact e2
  exact ⟨fun step x m n h1 h2 h3 h4 => key fam4Law step x m n h1 h2 h3 h4,
    fun step x m n h1 h2 h3 h4 => key (fam6Law c hc) step x m n h1 h2 h3 h4⟩

example := C56_reverse_networks_exact exCfg rfl true 24

end Ip
