import Verif.Lemmas.NetSpec
import Verif.Lemmas.Hosts
import Verif.Lemmas.Subnets
import Verif.Lemmas.Exclude
/-
How the operations on networks fit together, for both address families.
-/
set_option autoImplicit false

namespace Ip
open Spec

variable {A U : Type} {F : Fam A U} {WF : A → Prop} {val : U → Nat}

/-- A network in the sense of the invariant whose address has no scope id. -/
structure Plain (F : Fam A U) (WF : A → Prop) (n : Net A) : Prop where
  ok : NetOk F WF n
  addr : ∃ x, n.addr = F.ofBytes x

/-- Networks without scope id are determined by the value of the address and the prefix length. -/
theorem Plain.ext (L : F.Law WF val) {n m : Net A} (hn : Plain F WF n) (hm : Plain F WF m)
    (hv : F.v n.addr = F.v m.addr) (hp : n.plen = m.plen) : n = m := by
  obtain ⟨x, hx⟩ := hn.addr
  obtain ⟨y, hy⟩ := hm.addr
  obtain ⟨p, p1, p2, p3⟩ := hn.ok.mask
  obtain ⟨q, q1, q2, q3⟩ := hm.ok.mask
  have lx := L.len _ hn.ok.wf
  have ly := L.len _ hm.ok.wf
  rw [hx, L.bytes_ofBytes] at lx
  rw [hy, L.bytes_ofBytes] at ly
  rw [hx, hy, L.v_ofBytes, L.v_ofBytes] at hv
  have e1 : x = y := beValue_inj x y (by omega) hv
  have e2 : p = q := beValue_inj p q (by omega) (by rw [p3, q3, hp])
  obtain ⟨na, nm, np⟩ := n
  obtain ⟨ma, mm, mp⟩ := m
  simp only at hx hy p1 q1 hp
  subst hx; subst hy; subst p1; subst q1; subst hp; subst e1; subst e2
  rfl

/-- The address of a network lies in the network. -/
theorem self_mem (L : F.Law WF val) (n : Net A) (hn : NetOk F WF n) :
    InNet F.maxPrefix n.plen (F.v n.addr) (F.v n.addr) := by
  rw [inNet_interval L n hn]
  have := Nat.two_pow_pos (F.maxPrefix - n.plen)
  omega

/-- A network of the same prefix length which shares an address is the same network. -/
theorem Plain.same (L : F.Law WF val) {n m : Net A} (hn : Plain F WF n) (hm : Plain F WF m) (hp : n.plen = m.plen) (x : Nat)
    (h1 : InNet F.maxPrefix n.plen (F.v n.addr) x) (h2 : InNet F.maxPrefix m.plen (F.v m.addr) x) : n = m := by
  refine hn.ext L hm ?_ hp
  rw [inNet_iff _ _ _ _ (L.v_lt _ hn.ok.wf)] at h1
  rw [inNet_iff _ _ _ _ (L.v_lt _ hm.ok.wf), ← hp] at h2
  have a1 : F.v n.addr % 2 ^ (F.maxPrefix - n.plen) = 0 := hn.ok.aligned
  have a2 : F.v m.addr % 2 ^ (F.maxPrefix - m.plen) = 0 := hm.ok.aligned
  rw [← hp] at a2
  have d1 := Nat.div_add_mod (F.v n.addr) (2 ^ (F.maxPrefix - n.plen))
  have d2 := Nat.div_add_mod (F.v m.addr) (2 ^ (F.maxPrefix - n.plen))
  rw [a1, ← h1.2] at d1
  rw [a2, ← h2.2] at d2
  omega

/-- `contains` and `from_address`: an address lies in a network exactly when the network of its prefix
length around the address is that network. -/
theorem law_from_address (L : F.Law WF val) (n : Net A) (hn : Plain F WF n) (a : A) (ha : WF a) (pa : ∃ x, a = F.ofBytes x) :
    ∃ r m, F.contains n a = .ok r ∧ F.fromAddress a n.plen false = .ok m ∧ Plain F WF m ∧ F.contains m a = .ok true ∧
      (r = true ↔ m = n) := by
  obtain ⟨r, b, h1, h2, h3, h4⟩ := contains_spec L n hn.ok a ha
  obtain ⟨-, m, m1, m2, -⟩ := fromAddress_spec L a ha n.plen hn.ok.plen
  obtain ⟨k1, k2, k3, k4⟩ := fromAddress_ok L a ha n.plen false m m1
  have pm : Plain F WF m := ⟨k1, by
    rcases k4 with k4 | k4
    · rw [k4]; exact pa
    · exact k4⟩
  have am : InNet F.maxPrefix m.plen (F.v m.addr) (F.v a) := by
    rw [inNet_iff _ _ _ _ (L.v_lt _ k1.wf), k3, k2, Nat.mul_div_cancel _ (Nat.two_pow_pos _)]
    exact ⟨L.v_lt _ ha, rfl⟩
  obtain ⟨s, _, s1, _, s2, _⟩ := contains_spec L m k1 a ha
  refine ⟨r, m, h1, m1, pm, by rw [s1, s2.mpr am], h3.trans ⟨fun h => pm.same L hn k2 _ am h, ?_⟩⟩
  rintro rfl
  exact am

/-- The network rebuilt from its own address, and from any address it contains. -/
theorem law_rebuild (L : F.Law WF val) (n : Net A) (hn : Plain F WF n) :
    F.fromAddress n.addr n.plen true = .ok n ∧
    (∀ a, WF a → (∃ x, a = F.ofBytes x) → F.contains n a = .ok true → F.fromAddress a n.plen false = .ok n) ∧
    ∃ b, F.broadcast n = .ok b ∧ F.contains n b = .ok true ∧ F.contains n n.addr = .ok true ∧
      F.fromAddress b n.plen false = .ok n := by
  have key : ∀ a, WF a → (∃ x, a = F.ofBytes x) → F.contains n a = .ok true → F.fromAddress a n.plen false = .ok n := by
    intro a ha pa hc
    obtain ⟨r, m, h1, h2, h3, h4, h5⟩ := law_from_address L n hn a ha pa
    rw [h1] at hc
    cases hc
    rw [h2, h5.mp rfl]
  obtain ⟨b, b1, b2, b3, b4, -⟩ := broadcast_spec L n hn.ok
  obtain ⟨r, _, r1, _, r2, _⟩ := contains_spec L n hn.ok b b2
  obtain ⟨s, _, s1, _, s2, _⟩ := contains_spec L n hn.ok n.addr hn.ok.wf
  have hb : F.contains n b = .ok true := by rw [r1, r2.mpr b4]
  refine ⟨?_, key, b, b1, hb, by rw [s1, s2.mpr (self_mem L n hn.ok)], key b b2 b3 hb⟩
  obtain ⟨m, b, h1, h2, h3, h4, h5⟩ := fromAddress_eq L n.addr hn.ok.wf n.plen hn.ok.plen true
  have al : F.v n.addr % 2 ^ (F.maxPrefix - n.plen) = 0 := hn.ok.aligned
  rw [if_pos al] at h5
  rw [h5]
  congr 1
  have ok := (fromAddress_ok L _ hn.ok.wf _ _ _ h5).1
  exact Plain.ext L ⟨ok, hn.addr⟩ hn rfl rfl

/-- `overlaps` is `subnet_of` one way or the other; both ways only for equal networks. -/
theorem law_overlaps (L : F.Law WF val) (n m : Net A) (hn : Plain F WF n) (hm : Plain F WF m) :
    ∃ s t, F.subnetOf n m = .ok s ∧ F.supernetOf n m = .ok t ∧ F.subnetOf m n = .ok t ∧
      F.overlaps n m = .ok (s || t) ∧ (s = true → m.plen ≤ n.plen) ∧
      ((s = true ∧ t = true) ↔ n = m) ∧ (s = true → n.plen = m.plen → n = m) := by
  obtain ⟨s, s1, -, s3⟩ := subnet_spec L n m hn.ok hm.ok hn.addr hm.addr
  obtain ⟨t, t1, t2, t3⟩ := subnet_spec L m n hm.ok hn.ok hm.addr hn.addr
  obtain ⟨r, r1, -, r3, r4⟩ := overlaps_spec L n m hn.ok hm.ok
  have e : r = (s || t) := by
    rw [Bool.eq_iff_iff, Bool.or_eq_true]
    constructor
    · intro h
      rcases r4 h with h | h
      · exact .inl (s3.mpr h)
      · exact .inr (t3.mpr h)
    · rintro (h | h)
      · exact r3.mpr ⟨_, self_mem L n hn.ok, s3.mp h _ (self_mem L n hn.ok)⟩
      · exact r3.mpr ⟨_, t3.mp h _ (self_mem L m hm.ok), self_mem L m hm.ok⟩
  have same : s = true → n.plen = m.plen → n = m := fun h hp =>
    hn.same L hm hp _ (self_mem L n hn.ok) (s3.mp h _ (self_mem L n hn.ok))
  refine ⟨s, t, s1, t2, t1, by rw [r1, e], ?_, ?_, same⟩
  · intro h
    have h2 := s3.mp h
    simp only [inNet_interval L n hn.ok, inNet_interval L m hm.ok] at h2
    have p1 := Nat.two_pow_pos (F.maxPrefix - n.plen)
    have a1 := h2 (F.v n.addr) ⟨by omega, by omega⟩
    have a2 := h2 (F.v n.addr + 2 ^ (F.maxPrefix - n.plen) - 1) ⟨by omega, by omega⟩
    have a3 : 2 ^ (F.maxPrefix - n.plen) ≤ 2 ^ (F.maxPrefix - m.plen) := by omega
    rw [Nat.pow_le_pow_iff_right (by decide)] at a3
    have := hn.ok.plen
    have := hm.ok.plen
    omega
  · constructor
    · rintro ⟨h1, h2⟩
      obtain ⟨e1, e2⟩ := net_ext L n m hn.ok hm.ok (fun x => ⟨s3.mp h1 x, t3.mp h2 x⟩)
      exact hn.ext L hm e1 e2
    · rintro rfl
      exact ⟨s3.mpr fun _ h => h, t3.mpr fun _ h => h⟩

/-- `supernet` gives a network without scope id. -/
theorem supernet_plain (L : F.Law WF val) (n : Net A) (hn : NetOk F WF n) (h0 : n.plen ≠ 0) (d : Nat) (hd : d ≤ n.plen)
    (hw : d < F.maxPrefix) :
    ∃ r, F.supernet n d none = .ok r ∧ Plain F WF r ∧ r.plen = n.plen - d ∧
      ∀ x, InNet F.maxPrefix n.plen (F.v n.addr) x → InNet F.maxPrefix r.plen (F.v r.addr) x := by
  obtain ⟨r, r1, -, r2, r3, r4, -⟩ := supernet_spec L n hn h0 d hd hw
  obtain ⟨a, m, s, u, q, h1, h2, h3, h4, h5, h6, h7, h8, h9⟩ := supernet_go L n hn d hd hw
  have e : F.supernet n d none = .ok q := by
    rw [Fam.supernet, if_neg h0]
    simp only
    rw [if_neg (by omega), h1, Res.ok_bind, h2, Res.ok_bind, h3, Res.ok_bind, h4, Res.ok_bind, h5]; rfl
  rw [r1] at e
  cases e
  exact ⟨r, r1, ⟨r2, h8⟩, r3, r4⟩

/-- The supernet contains the network, is the only such network of its prefix length, and taking
supernets twice is taking one of the sum of the differences. -/
theorem law_supernet (L : F.Law WF val) (n : Net A) (hn : Plain F WF n) (h0 : n.plen ≠ 0) (d : Nat) (hd : d ≤ n.plen)
    (hw : d < F.maxPrefix) :
    ∃ r, F.supernet n d none = .ok r ∧ Plain F WF r ∧ F.subnetOf n r = .ok true ∧
      (∀ m, Plain F WF m → (F.subnetOf n m = .ok true ∧ m.plen = n.plen - d ↔ m = r)) ∧
      ∀ e, d + e ≤ n.plen → d + e < F.maxPrefix → F.supernet r e none = F.supernet n (d + e) none := by
  obtain ⟨r, r1, r2, r3, r4⟩ := supernet_plain L n hn.ok h0 d hd hw
  have sub : ∀ m, Plain F WF m → (∀ x, InNet F.maxPrefix n.plen (F.v n.addr) x → InNet F.maxPrefix m.plen (F.v m.addr) x) →
      F.subnetOf n m = .ok true := by
    intro m hm h
    obtain ⟨s, s1, -, s2⟩ := subnet_spec L n m hn.ok hm.ok hn.addr hm.addr
    rw [s1, s2.mpr h]
  refine ⟨r, r1, r2, sub r r2 r4, ?_, ?_⟩
  · intro m hm
    constructor
    · rintro ⟨h1, h2⟩
      obtain ⟨s, s1, -, s2⟩ := subnet_spec L n m hn.ok hm.ok hn.addr hm.addr
      rw [s1] at h1
      cases h1
      exact hm.same L r2 (h2.trans r3.symm) _ (s2.mp rfl _ (self_mem L n hn.ok)) (r4 _ (self_mem L n hn.ok))
    · rintro rfl
      exact ⟨sub m r2 r4, r3⟩
  · intro e he hew
    obtain ⟨q, q1, q2, q3, q4⟩ := supernet_plain L n hn.ok h0 (d + e) he hew
    rw [q1]
    by_cases hr0 : r.plen = 0
    · rw [(supernet_errors L r r2.ok e none).1 hr0]
      congr 1
      exact r2.same L q2 (by omega) _ (r4 _ (self_mem L n hn.ok)) (q4 _ (self_mem L n hn.ok))
    · obtain ⟨t, t1, t2, t3, t4⟩ := supernet_plain L r r2.ok hr0 e (by omega) (by omega)
      rw [t1]
      congr 1
      exact t2.same L q2 (by omega) _ (t4 _ (r4 _ (self_mem L n hn.ok))) (q4 _ (self_mem L n hn.ok))

/-- Two networks of which one lies in the other share the network above both. -/
theorem supernet_of_sub (L : F.Law WF val) (n m : Net A) (hn : Plain F WF n) (hm : Plain F WF m) (d : Nat)
    (hp : m.plen = n.plen + d) (h0 : m.plen ≠ 0) (hd : d < F.maxPrefix)
    (hs : ∀ x, InNet F.maxPrefix m.plen (F.v m.addr) x → InNet F.maxPrefix n.plen (F.v n.addr) x) :
    F.supernet m d none = .ok n := by
  obtain ⟨r, r1, r2, r3, r4⟩ := supernet_plain L m hm.ok h0 d (by omega) hd
  rw [r1]
  congr 1
  exact r2.same L hn (by omega) _ (r4 _ (self_mem L m hm.ok)) (hs _ (self_mem L m hm.ok))

/-- The subnetworks of a network are the networks of their prefix length for which `subnet_of` holds; they
do not overlap; the supernet of each is the network; every address of the network is in one of them. -/
theorem law_subnets (L : F.Law WF val) (n : Net A) (hn : Plain F WF n) (d : Nat) (hw : F.maxPrefix < 2 ^ 64)
    (hd : n.plen + d ≤ F.maxPrefix) (hdw : d < F.maxPrefix) (h0 : n.plen + d ≠ 0) (hfit : SubnetsFit F n) :
    ∃ (s : SubnetsSeq A U) (l : List (Net A)), F.subnets n d none = .ok s ∧
      (∀ fuel, l.length < fuel → F.niOps.visit fuel s.first s.last = .ok l) ∧
      (∀ m, m ∈ l ↔ Plain F WF m ∧ m.plen = n.plen + d ∧ F.subnetOf m n = .ok true) ∧
      (∀ m ∈ l, F.supernet m d none = .ok n) ∧
      l.Pairwise (fun m k => F.overlaps m k = .ok false) ∧
      ∀ a, WF a → (F.contains n a = .ok true ↔ ∃ m ∈ l, F.contains m a = .ok true) := by
  obtain ⟨s, s1, -, l, r1, r2, l1, l2, l3, l4, -, -, l5, -⟩ := subnets_spec L n hn.ok d hw hd hdw h0 hfit
  have hin : ∀ m ∈ l, ∀ x, InNet F.maxPrefix m.plen (F.v m.addr) x → InNet F.maxPrefix n.plen (F.v n.addr) x := by
    intro m hm x hx
    exact (l4.2 x).mp ⟨F.vp m, List.mem_map.mpr ⟨m, hm, rfl⟩, hx⟩
  have hpl : ∀ m ∈ l, Plain F WF m := fun m hm => ⟨(l2 m hm).1, (l2 m hm).2.2⟩
  refine ⟨s, l, s1, fun fuel hf => (l5 fuel hf).1, ?_, ?_, ?_, ?_⟩
  · intro m
    constructor
    · intro hm
      obtain ⟨t, t1, -, t2⟩ := subnet_spec L m n (hpl m hm).ok hn.ok (hpl m hm).addr hn.addr
      exact ⟨hpl m hm, (l2 m hm).2.1, by rw [t1, t2.mpr (hin m hm)]⟩
    · rintro ⟨hm, hp, hs⟩
      obtain ⟨t, t1, -, t2⟩ := subnet_spec L m n hm.ok hn.ok hm.addr hn.addr
      rw [t1] at hs
      cases hs
      obtain ⟨p, hp', hx⟩ := (l4.2 _).mpr (t2.mp rfl _ (self_mem L m hm.ok))
      obtain ⟨k, hk, rfl⟩ := List.mem_map.mp hp'
      have e : m = k := hm.same L (hpl k hk) (by rw [hp, (l2 k hk).2.1]) _ (self_mem L m hm.ok) hx
      rw [e]; exact hk
  · intro m hm
    exact supernet_of_sub L n m hn (hpl m hm) d (l2 m hm).2.1 (by rw [(l2 m hm).2.1]; exact h0) hdw (hin m hm)
  · have h := l4.1
    rw [List.pairwise_map] at h
    refine List.Pairwise.imp_of_mem ?_ h
    intro m k hm hk hd
    obtain ⟨r, r1, -, r2, -⟩ := overlaps_spec L m k (hpl m hm).ok (hpl k hk).ok
    rw [r1]
    congr 1
    rw [Bool.eq_false_iff]
    intro hr
    obtain ⟨x, hx⟩ := r2.mp hr
    exact hd x hx
  · intro a ha
    obtain ⟨r, _, r1, _, r2, _⟩ := contains_spec L n hn.ok a ha
    have e : F.contains n a = .ok true ↔ InNet F.maxPrefix n.plen (F.v n.addr) (F.v a) := by
      rw [r1, ← r2]; exact ⟨fun h => by cases h; rfl, fun h => by rw [h]⟩
    rw [e, ← l4.2]
    constructor
    · rintro ⟨p, hp, hx⟩
      obtain ⟨m, hm, rfl⟩ := List.mem_map.mp hp
      obtain ⟨q, _, q1, _, q2, _⟩ := contains_spec L m (hpl m hm).ok a ha
      exact ⟨m, hm, by rw [q1, q2.mpr hx]⟩
    · rintro ⟨m, hm, hx⟩
      obtain ⟨q, _, q1, _, q2, _⟩ := contains_spec L m (hpl m hm).ok a ha
      rw [q1] at hx
      cases hx
      exact ⟨F.vp m, List.mem_map.mpr ⟨m, hm, rfl⟩, q2.mp rfl⟩

/-- Every host of a network is contained in it, and is neither its address nor, for IPv4, its broadcast
address, when it has more than two addresses. -/
theorem law_hosts (L : F.Law WF val) (n : Net A) (hn : NetOk F WF n) (hf : HostsFit F n) :
    ∃ (s : HostsSeq A U) (l : List A), F.hosts n = .ok s ∧
      (∀ fuel, l.length < fuel → F.aiOps.visit fuel s.first s.last = .ok l) ∧
      ∀ a, a ∈ l ↔ WF a ∧ (∃ x, a = F.ofBytes x) ∧ F.contains n a = .ok true ∧
        (n.plen + 1 < F.maxPrefix → F.v a ≠ F.v n.addr ∧
          (F.isV6 = false → ∀ b, F.broadcast n = .ok b → F.v a ≠ F.v b)) := by
  obtain ⟨s, s1, l, r1, r2, l1, l2, -, -, l3, -⟩ := hosts_spec L n hn hf
  refine ⟨s, l, s1, fun fuel h => (l3 fuel h).1, ?_⟩
  have key : ∀ a, WF a → (IsHost F.maxPrefix n.plen (F.v n.addr) F.isV6 (F.v a) ↔ F.contains n a = .ok true ∧
      (n.plen + 1 < F.maxPrefix → F.v a ≠ F.v n.addr ∧ (F.isV6 = false → ∀ b, F.broadcast n = .ok b → F.v a ≠ F.v b))) := by
    intro a ha
    obtain ⟨b, b1, b2, b3⟩ := broadcast_eq L n hn
    have hpos := Nat.two_pow_pos (F.maxPrefix - n.plen)
    have hb : (∀ b, F.broadcast n = .ok b → F.v a ≠ F.v b) ↔
        F.v a ≠ F.v n.addr + 2 ^ (F.maxPrefix - n.plen) - 1 := by
      rw [b1, ← b3, ← L.v_ofBytes]
      exact ⟨fun h => h _ rfl, fun h x hx => by cases hx; exact h⟩
    rw [contains_iff L n hn a ha, hb]
    unfold IsHost
    simp only [inNet_interval L n hn, Res.ok.injEq, decide_eq_true_iff]
    have e1 : (∃ y, (F.v n.addr ≤ y ∧ y < F.v n.addr + 2 ^ (F.maxPrefix - n.plen)) ∧ y < F.v a) ↔ F.v n.addr < F.v a :=
      ⟨fun ⟨y, h1, h2⟩ => by omega, fun h => ⟨F.v n.addr, by omega, h⟩⟩
    have e2 : F.v a < F.v n.addr + 2 ^ (F.maxPrefix - n.plen) →
        ((∃ y, (F.v n.addr ≤ y ∧ y < F.v n.addr + 2 ^ (F.maxPrefix - n.plen)) ∧ F.v a < y) ↔
        F.v a ≠ F.v n.addr + 2 ^ (F.maxPrefix - n.plen) - 1) := by
      intro h
      clear e1 hb
      refine ⟨fun ⟨y, h1, h2⟩ => by omega, fun h' => ⟨F.v n.addr + 2 ^ (F.maxPrefix - n.plen) - 1, ⟨?_, ?_⟩, ?_⟩⟩ <;> omega
    rw [e1]
    refine and_congr_right fun h => ?_
    rw [e2 h.2]
    clear e1 e2 hb
    by_cases hp : n.plen + 1 < F.maxPrefix
    · have hq : ¬ F.maxPrefix ≤ n.plen + 1 := by omega
      simp only [hp, hq, false_or, true_implies]
      cases F.isV6
      · simp only [Bool.false_eq_true, false_or, true_implies]
        exact and_congr_left fun _ => ⟨fun h => by omega, fun h => by omega⟩
      · simp only [true_or, Bool.true_eq_false, false_implies, and_true]
        exact ⟨fun h => by omega, fun h => by omega⟩
    · have hq : F.maxPrefix ≤ n.plen + 1 := by omega
      simp only [hp, hq, true_or, false_implies]
  have inj : ∀ a b, WF a → WF b → (∃ x, a = F.ofBytes x) → (∃ x, b = F.ofBytes x) → F.v a = F.v b → a = b := by
    rintro a b ha hb ⟨x, rfl⟩ ⟨y, rfl⟩ h
    have lx := L.len _ ha
    have ly := L.len _ hb
    rw [L.bytes_ofBytes] at lx ly
    rw [L.v_ofBytes, L.v_ofBytes] at h
    rw [beValue_inj x y (by omega) h]
  have hwf : ∀ a ∈ l, WF a ∧ ∃ x, a = F.ofBytes x := by
    intro a ha
    obtain ⟨b, rfl, hb⟩ := l2 a ha
    exact ⟨L.wf_ofBytes b hb, b, rfl⟩
  intro a
  constructor
  · intro ha
    obtain ⟨h1, h2⟩ := hwf a ha
    exact ⟨h1, h2, (key a h1).mp ((l1.2 _).mp (List.mem_map.mpr ⟨a, ha, rfl⟩))⟩
  · rintro ⟨h1, h2, h3⟩
    obtain ⟨b, hb, e⟩ := List.mem_map.mp ((l1.2 _).mpr ((key a h1).mpr h3))
    obtain ⟨k1, k2⟩ := hwf b hb
    rw [← inj b a k1 h1 k2 h2 e]
    exact hb

/-- The networks left by `address_exclude` lie in the network, do not overlap the excluded one or each other,
and contain every other address of the network. -/
theorem law_exclude (L : F.Law WF val) (hw : F.maxPrefix < 2 ^ 64) (h4 : F.isV6 = false → ∀ a : A, ∃ x, a = F.ofBytes x)
    (n o : Net A) (hn : Plain F WF n) (ho : Plain F WF o) (hsub : F.subnetOf o n = .ok true)
    (hex : ¬ (o.plen = F.maxPrefix ∧ F.v o.addr = 1 ∧ F.v n.addr = 0)) :
    ∃ (s : ExSeq A) (l : List (Net A)), F.addressExclude n o = .ok s ∧
      (∀ fuel, l.length < fuel → F.exVisit fuel s.first s.last = .ok l) ∧
      (∀ m ∈ l, Plain F WF m ∧ F.subnetOf m n = .ok true ∧ F.overlaps m o = .ok false) ∧
      l.Pairwise (fun m k => F.overlaps m k = .ok false) ∧
      ∀ a, WF a → F.contains n a = .ok true → (F.contains o a = .ok false ↔ ∃ m ∈ l, F.contains m a = .ok true) := by
  obtain ⟨t, t1, -, t2⟩ := subnet_spec L o n ho.ok hn.ok ho.addr hn.addr
  rw [t1] at hsub
  cases hsub
  obtain ⟨s, l, s1, -, l2, l3, l4⟩ := addressExclude_spec L hw h4 n o hn.ok ho.ok (t2.mp rfl)
  have hpl : ∀ m ∈ l, Plain F WF m := fun m hm => ⟨(l2 m hm).1, (l2 m hm).2⟩
  have hin : ∀ m ∈ l, ∀ x, InNet F.maxPrefix m.plen (F.v m.addr) x →
      InNet F.maxPrefix n.plen (F.v n.addr) x ∧ ¬ InNet F.maxPrefix o.plen (F.v o.addr) x := by
    intro m hm x hx
    exact (l3.2 x).mp ⟨F.vp m, List.mem_map.mpr ⟨m, hm, rfl⟩, hx⟩
  have hov : ∀ m k, Plain F WF m → Plain F WF k →
      (∀ x, ¬ (InNet F.maxPrefix m.plen (F.v m.addr) x ∧ InNet F.maxPrefix k.plen (F.v k.addr) x)) →
      F.overlaps m k = .ok false := by
    intro m k hm hk hd
    obtain ⟨r, r1, -, r2, -⟩ := overlaps_spec L m k hm.ok hk.ok
    rw [r1]
    congr 1
    rw [Bool.eq_false_iff]
    intro hr
    obtain ⟨x, hx⟩ := r2.mp hr
    exact hd x hx
  refine ⟨s, l, s1, fun fuel hf => by rw [l4 fuel hf, if_neg hex], ?_, ?_, ?_⟩
  · intro m hm
    obtain ⟨q, q1, -, q2⟩ := subnet_spec L m n (hpl m hm).ok hn.ok (hpl m hm).addr hn.addr
    refine ⟨hpl m hm, by rw [q1, q2.mpr fun x hx => (hin m hm x hx).1], hov m o (hpl m hm) ho ?_⟩
    rintro x ⟨h1, h2⟩
    exact (hin m hm x h1).2 h2
  · have h := l3.1
    rw [List.pairwise_map] at h
    refine List.Pairwise.imp_of_mem ?_ h
    intro m k hm hk hd
    exact hov m k (hpl m hm) (hpl k hk) hd
  · intro a ha hc
    obtain ⟨r, _, r1, _, r2, _⟩ := contains_spec L n hn.ok a ha
    rw [r1] at hc
    cases hc
    have hna := r2.mp rfl
    obtain ⟨q, _, q1, _, q2, _⟩ := contains_spec L o ho.ok a ha
    have e : F.contains o a = .ok false ↔ ¬ InNet F.maxPrefix o.plen (F.v o.addr) (F.v a) := by
      rw [q1, ← q2, Bool.not_eq_true]; exact ⟨fun h => by cases h; rfl, fun h => by rw [h]⟩
    rw [e]
    constructor
    · intro h
      obtain ⟨p, hp, hx⟩ := (l3.2 _).mpr ⟨hna, h⟩
      obtain ⟨m, hm, rfl⟩ := List.mem_map.mp hp
      obtain ⟨k, _, k1, _, k2, _⟩ := contains_spec L m (hpl m hm).ok a ha
      exact ⟨m, hm, by rw [k1, k2.mpr hx]⟩
    · rintro ⟨m, hm, hx⟩
      obtain ⟨k, _, k1, _, k2, _⟩ := contains_spec L m (hpl m hm).ok a ha
      rw [k1] at hx
      cases hx
      exact (hin m hm _ (k2.mp rfl)).2

end Ip
