import Verif.Props.AnyNet
/-
Sequences of version agnostic networks (C49), and `ip_network` for C50 and C51.  Little endian hosts.
-/
set_option autoImplicit false

namespace Ip
open Spec

/-! ### `hosts` -/

/-- C49 (partial), `hosts()` of an IPv4 network held in an `ip_network`: the loops over the sequence and over
the reversed sequence end and visit exactly the usable hosts in increasing and decreasing order;
indexing, `empty()`, `front()`, `back()` agree (`GoodAny`), and `size()` is the number of elements.
Missing: `255.255.255.254/31`, see `C49_hosts_v4_wraps`. -/
theorem C49_hosts_v4_partial (c : Cfg) (hc : c.le = true) (n : Net (List (BitVec 8))) (hn : NetOk4 n)
    (hf : ¬ (n.plen = 31 ∧ beValue n.addr = 2 ^ 32 - 2)) :
    ∃ s, ∃ l : List (List (BitVec 8)), ∃ k, anyNetHosts c (.v4 n) = .ok s ∧ GoodAny (anyHostsOps c) s (l.map AnyAddr.v4) ∧
      (anyHostsOps c).seqSize s = .ok k ∧ k.val = l.length ∧
      Lists (l.map beValue) (IsHost 32 n.plen (beValue n.addr) false) := by
  obtain ⟨s, h1, l, r1, r2, g1, g2, g3, g4, g5, g6, g7, g8, g9, g10, g11⟩ := C31_hosts_v4_partial n hn hf
  obtain ⟨le, spaces, M, ss, val, conv⟩ := c
  cases hc
  have hk : ((fam4 true).hostsSize s).toNat = l.length := g6
  refine ⟨_, l, U128.ofU64 (((fam4 true).hostsSize s).setWidth 64), by simp only [anyNetHosts, h1, Res.ok_bind],
    goodAny4 (anyHosts_std _) s.first s.last l r1 r2 g3 g4 g5 g7 (by rw [← hk]; exact BitVec.isLt _) g8 g9 g10 g11, rfl, ?_, g1⟩
  rw [ofU64_val32, hk]

example := C49_hosts_v4_partial exCfg rfl ex16 ex16_ok (by decide)

/-- C49 (partial), `hosts()` of an IPv6 network held in an `ip_network`.  Missing: networks of more than one
address that contain the largest address, see `C49_hosts_v6_wraps`. -/
theorem C49_hosts_v6_partial (c : Cfg) (hc : c.le = true) (n : Net V6) (hn : NetOk6 c n)
    (hf : n.plen = 128 ∨ ¬ InNet 128 n.plen (beValue n.addr.bytes) (2 ^ 128 - 1)) :
    ∃ s, ∃ l : List V6, ∃ k, anyNetHosts c (.v6 n) = .ok s ∧ GoodAny (anyHostsOps c) s (l.map AnyAddr.v6) ∧
      (anyHostsOps c).seqSize s = .ok k ∧ k.val = l.length ∧
      Lists (l.map fun a => beValue a.bytes) (IsHost 128 n.plen (beValue n.addr.bytes) true) := by
  obtain ⟨s, h1, l, r1, r2, g1, g2, g3, g4, g5, g6, g7, g8, g9, g10, g11⟩ := C31_hosts_v6_partial c hc n hn hf
  exact ⟨_, l, (fam6 c).hostsSize s, by simp only [anyNetHosts, h1, Res.ok_bind],
    goodAny6 (anyHosts_std _) s.first s.last l r1 r2 g3 g4 g5 g7 g8 g9 g10 g11, rfl, g6, g1⟩

example := C49_hosts_v6_partial exCfg rfl ex32 ex32_ok ex32_below

/-- C49, negation: the loop over the hosts of `255.255.255.254/31` visits more than `2^32` addresses, and
every address. -/
theorem C49_hosts_v4_wraps (c : Cfg) (hc : c.le = true) :
    ∃ s, ∃ l : List (List (BitVec 8)), anyNetHosts c (.v4 exTop31) = .ok s ∧
      (∀ fuel, l.length < fuel → (anyHostsOps c).ops.visit fuel s.first s.last = .ok (l.map AnyAddr.v4)) ∧
      2 ^ 32 < l.length ∧ ∀ v, v < 2 ^ 32 → ∃ a ∈ l, beValue a = v := by
  obtain ⟨s, l, h1, h2, h3, h4⟩ := C31_hosts_v4_wraps
  generalize exTop31 = n at h1
  refine ⟨⟨(anyHostsOps c).mk4 s.first, (anyHostsOps c).mk4 s.last⟩, l, by simp only [anyNetHosts, hc, h1, Res.ok_bind], fun fuel hl => ?_, h3, h4⟩
  clear h3 h4
  have h2 := h2 fuel hl
  clear hl
  obtain ⟨le, spaces, M, ss, val, conv⟩ := c
  cases hc
  exact visit4 (anyHosts_std _) fuel s.first s.last l h2

example := C49_hosts_v4_wraps exCfg rfl

/-- C49, negation: in every IPv6 network with more than one address that contains the largest address the
loop over `hosts()` visits more than `2^128` addresses, and every address. -/
theorem C49_hosts_v6_wraps (c : Cfg) (hc : c.le = true) (n : Net V6) (hn : NetOk6 c n) (h1 : n.plen ≠ 128)
    (hf : InNet 128 n.plen (beValue n.addr.bytes) (2 ^ 128 - 1)) :
    ∃ s, ∃ l : List V6, anyNetHosts c (.v6 n) = .ok s ∧
      (∀ fuel, l.length < fuel → (anyHostsOps c).ops.visit fuel s.first s.last = .ok (l.map AnyAddr.v6)) ∧
      2 ^ 128 < l.length ∧ ∀ v, v < 2 ^ 128 → ∃ a ∈ l, beValue a.bytes = v := by
  obtain ⟨s, l, k1, k2, k3, k4⟩ := C31_hosts_v6_wraps c hc n hn h1 hf
  exact ⟨⟨(anyHostsOps c).mk6 s.first, (anyHostsOps c).mk6 s.last⟩, l, by simp only [anyNetHosts, k1, Res.ok_bind], fun fuel hl => visit6 (anyHosts_std _) _ _ _ _ (k2 fuel hl), k3, k4⟩

example : (anyNetHosts exCfg (.v4 ⟨[192, 168, 0, 0], [255, 255, 255, 252], 30⟩) >>= fun s =>
    (anyHostsOps exCfg).ops.visit 9 s.first s.last) = .ok [.v4 [192, 168, 0, 1], .v4 [192, 168, 0, 2]] := by decide +kernel

/-! ### `subnets` -/

/-- C49 (partial), `subnets` of an IPv4 network held in an `ip_network`, for the arguments of
`C32_subnets_v4_partial`; `size()` is the number of elements unless the prefix length is 0, where it is 0. -/
theorem C49_subnets_v4_partial (c : Cfg) (hc : c.le = true) (n : Net (List (BitVec 8))) (hn : NetOk4 n) (d : Nat)
    (hd : n.plen + d ≤ 32) (hd32 : d < 32) (h0 : n.plen + d ≠ 0)
    (hfit : n.plen = 0 ∨ n.plen = 32 ∨ beValue n.addr + 2 ^ (32 - n.plen) < 2 ^ 32) :
    ∃ s, ∃ l : List (Net (List (BitVec 8))), ∃ k, anyNetSubnets c (.v4 n) d none = .ok s ∧ anyNetSubnets c (.v4 n) 1 (some (n.plen + d)) = .ok s ∧
      GoodAny (anySubnetsOps c) s (l.map AnyNet.v4) ∧ (anySubnetsOps c).seqSize s = .ok k ∧
      (k.val = if n.plen = 0 then 0 else l.length) ∧ l.length = 2 ^ d ∧
      (∀ m ∈ l, NetOk4 m ∧ m.plen = n.plen + d) ∧
      Increasing 32 (l.map fun m => (beValue m.addr, m.plen)) ∧
      Partitions 32 (l.map fun m => (beValue m.addr, m.plen)) (InNet 32 n.plen (beValue n.addr)) := by
  obtain ⟨s, h1, h2, l, r1, r2, g0, g1, g2, g3, g4, g5, g6, g7, g8, g9, g10, g11, g12⟩ :=
    C32_subnets_v4_partial n hn d hd hd32 h0 hfit
  obtain ⟨k, k1, k2⟩ := subnets_uintDiff fam4Law n hn d (by decide) hd hd32 h0 s h1
  obtain ⟨le, spaces, M, ss, val, conv⟩ := c
  cases hc
  refine ⟨_, l, U128.ofU64 (k.setWidth 64), by simp only [anyNetSubnets, h1, Res.ok_bind],
    by simp only [anyNetSubnets, h2, Res.ok_bind], goodAny4 (anySubnets_std _) s.first s.last l r1 r2 g4 g5 g6 g8 ?_ g9 g10 g11 g12,
    ?_, ?_, g0, fun m hm => ⟨(g1 m hm).1, (g1 m hm).2.1⟩, g2, g3⟩
  · rw [g0]; exact Nat.pow_lt_pow_right (by decide) hd32
  · show ((fam4 true).niUintDiff s.last s.first >>= _) = _
    rw [k1]; rfl
  · rw [ofU64_val32, k2, g0]

example := C49_subnets_v4_partial exCfg rfl ex16 ex16_ok 3 (by decide) (by decide) (by decide) (by decide)

/-- C49 (partial), `subnets` of an IPv6 network held in an `ip_network`. -/
theorem C49_subnets_v6_partial (c : Cfg) (hc : c.le = true) (n : Net V6) (hn : NetOk6 c n) (d : Nat)
    (hd : n.plen + d ≤ 128) (hd128 : d < 128) (h0 : n.plen + d ≠ 0)
    (hfit : n.plen = 0 ∨ n.plen = 128 ∨ beValue n.addr.bytes + 2 ^ (128 - n.plen) < 2 ^ 128) :
    ∃ s, ∃ l : List (Net V6), ∃ k, anyNetSubnets c (.v6 n) d none = .ok s ∧ anyNetSubnets c (.v6 n) 1 (some (n.plen + d)) = .ok s ∧
      GoodAny (anySubnetsOps c) s (l.map AnyNet.v6) ∧ (anySubnetsOps c).seqSize s = .ok k ∧
      (k.val = if n.plen = 0 then 0 else l.length) ∧ l.length = 2 ^ d ∧
      (∀ m ∈ l, NetOk6 c m ∧ m.plen = n.plen + d) ∧
      Increasing 128 (l.map fun m => (beValue m.addr.bytes, m.plen)) ∧
      Partitions 128 (l.map fun m => (beValue m.addr.bytes, m.plen)) (InNet 128 n.plen (beValue n.addr.bytes)) := by
  obtain ⟨s, h1, h2, l, r1, r2, g0, g1, g2, g3, g4, g5, g6, g7, g8, g9, g10, g11, g12⟩ :=
    C32_subnets_v6_partial c hc n hn d hd hd128 h0 hfit
  obtain ⟨k, k1, k2⟩ := subnets_uintDiff (fam6Law c hc) n hn d (by show 128 < 2 ^ 64; decide) hd hd128 h0 s h1
  refine ⟨_, l, k, by simp only [anyNetSubnets, h1, Res.ok_bind],
    by simp only [anyNetSubnets, h2, Res.ok_bind], goodAny6 (anySubnets_std _) s.first s.last l r1 r2 g4 g5 g6 g8 g9 g10 g11 g12,
    ?_, ?_, g0, fun m hm => ⟨(g1 m hm).1, (g1 m hm).2.1⟩, g2, g3⟩
  · show (fam6 c).niUintDiff s.last s.first = _
    exact k1
  · rw [k2, g0]

example := C49_subnets_v6_partial exCfg rfl ex32 ex32_ok 70 (by decide) (by decide) (by decide) (by decide +kernel)

/-- C49, negation: `size()` of the subnetworks of a network of prefix length 0 is 0, although the loop visits
`2^d` networks and `size()` of the sequence of `ipv4_network` is `2^d`. -/
theorem C49_subnets_size_wraps (c : Cfg) (hc : c.le = true) (n : Net (List (BitVec 8))) (hn : NetOk4 n) (h0 : n.plen = 0) (d : Nat)
    (h1 : 0 < d) (h2 : d < 32) :
    ∃ s l k s', anyNetSubnets c (.v4 n) d none = .ok s ∧ l.length = 2 ^ d ∧
      (∀ fuel, l.length < fuel → (anySubnetsOps c).ops.visit fuel s.first s.last = .ok l) ∧
      (anySubnetsOps c).seqSize s = .ok k ∧ k.val = 0 ∧ (fam4 true).subnets n d none = .ok s' ∧ s'.size.toNat = 2 ^ d := by
  obtain ⟨s, l, k, g1, g2, ⟨r1, r2, _, _, g3, _⟩, g4, g5, g6, _⟩ :=
    C49_subnets_v4_partial c hc n hn d (by omega) h2 (by omega) (.inl h0)
  obtain ⟨s', k1, k2, l', r1', r2', m0, m1, m2, m3, m4, m5, m6, m7, _⟩ := C32_subnets_v4_partial n hn d (by omega) h2 (by omega) (.inl h0)
  have m7 : s'.size.toNat = l'.length := m7
  exact ⟨s, l.map AnyNet.v4, k, s', g1, by rw [List.length_map, g6], fun fuel hf => (g3 fuel hf).1, g4, by rw [g5, if_pos h0], k1, by rw [m7, m0]⟩

example := C49_subnets_size_wraps exCfg rfl exAll4 exAll4_ok rfl 5 (by decide) (by decide)

/-- C49: the error codes of `subnets` are those of the wrapped network. -/
theorem C49_subnets_errors (c : Cfg) (hc : c.le = true) (diff : Nat) (newp : Option Nat) (e : ErrorCode) (v : Nat) :
    (∀ n, anyNetSubnets c (.v4 n) diff newp = .err e v ↔ (fam4 true).subnets n diff newp = .err e v) ∧
    (∀ n, anyNetSubnets c (.v6 n) diff newp = .err e v ↔ (fam6 c).subnets n diff newp = .err e v) := by
  constructor
  · intro n
    simp only [anyNetSubnets, hc]
    cases (fam4 true).subnets n diff newp <;> simp
  · intro n
    simp only [anyNetSubnets]
    cases (fam6 c).subnets n diff newp <;> simp

example := C49_subnets_errors exCfg rfl 2 (some 20) .cannot_set_prefixlen_diff_and_new_prefix 0

/-- C49, negation: after an error of `subnets` (here: 17 bits more for a /16) the returned sequence is empty,
but its `size()` divides by zero. -/
theorem C49_subnets_error_size :
    ∃ s, anyNetSubnetsCode exCfg (.v4 ex16) 17 none = .ok (s, some .invalid_prefixlen_diff) ∧
      (anySubnetsOps exCfg).seqEmpty s = .ok true ∧ (anySubnetsOps exCfg).seqSize s = .ub := by
  have h : (anyNetSubnetsCode exCfg (.v4 ex16) 17 none >>= fun r => .ok (decide (r.2 = some .invalid_prefixlen_diff ∧
      (anySubnetsOps exCfg).seqEmpty r.1 = .ok true ∧ (anySubnetsOps exCfg).seqSize r.1 = .ub))) = .ok true := by decide +kernel
  obtain ⟨⟨s, e⟩, h1, h2⟩ := Res.bind_eq_ok.1 h
  simp only [Res.ok.injEq, decide_eq_true_eq] at h2
  obtain ⟨rfl, h3, h4⟩ := h2
  exact ⟨s, h1, h3, h4⟩

theorem niDefault_refl {A U : Type} {F : Fam A U} {WF : A → Prop} {val : U → Nat} (L : F.Law WF val) :
    ∃ d, F.niDefault = .ok d ∧ F.niEq d d = .ok true ∧ d.step = F.ops.ofI64 0#64 := by
  obtain ⟨n, h1, h2⟩ := default_isNet L
  refine ⟨⟨n, ⟨F.zero, F.ops.ofI64 0#64, 0⟩, F.ops.ofI64 0#64, 0⟩, ?_, ?_, rfl⟩
  · simp only [Fam.niDefault, h1, Res.ok_bind]
  · simp only [Fam.niEq, if_true]
    rw [netEq_isNet L h2 h2]
    simp

/-- C49: after an error of `subnets` with `error_code` the code is that of the error and the returned sequence is
empty, with iterators of the version of the network: the loop over it visits nothing.  Its `size()` is zero for an
IPv6 network and divides by zero for an IPv4 network. -/
theorem C49_subnets_error_sequence (c : Cfg) (hc : c.le = true) (n : AnyNet) (diff : Nat) (newp : Option Nat)
    (e : ErrorCode) (v : Nat) (h : anyNetSubnets c n diff newp = .err e v) :
    ∃ s, anyNetSubnetsCode c n diff newp = .ok (s, some e) ∧ (anySubnetsOps c).seqEmpty s = .ok true ∧
      (∀ fuel, (anySubnetsOps c).ops.visit (fuel + 1) s.first s.last = .ok []) ∧
      (∀ m, n = .v4 m → (∃ x y, s.first = .v4 x y) ∧ (∃ x y, s.last = .v4 x y) ∧ (anySubnetsOps c).seqSize s = .ub) ∧
      (∀ m, n = .v6 m → (∃ x y, s.first = .v6 x y) ∧ (∃ x y, s.last = .v6 x y) ∧
        ∃ k, (anySubnetsOps c).seqSize s = .ok k ∧ k.val = 0) := by
  cases n with
  | v4 m =>
    obtain ⟨d, h1, h2, h3⟩ := niDefault_refl fam4Law
    have e4 : (anySubnetsOps c).eq ((anySubnetsOps c).mk4 d) ((anySubnetsOps c).mk4 d) = .ok true := by
      show (fam4 c.le).niEq d d = _
      rw [hc, h2]
    refine ⟨⟨(anySubnetsOps c).mk4 d, (anySubnetsOps c).mk4 d⟩, ?_, e4, fun fuel => ?_, fun _ _ => ⟨⟨_, _, rfl⟩, ⟨_, _, rfl⟩, ?_⟩,
      fun _ hm => (by cases hm)⟩
    · simp only [anyNetSubnetsCode, h, hc, h1, Res.ok_bind]
    · show (((anySubnetsOps c).eq ((anySubnetsOps c).mk4 d) ((anySubnetsOps c).mk4 d)) >>= fun r => _) = _
      rw [e4]
      rfl
    · show ((fam4 c.le).niUintDiff d d >>= fun r => _) = _
      rw [hc]
      simp only [Fam.niUintDiff, h3]
      rfl
  | v6 m =>
    obtain ⟨d, h1, h2, h3⟩ := niDefault_refl (fam6Law c hc)
    have e4 : (anySubnetsOps c).eq ((anySubnetsOps c).mk6 d) ((anySubnetsOps c).mk6 d) = .ok true := h2
    refine ⟨⟨(anySubnetsOps c).mk6 d, (anySubnetsOps c).mk6 d⟩, ?_, e4, fun fuel => ?_, fun _ hm => (by cases hm),
      fun _ _ => ⟨⟨_, _, rfl⟩, ⟨_, _, rfl⟩, ⟨0, 0⟩, ?_, rfl⟩⟩
    · simp only [anyNetSubnetsCode, h, h1, Res.ok_bind]
    · show (((anySubnetsOps c).eq ((anySubnetsOps c).mk6 d) ((anySubnetsOps c).mk6 d)) >>= fun r => _) = _
      rw [e4]
      rfl
    · show (fam6 c).niUintDiff d d = _
      simp only [Fam.niUintDiff, h3]
      rfl

example := C49_subnets_error_sequence exCfg rfl (.v6 ex32) 97 none .invalid_prefixlen_diff 0 (by decide +kernel)
example := C49_subnets_error_sequence exCfg rfl (.v4 ex16) 1 (some 8) .new_prefix_must_be_longer 0 (by decide +kernel)

example : (anyNetSubnets exCfg (.v4 ex16) 1 none >>= fun s => (anySubnetsOps exCfg).ops.visit 9 s.first s.last) =
    .ok [.v4 ⟨[192, 168, 0, 0], [255, 255, 128, 0], 17⟩, .v4 ex17] := by decide +kernel
example : NetOk4 exAll4 ∧ exAll4.plen = 0 := ⟨exAll4_ok, rfl⟩

/-! ### `address_exclude` -/

theorem halvesEmb4 (c : Cfg) (hc : c.le = true) : AnyEmb (fam4 true) c AnyNet.v4 := by
  refine ⟨fun a b => by simp only [anyNetEq, hc], fun a b => by simp only [anyNetSubnetOf, hc], fun n a b h => ?_⟩
  unfold Fam.halves at h
  obtain ⟨s, h1, h⟩ := Res.bind_eq_ok.1 h
  obtain ⟨x, h2, h⟩ := Res.bind_eq_ok.1 h
  obtain ⟨y, h3, h⟩ := Res.bind_eq_ok.1 h
  cases h
  obtain ⟨p, h4, h5⟩ := Res.bind_eq_ok.1 h2
  obtain ⟨q, h6, h7⟩ := Res.bind_eq_ok.1 h3
  cases h5; cases h7
  obtain ⟨le, spaces, M, ss, val, conv⟩ := c
  cases hc
  unfold anyHalves
  simp only [anyNetSubnets, h1, Res.ok_bind]
  have e0 : lo32 (U128.ofI64 0#64) = (fam4 true).ops.ofI64 0#64 := by decide
  have e1 : lo32 (U128.ofI64 1#64) = (fam4 true).ops.ofI64 1#64 := by decide
  have k0 : ∀ u i p, lo32 u = i → (fam4 true).niAdd s.first i = .ok p →
      (anySubnetsOps ⟨true, spaces, M, ss, val, conv⟩).seqAt ⟨(anySubnetsOps ⟨true, spaces, M, ss, val, conv⟩).mk4 s.first,
        (anySubnetsOps ⟨true, spaces, M, ss, val, conv⟩).mk4 s.last⟩ u = .ok (.v4 p.cur) := by
    intro u i p hu hp
    subst hu
    show (((fam4 true).niAdd s.first (lo32 u) >>= _) >>= _) = _
    rw [hp]; rfl
  rw [k0 _ _ p e0 h4, k0 _ _ q e1 h6]
  rfl

theorem halvesEmb6 (c : Cfg) : AnyEmb (fam6 c) c AnyNet.v6 := by
  refine ⟨fun a b => rfl, fun a b => rfl, fun n a b h => ?_⟩
  unfold Fam.halves at h
  obtain ⟨s, h1, h⟩ := Res.bind_eq_ok.1 h
  obtain ⟨x, h2, h⟩ := Res.bind_eq_ok.1 h
  obtain ⟨y, h3, h⟩ := Res.bind_eq_ok.1 h
  cases h
  obtain ⟨p, h4, h5⟩ := Res.bind_eq_ok.1 h2
  obtain ⟨q, h6, h7⟩ := Res.bind_eq_ok.1 h3
  cases h5; cases h7
  unfold anyHalves
  simp only [anyNetSubnets, h1, Res.ok_bind]
  have k0 : ∀ u p, (fam6 c).niAdd s.first u = .ok p →
      (anySubnetsOps c).seqAt ⟨(anySubnetsOps c).mk6 s.first, (anySubnetsOps c).mk6 s.last⟩ u = .ok (.v6 p.cur) := by
    intro u p hp
    show (((fam6 c).niAdd s.first u >>= _) >>= _) = _
    rw [hp]; rfl
  have e : (fam6 c).ops.ofI64 = U128.ofI64 := rfl
  rw [e] at h4 h6
  rw [k0 _ p h4, k0 _ q h6]
  rfl

theorem anyRemoveScope4 (c : Cfg) (hc : c.le = true) (n : Net (List (BitVec 8))) (hn : NetOk4 n) :
    ∃ l, anyNetRemoveScope c (.v4 n) = .ok (.v4 l) ∧ IsNet (fam4 true) n.plen ((fam4 true).v n.addr) l := by
  obtain ⟨l, h1, h2⟩ := fromAddress_isNet fam4Law (p := n.plen) (v := (fam4 true).v n.addr) (a := n.addr)
    ⟨n.addr, rfl, by rw [show n.addr.length = 4 from hn.wf]; rfl, rfl⟩ hn.plen hn.aligned
  refine ⟨l, ?_, h2⟩
  simp only [anyNetRemoveScope, anyNetAddress, anySetScope, anyNetPlen, Res.ok_bind, anyNetFromAddress, hc, h1]

theorem anyRemoveScope6 (c : Cfg) (hc : c.le = true) (n : Net V6) (hn : NetOk6 c n) :
    ∃ l, anyNetRemoveScope c (.v6 n) = .ok (.v6 l) ∧ IsNet (fam6 c) n.plen ((fam6 c).v n.addr) l := by
  obtain ⟨l, h1, h2⟩ := fromAddress_isNet (fam6Law c hc) (p := n.plen) (v := (fam6 c).v n.addr) (a := ⟨n.addr.bytes, emptyScope c.M⟩)
    ⟨n.addr.bytes, rfl, by rw [hn.wf.1]; rfl, rfl⟩ hn.plen hn.aligned
  refine ⟨l, ?_, h2⟩
  have hr := v6RemoveScope_eq c.spaces c.M n.addr hn.wf
  have h0 : mkFixed ['\x00'] = .ok ⟨[], 0⟩ := rfl
  rw [v6RemoveScope, v6SetScopeArray, h0, Res.ok_bind] at hr
  change (v6SetScope c.spaces c.M n.addr 0 [] >>= _) = _ at hr
  obtain ⟨r, r1, r2⟩ := Res.bind_eq_ok.1 hr
  have r2 : r.1 = ⟨n.addr.bytes, emptyScope c.M⟩ := by injection r2
  simp only [anyNetRemoveScope, anyNetAddress, anySetScope, anyNetPlen, r1, r2, Res.ok_bind, anyNetFromAddress, h1]

theorem anyDefault_eq (c : Cfg) (hc : c.le = true) :
    ∃ d, anyNetDefault c = .ok (.v4 d) ∧ IsNet (fam4 true) 32 0 d := by
  obtain ⟨d, d1, d2⟩ := default_isNet fam4Law
  exact ⟨d, by simp only [anyNetDefault, hc, d1, Res.ok_bind], d2⟩

/-- C49 (partial), `address_exclude` of IPv4 networks.  An error is reported exactly if the other network is not
contained; otherwise the loop ends and visits networks that partition the set difference.  Missing: the host
`0.0.0.1/32` excluded from a network at 0, see `C49_exclude_loses`. -/
theorem C49_exclude_v4_partial (c : Cfg) (hc : c.le = true) (n o : Net (List (BitVec 8))) (hn : NetOk4 n) (ho : NetOk4 o) :
    (¬ (∀ t, InNet 32 o.plen (beValue o.addr) t → InNet 32 n.plen (beValue n.addr) t) →
      anyNetExclude c (.v4 n) (.v4 o) = .err .not_contained_network 0) ∧
    ((∀ t, InNet 32 o.plen (beValue o.addr) t → InNet 32 n.plen (beValue n.addr) t) →
      ∃ s, ∃ l : List (Net (List (BitVec 8))), anyNetExclude c (.v4 n) (.v4 o) = .ok s ∧
        (¬ (o.plen = 32 ∧ beValue o.addr = 1 ∧ beValue n.addr = 0) →
          ∀ fuel, l.length < fuel → anyExVisit c fuel s.1 s.2 = .ok (l.map AnyNet.v4)) ∧
        l.length = o.plen - n.plen ∧ (∀ a ∈ l, NetOk4 a) ∧
        Partitions 32 (l.map fun m => (beValue m.addr, m.plen))
          (fun t => InNet 32 n.plen (beValue n.addr) t ∧ ¬ InNet 32 o.plen (beValue o.addr) t)) := by
  obtain ⟨l, l1, l2⟩ := anyRemoveScope4 c hc n hn
  obtain ⟨r, r1, r2⟩ := anyRemoveScope4 c hc o ho
  obtain ⟨d, d1, d2⟩ := anyDefault_eq c hc
  have E := halvesEmb4 c hc
  obtain ⟨g1, g2⟩ := anyExclude_spec fam4Law (by decide) E n o hn ho l r l1 l2 r1 r2 (.v4 d) d1
    (by rw [E.eq, netEq_isNet fam4Law d2 d2]; simp) true
    (by intro p v m hm; rw [E.eq, netEq_isNet fam4Law hm d2, Bool.true_and]; rfl) rfl
  refine ⟨g1, fun h => ?_⟩
  obtain ⟨s, all, k1, k2, k3, k4, k5⟩ := g2 h
  refine ⟨s, all, k1, fun hex fuel hf => ?_, k2, fun a ha => (k3 a ha).1, k4⟩
  rw [k5 fuel hf, if_neg (fun hh => hex hh.2)]

example := C49_exclude_v4_partial exCfg rfl ex16 ex17 ex16_ok ex17_ok

/-- C49, `address_exclude` of IPv6 networks: without exception, unlike `ipv6_network` (`C34_exclude_v6_loses`).
Scope ids are ignored and dropped. -/
theorem C49_exclude_v6 (c : Cfg) (hc : c.le = true) (n o : Net V6) (hn : NetOk6 c n) (ho : NetOk6 c o) :
    (¬ (∀ t, InNet 128 o.plen (beValue o.addr.bytes) t → InNet 128 n.plen (beValue n.addr.bytes) t) →
      anyNetExclude c (.v6 n) (.v6 o) = .err .not_contained_network 0) ∧
    ((∀ t, InNet 128 o.plen (beValue o.addr.bytes) t → InNet 128 n.plen (beValue n.addr.bytes) t) →
      ∃ s, ∃ l : List (Net V6), anyNetExclude c (.v6 n) (.v6 o) = .ok s ∧
        (∀ fuel, l.length < fuel → anyExVisit c fuel s.1 s.2 = .ok (l.map AnyNet.v6)) ∧
        l.length = o.plen - n.plen ∧ (∀ a ∈ l, NetOk6 c a) ∧
        Partitions 128 (l.map fun m => (beValue m.addr.bytes, m.plen))
          (fun t => InNet 128 n.plen (beValue n.addr.bytes) t ∧ ¬ InNet 128 o.plen (beValue o.addr.bytes) t)) := by
  obtain ⟨l, l1, l2⟩ := anyRemoveScope6 c hc n hn
  obtain ⟨r, r1, r2⟩ := anyRemoveScope6 c hc o ho
  obtain ⟨d, d1, d2⟩ := anyDefault_eq c hc
  have E := halvesEmb6 c
  obtain ⟨g1, g2⟩ := anyExclude_spec (fam6Law c hc) (by show 128 < 2 ^ 64; decide) E n o hn ho l r l1 l2 r1 r2 (.v4 d) d1
    (by rw [(halvesEmb4 c hc).eq, netEq_isNet fam4Law d2 d2]; simp) false
    (by intro p v m hm; rfl) rfl
  refine ⟨g1, fun h => ?_⟩
  obtain ⟨s, all, k1, k2, k3, k4, k5⟩ := g2 h
  refine ⟨s, all, k1, fun fuel hf => ?_, k2, fun a ha => (k3 a ha).1, k4⟩
  rw [k5 fuel hf, if_neg (fun hh => Bool.noConfusion hh.1)]

example := C49_exclude_v6 exCfg rfl exAll6 ex32 exAll6_ok ex32_ok

/-- C49, negation: excluding `0.0.0.1/32` from `0.0.0.0/30` loses `0.0.0.0/32`. -/
theorem C49_exclude_loses :
    (anyNetExclude exCfg (.v4 ⟨[0, 0, 0, 0], [255, 255, 255, 252], 30⟩) (.v4 exOne4) >>= fun s => anyExVisit exCfg 9 s.1 s.2) =
      .ok [.v4 ⟨[0, 0, 0, 2], [255, 255, 255, 254], 31⟩] := by decide +kernel

example : (anyNetExclude exCfg (.v4 ex16) (.v4 ⟨[192, 168, 64, 0], [255, 255, 192, 0], 18⟩) >>= fun s =>
      anyExVisit exCfg 9 s.1 s.2) = .ok [.v4 ex17, .v4 ⟨[192, 168, 0, 0], [255, 255, 192, 0], 18⟩] := by decide +kernel

/-! ### C50, C51 -/

/-- C50: `ip_network::parse` without `error_code`, of strings and of arrays. -/
theorem C50_any_network_parse {U : Type} (enc : Enc U) (L : enc.Law) (c : Cfg) (strict : Bool) (s : List U) :
    Agrees .parse (anyNetParseThrow c enc s strict) (anyNetFromEvents c (enc.events s) strict) ∧
    Agrees .parse (anyNetArrayParseThrow c enc s strict) (anyNetArrayParse c enc s strict) := by
  have h6 := (C50_parse enc L c c.le strict s).2.2.2.2
  have g6 := (C50_parse_array enc L c c.le strict s).2.2.2.2
  constructor
  · unfold anyNetParseThrow anyNetFromEvents
    refine anyThrow_agrees AnyNet.v4 AnyNet.v6 ((fam4 c.le).parseNet (enc.events s) strict) _ _ _ _ h6 (fun b h => ?_) (fun h => ?_) (fun e v h => ?_) <;>
    (rw [h]; first | exact ⟨rfl, rfl⟩ | exact ⟨fun _ h => by rw [h], fun _ h => by rw [h], fun h => by rw [h], rfl⟩)
  · unfold anyNetArrayParseThrow anyNetArrayParse
    refine anyThrow_agrees AnyNet.v4 AnyNet.v6 (arrayParse enc (fun evs => (fam4 c.le).parseNet evs strict) s) _ _ _ _ g6 (fun b h => ?_) (fun h => ?_) (fun e v h => ?_) <;>
    (rw [h]; first | exact ⟨rfl, rfl⟩ | exact ⟨fun _ h => by rw [h], fun _ h => by rw [h], fun h => by rw [h], rfl⟩)

example := C50_any_network_parse encChar encChar_law exCfg true "10.0.0.x/8".toList

/-- C50: `ip_network::address_exclude` without `error_code` throws `logic_error`s. -/
theorem C50_any_network_exclude (c : Cfg) (hc : c.le = true) (n o : AnyNet) (hn : NetOkAny c n) (ho : NetOkAny c o) :
    Agrees .logic (anyNetExcludeThrow c n o) (anyNetExclude c n o) := by
  refine orRaise0_agrees _ fun e v h => ?_
  have hx : ∀ {α : Type} (r : Res α) (p : Prop), (¬ p → r = .err .not_contained_network 0) → (p → ∃ s, r = .ok s) →
      r = .err e v → e ∈ argumentErrors := by
    intro α r p h1 h2 he
    by_cases hp : p
    · obtain ⟨s, hs⟩ := h2 hp; rw [hs] at he; cases he
    · rw [h1 hp] at he; cases he; decide
  cases n <;> cases o
  · obtain ⟨h1, h2⟩ := C49_exclude_v4_partial c hc _ _ hn ho
    exact hx _ _ h1 (fun hp => by obtain ⟨s, _, hs, _⟩ := h2 hp; exact ⟨s, hs⟩) h
  · cases h; decide
  · cases h; decide
  · obtain ⟨h1, h2⟩ := C49_exclude_v6 c hc _ _ hn ho
    exact hx _ _ h1 (fun hp => by obtain ⟨s, _, hs, _⟩ := h2 hp; exact ⟨s, hs⟩) h

example := C50_any_network_exclude exCfg rfl (.v4 ex16) (.v6 ex32) ex16_ok ex32_ok

theorem agrees_map {α β : Type} {cls : ErrClass} {t : Thr α} {r : Res α} (f : α → β) (h : Agrees cls t r) :
    Agrees cls (t.map f) (r >>= fun a => .ok (f a)) := by
  obtain ⟨h1, h2, h3, h4⟩ := h
  cases r with
  | ok a =>
    cases (h1 a).2 rfl
    simp [Agrees, Thr.map]
  | ub =>
    cases h4.2 rfl
    simp [Agrees, Thr.map]
  | err c v =>
    obtain ⟨e, he, hec⟩ := (h2 c).2 ⟨v, rfl⟩
    subst he
    have := h3 e rfl
    simp [Agrees, Thr.map, hec, this]

/-- C50: `ip_network::supernet` and `ip_network::subnets` without `error_code` throw `logic_error`s. -/
theorem C50_any_network_operations (c : Cfg) (hc : c.le = true) (n : AnyNet) (hn : NetOkAny c n) (diff : Nat) (newp : Option Nat) :
    Agrees .logic (anyNetSupernetThrow c n diff newp) (anyNetSupernet c n diff newp) ∧
    Agrees .logic (anyNetSubnetsThrow c n diff newp) (anyNetSubnets c n diff newp) := by
  cases n with
  | v4 n =>
    obtain ⟨h1, h2, _⟩ := (C50_operations c hc diff newp).1 n n hn hn
    simp only [anyNetSupernetThrow, anyNetSubnetsThrow, anyNetSupernet, anyNetSubnets, hc]
    exact ⟨agrees_map _ h1, agrees_map _ h2⟩
  | v6 n =>
    obtain ⟨h1, h2, _⟩ := (C50_operations c hc diff newp).2 n n hn hn
    exact ⟨agrees_map _ h1, agrees_map _ h2⟩

example := C50_any_network_operations exCfg rfl (.v4 ex16) ex16_ok 1 (some 20)

/-- C51: `ip_network` literals longer than `83 + 2 M` raise `string_is_too_long`. -/
theorem C51_any_network_too_long {U : Type} (enc : Enc U) (L : enc.Law) (c : Cfg) (s : List U) (h : 83 + 2 * c.M < s.length) :
    ∃ w, anyNetLiteral c enc s = .thrown ⟨.parse, .string_is_too_long, w⟩ := by
  unfold anyNetLiteral literal
  rw [if_pos (by omega)]
  exact raise_eq L _ _ _

example := C51_any_network_too_long encChar encChar_law exCfg (List.replicate 200 '1') (by rw [List.length_replicate]; decide)

/-- C51 (partial): other `ip_network` literals behave as `parse` of the same text.  Missing: texts with NUL
characters and with reader errors, see `C51_embedded_nul`, `C51_unreadable`. -/
theorem C51_any_network_partial {U : Type} (enc : Enc U) (L : enc.Law) (c : Cfg) (s : List U) (cs : List Char)
    (he : enc.events s = readChars cs) (hz : ∀ x ∈ cs, x ≠ '\x00') (h : s.length ≤ 83 + 2 * c.M) :
    Agrees .parse (anyNetLiteral c enc s) (anyNetFromEvents c (readChars cs) true) := by
  unfold anyNetLiteral
  rw [literal_eq _ _ s (by omega), ← he]
  generalize (41 + c.M) * 2 + 1 - s.length = k
  have h4 := (arrayParseThrow_pad L (fun evs => (fam4 c.le).parseNet evs true) s k
    (fun cs => fam4_parseNet_codes _ _ _ (BadIn.chars _ _)) cs he hz).2
  have h6 := (arrayParseThrow_pad L (fun evs => (fam6 c).parseNet evs true) s k
    (fun cs => fam6_parseNet_codes _ _ _ (BadIn.chars _ _)) cs he hz).1
  unfold anyNetArrayParseThrow anyNetFromEvents
  rw [h4]
  refine anyThrow_agrees AnyNet.v4 AnyNet.v6 ((fam4 c.le).parseNet (enc.events s) true) _ _ _ _ h6 (fun b h => ?_) (fun h => ?_) (fun e v h => ?_) <;>
    (rw [h]; first | exact ⟨rfl, rfl⟩ | exact ⟨fun _ h => by rw [h], fun _ h => by rw [h], fun h => by rw [h], rfl⟩)

example : anyNetLiteral exCfg encUtf8 ("192.168.0.0/16".toList.map fun c => BitVec.ofNat 8 c.toNat) = .ret (.v4 ex16) := by decide +kernel
example : anyNetParseThrow exCfg encChar "1.2.3.4.5/8".toList true =
    anyNetParseThrow exCfg encChar "1.2.3.4.5/8".toList false := by decide +kernel

end Ip
