import Verif.Lemmas.NetLaws
import Verif.Props.NetIter
/-
C68: the operations on networks fit together.  Every statement relates results of functions of the code
to each other.  Little endian hosts; IPv6 for every compile time configuration `c`.
-/
set_option autoImplicit false

namespace Ip
open Spec

/-- Networks of the invariant; IPv4 addresses have no scope id. -/
theorem plain4_iff (n : Net (List (BitVec 8))) : Plain (fam4 true) WF4 n ↔ NetOk4 n :=
  ⟨fun h => h.ok, fun h => ⟨h, n.addr, rfl⟩⟩

/-- IPv6 networks of the invariant whose address has no scope id. -/
theorem plain6_iff (c : Cfg) (n : Net V6) : Plain (fam6 c) (V6.WF c.M) n ↔ NetOk6 c n ∧ n.addr.scope = emptyScope c.M := by
  constructor
  · rintro ⟨h, x, hx⟩
    exact ⟨h, by rw [hx]; rfl⟩
  · rintro ⟨h, hs⟩
    exact ⟨h, n.addr.bytes, plain6 c _ hs⟩

/-- C68, IPv4: `contains(a)` holds exactly when `from_address(a, prefixlen(), false)` is the network. -/
theorem C68_from_address_v4 (n : Net (List (BitVec 8))) (hn : NetOk4 n) (a : List (BitVec 8)) (ha : a.length = 4) :
    ∃ r m, (fam4 true).contains n a = .ok r ∧ (fam4 true).fromAddress a n.plen false = .ok m ∧
      (fam4 true).contains m a = .ok true ∧ (r = true ↔ m = n) := by
  obtain ⟨r, m, h1, h2, -, h3, h4⟩ := law_from_address fam4Law n ((plain4_iff n).mpr hn) a ha ⟨a, rfl⟩
  exact ⟨r, m, h1, h2, h3, h4⟩

example := C68_from_address_v4 ex16 ex16_ok [192, 168, 3, 4] rfl

/-- C68, IPv6 without scope ids. -/
theorem C68_from_address_v6_partial (c : Cfg) (hc : c.le = true) (n : Net V6) (hn : NetOk6 c n)
    (sn : n.addr.scope = emptyScope c.M) (a : V6) (ha : V6.WF c.M a) (sa : a.scope = emptyScope c.M) :
    ∃ r m, (fam6 c).contains n a = .ok r ∧ (fam6 c).fromAddress a n.plen false = .ok m ∧
      (fam6 c).contains m a = .ok true ∧ (r = true ↔ m = n) := by
  obtain ⟨r, m, h1, h2, -, h3, h4⟩ := law_from_address (fam6Law c hc) n ((plain6_iff c n).mpr ⟨hn, sn⟩) a ha
    ⟨a.bytes, plain6 c _ sa⟩
  exact ⟨r, m, h1, h2, h3, h4⟩

example : (fam4 true).contains ex16 [192, 168, 7, 9] = .ok true ∧
    (fam4 true).fromAddress [192, 168, 7, 9] 16 false = .ok ex16 ∧
    (fam4 true).contains ex16 [192, 169, 7, 9] = .ok false := by decide

/-- C68, IPv4: a network is rebuilt from its own address and prefix length in strict mode, and from each of its
addresses, the broadcast address among them, otherwise. -/
theorem C68_rebuild_v4 (n : Net (List (BitVec 8))) (hn : NetOk4 n) :
    (fam4 true).fromAddress n.addr n.plen true = .ok n ∧
    (∀ a, a.length = 4 → (fam4 true).contains n a = .ok true → (fam4 true).fromAddress a n.plen false = .ok n) ∧
    ∃ b, (fam4 true).broadcast n = .ok b ∧ (fam4 true).contains n b = .ok true ∧ (fam4 true).contains n n.addr = .ok true ∧
      (fam4 true).fromAddress b n.plen false = .ok n := by
  obtain ⟨h1, h2, h3⟩ := law_rebuild fam4Law n ((plain4_iff n).mpr hn)
  exact ⟨h1, fun a ha hc => h2 a ha ⟨a, rfl⟩ hc, h3⟩

example := C68_rebuild_v4 ex17 ex17_ok

/-- C68, IPv6 without scope ids. -/
theorem C68_rebuild_v6_partial (c : Cfg) (hc : c.le = true) (n : Net V6) (hn : NetOk6 c n) (sn : n.addr.scope = emptyScope c.M) :
    (fam6 c).fromAddress n.addr n.plen true = .ok n ∧
    (∀ a, V6.WF c.M a → a.scope = emptyScope c.M → (fam6 c).contains n a = .ok true →
      (fam6 c).fromAddress a n.plen false = .ok n) ∧
    ∃ b, (fam6 c).broadcast n = .ok b ∧ (fam6 c).contains n b = .ok true ∧ (fam6 c).contains n n.addr = .ok true ∧
      (fam6 c).fromAddress b n.plen false = .ok n := by
  obtain ⟨h1, h2, h3⟩ := law_rebuild (fam6Law c hc) n ((plain6_iff c n).mpr ⟨hn, sn⟩)
  exact ⟨h1, fun a ha sa hc => h2 a ha ⟨a.bytes, plain6 c _ sa⟩ hc, h3⟩

example := C68_rebuild_v6_partial exCfg rfl ex32 ex32_ok rfl

/-- C68, IPv4: networks overlap exactly when one is a subnet of the other, so two networks are never partly
common; a subnet has the longer prefix; both ways, or at the same prefix length, only for equal networks. -/
theorem C68_overlaps_v4 (n m : Net (List (BitVec 8))) (hn : NetOk4 n) (hm : NetOk4 m) :
    ∃ s t, (fam4 true).subnetOf n m = .ok s ∧ (fam4 true).supernetOf n m = .ok t ∧ (fam4 true).subnetOf m n = .ok t ∧
      (fam4 true).overlaps n m = .ok (s || t) ∧ (s = true → m.plen ≤ n.plen) ∧
      ((s = true ∧ t = true) ↔ n = m) ∧ (s = true → n.plen = m.plen → n = m) :=
  law_overlaps fam4Law n m ((plain4_iff n).mpr hn) ((plain4_iff m).mpr hm)

example := C68_overlaps_v4 ex16 ex17 ex16_ok ex17_ok

/-- C68, IPv6 without scope ids.  Missing: scope ids, see `C68_scope_limits`. -/
theorem C68_overlaps_v6_partial (c : Cfg) (hc : c.le = true) (n m : Net V6) (hn : NetOk6 c n) (hm : NetOk6 c m)
    (sn : n.addr.scope = emptyScope c.M) (sm : m.addr.scope = emptyScope c.M) :
    ∃ s t, (fam6 c).subnetOf n m = .ok s ∧ (fam6 c).supernetOf n m = .ok t ∧ (fam6 c).subnetOf m n = .ok t ∧
      (fam6 c).overlaps n m = .ok (s || t) ∧ (s = true → m.plen ≤ n.plen) ∧
      ((s = true ∧ t = true) ↔ n = m) ∧ (s = true → n.plen = m.plen → n = m) :=
  law_overlaps (fam6Law c hc) n m ((plain6_iff c n).mpr ⟨hn, sn⟩) ((plain6_iff c m).mpr ⟨hm, sm⟩)

example : (fam4 true).subnetOf ex17 ex16 = .ok true ∧ (fam4 true).supernetOf ex17 ex16 = .ok false ∧
    (fam4 true).overlaps ex17 ex16 = .ok true := by decide

/-- C68, IPv4: `supernet(d)` is the one network of the shorter prefix length of which the network is a subnet,
and supernets of supernets are supernets. -/
theorem C68_supernet_v4_partial (n : Net (List (BitVec 8))) (hn : NetOk4 n) (h0 : n.plen ≠ 0) (d : Nat) (hd : d ≤ n.plen)
    (hw : d < 32) :
    ∃ r, (fam4 true).supernet n d none = .ok r ∧ NetOk4 r ∧ (fam4 true).subnetOf n r = .ok true ∧
      (∀ m, NetOk4 m → ((fam4 true).subnetOf n m = .ok true ∧ m.plen = n.plen - d ↔ m = r)) ∧
      ∀ e, d + e ≤ n.plen → d + e < 32 → (fam4 true).supernet r e none = (fam4 true).supernet n (d + e) none := by
  obtain ⟨r, h1, h2, h3, h4, h5⟩ := law_supernet fam4Law n ((plain4_iff n).mpr hn) h0 d hd hw
  exact ⟨r, h1, h2.ok, h3, fun m hm => h4 m ((plain4_iff m).mpr hm), h5⟩

example := C68_supernet_v4_partial ex17 ex17_ok (by decide) 9 (by decide) (by decide)

/-- C68, IPv6 without scope ids. -/
theorem C68_supernet_v6_partial (c : Cfg) (hc : c.le = true) (n : Net V6) (hn : NetOk6 c n) (sn : n.addr.scope = emptyScope c.M)
    (h0 : n.plen ≠ 0) (d : Nat) (hd : d ≤ n.plen) (hw : d < 128) :
    ∃ r, (fam6 c).supernet n d none = .ok r ∧ NetOk6 c r ∧ r.addr.scope = emptyScope c.M ∧
      (fam6 c).subnetOf n r = .ok true ∧
      (∀ m, NetOk6 c m → m.addr.scope = emptyScope c.M →
        ((fam6 c).subnetOf n m = .ok true ∧ m.plen = n.plen - d ↔ m = r)) ∧
      ∀ e, d + e ≤ n.plen → d + e < 128 → (fam6 c).supernet r e none = (fam6 c).supernet n (d + e) none := by
  obtain ⟨r, h1, h2, h3, h4, h5⟩ := law_supernet (fam6Law c hc) n ((plain6_iff c n).mpr ⟨hn, sn⟩) h0 d hd hw
  exact ⟨r, h1, h2.ok, ((plain6_iff c r).mp h2).2, h3, fun m hm sm => h4 m ((plain6_iff c m).mpr ⟨hm, sm⟩), h5⟩

example : (fam4 true).supernet ex17 1 none = .ok ex16 ∧ (fam4 true).subnetOf ex17 ex16 = .ok true ∧
    (fam4 true).supernet ex16 8 none = (fam4 true).supernet ex17 (1 + 8) none := by decide

/-- C68, IPv4: the loop over `subnets(d)` visits exactly the networks of prefix length `prefixlen() + d` that are
subnets of the network; the supernet of each of them is the network; they do not overlap; an address is in the
network exactly when it is in one of them.  Missing: the cases of C32. -/
theorem C68_subnets_v4_partial (n : Net (List (BitVec 8))) (hn : NetOk4 n) (d : Nat) (hd : n.plen + d ≤ 32) (hd32 : d < 32)
    (h0 : n.plen + d ≠ 0) (hfit : n.plen = 0 ∨ n.plen = 32 ∨ beValue n.addr + 2 ^ (32 - n.plen) < 2 ^ 32) :
    ∃ (s : SubnetsSeq (List (BitVec 8)) (BitVec 32)) (l : List (Net (List (BitVec 8)))),
      (fam4 true).subnets n d none = .ok s ∧
      (∀ fuel, l.length < fuel → (fam4 true).niOps.visit fuel s.first s.last = .ok l) ∧
      (∀ m, m ∈ l ↔ NetOk4 m ∧ m.plen = n.plen + d ∧ (fam4 true).subnetOf m n = .ok true) ∧
      (∀ m ∈ l, (fam4 true).supernet m d none = .ok n) ∧
      l.Pairwise (fun m k => (fam4 true).overlaps m k = .ok false) ∧
      ∀ a, a.length = 4 → ((fam4 true).contains n a = .ok true ↔ ∃ m ∈ l, (fam4 true).contains m a = .ok true) := by
  obtain ⟨s, l, h1, h2, h3, h4, h5, h6⟩ := law_subnets fam4Law n ((plain4_iff n).mpr hn) d (by decide) hd hd32 h0 hfit
  refine ⟨s, l, h1, h2, fun m => ?_, h4, h5, h6⟩
  rw [h3, plain4_iff]

example := C68_subnets_v4_partial ex16 ex16_ok 3 (by decide) (by decide) (by decide) (by decide)

/-- C68, IPv6 without scope ids. -/
theorem C68_subnets_v6_partial (c : Cfg) (hc : c.le = true) (n : Net V6) (hn : NetOk6 c n) (sn : n.addr.scope = emptyScope c.M)
    (d : Nat) (hd : n.plen + d ≤ 128) (hd128 : d < 128) (h0 : n.plen + d ≠ 0)
    (hfit : n.plen = 0 ∨ n.plen = 128 ∨ beValue n.addr.bytes + 2 ^ (128 - n.plen) < 2 ^ 128) :
    ∃ (s : SubnetsSeq V6 U128) (l : List (Net V6)), (fam6 c).subnets n d none = .ok s ∧
      (∀ fuel, l.length < fuel → (fam6 c).niOps.visit fuel s.first s.last = .ok l) ∧
      (∀ m, m ∈ l ↔ (NetOk6 c m ∧ m.addr.scope = emptyScope c.M) ∧ m.plen = n.plen + d ∧ (fam6 c).subnetOf m n = .ok true) ∧
      (∀ m ∈ l, (fam6 c).supernet m d none = .ok n) ∧
      l.Pairwise (fun m k => (fam6 c).overlaps m k = .ok false) ∧
      ∀ a, V6.WF c.M a → ((fam6 c).contains n a = .ok true ↔ ∃ m ∈ l, (fam6 c).contains m a = .ok true) := by
  obtain ⟨s, l, h1, h2, h3, h4, h5, h6⟩ := law_subnets (fam6Law c hc) n ((plain6_iff c n).mpr ⟨hn, sn⟩) d
    (by show 128 < 2 ^ 64; decide) hd hd128 h0 hfit
  refine ⟨s, l, h1, h2, fun m => ?_, h4, h5, h6⟩
  rw [h3, plain6_iff]

example : ((fam4 true).subnets ex16 1 none >>= fun s => (fam4 true).niOps.visit 9 s.first s.last) =
    .ok [⟨[192, 168, 0, 0], [255, 255, 128, 0], 17⟩, ex17] := by decide +kernel

/-- C68, IPv4: the loop over `hosts()` visits exactly the addresses the network contains, without its own address
and its broadcast address unless it has only one or two addresses.  Missing: the case of C31. -/
theorem C68_hosts_v4_partial (n : Net (List (BitVec 8))) (hn : NetOk4 n)
    (hf : ¬ (n.plen = 31 ∧ beValue n.addr = 2 ^ 32 - 2)) :
    ∃ (s : HostsSeq (List (BitVec 8)) (BitVec 32)) (l : List (List (BitVec 8))), (fam4 true).hosts n = .ok s ∧
      (∀ fuel, l.length < fuel → (fam4 true).aiOps.visit fuel s.first s.last = .ok l) ∧
      ∀ a, a ∈ l ↔ a.length = 4 ∧ (fam4 true).contains n a = .ok true ∧
        (n.plen < 31 → a ≠ n.addr ∧ (fam4 true).broadcast n ≠ .ok a) := by
  obtain ⟨s, l, h1, h2, h3⟩ := law_hosts fam4Law n hn (by
    have hp : n.plen ≤ 32 := hn.plen
    have hal : beValue n.addr % 2 ^ (32 - n.plen) = 0 := hn.aligned
    have hv : beValue n.addr < 2 ^ 32 := fam4Law.v_lt _ hn.wf
    show n.plen = 32 ∨ beValue n.addr + 2 ^ (32 - n.plen) < 2 ^ 32 ∨ (false = false ∧ n.plen + 2 ≤ 32)
    by_cases h : n.plen = 31
    · rw [h] at hal
      rw [h]
      omega
    · by_cases h' : n.plen = 32
      · exact .inl h'
      · exact .inr (.inr ⟨rfl, by omega⟩))
  refine ⟨s, l, h1, h2, fun a => ?_⟩
  rw [h3]
  obtain ⟨b, b1, b2, -⟩ := broadcast_spec fam4Law n hn
  have e : (fam4 true).v = beValue := rfl
  have e6 : (fam4 true).isV6 = false := rfl
  have em : (fam4 true).maxPrefix = 32 := rfl
  rw [e6, em, e, b1]
  constructor
  · rintro ⟨k1, -, k2, k3⟩
    refine ⟨k1, k2, fun hp => ⟨?_, ?_⟩⟩
    · intro h
      exact (k3 (by omega)).1 (by rw [h])
    · intro h
      exact (k3 (by omega)).2 rfl b rfl (by cases h; rfl)
  · rintro ⟨k1, k2, k3⟩
    refine ⟨k1, ⟨a, rfl⟩, k2, fun hp => ⟨?_, ?_⟩⟩
    · intro h
      exact (k3 (by omega)).1 (beValue_inj a n.addr (k1.trans (Eq.symm hn.wf)) h)
    · rintro - x hx h
      cases hx
      exact (k3 (by omega)).2 (by rw [beValue_inj a b (k1.trans (Eq.symm b2)) h])

example := C68_hosts_v4_partial ex16 ex16_ok (by decide)

/-- C68, IPv6: the loop over `hosts()` visits exactly the addresses without scope id that the network contains,
without the least one unless it has only one or two addresses.  Missing: the case of C31. -/
theorem C68_hosts_v6_partial (c : Cfg) (hc : c.le = true) (n : Net V6) (hn : NetOk6 c n)
    (hf : n.plen = 128 ∨ beValue n.addr.bytes + 2 ^ (128 - n.plen) < 2 ^ 128) :
    ∃ (s : HostsSeq V6 U128) (l : List V6), (fam6 c).hosts n = .ok s ∧
      (∀ fuel, l.length < fuel → (fam6 c).aiOps.visit fuel s.first s.last = .ok l) ∧
      ∀ a, a ∈ l ↔ V6.WF c.M a ∧ a.scope = emptyScope c.M ∧ (fam6 c).contains n a = .ok true ∧
        (n.plen < 127 → a.bytes ≠ n.addr.bytes) := by
  obtain ⟨s, l, h1, h2, h3⟩ := law_hosts (fam6Law c hc) n hn (by
    rcases hf with h | h
    · exact .inl h
    · exact .inr (.inl h))
  refine ⟨s, l, h1, h2, fun a => ?_⟩
  rw [h3]
  have e : ∀ a : V6, (fam6 c).v a = beValue a.bytes := fun _ => rfl
  have e6 : (fam6 c).isV6 = true := rfl
  have em : (fam6 c).maxPrefix = 128 := rfl
  rw [e6, em]
  simp only [e]
  constructor
  · rintro ⟨k1, ⟨x, kx⟩, k2, k3⟩
    refine ⟨k1, by rw [kx]; rfl, k2, fun hp => ?_⟩
    intro h
    exact (k3 (by omega)).1 (by rw [h])
  · rintro ⟨k1, ks, k2, k3⟩
    refine ⟨k1, ⟨a.bytes, plain6 c _ ks⟩, k2, fun hp => ⟨?_, fun h => by cases h⟩⟩
    intro h
    exact k3 (by omega) (beValue_inj a.bytes n.addr.bytes (k1.1.trans (Eq.symm hn.wf.1)) h)

example : ((fam4 true).hosts ⟨[10, 0, 0, 4], [255, 255, 255, 252], 30⟩ >>= fun s =>
    (fam4 true).aiOps.visit 9 s.first s.last) = .ok [[10, 0, 0, 5], [10, 0, 0, 6]] := by decide +kernel

/-- C68, IPv4: the networks of `address_exclude(o)` are subnets of the network, overlap neither `o` nor each
other, and contain each address of the network that is not in `o`.  Missing: the case of C34. -/
theorem C68_exclude_v4_partial (n o : Net (List (BitVec 8))) (hn : NetOk4 n) (ho : NetOk4 o)
    (hsub : (fam4 true).subnetOf o n = .ok true) (hex : ¬ (o.plen = 32 ∧ beValue o.addr = 1 ∧ beValue n.addr = 0)) :
    ∃ (s : ExSeq (List (BitVec 8))) (l : List (Net (List (BitVec 8)))), (fam4 true).addressExclude n o = .ok s ∧
      (∀ fuel, l.length < fuel → (fam4 true).exVisit fuel s.first s.last = .ok l) ∧
      (∀ m ∈ l, NetOk4 m ∧ (fam4 true).subnetOf m n = .ok true ∧ (fam4 true).overlaps m o = .ok false) ∧
      l.Pairwise (fun m k => (fam4 true).overlaps m k = .ok false) ∧
      ∀ a, a.length = 4 → (fam4 true).contains n a = .ok true →
        ((fam4 true).contains o a = .ok false ↔ ∃ m ∈ l, (fam4 true).contains m a = .ok true) := by
  obtain ⟨s, l, h1, h2, h3, h4, h5⟩ := law_exclude fam4Law (by decide) (fun _ a => ⟨a, rfl⟩) n o ((plain4_iff n).mpr hn)
    ((plain4_iff o).mpr ho) hsub hex
  exact ⟨s, l, h1, h2, fun m hm => ⟨(h3 m hm).1.ok, (h3 m hm).2⟩, h4, h5⟩

example := C68_exclude_v4_partial ex16 ex17 ex16_ok ex17_ok (by decide +kernel) (by decide)

/-- C68, IPv6 without scope ids. -/
theorem C68_exclude_v6_partial (c : Cfg) (hc : c.le = true) (n o : Net V6) (hn : NetOk6 c n) (ho : NetOk6 c o)
    (sn : n.addr.scope = emptyScope c.M) (so : o.addr.scope = emptyScope c.M)
    (hsub : (fam6 c).subnetOf o n = .ok true)
    (hex : ¬ (o.plen = 128 ∧ beValue o.addr.bytes = 1 ∧ beValue n.addr.bytes = 0)) :
    ∃ (s : ExSeq V6) (l : List (Net V6)), (fam6 c).addressExclude n o = .ok s ∧
      (∀ fuel, l.length < fuel → (fam6 c).exVisit fuel s.first s.last = .ok l) ∧
      (∀ m ∈ l, NetOk6 c m ∧ (fam6 c).subnetOf m n = .ok true ∧ (fam6 c).overlaps m o = .ok false) ∧
      l.Pairwise (fun m k => (fam6 c).overlaps m k = .ok false) ∧
      ∀ a, V6.WF c.M a → (fam6 c).contains n a = .ok true →
        ((fam6 c).contains o a = .ok false ↔ ∃ m ∈ l, (fam6 c).contains m a = .ok true) := by
  obtain ⟨s, l, h1, h2, h3, h4, h5⟩ := law_exclude (fam6Law c hc) (by show 128 < 2 ^ 64; decide)
    (fun h => Bool.noConfusion h) n o ((plain6_iff c n).mpr ⟨hn, sn⟩) ((plain6_iff c o).mpr ⟨ho, so⟩) hsub hex
  exact ⟨s, l, h1, h2, fun m hm => ⟨(h3 m hm).1.ok, (h3 m hm).2⟩, h4, h5⟩

example : ((fam4 true).addressExclude ex16 ex17 >>= fun s => (fam4 true).exVisit 9 s.first s.last) =
    .ok [⟨[192, 168, 0, 0], [255, 255, 128, 0], 17⟩] := by decide +kernel

/-- The network `fe80::%1/10` and the network `fe80::/64` inside it. -/
def exScope10 : Net V6 := ⟨⟨[0xfe, 0x80, 0, 0, 0, 0, 0, 0, 0, 0, 0, 0, 0, 0, 0, 0], ⟨'1' :: List.replicate 15 '\x00', 1⟩⟩,
  ⟨[0xff, 0xc0, 0, 0, 0, 0, 0, 0, 0, 0, 0, 0, 0, 0, 0, 0], emptyScope 16⟩, 10⟩

/-- See `exScope10`. -/
def exPlain64 : Net V6 := ⟨⟨[0xfe, 0x80, 0, 0, 0, 0, 0, 0, 0, 0, 0, 0, 0, 0, 0, 0], emptyScope 16⟩,
  ⟨[255, 255, 255, 255, 255, 255, 255, 255, 0, 0, 0, 0, 0, 0, 0, 0], emptyScope 16⟩, 64⟩

theorem exScope10_ok : NetOk6 exCfg exScope10 ∧ NetOk6 exCfg exPlain64 :=
  ⟨⟨⟨rfl, by unfold FStr.WF; decide, by simp [exScope10, exCfg]⟩, by decide, ⟨_, rfl, rfl, by decide⟩, by decide⟩,
    ⟨⟨rfl, Nat.zero_le _, by simp [exPlain64, emptyScope, exCfg]⟩, by decide, ⟨_, rfl, rfl, by decide⟩, by decide⟩⟩

/-- C68, negation: with a scope id the operations do not agree: `fe80::/64` and `fe80::%1/10` overlap and the
latter contains the address of the former, but neither is a subnet of the other; and the network around
`fe80::1%1` is not the network `fe80::%1/10` that contains it. -/
theorem C68_scope_limits :
    (fam6 exCfg).overlaps exPlain64 exScope10 = .ok true ∧ (fam6 exCfg).contains exScope10 exPlain64.addr = .ok true ∧
    (fam6 exCfg).subnetOf exPlain64 exScope10 = .ok false ∧ (fam6 exCfg).subnetOf exScope10 exPlain64 = .ok false ∧
    ∃ a m, (fam6 exCfg).contains exScope10 a = .ok true ∧ a.scope = exScope10.addr.scope ∧
      (fam6 exCfg).fromAddress a 10 false = .ok m ∧ (fam6 exCfg).netEq m exScope10 = .ok false := by
  refine ⟨by decide +kernel, by decide +kernel, by decide +kernel, by decide +kernel,
    ⟨[0xfe, 0x80, 0, 0, 0, 0, 0, 0, 0, 0, 0, 0, 0, 0, 0, 1], exScope10.addr.scope⟩,
    ⟨⟨[0xfe, 0x80, 0, 0, 0, 0, 0, 0, 0, 0, 0, 0, 0, 0, 0, 0], emptyScope 16⟩, exScope10.mask, 10⟩,
    by decide +kernel, rfl, by decide +kernel, by decide +kernel⟩

/-! ### C29 with scope ids -/

/-- C29, IPv6, all networks: what `subnet_of` computes when scope ids are present.  With `<=>` a subnetwork that
begins at the same address must not have the smaller scope id; without `<=>` no subnetwork may have the
smaller scope id. -/
theorem C29_scoped_v6 (c : Cfg) (hc : c.le = true) (hv : ∀ x y, c.val x = c.val y → x = y) (a b : Net V6)
    (ha : NetOk6 c a) (hb : NetOk6 c b) :
    ∃ r, (fam6 c).subnetOf a b = .ok r ∧ (fam6 c).supernetOf b a = .ok r ∧
      (r = true ↔ (∀ x, InNet 128 a.plen (beValue a.addr.bytes) x → InNet 128 b.plen (beValue b.addr.bytes) x) ∧
        ((c.spaceship = true → a.addr.bytes = b.addr.bytes → ¬ ScopeLt c.val a.addr.scope.contents b.addr.scope.contents) ∧
          (c.spaceship = false → ¬ ScopeLt c.val a.addr.scope.contents b.addr.scope.contents))) := by
  obtain ⟨p, p1, p2, p3⟩ := broadcast_eq (fam6Law c hc) a ha
  obtain ⟨q, q1, q2, q3⟩ := broadcast_eq (fam6Law c hc) b hb
  have hle := (fam6Law c hc).le p q p2 q2
  rw [p3, q3] at hle
  have hla : beValue a.addr.bytes < 2 ^ 128 := (fam6Law c hc).v_lt _ ha.wf
  have hlen : a.addr.bytes.length = b.addr.bytes.length := by rw [ha.wf.1, hb.wf.1]
  have p0 := Nat.two_pow_pos (128 - a.plen)
  have hsub : (∀ x, InNet 128 a.plen (beValue a.addr.bytes) x → InNet 128 b.plen (beValue b.addr.bytes) x) ↔
      beValue b.addr.bytes ≤ beValue a.addr.bytes ∧
      beValue a.addr.bytes + 2 ^ (128 - a.plen) ≤ beValue b.addr.bytes + 2 ^ (128 - b.plen) := by
    have i1 : ∀ x, InNet 128 a.plen (beValue a.addr.bytes) x ↔ _ := inNet_interval (fam6Law c hc) a ha
    have i2 : ∀ x, InNet 128 b.plen (beValue b.addr.bytes) x ↔ _ := inNet_interval (fam6Law c hc) b hb
    simp only [i1, i2]
    change (∀ x, beValue a.addr.bytes ≤ x ∧ x < beValue a.addr.bytes + 2 ^ (128 - a.plen) →
      beValue b.addr.bytes ≤ x ∧ x < beValue b.addr.bytes + 2 ^ (128 - b.plen)) ↔ _
    constructor
    · intro h
      have h1 := h (beValue a.addr.bytes) ⟨by omega, by omega⟩
      have h2 := h (beValue a.addr.bytes + 2 ^ (128 - a.plen) - 1) ⟨by omega, by omega⟩
      omega
    · intro h x hx
      omega
  -- comparison of the addresses
  have hadr : ∃ t, v6Le c b.addr a.addr = .ok t ∧ (t = true ↔ beValue b.addr.bytes ≤ beValue a.addr.bytes ∧
      ((c.spaceship = true → a.addr.bytes = b.addr.bytes → ¬ ScopeLt c.val a.addr.scope.contents b.addr.scope.contents) ∧
          (c.spaceship = false → ¬ ScopeLt c.val a.addr.scope.contents b.addr.scope.contents))) := by
    unfold v6Le
    cases hs : c.spaceship
    · rw [if_neg (by simp)]
      unfold v6Less
      have c1 := FStr.compare_eq c.val a.addr.scope b.addr.scope ha.wf.2.1 hb.wf.2.1
      have l1 := lexCmp_lt_iff c.val hv a.addr.scope.contents b.addr.scope.contents
      rw [bytesLess_dec _ _ hlen]
      by_cases h : beValue a.addr.bytes < beValue b.addr.bytes
      · rw [decide_eq_true h]
        refine ⟨false, rfl, ?_⟩
        simp only [Bool.false_eq_true, false_iff, not_and]
        omega
      · rw [decide_eq_false h]
        simp only [Bool.false_eq_true, if_false, c1, Res.ok_bind]
        refine ⟨_, rfl, ?_⟩
        simp only [Bool.not_eq_true', decide_eq_false_iff_not, false_implies, true_implies, true_and, l1]
        exact ⟨fun k => ⟨by omega, k⟩, fun k => k.2⟩
    · obtain ⟨o, e, h1, -, -, h4, -, -⟩ := C15_v6_compare c.val hv c.M b.addr a.addr hb.wf ha.wf
      rw [if_pos rfl, h1, Res.ok_bind]
      refine ⟨_, rfl, ?_⟩
      simp only [decide_eq_true_iff, ne_eq, h4, V6Lt, not_or, not_and, true_implies, Bool.true_eq_false, false_implies,
        and_true, Nat.not_lt]
      refine and_congr_right fun _ => ?_
      rw [show (a.addr.bytes = b.addr.bytes) ↔ beValue a.addr.bytes = beValue b.addr.bytes from
        ⟨fun h => by rw [h], beValue_inj _ _ hlen⟩]
  obtain ⟨t, t1, t2⟩ := hadr
  have key : (fam6 c).isSubnetOf a b = .ok (t && decide (beValue a.addr.bytes + 2 ^ (128 - a.plen) ≤
      beValue b.addr.bytes + 2 ^ (128 - b.plen))) := by
    unfold Fam.isSubnetOf
    have t1' : (fam6 c).le b.addr a.addr = .ok t := t1
    rw [t1', Res.ok_bind]
    cases t
    · rfl
    · simp only [if_true, q1, p1, Res.ok_bind, hle, Bool.true_and]
      congr 1
      rw [decide_eq_decide]
      change beValue a.addr.bytes + 2 ^ (128 - a.plen) - 1 ≤ beValue b.addr.bytes + 2 ^ (128 - b.plen) - 1 ↔ _
      have p4 := Nat.two_pow_pos (128 - b.plen)
      omega
  refine ⟨_, key, key, ?_⟩
  rw [Bool.and_eq_true, t2, decide_eq_true_iff, hsub]
  constructor
  · rintro ⟨⟨h1, h2⟩, h3⟩; exact ⟨⟨h1, h3⟩, h2⟩
  · rintro ⟨⟨h1, h3⟩, h2⟩; exact ⟨⟨h1, h2⟩, h3⟩

example : (∀ x y, exCfg.val x = exCfg.val y → x = y) ∧ NetOk6 exCfg exScope10 ∧ NetOk6 exCfg exPlain64 :=
  ⟨fun _ _ h => Char.toNat_inj.mp (Int.ofNat_inj.mp h), exScope10_ok⟩

end Ip
