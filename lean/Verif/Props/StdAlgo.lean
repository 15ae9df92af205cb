import Verif.Lemmas.StdAlgo
import Verif.Props.AnyNetIter
/-
The algorithms of the standard library on iterators (C69).  Little endian hosts.
-/
set_option autoImplicit false

namespace Ip
open Spec

/-- Copies, accesses, distances and searches on `first`, `last` and on the reverse iterators `r1`, `r2` agree with
the list `l`, sorted by `key`; `good` are the values that are searched for. -/
def AlgoOk {I V U : Type} (O : RaOps I V U) (lt : V → V → Res Bool) (key : V → Nat) (good : V → Prop) (l : List V)
    (first last : I) (r1 r2 : RIter I) : Prop :=
  GoodAccess O l first last ∧ GoodAccess O.rev l.reverse r1 r2 ∧
  GoodSearch O lt (fun a b => key a < key b) good l first last ∧
  GoodSearch O.rev (fun a b => lt b a) (fun a b => key b < key a) good l.reverse r1 r2

theorem GoodSearch.weaken {I V U : Type} {O : RaOps I V U} {lt : V → V → Res Bool} {rel : V → V → Prop} {good good' : V → Prop}
    {l : List V} {first last : I} (h : GoodSearch O lt rel good l first last) (hg : ∀ v, good' v → good v) :
    GoodSearch O lt rel good' l first last := ⟨h.1, fun v hv => h.2 v (hg v hv)⟩

/-! ### `hosts` -/

theorem hostsFit4 (n : Net (List (BitVec 8))) (hn : NetOk4 n) (hf : ¬ (n.plen = 31 ∧ beValue n.addr = 2 ^ 32 - 2)) :
    HostsFit (fam4 true) n := by
  have hp : n.plen ≤ 32 := hn.plen
  have hal : beValue n.addr % 2 ^ (32 - n.plen) = 0 := hn.aligned
  have hv : beValue n.addr < 2 ^ 32 := fam4Law.v_lt _ hn.wf
  show n.plen = 32 ∨ beValue n.addr + 2 ^ (32 - n.plen) < 2 ^ 32 ∨ (false = false ∧ n.plen + 2 ≤ 32)
  by_cases h : n.plen = 31
  · rw [h] at hal
    rw [h]
    omega
  · by_cases h' : n.plen = 32
    · exact .inl h'
    · exact .inr (.inr ⟨rfl, by omega⟩)

theorem hostsFit6 (c : Cfg) (hc : c.le = true) (n : Net V6) (hn : NetOk6 c n)
    (hf : n.plen = 128 ∨ ¬ InNet 128 n.plen (beValue n.addr.bytes) (2 ^ 128 - 1)) :
    n.plen = 128 ∨ beValue n.addr.bytes + 2 ^ (128 - n.plen) < 2 ^ 128 := by
  have hv : beValue n.addr.bytes < 2 ^ 128 := (fam6Law c hc).v_lt _ hn.wf
  have hi : InNet 128 n.plen (beValue n.addr.bytes) (2 ^ 128 - 1) ↔ _ := inNet_interval (fam6Law c hc) n hn (2 ^ 128 - 1)
  rcases hf with h | h
  · exact .inl h
  · right
    rw [hi] at h
    change ¬ (beValue n.addr.bytes ≤ 2 ^ 128 - 1 ∧ 2 ^ 128 - 1 < beValue n.addr.bytes + 2 ^ (128 - n.plen)) at h
    have hP := Nat.two_pow_pos (128 - n.plen)
    omega

/-- `2001:db8::/120`. -/
def ex120 : Net V6 := ⟨⟨[0x20, 1, 0xd, 0xb8, 0, 0, 0, 0, 0, 0, 0, 0, 0, 0, 0, 0], emptyScope 16⟩,
  ⟨[255, 255, 255, 255, 255, 255, 255, 255, 255, 255, 255, 255, 255, 255, 255, 0], emptyScope 16⟩, 120⟩

theorem ex120_ok : NetOk6 exCfg ex120 :=
  ⟨⟨rfl, Nat.zero_le _, by simp [ex120, emptyScope, exCfg]⟩, by decide, ⟨_, rfl, rfl, by decide⟩, by decide +kernel⟩

theorem ex120_below : ex120.plen = 128 ∨ ¬ InNet 128 ex120.plen (beValue ex120.addr.bytes) (2 ^ 128 - 1) := by
  have := inNet_interval (fam6Law exCfg rfl) ex120 ex120_ok (2 ^ 128 - 1)
  change InNet 128 ex120.plen (beValue ex120.addr.bytes) (2 ^ 128 - 1) ↔ _ at this
  rw [this]
  decide +kernel

/-- C69 (partial), IPv4 hosts: with `begin()`, `end()`, `rbegin()` and `rend()` of `hosts()`, `std::copy` with postfix
`++` and `std::copy_backward` give exactly the usable hosts in increasing and decreasing order; `it[i]`, `it + i`, `it - i`
with signed `i` reach the element that they should; `std::distance` is the number of hosts; `std::lower_bound`,
`std::upper_bound` and `std::binary_search` find the place of every address.  Missing: `255.255.255.254/31`, see
`C31_hosts_v4_wraps`. -/
theorem C69_hosts_v4_partial (n : Net (List (BitVec 8))) (hn : NetOk4 n) (hf : ¬ (n.plen = 31 ∧ beValue n.addr = 2 ^ 32 - 2)) :
    ∃ s l r1 r2, (fam4 true).hosts n = .ok s ∧ Lists (l.map beValue) (IsHost 32 n.plen (beValue n.addr) false) ∧
      (fam4 true).aiOps.rMk s.last = .ok r1 ∧ (fam4 true).aiOps.rMk s.first = .ok r2 ∧
      AlgoOk (fam4 true).aiRa (fam4 true).lt beValue (fun v => v.length = 4) l s.first s.last r1 r2 := by
  have h63 : 2 ^ ((fam4 true).maxPrefix - n.plen) ≤ 2 ^ 63 := Nat.pow_le_pow_right (by decide) (by
    show 32 - n.plen ≤ 63; omega)
  obtain ⟨s, l, r1, r2, h1, h2, _, h3, h4, h5, h6, h7, h8⟩ := hosts_algo fam4Law n hn (hostsFit4 n hn hf) h63 _ _ _ (RaHom.id _)
    (fam4 true).lt beValue (fun _ => rfl) (fun _ _ _ _ => rfl)
  rw [List.map_id'] at h5 h6 h7 h8
  have hg : ∀ v : List (BitVec 8), v.length = 4 → ∃ a, v = a ∧ PlainAddr (fam4 true) a :=
    fun v hv => ⟨v, rfl, v, rfl, by show 8 * v.length = 32; omega⟩
  exact ⟨s, l, r1, r2, h1, h2, h3, h4, h5, h6, h7.weaken hg, h8.weaken hg⟩

example := C69_hosts_v4_partial ex16 ex16_ok (by decide)

/-- C69 (partial), IPv6 hosts of networks with at most `2^63` addresses; the addresses searched for have no scope id, as
the hosts.  Missing: larger networks, where the searches are wrong (`C69_hosts_v6_wide`), and networks with the largest
address, see `C31_hosts_v6_wraps`. -/
theorem C69_hosts_v6_partial (c : Cfg) (hc : c.le = true) (n : Net V6) (hn : NetOk6 c n) (hp : 65 ≤ n.plen)
    (hf : n.plen = 128 ∨ ¬ InNet 128 n.plen (beValue n.addr.bytes) (2 ^ 128 - 1)) :
    ∃ s, ∃ l : List V6, ∃ r1 r2, (fam6 c).hosts n = .ok s ∧
      Lists (l.map fun a => beValue a.bytes) (IsHost 128 n.plen (beValue n.addr.bytes) true) ∧
      (fam6 c).aiOps.rMk s.last = .ok r1 ∧ (fam6 c).aiOps.rMk s.first = .ok r2 ∧
      AlgoOk (fam6 c).aiRa (fam6 c).lt (fun a => beValue a.bytes) (fun v => v.bytes.length = 16 ∧ v.scope = emptyScope c.M)
        l s.first s.last r1 r2 := by
  have h63 : 2 ^ ((fam6 c).maxPrefix - n.plen) ≤ 2 ^ 63 := Nat.pow_le_pow_right (by decide) (by
    show 128 - n.plen ≤ 63; omega)
  have hfit : HostsFit (fam6 c) n := by
    rcases hostsFit6 c hc n hn hf with h | h
    · exact .inl h
    · exact .inr (.inl h)
  obtain ⟨s, l, r1, r2, h1, h2, _, h3, h4, h5, h6, h7, h8⟩ := hosts_algo (fam6Law c hc) n hn hfit h63 _ _ _ (RaHom.id _)
    (fam6 c).lt (fun a => beValue a.bytes) (fun _ => rfl) (fun _ _ _ _ => rfl)
  rw [List.map_id'] at h5 h6 h7 h8
  have hg : ∀ v : V6, v.bytes.length = 16 ∧ v.scope = emptyScope c.M → ∃ a, v = a ∧ PlainAddr (fam6 c) a :=
    fun v hv => ⟨v, rfl, v.bytes, plain6 c v hv.2, by show 8 * v.bytes.length = 128; omega⟩
  exact ⟨s, l, r1, r2, h1, h2, h3, h4, h5, h6, h7.weaken hg, h8.weaken hg⟩

example := C69_hosts_v6_partial exCfg rfl ex120 ex120_ok (by decide) ex120_below

/-- C69, negation: for every IPv6 network of prefix length 64 or less that has not the largest address, the number of
hosts does not fit `difference_type` and `end() - begin()` is `-1`.  `std::lower_bound` and `std::upper_bound` return
`begin()` for every address, and `std::binary_search` says yes exactly for the addresses behind the first address of the
network, wherever they are. -/
theorem C69_hosts_v6_wide (c : Cfg) (hc : c.le = true) (n : Net V6) (hn : NetOk6 c n) (hp : n.plen ≤ 64)
    (hf : ¬ InNet 128 n.plen (beValue n.addr.bytes) (2 ^ 128 - 1)) :
    ∃ s, (fam6 c).hosts n = .ok s ∧ (fam6 c).aiRa.distance s.first s.last = -1 ∧
      ∀ v : V6, v.bytes.length = 16 → v.scope = emptyScope c.M →
        (fam6 c).aiRa.lowerBound (fam6 c).lt s.first s.last v = .ok s.first ∧
        (fam6 c).aiRa.upperBound (fam6 c).lt s.first s.last v = .ok s.first ∧
        (fam6 c).aiRa.binarySearch (fam6 c).lt s.first s.last v =
          .ok (decide (beValue n.addr.bytes < beValue v.bytes)) := by
  have hfit : beValue n.addr.bytes + 2 ^ (128 - n.plen) < 2 ^ 128 := by
    rcases hostsFit6 c hc n hn (.inr hf) with h | h
    · omega
    · exact h
  obtain ⟨s, h1, h2, h3⟩ := hosts_wide (fam6Law c hc) n hn rfl (by show n.plen + 64 ≤ 128; omega) hfit
  exact ⟨s, h1, h2, fun v v1 v2 => h3 v ⟨v.bytes, plain6 c v v2, by show 8 * v.bytes.length = 128; omega⟩⟩

example : ∃ s, (fam4 true).hosts ex16 = .ok s ∧
    (fam4 true).aiRa.binarySearch (fam4 true).lt s.first s.last [192, 168, 1, 2] = .ok true ∧
    (fam4 true).aiRa.binarySearch (fam4 true).lt s.first s.last [192, 168, 255, 255] = .ok false ∧
    (fam4 true).aiRa.distance s.first s.last = 65534 := ⟨_, rfl, by decide +kernel, by decide +kernel, by decide +kernel⟩
example : ¬ (ex16.plen = 31 ∧ beValue ex16.addr = 2 ^ 32 - 2) := by decide
example : ex32.plen ≤ 64 := by decide

/-! ### `hosts` of `ip_network` -/

/-- C69 (partial), `hosts()` of an IPv4 network in an `ip_network`.  Missing: as in `C69_hosts_v4_partial`. -/
theorem C69_any_hosts_v4_partial (c : Cfg) (hc : c.le = true) (n : Net (List (BitVec 8))) (hn : NetOk4 n)
    (hf : ¬ (n.plen = 31 ∧ beValue n.addr = 2 ^ 32 - 2)) :
    ∃ s, ∃ l : List (List (BitVec 8)), ∃ r1 r2, anyNetHosts c (.v4 n) = .ok s ∧
      Lists (l.map beValue) (IsHost 32 n.plen (beValue n.addr) false) ∧
      (anyHostsOps c).ops.rMk s.last = .ok r1 ∧ (anyHostsOps c).ops.rMk s.first = .ok r2 ∧
      AlgoOk (anyHostsOps c).ra (anyLt c) (fun a => (anyAddrValue a).2) (fun v => ∃ a, v = .v4 a ∧ a.length = 4)
        (l.map AnyAddr.v4) s.first s.last r1 r2 := by
  have h63 : 2 ^ ((fam4 true).maxPrefix - n.plen) ≤ 2 ^ 63 := Nat.pow_le_pow_right (by decide) (by
    show 32 - n.plen ≤ 63; omega)
  have hle := hc
  obtain ⟨le, spaces, M, ss, val, conv⟩ := c
  cases hc
  have hlt : ∀ a b, PlainAddr (fam4 true) a → PlainAddr (fam4 true) b →
      anyLt ⟨true, spaces, M, ss, val, conv⟩ (.v4 a) (.v4 b) = (fam4 true).lt a b := by
    intro a b ha hb
    refine anyLt_bytes _ a b ?_
    obtain ⟨x, hx1, hx⟩ := ha
    obtain ⟨y, hy1, hy⟩ := hb
    have e1 : a = x := hx1
    have e2 : b = y := hy1
    rw [e1, e2]
    omega
  obtain ⟨s, l, r1, r2, h1, h2, _, h3, h4, h5, h6, h7, h8⟩ := hosts_algo fam4Law n hn (hostsFit4 n hn hf) h63 _ _ _
    (anyHosts_hom4 ⟨true, spaces, M, ss, val, conv⟩) (anyLt ⟨true, spaces, M, ss, val, conv⟩) (fun a => (anyAddrValue a).2)
    (fun _ => rfl) hlt
  have hg : ∀ v : AnyAddr, (∃ a, v = .v4 a ∧ a.length = 4) → ∃ a, v = .v4 a ∧ PlainAddr (fam4 true) a := by
    rintro _ ⟨a, rfl, ha⟩
    exact ⟨a, rfl, a, rfl, by show 8 * a.length = 32; omega⟩
  exact ⟨⟨_, _⟩, l, _, _, by simp only [anyNetHosts, h1, Res.ok_bind]; rfl, h2, rMk4 _ _ h3, rMk4 _ _ h4, h5, h6, h7.weaken hg,
    h8.weaken hg⟩

example := C69_any_hosts_v4_partial exCfg rfl ex16 ex16_ok (by decide)

/-- C69 (partial), `hosts()` of an IPv6 network in an `ip_network`.  Missing: as in `C69_hosts_v6_partial`. -/
theorem C69_any_hosts_v6_partial (c : Cfg) (hc : c.le = true) (n : Net V6) (hn : NetOk6 c n) (hp : 65 ≤ n.plen)
    (hf : n.plen = 128 ∨ ¬ InNet 128 n.plen (beValue n.addr.bytes) (2 ^ 128 - 1)) :
    ∃ s, ∃ l : List V6, ∃ r1 r2, anyNetHosts c (.v6 n) = .ok s ∧
      Lists (l.map fun a => beValue a.bytes) (IsHost 128 n.plen (beValue n.addr.bytes) true) ∧
      (anyHostsOps c).ops.rMk s.last = .ok r1 ∧ (anyHostsOps c).ops.rMk s.first = .ok r2 ∧
      AlgoOk (anyHostsOps c).ra (anyLt c) (fun a => (anyAddrValue a).2)
        (fun v => ∃ a, v = .v6 a ∧ a.bytes.length = 16 ∧ a.scope = emptyScope c.M) (l.map AnyAddr.v6) s.first s.last r1 r2 := by
  have h63 : 2 ^ ((fam6 c).maxPrefix - n.plen) ≤ 2 ^ 63 := Nat.pow_le_pow_right (by decide) (by
    show 128 - n.plen ≤ 63; omega)
  have hfit : HostsFit (fam6 c) n := by
    rcases hostsFit6 c hc n hn hf with h | h
    · exact .inl h
    · exact .inr (.inl h)
  obtain ⟨s, l, r1, r2, h1, h2, _, h3, h4, h5, h6, h7, h8⟩ := hosts_algo (fam6Law c hc) n hn hfit h63 _ _ _
    (anyHosts_hom6 c) (anyLt c) (fun a => (anyAddrValue a).2) (fun _ => rfl) (fun a b _ _ => anyLt_sixteen c a b)
  have hg : ∀ v : AnyAddr, (∃ a, v = .v6 a ∧ a.bytes.length = 16 ∧ a.scope = emptyScope c.M) →
      ∃ a, v = .v6 a ∧ PlainAddr (fam6 c) a := by
    rintro _ ⟨a, rfl, ha, hs⟩
    exact ⟨a, rfl, a.bytes, plain6 c a hs, by show 8 * a.bytes.length = 128; omega⟩
  exact ⟨⟨_, _⟩, l, _, _, by simp only [anyNetHosts, h1, Res.ok_bind]; rfl, h2, rMk6 _ _ h3, rMk6 _ _ h4, h5, h6, h7.weaken hg,
    h8.weaken hg⟩

example : ∃ s, anyNetHosts exCfg (.v4 ex16) = .ok s ∧
    (anyHostsOps exCfg).ra.binarySearch (anyLt exCfg) s.first s.last (.v4 [192, 168, 1, 2]) = .ok true ∧
    (anyHostsOps exCfg).ra.distance s.first s.last = 65534 := ⟨_, rfl, by decide +kernel, by decide +kernel⟩

/-! ### `subnets` -/

/-- What the algorithms do on `subnets`: copies, accesses and signed moves agree with the list `l` forward and backward (the
jump over the whole sequence only when the network is not the whole space), and `std::distance` is the number of addresses
of the network modulo powers of two, not the number of subnetworks. -/
def SubnetsAlgo {I V U : Type} (O : RaOps I V U) (w p : Nat) (l : List V) (first last : I) (r1 r2 : RIter I) : Prop :=
  GoodAccessInner O l first last ∧ GoodAccessInner O.rev l.reverse r1 r2 ∧
  (p ≠ 0 → GoodAccess O l first last ∧ GoodAccess O.rev l.reverse r1 r2) ∧
  (O.diff last first).toNat = 2 ^ (w - p) % 2 ^ w % 2 ^ 64

/-- C69 (partial), IPv4 subnetworks, for the arguments of `C32_subnets_v4_partial`: see `SubnetsAlgo`; where the subnetworks
are single addresses, distances and searches are right as well.  Missing: distances and searches otherwise, which are
wrong (`C69_subnets_search`, `C69_subnets_all`). -/
theorem C69_subnets_v4_partial (n : Net (List (BitVec 8))) (hn : NetOk4 n) (d : Nat) (hd : n.plen + d ≤ 32) (hd32 : d < 32)
    (h0 : n.plen + d ≠ 0) (hfit : n.plen = 0 ∨ n.plen = 32 ∨ beValue n.addr + 2 ^ (32 - n.plen) < 2 ^ 32) :
    ∃ s, ∃ l : List (Net (List (BitVec 8))), ∃ r1 r2, (fam4 true).subnets n d none = .ok s ∧ l.length = 2 ^ d ∧
      l.map (fun m => beValue m.addr) = (List.range (2 ^ d)).map (fun i => beValue n.addr + i * 2 ^ (32 - (n.plen + d))) ∧
      (fam4 true).niOps.rMk s.last = .ok r1 ∧ (fam4 true).niOps.rMk s.first = .ok r2 ∧
      SubnetsAlgo (fam4 true).niRa 32 n.plen l s.first s.last r1 r2 ∧
      (n.plen ≠ 0 → n.plen + d = 32 → GoodSearch (fam4 true).niRa (fam4 true).netLt (fun a b => beValue a.addr < beValue b.addr)
        (fun m => NetOk4 m ∧ m.plen = 32) l s.first s.last) := by
  obtain ⟨s, l, r1, r2, h1, h2, _, h4, h5, h6, h7, h8, h9, h10, h11⟩ := subnets_algo fam4Law n hn d (by decide) hd hd32 h0 hfit
    (by omega) _ _ _ (RaHom.id _) (fam4 true).netLt (fun m => beValue m.addr) (fun _ => rfl) (fun _ _ => rfl)
  rw [List.map_id'] at h7 h8 h9 h11
  refine ⟨s, l, r1, r2, h1, h2, h4, h5, h6, ⟨h7, h8, h9, h10⟩, fun k1 k2 => (h11 k1 k2).weaken ?_⟩
  rintro v ⟨hv, hp⟩
  have := netOk_isNet fam4Law hv ⟨v.addr, rfl, by have := hv.wf; show 8 * v.addr.length = 32; exact by unfold WF4 at this; omega⟩
  rw [hp] at this
  exact ⟨v, rfl, _, this⟩

example := C69_subnets_v4_partial ex16 ex16_ok 3 (by decide) (by decide) (by decide) (by decide)

/-- C69 (partial), IPv6 subnetworks, fewer than `2^63` of them. -/
theorem C69_subnets_v6_partial (c : Cfg) (hc : c.le = true) (n : Net V6) (hn : NetOk6 c n) (d : Nat) (hd : n.plen + d ≤ 128)
    (hd63 : d < 63) (h0 : n.plen + d ≠ 0)
    (hfit : n.plen = 0 ∨ n.plen = 128 ∨ beValue n.addr.bytes + 2 ^ (128 - n.plen) < 2 ^ 128) :
    ∃ s, ∃ l : List (Net V6), ∃ r1 r2, (fam6 c).subnets n d none = .ok s ∧ l.length = 2 ^ d ∧
      l.map (fun m => beValue m.addr.bytes) =
        (List.range (2 ^ d)).map (fun i => beValue n.addr.bytes + i * 2 ^ (128 - (n.plen + d))) ∧
      (fam6 c).niOps.rMk s.last = .ok r1 ∧ (fam6 c).niOps.rMk s.first = .ok r2 ∧
      SubnetsAlgo (fam6 c).niRa 128 n.plen l s.first s.last r1 r2 ∧
      (n.plen ≠ 0 → n.plen + d = 128 → GoodSearch (fam6 c).niRa (fam6 c).netLt
        (fun a b => beValue a.addr.bytes < beValue b.addr.bytes)
        (fun m => NetOk6 c m ∧ m.plen = 128 ∧ m.addr.scope = emptyScope c.M) l s.first s.last) := by
  obtain ⟨s, l, r1, r2, h1, h2, _, h4, h5, h6, h7, h8, h9, h10, h11⟩ := subnets_algo (fam6Law c hc) n hn d
    (by show 128 < 2 ^ 64; decide) hd (by show d < 128; omega) h0 hfit
    hd63 _ _ _ (RaHom.id _) (fam6 c).netLt (fun m => beValue m.addr.bytes) (fun _ => rfl) (fun _ _ => rfl)
  rw [List.map_id'] at h7 h8 h9 h11
  refine ⟨s, l, r1, r2, h1, h2, h4, h5, h6, ⟨h7, h8, h9, h10⟩, fun k1 k2 => (h11 k1 k2).weaken ?_⟩
  rintro v ⟨hv, hp, hs⟩
  have := netOk_isNet (fam6Law c hc) hv ⟨v.addr.bytes, plain6 c _ hs, by
    have := hv.wf.1; show 8 * v.addr.bytes.length = 128; omega⟩
  rw [hp] at this
  exact ⟨v, rfl, _, this⟩

example := C69_subnets_v6_partial exCfg rfl ex32 ex32_ok 20 (by decide) (by decide) (by decide) (by decide +kernel)

/-- C69 (partial), `subnets` of an IPv4 network in an `ip_network`. -/
theorem C69_any_subnets_v4_partial (c : Cfg) (hc : c.le = true) (n : Net (List (BitVec 8))) (hn : NetOk4 n) (d : Nat)
    (hd : n.plen + d ≤ 32) (hd32 : d < 32) (h0 : n.plen + d ≠ 0)
    (hfit : n.plen = 0 ∨ n.plen = 32 ∨ beValue n.addr + 2 ^ (32 - n.plen) < 2 ^ 32) :
    ∃ s, ∃ l : List (Net (List (BitVec 8))), ∃ r1 r2, anyNetSubnets c (.v4 n) d none = .ok s ∧ l.length = 2 ^ d ∧
      l.map (fun m => beValue m.addr) = (List.range (2 ^ d)).map (fun i => beValue n.addr + i * 2 ^ (32 - (n.plen + d))) ∧
      (anySubnetsOps c).ops.rMk s.last = .ok r1 ∧ (anySubnetsOps c).ops.rMk s.first = .ok r2 ∧
      SubnetsAlgo (anySubnetsOps c).ra 32 n.plen (l.map AnyNet.v4) s.first s.last r1 r2 ∧
      (n.plen ≠ 0 → n.plen + d = 32 → GoodSearch (anySubnetsOps c).ra (anyNetLt c)
        (fun a b => (anyNetValue a).2.1 < (anyNetValue b).2.1)
        (fun m => ∃ a, m = .v4 a ∧ NetOk4 a ∧ a.plen = 32) (l.map AnyNet.v4) s.first s.last) := by
  obtain ⟨le, spaces, M, ss, val, conv⟩ := c
  cases hc
  obtain ⟨s, l, r1, r2, h1, h2, _, h4, h5, h6, h7, h8, h9, h10, h11⟩ := subnets_algo fam4Law n hn d (by decide) hd hd32 h0 hfit
    (by omega) _ _ _ (anySubnets_hom4 ⟨true, spaces, M, ss, val, conv⟩) (anyNetLt ⟨true, spaces, M, ss, val, conv⟩)
    (fun m => (anyNetValue m).2.1) (fun _ => rfl) (fun _ _ => rfl)
  refine ⟨⟨_, _⟩, l, _, _, by simp only [anyNetSubnets, h1, Res.ok_bind]; rfl, h2, h4, rMk4 _ _ h5, rMk4 _ _ h6,
    ⟨h7, h8, h9, h10⟩, fun k1 k2 => (h11 k1 k2).weaken ?_⟩
  rintro _ ⟨v, rfl, hv, hp⟩
  have := netOk_isNet fam4Law hv ⟨v.addr, rfl, by have := hv.wf; show 8 * v.addr.length = 32; exact by unfold WF4 at this; omega⟩
  rw [hp] at this
  exact ⟨v, rfl, _, this⟩

example := C69_any_subnets_v4_partial exCfg rfl ex16 ex16_ok 3 (by decide) (by decide) (by decide) (by decide)

/-- C69 (partial), `subnets` of an IPv6 network in an `ip_network`. -/
theorem C69_any_subnets_v6_partial (c : Cfg) (hc : c.le = true) (n : Net V6) (hn : NetOk6 c n) (d : Nat) (hd : n.plen + d ≤ 128)
    (hd63 : d < 63) (h0 : n.plen + d ≠ 0)
    (hfit : n.plen = 0 ∨ n.plen = 128 ∨ beValue n.addr.bytes + 2 ^ (128 - n.plen) < 2 ^ 128) :
    ∃ s, ∃ l : List (Net V6), ∃ r1 r2, anyNetSubnets c (.v6 n) d none = .ok s ∧ l.length = 2 ^ d ∧
      l.map (fun m => beValue m.addr.bytes) =
        (List.range (2 ^ d)).map (fun i => beValue n.addr.bytes + i * 2 ^ (128 - (n.plen + d))) ∧
      (anySubnetsOps c).ops.rMk s.last = .ok r1 ∧ (anySubnetsOps c).ops.rMk s.first = .ok r2 ∧
      SubnetsAlgo (anySubnetsOps c).ra 128 n.plen (l.map AnyNet.v6) s.first s.last r1 r2 ∧
      (n.plen ≠ 0 → n.plen + d = 128 → GoodSearch (anySubnetsOps c).ra (anyNetLt c)
        (fun a b => (anyNetValue a).2.1 < (anyNetValue b).2.1)
        (fun m => ∃ a, m = .v6 a ∧ NetOk6 c a ∧ a.plen = 128 ∧ a.addr.scope = emptyScope c.M) (l.map AnyNet.v6) s.first s.last) := by
  obtain ⟨s, l, r1, r2, h1, h2, _, h4, h5, h6, h7, h8, h9, h10, h11⟩ := subnets_algo (fam6Law c hc) n hn d
    (by show 128 < 2 ^ 64; decide) hd (by show d < 128; omega) h0 hfit
    hd63 _ _ _ (anySubnets_hom6 c) (anyNetLt c) (fun m => (anyNetValue m).2.1) (fun _ => rfl) (fun _ _ => rfl)
  refine ⟨⟨_, _⟩, l, _, _, by simp only [anyNetSubnets, h1, Res.ok_bind]; rfl, h2, h4, rMk6 _ _ h5, rMk6 _ _ h6,
    ⟨h7, h8, h9, h10⟩, fun k1 k2 => (h11 k1 k2).weaken ?_⟩
  rintro _ ⟨v, rfl, hv, hp, hs⟩
  have := netOk_isNet (fam6Law c hc) hv ⟨v.addr.bytes, plain6 c _ hs, by
    have := hv.wf.1; show 8 * v.addr.bytes.length = 128; omega⟩
  rw [hp] at this
  exact ⟨v, rfl, _, this⟩

example := C69_any_subnets_v6_partial exCfg rfl ex32 ex32_ok 20 (by decide) (by decide) (by decide) (by decide +kernel)

/-- `10.0.0.0/8`. -/
def exTen : Net (List (BitVec 8)) := ⟨[10, 0, 0, 0], [255, 0, 0, 0], 8⟩

/-- C69, negation: `std::distance` over the four subnetworks `/10` of `10.0.0.0/8` is `2^24`; `std::binary_search` finds
`12.0.0.0/10` among them, and `std::lower_bound` returns an iterator outside the sequence. -/
theorem C69_subnets_search : NetOk4 exTen ∧
    ∃ s, (fam4 true).subnets exTen 2 none = .ok s ∧ s.size = 4#32 ∧ (fam4 true).niRa.distance s.first s.last = 2 ^ 24 ∧
      (fam4 true).niRa.binarySearch (fam4 true).netLt s.first s.last ⟨[12, 0, 0, 0], [255, 192, 0, 0], 10⟩ = .ok true ∧
      ((fam4 true).niRa.lowerBound (fam4 true).netLt s.first s.last ⟨[12, 0, 0, 0], [255, 192, 0, 0], 10⟩ >>= fun it =>
        .ok ((fam4 true).niRa.deref it)) = .ok ⟨[12, 0, 0, 0], [255, 192, 0, 0], 10⟩ :=
  ⟨⟨rfl, by decide, ⟨_, rfl, rfl, by decide⟩, by decide⟩, _, rfl, by decide +kernel, by decide +kernel, by decide +kernel,
    by decide +kernel⟩

/-- C69, negation: among the two halves of `0.0.0.0/0`, `begin() + 2` is `begin()` and not `end()`, `std::distance` is 0,
and `std::binary_search` says yes for `64.0.0.0/2`, which is not one of them. -/
theorem C69_subnets_all : NetOk4 exAll4 ∧
    ∃ s, (fam4 true).subnets exAll4 1 none = .ok s ∧ s.size = 2#32 ∧ (fam4 true).niRa.distance s.first s.last = 0 ∧
      (fam4 true).niRa.addI s.first 2#64 = .ok s.first ∧ (fam4 true).niRa.eq s.first s.last = .ok false ∧
      (fam4 true).niRa.binarySearch (fam4 true).netLt s.first s.last ⟨[64, 0, 0, 0], [192, 0, 0, 0], 2⟩ = .ok true :=
  ⟨exAll4_ok, _, rfl, by decide +kernel, by decide +kernel, by decide +kernel, by decide +kernel, by decide +kernel⟩

example : ∃ s, (fam4 true).subnets exTen 2 none = .ok s ∧ (fam4 true).niRa.copy 9 s.first s.last = .ok
    [⟨[10, 0, 0, 0], [255, 192, 0, 0], 10⟩, ⟨[10, 64, 0, 0], [255, 192, 0, 0], 10⟩, ⟨[10, 128, 0, 0], [255, 192, 0, 0], 10⟩,
      ⟨[10, 192, 0, 0], [255, 192, 0, 0], 10⟩] := ⟨_, rfl, by decide +kernel⟩
example : ex16.plen = 0 ∨ ex16.plen = 32 ∨ beValue ex16.addr + 2 ^ (32 - ex16.plen) < 2 ^ 32 := by decide
example : ex32.plen = 0 ∨ ex32.plen = 128 ∨ beValue ex32.addr.bytes + 2 ^ (128 - ex32.plen) < 2 ^ 128 := by decide +kernel

end Ip
