import Verif.Props.Net
import Verif.Lemmas.IterLaws
import Verif.Lemmas.Exclude
/-
Properties of iterators and of the sequences `hosts()`, `subnets()`, `address_exclude()`: C31, C32,
C34, C35 (`subnets`, `address_exclude`), C36, C37.  Little endian hosts; IPv6 for every compile time
configuration `c`.
-/
set_option autoImplicit false

namespace Ip
open Spec

/-- `255.255.255.254/31`, the last network of two IPv4 addresses. -/
def exTop31 : Net (List (BitVec 8)) := ⟨[255, 255, 255, 254], [255, 255, 255, 254], 31⟩

/-- `::/0`. -/
def exAll6 : Net V6 := ⟨⟨List.replicate 16 0, emptyScope 16⟩, ⟨List.replicate 16 0, emptyScope 16⟩, 0⟩

/-- `0.0.0.0/0`. -/
def exAll4 : Net (List (BitVec 8)) := ⟨[0, 0, 0, 0], [0, 0, 0, 0], 0⟩

/-- `192.0.0.0/2`. -/
def exTop2 : Net (List (BitVec 8)) := ⟨[192, 0, 0, 0], [192, 0, 0, 0], 2⟩

theorem exTop31_ok : NetOk4 exTop31 := ⟨rfl, by decide, ⟨_, rfl, rfl, by decide⟩, by decide⟩
theorem exAll4_ok : NetOk4 exAll4 := ⟨rfl, by decide, ⟨_, rfl, rfl, by decide⟩, by decide⟩
theorem exTop2_ok : NetOk4 exTop2 := ⟨rfl, by decide, ⟨_, rfl, rfl, by decide⟩, by decide⟩
theorem exAll6_ok : NetOk6 exCfg exAll6 :=
  ⟨⟨rfl, Nat.zero_le _, by simp [exAll6, emptyScope, exCfg]⟩, by decide, ⟨_, rfl, rfl, by decide⟩, by decide⟩

theorem ex32_below : ex32.plen = 128 ∨ ¬ InNet 128 ex32.plen (beValue ex32.addr.bytes) (2 ^ 128 - 1) := by
  have := inNet_interval (fam6Law exCfg rfl) ex32 ex32_ok (2 ^ 128 - 1)
  change InNet 128 ex32.plen (beValue ex32.addr.bytes) (2 ^ 128 - 1) ↔ _ at this
  rw [this]
  decide +kernel

/-- `ff00::/8`. -/
def exTop8 : Net V6 := ⟨⟨255 :: List.replicate 15 0, emptyScope 16⟩, ⟨255 :: List.replicate 15 0, emptyScope 16⟩, 8⟩

theorem exTop8_ok : NetOk6 exCfg exTop8 :=
  ⟨⟨rfl, Nat.zero_le _, by simp [exTop8, emptyScope, exCfg]⟩, by decide, ⟨_, rfl, rfl, by decide +kernel⟩, by decide +kernel⟩

theorem ex17_in_ex16 (t : Nat) (h : InNet 32 ex17.plen (beValue ex17.addr) t) : InNet 32 ex16.plen (beValue ex16.addr) t := by
  have h1 := inNet_interval fam4Law ex17 ex17_ok t
  have h2 := inNet_interval fam4Law ex16 ex16_ok t
  have e1 : (fam4 true).v ex17.addr = 3232268288 := by decide
  have e2 : (fam4 true).v ex16.addr = 3232235520 := by decide
  have h := h1.mp h
  refine h2.mpr ?_
  rw [e1] at h
  rw [e2]
  change _ ∧ t < 3232268288 + 2 ^ 15 at h
  change _ ∧ t < 3232235520 + 2 ^ 16
  omega

theorem ex32_in_exAll6 (t : Nat) (h : InNet 128 ex32.plen (beValue ex32.addr.bytes) t) :
    InNet 128 exAll6.plen (beValue exAll6.addr.bytes) t := by
  have h1 := inNet_interval (fam6Law exCfg rfl) ex32 ex32_ok t
  have h2 := inNet_interval (fam6Law exCfg rfl) exAll6 exAll6_ok t
  have e1 : (fam6 exCfg).v ex32.addr = 0x20010db8000000000000000000000000 := by decide +kernel
  have e2 : (fam6 exCfg).v exAll6.addr = 0 := by decide +kernel
  have h := h1.mp h
  refine h2.mpr ?_
  rw [e1] at h
  rw [e2]
  change _ ∧ t < _ + 2 ^ 96 at h
  change _ ∧ t < 0 + 2 ^ 128
  omega

/-- An iterator at `10.0.0.7`, one at the end of all IPv6 addresses, and two of networks. -/
def exIt4 : AIter (List (BitVec 8)) (BitVec 32) := ⟨[10, 0, 0, 7], 0x0a000007, 0⟩
def exIt6 : AIter V6 U128 := ⟨⟨List.replicate 16 0, emptyScope 16⟩, ⟨0, 0⟩, 1⟩
def exNetIt4 : NIter (List (BitVec 8)) (BitVec 32) :=
  ⟨⟨[10, 0, 7, 0], [255, 255, 255, 0], 24⟩, ⟨[10, 0, 7, 0], 0x0a000700, 0⟩, 0x100, 24⟩
def exNetIt6 : NIter V6 U128 :=
  ⟨⟨ex32.addr, ⟨List.replicate 8 255 ++ List.replicate 8 0, emptyScope 16⟩, 64⟩,
   ⟨ex32.addr, ⟨0x20010db800000000, 0⟩, 0⟩, ⟨1, 0⟩, 64⟩

theorem exIt4_ok : exIt4.Ok (fam4 true) BitVec.toNat := ⟨⟨_, rfl, rfl, by decide⟩, .inl rfl⟩
theorem exIt6_ok : exIt6.Ok (fam6 exCfg) U128.val := ⟨⟨_, rfl, rfl, by decide +kernel⟩, .inr rfl⟩
theorem exNetIt4_ok : exNetIt4.Ok (fam4 true) BitVec.toNat 0x100 24 :=
  ⟨⟨⟨_, rfl, rfl, by decide⟩, .inl rfl⟩, rfl, rfl, ⟨⟨_, rfl, rfl, by decide⟩, rfl, by decide +kernel, by decide, by decide⟩⟩
theorem exNetIt6_ok : exNetIt6.Ok (fam6 exCfg) U128.val ⟨1, 0⟩ 64 :=
  ⟨⟨⟨_, rfl, rfl, by decide +kernel⟩, .inl rfl⟩, rfl, rfl, ⟨⟨_, rfl, rfl, by decide +kernel⟩, rfl, by decide +kernel, by decide, by decide +kernel⟩⟩

/-! ### C31 -/

/-- C31 (partial), IPv4: for all networks except `255.255.255.254/31` the loop over `hosts()` ends and
visits exactly the usable hosts in increasing order; `size()`, `empty()`, indexing, `front()` and
`back()` agree (`GoodHosts`).  Missing: that network, see `C31_hosts_v4_wraps`. -/
theorem C31_hosts_v4_partial (n : Net (List (BitVec 8))) (hn : NetOk4 n)
    (hf : ¬ (n.plen = 31 ∧ beValue n.addr = 2 ^ 32 - 2)) :
    ∃ s, (fam4 true).hosts n = .ok s ∧ GoodHosts (fam4 true) BitVec.toNat n s := by
  apply hosts_spec fam4Law n hn
  have hp : n.plen ≤ 32 := hn.plen
  have hal : beValue n.addr % 2 ^ (32 - n.plen) = 0 := hn.aligned
  have hv : beValue n.addr < 2 ^ 32 := fam4Law.v_lt _ hn.wf
  show n.plen = 32 ∨ beValue n.addr + 2 ^ (32 - n.plen) < 2 ^ 32 ∨ (false = false ∧ n.plen + 2 ≤ 32)
  by_cases h : n.plen = 31
  · rw [h] at hal
    rw [h]
    omega
  · by_cases h' : n.plen = 32
    · exact .inl h'
    · exact .inr (.inr ⟨rfl, by omega⟩)

example := C31_hosts_v4_partial ex16 ex16_ok (by decide)

/-- C31, negation: the loop over the hosts of `255.255.255.254/31` visits more than `2^32` addresses,
and every address. -/
theorem C31_hosts_v4_wraps :
    ∃ (s : HostsSeq (List (BitVec 8)) (BitVec 32)) (l : List (List (BitVec 8))), (fam4 true).hosts exTop31 = .ok s ∧
      (∀ fuel, l.length < fuel → (fam4 true).aiOps.visit fuel s.first s.last = .ok l) ∧
      2 ^ 32 < l.length ∧ ∀ v, v < 2 ^ 32 → ∃ a ∈ l, beValue a = v :=
  hosts_wrap fam4Law exTop31 exTop31_ok (by
    show ¬ (31 = 32 ∨ beValue exTop31.addr + 2 ^ (32 - 31) < 2 ^ 32 ∨ (false = false ∧ 31 + 2 ≤ 32))
    decide)

/-- C31 (partial), IPv6: for networks of one address and networks that do not contain the largest
address.  Missing: the other networks, see `C31_hosts_v6_wraps`. -/
theorem C31_hosts_v6_partial (c : Cfg) (hc : c.le = true) (n : Net V6) (hn : NetOk6 c n)
    (hf : n.plen = 128 ∨ ¬ InNet 128 n.plen (beValue n.addr.bytes) (2 ^ 128 - 1)) :
    ∃ s, (fam6 c).hosts n = .ok s ∧ GoodHosts (fam6 c) U128.val n s := by
  apply hosts_spec (fam6Law c hc) n hn
  have hv : beValue n.addr.bytes < 2 ^ 128 := (fam6Law c hc).v_lt _ hn.wf
  have hi : InNet 128 n.plen (beValue n.addr.bytes) (2 ^ 128 - 1) ↔ _ :=
    inNet_interval (fam6Law c hc) n hn (2 ^ 128 - 1)
  show n.plen = 128 ∨ beValue n.addr.bytes + 2 ^ (128 - n.plen) < 2 ^ 128 ∨ _
  rcases hf with h | h
  · exact .inl h
  · right; left
    rw [hi] at h
    change ¬ (beValue n.addr.bytes ≤ 2 ^ 128 - 1 ∧ 2 ^ 128 - 1 < beValue n.addr.bytes + 2 ^ (128 - n.plen)) at h
    have hP := Nat.two_pow_pos (128 - n.plen)
    omega

example := C31_hosts_v6_partial exCfg rfl ex32 ex32_ok ex32_below

/-- C31, negation: in every IPv6 network with more than one address that contains the largest address
(for example `::/0`) the loop over `hosts()` visits more than `2^128` addresses, and every address. -/
theorem C31_hosts_v6_wraps (c : Cfg) (hc : c.le = true) (n : Net V6) (hn : NetOk6 c n) (h1 : n.plen ≠ 128)
    (hf : InNet 128 n.plen (beValue n.addr.bytes) (2 ^ 128 - 1)) :
    ∃ (s : HostsSeq V6 U128) (l : List V6), (fam6 c).hosts n = .ok s ∧
      (∀ fuel, l.length < fuel → (fam6 c).aiOps.visit fuel s.first s.last = .ok l) ∧
      2 ^ 128 < l.length ∧ ∀ v, v < 2 ^ 128 → ∃ a ∈ l, beValue a.bytes = v := by
  apply hosts_wrap (fam6Law c hc) n hn
  have hi : InNet 128 n.plen (beValue n.addr.bytes) (2 ^ 128 - 1) ↔ _ :=
    inNet_interval (fam6Law c hc) n hn (2 ^ 128 - 1)
  rw [hi] at hf
  change beValue n.addr.bytes ≤ 2 ^ 128 - 1 ∧ 2 ^ 128 - 1 < beValue n.addr.bytes + 2 ^ (128 - n.plen) at hf
  show ¬ (n.plen = 128 ∨ beValue n.addr.bytes + 2 ^ (128 - n.plen) < 2 ^ 128 ∨ (true = false ∧ n.plen + 2 ≤ 128))
  rintro (h | h | h)
  · exact h1 h
  · omega
  · exact Bool.noConfusion h.1

example : ¬ (ex16.plen = 31 ∧ beValue ex16.addr = 2 ^ 32 - 2) := by decide
example : ex32.plen = 128 ∨ ¬ InNet 128 ex32.plen (beValue ex32.addr.bytes) (2 ^ 128 - 1) := by
  have := inNet_interval (fam6Law exCfg rfl) ex32 ex32_ok (2 ^ 128 - 1)
  change InNet 128 ex32.plen (beValue ex32.addr.bytes) (2 ^ 128 - 1) ↔ _ at this
  rw [this]
  decide +kernel
example : InNet 128 exAll6.plen (beValue exAll6.addr.bytes) (2 ^ 128 - 1) := by
  have := inNet_interval (fam6Law exCfg rfl) exAll6 exAll6_ok (2 ^ 128 - 1)
  change InNet 128 exAll6.plen (beValue exAll6.addr.bytes) (2 ^ 128 - 1) ↔ _ at this
  rw [this]
  decide +kernel

/-- The hosts of `192.168.0.0/30`. -/
example : ((fam4 true).hosts ⟨[192, 168, 0, 0], [255, 255, 255, 252], 30⟩ >>= fun s =>
    (fam4 true).aiOps.visit 9 s.first s.last) = .ok [[192, 168, 0, 1], [192, 168, 0, 2]] := by decide +kernel

/-! ### C32 -/

/-- C32 (partial), IPv4: `subnets(d)` and `subnets(1, prefixlen + d)` give the same sequence, and the
loop over it ends and visits `2^d` networks of prefix length `prefixlen + d` in increasing order that
partition the network; `size()`, indexing and the ends agree (`GoodSubnets`).  Missing: networks other
than the whole space and single addresses that contain the largest address (`C32_subnets_v4_wraps`),
the whole space with `d = 0` (`C32_zero_step_v4`) and with `d = 32` (`C32_subnets_undefined`). -/
theorem C32_subnets_v4_partial (n : Net (List (BitVec 8))) (hn : NetOk4 n) (d : Nat) (hd : n.plen + d ≤ 32) (hd32 : d < 32)
    (h0 : n.plen + d ≠ 0) (hfit : n.plen = 0 ∨ n.plen = 32 ∨ beValue n.addr + 2 ^ (32 - n.plen) < 2 ^ 32) :
    ∃ s, (fam4 true).subnets n d none = .ok s ∧ (fam4 true).subnets n 1 (some (n.plen + d)) = .ok s ∧
      GoodSubnets (fam4 true) WF4 BitVec.toNat n d s :=
  subnets_spec fam4Law n hn d (by decide) hd hd32 h0 hfit

example := C32_subnets_v4_partial ex16 ex16_ok 3 (by decide) (by decide) (by decide) (by decide)

/-- C32 (partial), IPv6. -/
theorem C32_subnets_v6_partial (c : Cfg) (hc : c.le = true) (n : Net V6) (hn : NetOk6 c n) (d : Nat) (hd : n.plen + d ≤ 128)
    (hd128 : d < 128) (h0 : n.plen + d ≠ 0)
    (hfit : n.plen = 0 ∨ n.plen = 128 ∨ beValue n.addr.bytes + 2 ^ (128 - n.plen) < 2 ^ 128) :
    ∃ s, (fam6 c).subnets n d none = .ok s ∧ (fam6 c).subnets n 1 (some (n.plen + d)) = .ok s ∧
      GoodSubnets (fam6 c) (V6.WF c.M) U128.val n d s :=
  subnets_spec (fam6Law c hc) n hn d (by show 128 < 2 ^ 64; decide) hd hd128 h0 hfit

example := C32_subnets_v6_partial exCfg rfl ex32 ex32_ok 70 (by decide) (by decide) (by decide) (by decide +kernel)

/-- C32, negation: for an IPv4 network, other than the whole space or a single address, that contains
the largest address, the loop over `subnets(d)` visits `2^prefixlen * 2^d` networks too many, among
them one outside the network, although `size()` is `2^d`. -/
theorem C32_subnets_v4_wraps (n : Net (List (BitVec 8))) (hn : NetOk4 n) (d : Nat) (hd : n.plen + d ≤ 32)
    (h1 : 0 < n.plen) (h2 : n.plen < 32) (hfit : beValue n.addr + 2 ^ (32 - n.plen) = 2 ^ 32) :
    ∃ (s : SubnetsSeq (List (BitVec 8)) (BitVec 32)) (l : List (Net (List (BitVec 8)))), (fam4 true).subnets n d none = .ok s ∧
      s.size.toNat = 2 ^ d ∧ (∀ fuel, l.length < fuel → (fam4 true).niOps.visit fuel s.first s.last = .ok l) ∧
      l.length = 2 ^ (n.plen + d) + 2 ^ d ∧
      ∃ m ∈ l, beValue m.addr = 0 ∧ m.plen = n.plen + d ∧ ¬ InNet 32 n.plen (beValue n.addr) (beValue m.addr) :=
  subnets_wrap fam4Law n hn d (by decide) hd (by show d < 32; omega) (by
    show ¬ (n.plen = 0 ∨ n.plen = 32 ∨ beValue n.addr + 2 ^ (32 - n.plen) < 2 ^ 32)
    omega)

example := C32_subnets_v4_wraps exTop2 exTop2_ok 5 (by decide) (by decide) (by decide) (by decide)

/-- C32, negation, IPv6. -/
theorem C32_subnets_v6_wraps (c : Cfg) (hc : c.le = true) (n : Net V6) (hn : NetOk6 c n) (d : Nat) (hd : n.plen + d ≤ 128)
    (h1 : 0 < n.plen) (h2 : n.plen < 128) (hfit : beValue n.addr.bytes + 2 ^ (128 - n.plen) = 2 ^ 128) :
    ∃ (s : SubnetsSeq V6 U128) (l : List (Net V6)), (fam6 c).subnets n d none = .ok s ∧
      s.size.val = 2 ^ d ∧ (∀ fuel, l.length < fuel → (fam6 c).niOps.visit fuel s.first s.last = .ok l) ∧
      l.length = 2 ^ (n.plen + d) + 2 ^ d ∧
      ∃ m ∈ l, beValue m.addr.bytes = 0 ∧ m.plen = n.plen + d ∧
        ¬ InNet 128 n.plen (beValue n.addr.bytes) (beValue m.addr.bytes) :=
  subnets_wrap (fam6Law c hc) n hn d (by show 128 < 2 ^ 64; decide) hd (by show d < 128; omega) (by
    show ¬ (n.plen = 0 ∨ n.plen = 128 ∨ beValue n.addr.bytes + 2 ^ (128 - n.plen) < 2 ^ 128)
    omega)

example := C32_subnets_v6_wraps exCfg rfl exTop8 exTop8_ok 5 (by decide) (by decide) (by decide) (by decide +kernel)

/-- C32, negation: the subnetworks of the whole space that are single addresses: a shift by the width. -/
theorem C32_subnets_undefined (c : Cfg) (hc : c.le = true) :
    (∀ n, NetOk4 n → n.plen = 0 → (fam4 true).subnets n 32 none = .ub ∧ (fam4 true).subnets n 1 (some 32) = .ub) ∧
    (∀ n, NetOk6 c n → n.plen = 0 → (fam6 c).subnets n 128 none = .ub ∧ (fam6 c).subnets n 1 (some 128) = .ub) :=
  ⟨fun n hn h => subnets_wide_ub fam4Law n hn (by decide) h, fun n hn h => subnets_wide_ub (fam6Law c hc) n hn (by show 128 < 2 ^ 64; decide) h⟩

example := C32_subnets_undefined exCfg rfl

/-- C32, negation: `subnets(0)` of `0.0.0.0/0` divides by zero. -/
theorem C32_zero_step_v4 (n : Net (List (BitVec 8))) (hn : NetOk4 n) (h0 : n.plen = 0) :
    (fam4 true).subnets n 0 none = .ub := by
  obtain ⟨x, y, step, num, h1, _, _, _, _, h6⟩ := subnets_zero_step fam4Law n hn h0
  rw [h6]
  have : step = 0#32 := BitVec.eq_of_toNat_eq h1
  subst this
  rfl

example := C32_zero_step_v4 exAll4 exAll4_ok rfl

/-- C32, negation: the loop over `subnets(0)` of `::/0` never ends: whatever the number of rounds, it is
not finished. -/
theorem C32_zero_step_v6 (c : Cfg) (hc : c.le = true) (n : Net V6) (hn : NetOk6 c n) (h0 : n.plen = 0) :
    ∃ s, (fam6 c).subnets n 0 none = .ok s ∧ ∀ fuel, (fam6 c).niOps.visit fuel s.first s.last = .ub := by
  obtain ⟨x, y, step, num, h1, h2, h3, h4, h5, h6⟩ := subnets_zero_step (fam6Law c hc) n hn h0
  obtain ⟨r, r1, _⟩ := U128.div_eq num step
  refine ⟨⟨x, y, (fam6 c).ops.add r ((fam6 c).ops.ofI64 1#64)⟩, ?_, ?_⟩
  · rw [h6]
    show Fam.noexcept (U128.div num step >>= _) = _
    rw [r1]; rfl
  · have Ln := niLaw (fam6Law c hc) step 0 (by rw [h1]; rfl)
    rw [h1] at Ln
    exact Ln.visit_stuck x y h2 h3 (by rw [h4, h5]; show 0 ≠ 2 ^ 128; decide +kernel)

example : ∃ s, (fam4 true).subnets ex16 1 none = .ok s ∧
    (fam4 true).niOps.visit 9 s.first s.last = .ok [⟨[192, 168, 0, 0], [255, 255, 128, 0], 17⟩, ex17] :=
  ⟨_, rfl, by decide +kernel⟩
example : beValue exTop2.addr + 2 ^ (32 - exTop2.plen) = 2 ^ 32 := by decide
example : ex32.plen = 0 ∨ ex32.plen = 128 ∨ beValue ex32.addr.bytes + 2 ^ (128 - ex32.plen) < 2 ^ 128 := by decide +kernel

/-! ### C34 -/

/-- C34 (partial), IPv4: the loop over `address_exclude(o)` ends and visits as many networks as the
difference of the prefix lengths, pairwise disjoint, with union the set difference.  Missing: the
host `0.0.0.1/32` excluded from a network of more than one address, see `C34_exclude_v4_loses`. -/
theorem C34_exclude_v4_partial (n o : Net (List (BitVec 8))) (hn : NetOk4 n) (ho : NetOk4 o)
    (hsub : ∀ t, InNet 32 o.plen (beValue o.addr) t → InNet 32 n.plen (beValue n.addr) t)
    (hex : ¬ (o.plen = 32 ∧ beValue o.addr = 1 ∧ beValue n.addr = 0)) :
    ∃ (s : ExSeq (List (BitVec 8))) (l : List (Net (List (BitVec 8)))), (fam4 true).addressExclude n o = .ok s ∧
      (∀ fuel, l.length < fuel → (fam4 true).exVisit fuel s.first s.last = .ok l) ∧
      l.length = o.plen - n.plen ∧ (∀ a ∈ l, NetOk4 a) ∧
      Partitions 32 (l.map fun m => (beValue m.addr, m.plen))
        (fun t => InNet 32 n.plen (beValue n.addr) t ∧ ¬ InNet 32 o.plen (beValue o.addr) t) := by
  obtain ⟨s, l, h1, h2, h3, h4, h5⟩ := addressExclude_spec fam4Law (by decide) (fun _ a => ⟨a, rfl⟩) n o hn ho hsub
  refine ⟨s, l, h1, fun fuel hf => ?_, h2, fun a ha => (h3 a ha).1, h4⟩
  exact (h5 fuel hf).trans (congrArg Res.ok (if_neg hex))

example := C34_exclude_v4_partial ex16 ex17 ex16_ok ex17_ok ex17_in_ex16 (by decide)

/-- C34 (partial), IPv6.  Missing: the host `::1/128` excluded from a network of more than one address,
see `C34_exclude_v6_loses`.  Scope ids are ignored and dropped. -/
theorem C34_exclude_v6_partial (c : Cfg) (hc : c.le = true) (n o : Net V6) (hn : NetOk6 c n) (ho : NetOk6 c o)
    (hsub : ∀ t, InNet 128 o.plen (beValue o.addr.bytes) t → InNet 128 n.plen (beValue n.addr.bytes) t)
    (hex : ¬ (o.plen = 128 ∧ beValue o.addr.bytes = 1 ∧ beValue n.addr.bytes = 0)) :
    ∃ (s : ExSeq V6) (l : List (Net V6)), (fam6 c).addressExclude n o = .ok s ∧
      (∀ fuel, l.length < fuel → (fam6 c).exVisit fuel s.first s.last = .ok l) ∧
      l.length = o.plen - n.plen ∧ (∀ a ∈ l, NetOk6 c a) ∧
      Partitions 128 (l.map fun m => (beValue m.addr.bytes, m.plen))
        (fun t => InNet 128 n.plen (beValue n.addr.bytes) t ∧ ¬ InNet 128 o.plen (beValue o.addr.bytes) t) := by
  obtain ⟨s, l, h1, h2, h3, h4, h5⟩ := addressExclude_spec (fam6Law c hc) (by show 128 < 2 ^ 64; decide) (fun h => Bool.noConfusion h) n o hn ho hsub
  refine ⟨s, l, h1, fun fuel hf => ?_, h2, fun a ha => (h3 a ha).1, h4⟩
  exact (h5 fuel hf).trans (congrArg Res.ok (if_neg hex))

example := C34_exclude_v6_partial exCfg rfl exAll6 ex32 exAll6_ok ex32_ok ex32_in_exAll6 (by decide)

/-- `0.0.0.1/32`. -/
def exOne4 : Net (List (BitVec 8)) := ⟨[0, 0, 0, 1], [255, 255, 255, 255], 32⟩

/-- C34, negation: excluding `0.0.0.1/32` from a larger network visits one network too few, ... -/
theorem C34_exclude_v4_loses (n : Net (List (BitVec 8))) (hn : NetOk4 n) (h0 : beValue n.addr = 0) (h1 : n.plen < 32) :
    ∃ (s : ExSeq (List (BitVec 8))) (l : List (Net (List (BitVec 8)))), (fam4 true).addressExclude n exOne4 = .ok s ∧
      (∀ fuel, l.length + 1 < fuel → (fam4 true).exVisit fuel s.first s.last = .ok l) ∧
      l.length + 1 = 32 - n.plen := by
  have ho : NetOk4 exOne4 := ⟨rfl, by decide, ⟨_, rfl, rfl, by decide⟩, by decide⟩
  obtain ⟨s, l, h2, h3, h4, h5, h6⟩ := addressExclude_spec fam4Law (by decide) (fun _ a => ⟨a, rfl⟩) n exOne4 hn ho (by
    intro t ht
    rw [inNet_interval fam4Law exOne4 ho] at ht
    rw [inNet_interval fam4Law n hn]
    have e : (fam4 true).v n.addr = 0 := h0
    have e1 : (fam4 true).v exOne4.addr = 1 := rfl
    have e2 : 2 ^ ((fam4 true).maxPrefix - exOne4.plen) = 1 := rfl
    have e3 : 2 ^ 1 ≤ 2 ^ ((fam4 true).maxPrefix - n.plen) := Nat.pow_le_pow_right (by decide) (by show 1 ≤ 32 - n.plen; omega)
    rw [e1, e2] at ht
    rw [e]
    omega)
  change l.length = 32 - n.plen at h3
  have hlen : l.dropLast.length + 1 = 32 - n.plen := by
    rw [List.length_dropLast, h3]; omega
  refine ⟨s, l.dropLast, h2, fun fuel hf => ?_, hlen⟩
  rw [h6 fuel (by omega), if_pos]
  exact ⟨rfl, rfl, h0⟩

example := C34_exclude_v4_loses exAll4 exAll4_ok (by decide) (by decide)

/-- ... namely `0.0.0.0/32`: for `0.0.0.0/30` only `0.0.0.2/31` is left, and address 0 is missing. -/
theorem C34_exclude_zero_missing :
    ((fam4 true).addressExclude ⟨[0, 0, 0, 0], [255, 255, 255, 252], 30⟩ exOne4 >>= fun s =>
      (fam4 true).exVisit 9 s.first s.last) = .ok [⟨[0, 0, 0, 2], [255, 255, 255, 254], 31⟩] := by decide +kernel

/-- `::1/128`. -/
def exOne6 (M : Nat) : Net V6 := ⟨⟨[0, 0, 0, 0, 0, 0, 0, 0, 0, 0, 0, 0, 0, 0, 0, 1], emptyScope M⟩,
  ⟨List.replicate 16 255, emptyScope M⟩, 128⟩

/-- C34, negation, IPv6. -/
theorem C34_exclude_v6_loses (c : Cfg) (hc : c.le = true) (n : Net V6) (hn : NetOk6 c n) (h0 : beValue n.addr.bytes = 0)
    (h1 : n.plen < 128) :
    ∃ (s : ExSeq V6) (l : List (Net V6)), (fam6 c).addressExclude n (exOne6 c.M) = .ok s ∧
      (∀ fuel, l.length + 1 < fuel → (fam6 c).exVisit fuel s.first s.last = .ok l) ∧
      l.length + 1 = 128 - n.plen := by
  have ho : NetOk6 c (exOne6 c.M) :=
    ⟨⟨rfl, Nat.zero_le _, by simp [exOne6, emptyScope]⟩, Nat.le_refl 128, ⟨List.replicate 16 255, rfl, rfl,
        by show beValue (List.replicate 16 255) = 2 ^ 128 - 2 ^ (128 - 128); decide +kernel⟩,
      by show beValue _ % 2 ^ (128 - 128) = 0; rw [Nat.sub_self, Nat.pow_zero, Nat.mod_one]⟩
  obtain ⟨s, l, h2, h3, h4, h5, h6⟩ := addressExclude_spec (fam6Law c hc) (by show 128 < 2 ^ 64; decide) (fun h => Bool.noConfusion h) n
    (exOne6 c.M) hn ho (by
    intro t ht
    rw [inNet_interval (fam6Law c hc) (exOne6 c.M) ho] at ht
    rw [inNet_interval (fam6Law c hc) n hn]
    have e : (fam6 c).v n.addr = 0 := h0
    have e1 : (fam6 c).v (exOne6 c.M).addr = 1 := by show beValue [0, 0, 0, 0, 0, 0, 0, 0, 0, 0, 0, 0, 0, 0, 0, 1] = 1; decide
    have e2 : 2 ^ ((fam6 c).maxPrefix - (exOne6 c.M).plen) = 1 := by show 2 ^ (128 - 128) = 1; decide
    have e3 : 2 ^ 1 ≤ 2 ^ ((fam6 c).maxPrefix - n.plen) := Nat.pow_le_pow_right (by decide) (by show 1 ≤ 128 - n.plen; omega)
    rw [e1, e2] at ht
    rw [e]
    omega)
  change l.length = 128 - n.plen at h3
  have hlen : l.dropLast.length + 1 = 128 - n.plen := by
    rw [List.length_dropLast, h3]; omega
  refine ⟨s, l.dropLast, h2, fun fuel hf => ?_, hlen⟩
  rw [h6 fuel (by omega), if_pos]
  exact ⟨rfl, by show beValue [0, 0, 0, 0, 0, 0, 0, 0, 0, 0, 0, 0, 0, 0, 0, 1] = 1; decide, h0⟩

example : ((fam4 true).addressExclude ex16 ⟨[192, 168, 64, 0], [255, 255, 192, 0], 18⟩ >>= fun s =>
      (fam4 true).exVisit 9 s.first s.last) = .ok [ex17, ⟨[192, 168, 0, 0], [255, 255, 192, 0], 18⟩] := by decide +kernel
example : NetOk4 exAll4 ∧ beValue exAll4.addr = 0 ∧ exAll4.plen < 32 := ⟨exAll4_ok, by decide, by decide⟩
example : NetOk6 exCfg exAll6 ∧ beValue exAll6.addr.bytes = 0 ∧ exAll6.plen < 128 := ⟨exAll6_ok, by decide, by decide⟩

/-! ### C35, subnets and address_exclude -/

/-- C35 (partial), `subnets` of IPv4 networks: the codes are reported exactly for inadmissible arguments.
A single address ignores the arguments and is its own only subnetwork.  Missing: `prefixlen + diff`
beyond the range of `size_t`, see `C35_subnets_sizet_wrap`. -/
theorem C35_subnets_v4_partial (n : Net (List (BitVec 8))) (hn : NetOk4 n) (diff : Nat) :
    (n.plen = 32 → ∀ newp, ∃ s, (fam4 true).subnets n diff newp = .ok s ∧ GoodSubnets (fam4 true) WF4 BitVec.toNat n 0 s) ∧
    (n.plen < 32 → n.plen + diff < 2 ^ 64 →
      (n.plen + diff > 32 ↔ (fam4 true).subnets n diff none = .err .invalid_prefixlen_diff 0)) ∧
    (∀ p, n.plen < 32 → p < 2 ^ 64 →
      (p < n.plen ↔ (fam4 true).subnets n diff (some p) = .err .new_prefix_must_be_longer 0) ∧
      (n.plen ≤ p ∧ diff ≠ 1 ↔ (fam4 true).subnets n diff (some p) = .err .cannot_set_prefixlen_diff_and_new_prefix 0) ∧
      (p > 32 ∧ diff = 1 ↔ (fam4 true).subnets n diff (some p) = .err .invalid_prefixlen_diff 0)) ∧
    (∀ newp e v, (fam4 true).subnets n diff newp = .err e v → v = 0 ∧ (e = .invalid_prefixlen_diff ∨
      e = .new_prefix_must_be_longer ∨ e = .cannot_set_prefixlen_diff_and_new_prefix)) :=
  subnets_errors fam4Law n hn diff

example := C35_subnets_v4_partial ex16 ex16_ok 17

/-- C35 (partial), `subnets` of IPv6 networks. -/
theorem C35_subnets_v6_partial (c : Cfg) (hc : c.le = true) (n : Net V6) (hn : NetOk6 c n) (diff : Nat) :
    (n.plen = 128 → ∀ newp, ∃ s, (fam6 c).subnets n diff newp = .ok s ∧ GoodSubnets (fam6 c) (V6.WF c.M) U128.val n 0 s) ∧
    (n.plen < 128 → n.plen + diff < 2 ^ 64 →
      (n.plen + diff > 128 ↔ (fam6 c).subnets n diff none = .err .invalid_prefixlen_diff 0)) ∧
    (∀ p, n.plen < 128 → p < 2 ^ 64 →
      (p < n.plen ↔ (fam6 c).subnets n diff (some p) = .err .new_prefix_must_be_longer 0) ∧
      (n.plen ≤ p ∧ diff ≠ 1 ↔ (fam6 c).subnets n diff (some p) = .err .cannot_set_prefixlen_diff_and_new_prefix 0) ∧
      (p > 128 ∧ diff = 1 ↔ (fam6 c).subnets n diff (some p) = .err .invalid_prefixlen_diff 0)) ∧
    (∀ newp e v, (fam6 c).subnets n diff newp = .err e v → v = 0 ∧ (e = .invalid_prefixlen_diff ∨
      e = .new_prefix_must_be_longer ∨ e = .cannot_set_prefixlen_diff_and_new_prefix)) :=
  subnets_errors (fam6Law c hc) n hn diff

example := C35_subnets_v6_partial exCfg rfl ex32 ex32_ok 97

/-- C35, negation: when `prefixlen + diff` is beyond the range of `size_t` no error is reported:
`subnets` ends in undefined behaviour or in `std::terminate`. -/
theorem C35_subnets_sizet_wrap (c : Cfg) (hc : c.le = true) (diff : Nat) (hd : diff < 2 ^ 64) :
    (∀ n, NetOk4 n → n.plen < 32 → 2 ^ 64 ≤ n.plen + diff → (fam4 true).subnets n diff none = .ub) ∧
    (∀ n, NetOk6 c n → n.plen < 128 → 2 ^ 64 ≤ n.plen + diff → (fam6 c).subnets n diff none = .ub) :=
  ⟨fun n hn hp hs => subnets_sizet_wrap fam4Law n hn diff hp (by decide) hd hs,
    fun n hn hp hs => subnets_sizet_wrap (fam6Law c hc) n hn diff hp (by show 128 < 2 ^ 64; decide) hd hs⟩

example := C35_subnets_sizet_wrap exCfg rfl (2 ^ 64 - 1) (by decide)

/-- C35, `address_exclude` reports `not_contained_network` exactly when the other network is not
contained in this one. -/
theorem C35_exclude (c : Cfg) (hc : c.le = true) :
    (∀ n o, NetOk4 n → NetOk4 o →
      (¬ (∀ t, InNet 32 o.plen (beValue o.addr) t → InNet 32 n.plen (beValue n.addr) t) →
        (fam4 true).addressExclude n o = .err .not_contained_network 0) ∧
      ((∀ t, InNet 32 o.plen (beValue o.addr) t → InNet 32 n.plen (beValue n.addr) t) →
        ∃ s, (fam4 true).addressExclude n o = .ok s)) ∧
    (∀ n o, NetOk6 c n → NetOk6 c o →
      (¬ (∀ t, InNet 128 o.plen (beValue o.addr.bytes) t → InNet 128 n.plen (beValue n.addr.bytes) t) →
        (fam6 c).addressExclude n o = .err .not_contained_network 0) ∧
      ((∀ t, InNet 128 o.plen (beValue o.addr.bytes) t → InNet 128 n.plen (beValue n.addr.bytes) t) →
        ∃ s, (fam6 c).addressExclude n o = .ok s)) :=
  ⟨fun n o hn ho => addressExclude_error fam4Law (by decide) (fun _ a => ⟨a, rfl⟩) n o hn ho,
    fun n o hn ho => addressExclude_error (fam6Law c hc) (by show 128 < 2 ^ 64; decide) (fun h => Bool.noConfusion h) n o hn ho⟩

example : (fam4 true).subnets ex16 17 none = .err .invalid_prefixlen_diff 0 := by decide +kernel
example : (fam4 true).subnets ex16 (2 ^ 64 - 16) none = .ub := by decide +kernel
example : (fam4 true).addressExclude ex17 ex16 = .err .not_contained_network 0 := by decide +kernel

/-! ### C36 -/

/-- C36 (partial), IPv4 address iterators.  `AIter.Ok` are the states reachable from iterators over
addresses without scope id (`C36_states_v4`).  The laws hold for offsets of the type `uint_type`, also
past the end of the address space.  Missing: negative signed offsets, see `C36_negative_v4`. -/
theorem C36_addresses_v4_partial (x : AIter (List (BitVec 8)) (BitVec 32)) (hx : x.Ok (fam4 true) BitVec.toNat)
    (m n : BitVec 32) :
    (∃ y z, (fam4 true).aiAdd x n = .ok y ∧ y.Ok (fam4 true) BitVec.toNat ∧ (fam4 true).aiSub y n = .ok x ∧
      (fam4 true).aiSub x n = .ok z ∧ z.Ok (fam4 true) BitVec.toNat ∧ (fam4 true).aiAdd z n = .ok x ∧
      beValue y.cur = (beValue x.cur + n.toNat) % 2 ^ 32 ∧ (fam4 true).aiAt x n = .ok y.cur ∧
      (fam4 true).aiUintDiff y x = n ∧ (fam4 true).aiUintDiff x z = n ∧
      (0 < n.toNat → x.pos (fam4 true) BitVec.toNat + n.toNat < 2 * 2 ^ 32 →
        (fam4 true).aiLt x y = .ok true ∧ (fam4 true).aiCmp x y = .ok .lt)) ∧
    (∃ a b, (fam4 true).aiAdd x m = .ok a ∧ (fam4 true).aiAdd a n = .ok b ∧
      (m.toNat + n.toNat < 2 ^ 32 → (fam4 true).aiAdd x (m + n) = .ok b)) ∧
    (∃ y z, (fam4 true).aiInc x = .ok y ∧ (fam4 true).aiAdd x 1#32 = .ok y ∧ (fam4 true).aiDec y = .ok x ∧
      (fam4 true).aiDec x = .ok z ∧ (fam4 true).aiSub x 1#32 = .ok z ∧ (fam4 true).aiInc z = .ok x ∧
      beValue y.cur = (beValue x.cur + 1) % 2 ^ 32 ∧ beValue x.cur = (beValue z.cur + 1) % 2 ^ 32) :=
  aiter_laws fam4Law x hx m n

example := C36_addresses_v4_partial exIt4 exIt4_ok 7 3

/-- C36 (partial), IPv6 address iterators. -/
theorem C36_addresses_v6_partial (c : Cfg) (hc : c.le = true) (x : AIter V6 U128) (hx : x.Ok (fam6 c) U128.val)
    (m n : U128) :
    (∃ y z, (fam6 c).aiAdd x n = .ok y ∧ y.Ok (fam6 c) U128.val ∧ (fam6 c).aiSub y n = .ok x ∧
      (fam6 c).aiSub x n = .ok z ∧ z.Ok (fam6 c) U128.val ∧ (fam6 c).aiAdd z n = .ok x ∧
      beValue y.cur.bytes = (beValue x.cur.bytes + n.val) % 2 ^ 128 ∧ (fam6 c).aiAt x n = .ok y.cur ∧
      (fam6 c).aiUintDiff y x = n ∧ (fam6 c).aiUintDiff x z = n ∧
      (0 < n.val → x.pos (fam6 c) U128.val + n.val < 2 * 2 ^ 128 →
        (fam6 c).aiLt x y = .ok true ∧ (fam6 c).aiCmp x y = .ok .lt)) ∧
    (∃ a b, (fam6 c).aiAdd x m = .ok a ∧ (fam6 c).aiAdd a n = .ok b ∧
      (m.val + n.val < 2 ^ 128 → (fam6 c).aiAdd x (m.add n) = .ok b)) ∧
    (∃ y z, (fam6 c).aiInc x = .ok y ∧ (fam6 c).aiAdd x (U128.ofI64 1) = .ok y ∧ (fam6 c).aiDec y = .ok x ∧
      (fam6 c).aiDec x = .ok z ∧ (fam6 c).aiSub x (U128.ofI64 1) = .ok z ∧ (fam6 c).aiInc z = .ok x ∧
      beValue y.cur.bytes = (beValue x.cur.bytes + 1) % 2 ^ 128 ∧
      beValue x.cur.bytes = (beValue z.cur.bytes + 1) % 2 ^ 128) :=
  aiter_laws (fam6Law c hc) x hx m n

example := C36_addresses_v6_partial exCfg rfl exIt6 exIt6_ok ⟨0, 7⟩ ⟨1, 3⟩

/-- C36 (partial): signed offsets that are not negative: `(it + n) - n == it`, `(it + n) - it == n`. -/
theorem C36_signed_partial (c : Cfg) (hc : c.le = true) (n : BitVec 64) (h0 : 0 ≤ n.toInt) :
    (∀ x : AIter (List (BitVec 8)) (BitVec 32), x.Ok (fam4 true) BitVec.toNat → n.toNat < 2 ^ 32 →
      ∃ y, (fam4 true).aiAddI x n = .ok y ∧ (fam4 true).aiSubI y n = .ok x ∧ (fam4 true).aiAtI x n = .ok y.cur ∧
        (fam4 true).aiDiff y x = n ∧ beValue y.cur = (beValue x.cur + n.toNat) % 2 ^ 32) ∧
    (∀ x : AIter V6 U128, x.Ok (fam6 c) U128.val →
      ∃ y, (fam6 c).aiAddI x n = .ok y ∧ (fam6 c).aiSubI y n = .ok x ∧ (fam6 c).aiAtI x n = .ok y.cur ∧
        (fam6 c).aiDiff y x = n ∧ beValue y.cur.bytes = (beValue x.cur.bytes + n.toNat) % 2 ^ 128) := by
  have h1 : n.toNat < 2 ^ 63 := by
    rw [BitVec.toInt_eq_toNat_cond] at h0
    have := n.isLt
    split at h0 <;> omega
  refine ⟨fun x hx hn => ?_, fun x hx => ?_⟩
  · obtain ⟨y, y1, _, y2⟩ := aiter_signed fam4Law x hx n h1 hn
    exact ⟨y, y1, y2⟩
  · obtain ⟨y, y1, _, y2⟩ := aiter_signed (fam6Law c hc) x hx n h1
      (Nat.lt_of_lt_of_le h1 (Nat.pow_le_pow_right (by decide) (by decide : 63 ≤ 128)))
    exact ⟨y, y1, y2⟩

example := C36_signed_partial exCfg rfl 7 (by decide)

/-- C36, negation: for every iterator and every `k > 0`, `it + (-k) == it - k` is false, although both
stand at the same address; IPv4. -/
theorem C36_negative_v4 (x : AIter (List (BitVec 8)) (BitVec 32)) (hx : x.Ok (fam4 true) BitVec.toNat) (k : Nat) (hk : 0 < k)
    (hw : k < 2 ^ 32) :
    ∃ y z, (fam4 true).aiAddI x (BitVec.ofInt 64 (-(k : Int))) = .ok y ∧ (fam4 true).aiSubI x (BitVec.ofNat 64 k) = .ok z ∧
      y.cur = z.cur ∧ (fam4 true).aiEq y z = .ok false :=
  aiter_negative fam4Law x hx k hk (by omega) hw

example := C36_negative_v4 exIt4 exIt4_ok 3 (by decide) (by decide)

/-- C36, negation, IPv6. -/
theorem C36_negative_v6 (c : Cfg) (hc : c.le = true) (x : AIter V6 U128) (hx : x.Ok (fam6 c) U128.val) (k : Nat) (hk : 0 < k)
    (hw : k < 2 ^ 63) :
    ∃ y z, (fam6 c).aiAddI x (BitVec.ofInt 64 (-(k : Int))) = .ok y ∧ (fam6 c).aiSubI x (BitVec.ofNat 64 k) = .ok z ∧
      y.cur = z.cur ∧ (fam6 c).aiEq y z = .ok false :=
  aiter_negative (fam6Law c hc) x hx k hk hw
    (Nat.lt_of_lt_of_le hw (Nat.pow_le_pow_right (by decide) (by decide : 63 ≤ 128)))

example := C36_negative_v6 exCfg rfl exIt6 exIt6_ok 3 (by decide) (by decide)

/-- C36, negation: IPv4, `it - (it + 1)` is not `-1`; and an iterator that starts at an address with
scope id loses it: `(it + 1) - 1 == it` is false. -/
theorem C36_negation :
    (∃ x y, (fam4 true).aiMk [10, 0, 0, 1] 0 = .ok x ∧ (fam4 true).aiInc x = .ok y ∧
      (fam4 true).aiDiff x y = 4294967295#64) ∧
    (∃ a x y z, (fam6 exCfg).aiMk a 0 = .ok x ∧ (fam6 exCfg).aiInc x = .ok y ∧ (fam6 exCfg).aiDec y = .ok z ∧
      (fam6 exCfg).aiEq z x = .ok false) := by
  refine ⟨⟨_, _, rfl, rfl, by decide⟩, ⟨⟨[0xfe, 0x80, 0, 0, 0, 0, 0, 0, 0, 0, 0, 0, 0, 0, 0, 1],
    ⟨'a' :: List.replicate 15 (Char.ofNat 0), 1⟩⟩, _, _, _, rfl, rfl, rfl, by decide +kernel⟩⟩

/-- The states of address iterators: `begin()` and `end()` of `hosts()` and iterators made from an
address without scope id, with the carry 0 or 1. -/
theorem C36_states_v4 :
    (∀ (a : List (BitVec 8)) (carry : Int), a.length = 4 → carry = 0 ∨ carry = 1 →
      ∃ x, (fam4 true).aiMk a carry = .ok x ∧ x.Ok (fam4 true) BitVec.toNat ∧ x.cur = a) ∧
    (∀ n, NetOk4 n → ∃ s, (fam4 true).hosts n = .ok s ∧ s.first.Ok (fam4 true) BitVec.toNat ∧
      s.last.Ok (fam4 true) BitVec.toNat) := by
  refine ⟨fun a carry ha hc => ?_, fun n hn => ?_⟩
  · obtain ⟨x, h1, h2, _, _, h3⟩ := aiMk_ok fam4Law (beValue a) a ⟨a, rfl, by rw [ha]; rfl, rfl⟩ carry hc
    exact ⟨x, h1, h2, h3⟩
  · obtain ⟨s, h1, h2, h3, _⟩ := hosts_eq fam4Law n hn
    exact ⟨s, h1, h2, h3⟩

/-- The same for IPv6. -/
theorem C36_states_v6 (c : Cfg) (hc : c.le = true) :
    (∀ (b : List (BitVec 8)) (carry : Int), b.length = 16 → carry = 0 ∨ carry = 1 →
      ∃ x, (fam6 c).aiMk ⟨b, emptyScope c.M⟩ carry = .ok x ∧ x.Ok (fam6 c) U128.val ∧ x.cur = ⟨b, emptyScope c.M⟩) ∧
    (∀ n, NetOk6 c n → ∃ s, (fam6 c).hosts n = .ok s ∧ s.first.Ok (fam6 c) U128.val ∧ s.last.Ok (fam6 c) U128.val) := by
  refine ⟨fun a carry ha hc' => ?_, fun n hn => ?_⟩
  · obtain ⟨x, h1, h2, _, _, h3⟩ := aiMk_ok (fam6Law c hc) (beValue a) ⟨a, emptyScope c.M⟩ ⟨a, rfl, by rw [ha]; rfl, rfl⟩ carry hc'
    exact ⟨x, h1, h2, h3⟩
  · obtain ⟨s, h1, h2, h3, _⟩ := hosts_eq (fam6Law c hc) n hn
    exact ⟨s, h1, h2, h3⟩

example := C36_states_v6 exCfg rfl

/-- C36 (partial), IPv4 network iterators over networks of prefix length `p` with a step that is a
multiple of their size.  Missing: `operator-` of two iterators, which is the distance of the addresses
and not the number of steps (`C36_network_difference`), and negative offsets. -/
theorem C36_networks_v4_partial (step : BitVec 32) (p : Nat) (hs : step.toNat % 2 ^ (32 - p) = 0)
    (x : NIter (List (BitVec 8)) (BitVec 32)) (hx : x.Ok (fam4 true) BitVec.toNat step p) (m n : BitVec 32) :
    (∃ y z, (fam4 true).niAdd x n = .ok y ∧ y.Ok (fam4 true) BitVec.toNat step p ∧ (fam4 true).niSub y n = .ok x ∧
      (fam4 true).niSub x n = .ok z ∧ z.Ok (fam4 true) BitVec.toNat step p ∧ (fam4 true).niAdd z n = .ok x ∧ y.cur.plen = p ∧
      beValue y.cur.addr = (beValue x.cur.addr + step.toNat * n.toNat) % 2 ^ 32 ∧ (fam4 true).niAt x n = .ok y.cur ∧
      (0 < step.toNat → step.toNat * n.toNat < 2 ^ 32 → (fam4 true).niUintDiff y x = .ok n) ∧
      ((fam4 true).niDiff y x).toNat = step.toNat * n.toNat % 2 ^ 32 % 2 ^ 64) ∧
    (∃ a b, (fam4 true).niAdd x m = .ok a ∧ (fam4 true).niAdd a n = .ok b ∧
      (step.toNat * (m.toNat + n.toNat) < 2 ^ 32 → (fam4 true).niAdd x (m + n) = .ok b)) ∧
    (∃ y z, (fam4 true).niInc x = .ok y ∧ (fam4 true).niAdd x 1#32 = .ok y ∧ (fam4 true).niDec y = .ok x ∧
      (fam4 true).niDec x = .ok z ∧ (fam4 true).niSub x 1#32 = .ok z ∧ (fam4 true).niInc z = .ok x ∧
      beValue y.cur.addr = (beValue x.cur.addr + step.toNat) % 2 ^ 32) :=
  niter_laws fam4Law step p hs x hx m n

example := C36_networks_v4_partial 0x100 24 (by decide) exNetIt4 exNetIt4_ok 7 3

/-- C36 (partial), IPv6 network iterators. -/
theorem C36_networks_v6_partial (c : Cfg) (hc : c.le = true) (step : U128) (p : Nat) (hs : step.val % 2 ^ (128 - p) = 0)
    (x : NIter V6 U128) (hx : x.Ok (fam6 c) U128.val step p) (m n : U128) :
    (∃ y z, (fam6 c).niAdd x n = .ok y ∧ y.Ok (fam6 c) U128.val step p ∧ (fam6 c).niSub y n = .ok x ∧
      (fam6 c).niSub x n = .ok z ∧ z.Ok (fam6 c) U128.val step p ∧ (fam6 c).niAdd z n = .ok x ∧ y.cur.plen = p ∧
      beValue y.cur.addr.bytes = (beValue x.cur.addr.bytes + step.val * n.val) % 2 ^ 128 ∧ (fam6 c).niAt x n = .ok y.cur ∧
      (0 < step.val → step.val * n.val < 2 ^ 128 → (fam6 c).niUintDiff y x = .ok n) ∧
      ((fam6 c).niDiff y x).toNat = step.val * n.val % 2 ^ 128 % 2 ^ 64) ∧
    (∃ a b, (fam6 c).niAdd x m = .ok a ∧ (fam6 c).niAdd a n = .ok b ∧
      (step.val * (m.val + n.val) < 2 ^ 128 → (fam6 c).niAdd x (m.add n) = .ok b)) ∧
    (∃ y z, (fam6 c).niInc x = .ok y ∧ (fam6 c).niAdd x (U128.ofI64 1) = .ok y ∧ (fam6 c).niDec y = .ok x ∧
      (fam6 c).niDec x = .ok z ∧ (fam6 c).niSub x (U128.ofI64 1) = .ok z ∧ (fam6 c).niInc z = .ok x ∧
      beValue y.cur.addr.bytes = (beValue x.cur.addr.bytes + step.val) % 2 ^ 128) :=
  niter_laws (fam6Law c hc) step p hs x hx m n

example := C36_networks_v6_partial exCfg rfl ⟨1, 0⟩ 64 (by decide +kernel) exNetIt6 exNetIt6_ok ⟨0, 7⟩ ⟨1, 3⟩

/-- C36, negation: over the two subnetworks of `192.168.0.0/16`, `(begin + 1) - begin` is 32768. -/
theorem C36_network_difference : ∃ s y, (fam4 true).subnets ex16 1 none = .ok s ∧ (fam4 true).niInc s.first = .ok y ∧
    (fam4 true).niDiff y s.first = 32768#64 ∧ (fam4 true).niUintDiff y s.first = .ok 1#32 :=
  ⟨_, _, rfl, rfl, by decide +kernel, by decide +kernel⟩

example : ∃ x, (fam4 true).aiMk [10, 0, 0, 1] 0 = .ok x ∧ x.Ok (fam4 true) BitVec.toNat :=
  let ⟨x, h1, h2, _⟩ := C36_states_v4.1 [10, 0, 0, 1] 0 rfl (.inl rfl)
  ⟨x, h1, h2⟩

/-! ### C37 -/

/-- C37, IPv4: reverse loops over `hosts()` and `subnets()` visit the forward sequence backwards.  (The
hypotheses are those under which the forward loops do not wrap.) -/
theorem C37_reverse_v4 (n : Net (List (BitVec 8))) (hn : NetOk4 n) :
    (¬ (n.plen = 31 ∧ beValue n.addr = 2 ^ 32 - 2) →
      ∃ s l r1 r2, (fam4 true).hosts n = .ok s ∧ (fam4 true).aiOps.rMk s.last = .ok r1 ∧ (fam4 true).aiOps.rMk s.first = .ok r2 ∧
        ∀ fuel, l.length < fuel → (fam4 true).aiOps.visit fuel s.first s.last = .ok l ∧
          (fam4 true).aiOps.rVisit fuel r1 r2 = .ok l.reverse) ∧
    (∀ d, n.plen + d ≤ 32 → d < 32 → n.plen + d ≠ 0 → n.plen = 0 ∨ n.plen = 32 ∨ beValue n.addr + 2 ^ (32 - n.plen) < 2 ^ 32 →
      ∃ s l r1 r2, (fam4 true).subnets n d none = .ok s ∧ (fam4 true).niOps.rMk s.last = .ok r1 ∧
        (fam4 true).niOps.rMk s.first = .ok r2 ∧
        ∀ fuel, l.length < fuel → (fam4 true).niOps.visit fuel s.first s.last = .ok l ∧
          (fam4 true).niOps.rVisit fuel r1 r2 = .ok l.reverse) := by
  refine ⟨fun hf => ?_, fun d hd hd32 h0 hfit => ?_⟩
  · obtain ⟨s, h1, l, r1, r2, _, _, h2, h3, h4, _⟩ := C31_hosts_v4_partial n hn hf
    exact ⟨s, l, r1, r2, h1, h2, h3, h4⟩
  · obtain ⟨s, h1, _, l, r1, r2, _, _, _, _, h2, h3, h4, _⟩ := C32_subnets_v4_partial n hn d hd hd32 h0 hfit
    exact ⟨s, l, r1, r2, h1, h2, h3, h4⟩

example := C37_reverse_v4 ex16 ex16_ok

/-- C37, IPv6. -/
theorem C37_reverse_v6 (c : Cfg) (hc : c.le = true) (n : Net V6) (hn : NetOk6 c n) :
    (n.plen = 128 ∨ ¬ InNet 128 n.plen (beValue n.addr.bytes) (2 ^ 128 - 1) →
      ∃ s l r1 r2, (fam6 c).hosts n = .ok s ∧ (fam6 c).aiOps.rMk s.last = .ok r1 ∧ (fam6 c).aiOps.rMk s.first = .ok r2 ∧
        ∀ fuel, l.length < fuel → (fam6 c).aiOps.visit fuel s.first s.last = .ok l ∧
          (fam6 c).aiOps.rVisit fuel r1 r2 = .ok l.reverse) ∧
    (∀ d, n.plen + d ≤ 128 → d < 128 → n.plen + d ≠ 0 →
      n.plen = 0 ∨ n.plen = 128 ∨ beValue n.addr.bytes + 2 ^ (128 - n.plen) < 2 ^ 128 →
      ∃ s l r1 r2, (fam6 c).subnets n d none = .ok s ∧ (fam6 c).niOps.rMk s.last = .ok r1 ∧
        (fam6 c).niOps.rMk s.first = .ok r2 ∧
        ∀ fuel, l.length < fuel → (fam6 c).niOps.visit fuel s.first s.last = .ok l ∧
          (fam6 c).niOps.rVisit fuel r1 r2 = .ok l.reverse) := by
  refine ⟨fun hf => ?_, fun d hd hd32 h0 hfit => ?_⟩
  · obtain ⟨s, h1, l, r1, r2, _, _, h2, h3, h4, _⟩ := C31_hosts_v6_partial c hc n hn hf
    exact ⟨s, l, r1, r2, h1, h2, h3, h4⟩
  · obtain ⟨s, h1, _, l, r1, r2, _, _, _, _, h2, h3, h4, _⟩ := C32_subnets_v6_partial c hc n hn d hd hd32 h0 hfit
    exact ⟨s, l, r1, r2, h1, h2, h3, h4⟩

example := C37_reverse_v6 exCfg rfl ex32 ex32_ok

/-- C37: `base()` of the reverse iterator made from `it` is `it`, for address and network iterators of
both families. -/
theorem C37_base (c : Cfg) (hc : c.le = true) :
    (∀ x : AIter (List (BitVec 8)) (BitVec 32), x.Ok (fam4 true) BitVec.toNat →
      ∃ r, (fam4 true).aiOps.rMk x = .ok r ∧ (fam4 true).aiOps.rBase r = .ok x) ∧
    (∀ x : AIter V6 U128, x.Ok (fam6 c) U128.val → ∃ r, (fam6 c).aiOps.rMk x = .ok r ∧ (fam6 c).aiOps.rBase r = .ok x) ∧
    (∀ (step : BitVec 32) (p : Nat) (x : NIter (List (BitVec 8)) (BitVec 32)), step.toNat % 2 ^ (32 - p) = 0 →
      x.Ok (fam4 true) BitVec.toNat step p → ∃ r, (fam4 true).niOps.rMk x = .ok r ∧ (fam4 true).niOps.rBase r = .ok x) ∧
    (∀ (step : U128) (p : Nat) (x : NIter V6 U128), step.val % 2 ^ (128 - p) = 0 →
      x.Ok (fam6 c) U128.val step p → ∃ r, (fam6 c).niOps.rMk x = .ok r ∧ (fam6 c).niOps.rBase r = .ok x) :=
  ⟨(aiLaw fam4Law).base_rMk, (aiLaw (fam6Law c hc)).base_rMk, fun step p x h => (niLaw fam4Law step p h).base_rMk x,
    fun step p x h => (niLaw (fam6Law c hc) step p h).base_rMk x⟩

example : ((fam4 true).hosts ⟨[10, 0, 0, 0], [255, 255, 255, 252], 30⟩ >>= fun s => (fam4 true).aiOps.rMk s.last >>= fun r1 =>
    (fam4 true).aiOps.rMk s.first >>= fun r2 => (fam4 true).aiOps.rVisit 9 r1 r2) =
    .ok [[10, 0, 0, 2], [10, 0, 0, 1]] := by decide +kernel

end Ip
