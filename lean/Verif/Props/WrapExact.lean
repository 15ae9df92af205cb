import Verif.Lemmas.WrapExact
import Verif.Props.Exact
/-
C31 and C32 where the end of the sequence is beyond the largest address: what the sequence holds instead.
-/
set_option autoImplicit false

namespace Ip
open Spec

/-! ### C31 -/

/-- C31, IPv4, all networks: `hosts()` returns, and the sequence is right (`GoodHosts`) except for `255.255.255.254/31`.
There (`WrapHosts`) the loop visits the two hosts and then all addresses from `0.0.0.0` to `255.255.255.255`, while the
size, the indices below it, `front()` and `back()` are right. -/
theorem C31_hosts_v4_all (n : Net (List (BitVec 8))) (hn : NetOk4 n) :
    ∃ s, (fam4 true).hosts n = .ok s ∧
      (¬ (n.plen = 31 ∧ beValue n.addr = 2 ^ 32 - 2) → GoodHosts (fam4 true) BitVec.toNat n s) ∧
      (n.plen = 31 ∧ beValue n.addr = 2 ^ 32 - 2 → WrapHosts (fam4 true) BitVec.toNat n s) := by
  by_cases h : n.plen = 31 ∧ beValue n.addr = 2 ^ 32 - 2
  · obtain ⟨s, h1, h2⟩ := hosts_wrap_exact fam4Law n hn (by
      show ¬ (n.plen = 32 ∨ beValue n.addr + 2 ^ (32 - n.plen) < 2 ^ 32 ∨ (false = false ∧ n.plen + 2 ≤ 32))
      rw [h.1]
      omega)
    exact ⟨s, h1, fun h' => absurd h h', fun _ => h2⟩
  · obtain ⟨s, h1, h2⟩ := C31_hosts_v4_partial n hn h
    exact ⟨s, h1, fun _ => h2, fun h' => absurd h' h⟩

example := C31_hosts_v4_all exTop31 exTop31_ok
example : exTop31.plen = 31 ∧ beValue exTop31.addr = 2 ^ 32 - 2 := by decide

/-- C31, IPv6, all networks. -/
theorem C31_hosts_v6_all (c : Cfg) (hc : c.le = true) (n : Net V6) (hn : NetOk6 c n) :
    ∃ s, (fam6 c).hosts n = .ok s ∧
      ((n.plen = 128 ∨ ¬ InNet 128 n.plen (beValue n.addr.bytes) (2 ^ 128 - 1)) → GoodHosts (fam6 c) U128.val n s) ∧
      (n.plen ≠ 128 → InNet 128 n.plen (beValue n.addr.bytes) (2 ^ 128 - 1) → WrapHosts (fam6 c) U128.val n s) := by
  by_cases h : n.plen = 128 ∨ ¬ InNet 128 n.plen (beValue n.addr.bytes) (2 ^ 128 - 1)
  · obtain ⟨s, h1, h2⟩ := C31_hosts_v6_partial c hc n hn h
    exact ⟨s, h1, fun _ => h2, fun h3 h4 => absurd h4 (h.resolve_left h3)⟩
  · obtain ⟨s, h1, h2⟩ := hosts_wrap_exact (fam6Law c hc) n hn (fun hf =>
      h ((C31_hosts_v6_exact c hc n hn).1 (hosts_spec (fam6Law c hc) n hn hf)))
    exact ⟨s, h1, fun h' => absurd h' h, fun _ _ => h2⟩

example := C31_hosts_v6_all exCfg rfl exAll6 exAll6_ok

/-! ### C32 -/

/-- C32, IPv4: `subnets(d)` of a network, other than the whole space or a single address, with the largest address: the
loop visits the subnetworks (`WrapSubnets`) and then all networks of their length from `0.0.0.0` on, while the size,
the indices below it, `front()` and `back()` are right. -/
theorem C32_subnets_v4_beyond (n : Net (List (BitVec 8))) (hn : NetOk4 n) (d : Nat) (hd : n.plen + d ≤ 32)
    (h1 : 0 < n.plen) (h2 : n.plen < 32) (hin : InNet 32 n.plen (beValue n.addr) (2 ^ 32 - 1)) :
    ∃ s, (fam4 true).subnets n d none = .ok s ∧ (fam4 true).subnets n 1 (some (n.plen + d)) = .ok s ∧
      WrapSubnets (fam4 true) WF4 BitVec.toNat n d s := by
  refine subnets_wrap_exact fam4Law n hn d (by decide) hd (by show d < 32; omega) ?_
  have hi : InNet 32 n.plen (beValue n.addr) (2 ^ 32 - 1) ↔ _ := inNet_interval fam4Law n hn (2 ^ 32 - 1)
  rw [hi] at hin
  change beValue n.addr ≤ 2 ^ 32 - 1 ∧ 2 ^ 32 - 1 < beValue n.addr + 2 ^ (32 - n.plen) at hin
  show ¬ (n.plen = 0 ∨ n.plen = 32 ∨ beValue n.addr + 2 ^ (32 - n.plen) < 2 ^ 32)
  omega

example := C32_subnets_v4_beyond exTop2 exTop2_ok 5 (by decide) (by decide) (by decide) (by
  have hi : InNet 32 exTop2.plen (beValue exTop2.addr) (2 ^ 32 - 1) ↔ _ := inNet_interval fam4Law exTop2 exTop2_ok (2 ^ 32 - 1)
  rw [hi]
  change beValue exTop2.addr ≤ 2 ^ 32 - 1 ∧ 2 ^ 32 - 1 < beValue exTop2.addr + 2 ^ (32 - exTop2.plen)
  decide)

/-- C32, IPv6. -/
theorem C32_subnets_v6_beyond (c : Cfg) (hc : c.le = true) (n : Net V6) (hn : NetOk6 c n) (d : Nat) (hd : n.plen + d ≤ 128)
    (h1 : 0 < n.plen) (h2 : n.plen < 128) (hin : InNet 128 n.plen (beValue n.addr.bytes) (2 ^ 128 - 1)) :
    ∃ s, (fam6 c).subnets n d none = .ok s ∧ (fam6 c).subnets n 1 (some (n.plen + d)) = .ok s ∧
      WrapSubnets (fam6 c) (V6.WF c.M) U128.val n d s := by
  refine subnets_wrap_exact (fam6Law c hc) n hn d (by show 128 < 2 ^ 64; decide) hd (by show d < 128; omega) ?_
  have hi : InNet 128 n.plen (beValue n.addr.bytes) (2 ^ 128 - 1) ↔ _ := inNet_interval (fam6Law c hc) n hn (2 ^ 128 - 1)
  rw [hi] at hin
  change beValue n.addr.bytes ≤ 2 ^ 128 - 1 ∧ 2 ^ 128 - 1 < beValue n.addr.bytes + 2 ^ (128 - n.plen) at hin
  show ¬ (n.plen = 0 ∨ n.plen = 128 ∨ beValue n.addr.bytes + 2 ^ (128 - n.plen) < 2 ^ 128)
  omega

example := C32_subnets_v6_beyond exCfg rfl exTop8 exTop8_ok 5 (by decide) (by decide) (by decide) (by
  have hi : InNet 128 exTop8.plen (beValue exTop8.addr.bytes) (2 ^ 128 - 1) ↔ _ :=
    inNet_interval (fam6Law exCfg rfl) exTop8 exTop8_ok (2 ^ 128 - 1)
  rw [hi]
  change beValue exTop8.addr.bytes ≤ 2 ^ 128 - 1 ∧ 2 ^ 128 - 1 < beValue exTop8.addr.bytes + 2 ^ (128 - exTop8.plen)
  decide +kernel)

end Ip
