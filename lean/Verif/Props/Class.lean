import Verif.Lemmas.ClassVal
import Verif.Props.V6Addr
import Verif.Props.Net
/-
Classification of addresses (C39) and networks (C40).
-/
set_option autoImplicit false

namespace Ip
open Spec

theorem inEntry_iff (w : Nat) (e : Nat × Nat) (x : Nat) : inEntry w e x = true ↔ e.1 ≤ x ∧ x < e.1 + 2 ^ (w - e.2) :=
  decide_eq_true_iff

/-! ### C39, IPv4 -/

/-- C39, IPv4 `is_private`. -/
theorem C39_v4_private (a : List (BitVec 8)) (ha : a.length = 4) :
    ∃ r, v4IsPrivate true a = .ok r ∧ (r = true ↔ Private4 (beValue a)) :=
  ⟨_, tableContains_eq fam4Law _ _ v4Private_denotes a ha, v4Private_any _⟩

example := C39_v4_private [192, 168, 3, 4] rfl

/-- C39, IPv4 `is_global`: neither private nor in the shared address space. -/
theorem C39_v4_global (a : List (BitVec 8)) (ha : a.length = 4) :
    ∃ r, v4IsGlobal true a = .ok r ∧ (r = true ↔ ¬ Private4 (beValue a) ∧ ¬ Shared4 (beValue a)) := by
  obtain ⟨p, p1, p2⟩ := C39_v4_private a ha
  have h := textContains_eq fam4Law _ _ v4Public_denotes a ha
  have e : (inEntry 32 (quad 100 64 0 0, 10) (beValue a) = true ↔ Shared4 (beValue a)) := by
    rw [inEntry_iff]
    simp only [quad, Shared4]; omega
  rw [v4IsGlobal, h, Res.ok_bind, p1, Res.ok_bind, ← e, ← p2]
  show ∃ r, (if inEntry 32 (quad 100 64 0 0, 10) (beValue a) = true then _ else _) = _ ∧ _
  cases inEntry 32 (quad 100 64 0 0, 10) (beValue a) <;> cases p <;> exact ⟨_, rfl, by simp⟩

example := C39_v4_global [100, 64, 3, 4] rfl

/-- C39, IPv4 `is_multicast`. -/
theorem C39_v4_multicast (a : List (BitVec 8)) (ha : a.length = 4) :
    ∃ r, v4IsMulticast true a = .ok r ∧ (r = true ↔ Multicast4 (beValue a)) := by
  refine ⟨_, textContains_eq fam4Law _ _ v4Multicast_denotes a ha, ?_⟩
  show inEntry 32 _ (beValue a) = true ↔ _
  rw [inEntry_iff]
  simp only [quad, Multicast4]; omega

example := C39_v4_multicast [239, 255, 3, 4] rfl

/-- C39, IPv4 `is_reserved`. -/
theorem C39_v4_reserved (a : List (BitVec 8)) (ha : a.length = 4) :
    ∃ r, v4IsReserved true a = .ok r ∧ (r = true ↔ Reserved4 (beValue a)) := by
  refine ⟨_, textContains_eq fam4Law _ _ v4Reserved_denotes a ha, ?_⟩
  show inEntry 32 _ (beValue a) = true ↔ _
  rw [inEntry_iff]
  simp only [quad, Reserved4]; omega

example := C39_v4_reserved [250, 168, 3, 4] rfl

/-- C39, IPv4 `is_loopback`. -/
theorem C39_v4_loopback (a : List (BitVec 8)) (ha : a.length = 4) :
    ∃ r, v4IsLoopback true a = .ok r ∧ (r = true ↔ Loopback4 (beValue a)) := by
  refine ⟨_, textContains_eq fam4Law _ _ v4Loopback_denotes a ha, ?_⟩
  show inEntry 32 _ (beValue a) = true ↔ _
  rw [inEntry_iff]
  simp only [quad, Loopback4]; omega

example := C39_v4_loopback [127, 0, 0, 1] rfl

/-- C39, IPv4 `is_link_local`. -/
theorem C39_v4_link_local (a : List (BitVec 8)) (ha : a.length = 4) :
    ∃ r, v4IsLinkLocal true a = .ok r ∧ (r = true ↔ LinkLocal4 (beValue a)) := by
  refine ⟨_, textContains_eq fam4Law _ _ v4LinkLocal_denotes a ha, ?_⟩
  show inEntry 32 _ (beValue a) = true ↔ _
  rw [inEntry_iff]
  simp only [quad, LinkLocal4]; omega

example := C39_v4_link_local [169, 254, 3, 4] rfl

/-- C39, `is_unspecified` of both versions: exactly for the integer 0. -/
theorem C39_unspecified (a : List (BitVec 8)) : bytesUnspecified a = true ↔ beValue a = 0 := bytesUnspecified_iff a

example : v4IsPrivate true [172, 31, 255, 255] = .ok true := by decide +kernel
example : v4IsPrivate true [172, 32, 0, 0] = .ok false := by decide +kernel
example : v4IsGlobal true [100, 64, 0, 0] = .ok false ∧ v4IsPrivate true [100, 64, 0, 0] = .ok false := by decide +kernel
example : v4IsGlobal true [8, 8, 8, 8] = .ok true := by decide +kernel

/-! ### C39, IPv6 -/

/-- C39, IPv6 `is_private`, what it computes for every address: when hextet five is `ffff` the answer
is the one for the IPv4 address in the low 32 bits, otherwise the registry ranges decide. -/
theorem C39_v6_private_computes (c : Cfg) (hc : c.le = true) (a : V6) (ha : a.WF c.M) :
    ∃ r, v6IsPrivate c a = .ok r ∧
      (beValue a.bytes / 2 ^ 32 % 2 ^ 16 = 0xffff → (r = true ↔ Private4 (beValue a.bytes % 2 ^ 32))) ∧
      (beValue a.bytes / 2 ^ 32 % 2 ^ 16 ≠ 0xffff → (r = true ↔ Private6 (beValue a.bytes))) := by
  obtain ⟨m, m1, _, m3, m4⟩ := C16_mapped_partial a.bytes ha.1
  rw [v6IsPrivate, m1, Res.ok_bind]
  cases m with
  | some b =>
    obtain ⟨b1, b2⟩ := m4 b rfl
    obtain ⟨r, r1, r2⟩ := C39_v4_private b b1
    have h := m3.mp rfl
    refine ⟨r, by rw [hc]; exact r1, fun _ => by rw [← b2]; exact r2, fun h' => absurd h h'⟩
  | none =>
    have h : beValue a.bytes / 2 ^ 32 % 2 ^ 16 ≠ 0xffff := fun h => by simpa using m3.mpr h
    refine ⟨_, tableContains_eq (fam6Law c hc) _ _ (v6Private_denotes c hc) a ha, fun h' => absurd h' h, fun _ => ?_⟩
    refine (v6Private_any (beValue a.bytes)).trans ⟨?_, .inl⟩
    rintro (h' | h')
    · exact h'
    · exfalso
      simp only [Mapped6, octo] at h'
      omega

example := C39_v6_private_computes exCfg rfl ex32.addr ex32_ok.wf

/-- C39 (partial), IPv6 `is_private`: an address is private iff it lies in one of the ranges of the
registry, where an IPv4 mapped address counts as its IPv4 address.  Missing: addresses outside
`::ffff:0:0/96` whose hextet five is `ffff`, see `C39_v6_private_wrong`. -/
theorem C39_v6_private_partial (c : Cfg) (hc : c.le = true) (a : V6) (ha : a.WF c.M)
    (hm : beValue a.bytes / 2 ^ 32 % 2 ^ 16 = 0xffff → Mapped6 (beValue a.bytes)) :
    ∃ r, v6IsPrivate c a = .ok r ∧
      (r = true ↔ Private6 (beValue a.bytes) ∨ (Mapped6 (beValue a.bytes) ∧ Private4 (beValue a.bytes % 2 ^ 32))) := by
  obtain ⟨r, r1, r2, r3⟩ := C39_v6_private_computes c hc a ha
  refine ⟨r, r1, ?_⟩
  by_cases h : beValue a.bytes / 2 ^ 32 % 2 ^ 16 = 0xffff
  · have hm' := hm h
    rw [r2 h]
    have : ¬ Private6 (beValue a.bytes) := by
      simp only [Private6, Mapped6, octo] at hm' ⊢; omega
    simp [this, hm']
  · have : ¬ Mapped6 (beValue a.bytes) := by
      intro h'; apply h; simp only [Mapped6, octo] at h'; omega
    rw [r3 h]
    simp [this]

example := C39_v6_private_partial exCfg rfl ex32.addr ex32_ok.wf (fun h => absurd h (by decide +kernel))

/-- C39, `is_global` of an IPv6 address is the negation of `is_private`. -/
theorem C39_v6_global (c : Cfg) (a : V6) (r : Bool) (h : v6IsPrivate c a = .ok r) : v6IsGlobal c a = .ok (!r) := by
  rw [v6IsGlobal, h]; rfl

example : ∃ r, v6IsPrivate exCfg ex32.addr = .ok r := ⟨true, by decide +kernel⟩

/-- C39, IPv6 `is_multicast`. -/
theorem C39_v6_multicast (c : Cfg) (hc : c.le = true) (a : V6) (ha : a.WF c.M) :
    ∃ r, v6IsMulticast c a = .ok r ∧ (r = true ↔ Multicast6 (beValue a.bytes)) := by
  refine ⟨_, textContains_eq (fam6Law c hc) _ _ (v6Multicast_denotes c hc) a ha, ?_⟩
  show inEntry 128 _ (beValue a.bytes) = true ↔ _
  rw [inEntry_iff]
  simp only [octo, Multicast6]; omega

example := C39_v6_multicast exCfg rfl ex32.addr ex32_ok.wf

/-- C39, IPv6 `is_reserved`. -/
theorem C39_v6_reserved (c : Cfg) (hc : c.le = true) (a : V6) (ha : a.WF c.M) :
    ∃ r, v6IsReserved c a = .ok r ∧ (r = true ↔ Reserved6 (beValue a.bytes)) :=
  ⟨_, tableContains_eq (fam6Law c hc) _ _ (v6Reserved_denotes c hc) a ha, v6Reserved_any _⟩

example := C39_v6_reserved exCfg rfl ex32.addr ex32_ok.wf

theorem loopbackLoop_eq : ∀ (n : Nat) (pre b : List (BitVec 8)), b.length = n + 1 →
    ∃ r, v6LoopbackLoop (pre ++ b) n pre.length = .ok r ∧ (r = true ↔ beValue b = 1)
  | 0, pre, [x], _ => by
    simp only [v6LoopbackLoop, rd, List.getElem?_append_right (Nat.le_refl _), Nat.sub_self, List.getElem?_cons_zero,
      Res.ok_bind]
    refine ⟨_, rfl, ?_⟩
    rw [beq_iff_eq, bv8_eq]
    simp [beValue]
  | n + 1, pre, x :: b, h => by
    simp only [v6LoopbackLoop, rd, List.getElem?_append_right (Nat.le_refl _), Nat.sub_self, List.getElem?_cons_zero,
      Res.ok_bind, beValue]
    have hb : b.length = n + 1 := by simpa using h
    have ih := loopbackLoop_eq n (pre ++ [x]) b hb
    rw [List.append_assoc, List.length_append] at ih
    have hp : 256 ≤ 256 ^ b.length := by rw [hb, Nat.pow_succ]; have := Nat.pow_pos (n := n) (show 0 < 256 by decide); omega
    split
    · next hx =>
      rw [bv8_eq] at hx
      simp only [BitVec.toNat_ofNat, Nat.zero_mod] at hx
      rw [hx, Nat.zero_mul, Nat.zero_add]
      exact ih
    · next hx =>
      rw [bv8_eq] at hx
      simp only [BitVec.toNat_ofNat, Nat.zero_mod] at hx
      refine ⟨false, rfl, ?_⟩
      have : 1 * 256 ^ b.length ≤ x.toNat * 256 ^ b.length := Nat.mul_le_mul_right _ (by omega)
      simp only [Bool.false_eq_true, false_iff]
      omega

/-- C39, IPv6 `is_loopback`: exactly `::1`. -/
theorem C39_v6_loopback (a : V6) (ha : a.bytes.length = 16) :
    ∃ r, v6IsLoopback a = .ok r ∧ (r = true ↔ beValue a.bytes = 1) :=
  loopbackLoop_eq 15 [] a.bytes ha

example := C39_v6_loopback ex32.addr rfl

/-- C39, IPv6 `is_link_local`. -/
theorem C39_v6_link_local (c : Cfg) (hc : c.le = true) (a : V6) (ha : a.WF c.M) :
    ∃ r, v6IsLinkLocal c a = .ok r ∧ (r = true ↔ LinkLocal6 (beValue a.bytes)) := by
  refine ⟨_, textContains_eq (fam6Law c hc) _ _ (v6LinkLocal_denotes c hc) a ha, ?_⟩
  show inEntry 128 _ (beValue a.bytes) = true ↔ _
  rw [inEntry_iff]
  simp only [octo, LinkLocal6]; omega

example := C39_v6_link_local exCfg rfl ex32.addr ex32_ok.wf

/-- `fe80::ffff:808:808`. -/
def wrongLinkLocal (c : Cfg) : V6 :=
  ⟨[0xfe, 0x80, 0, 0, 0, 0, 0, 0, 0, 0, 0xff, 0xff, 8, 8, 8, 8], emptyScope c.M⟩

/-- `2607::ffff:a00:1`. -/
def wrongGlobal (c : Cfg) : V6 :=
  ⟨[0x26, 7, 0, 0, 0, 0, 0, 0, 0, 0, 0xff, 0xff, 10, 0, 0, 1], emptyScope c.M⟩

/-- C39, negation: the link local address `fe80::ffff:808:808` is not private (and hence global), the
address `2607::ffff:a00:1`, which is in no range of the registry, is private. -/
theorem C39_v6_private_wrong (c : Cfg) (hc : c.le = true) :
    (∃ a : V6, a.WF c.M ∧ LinkLocal6 (beValue a.bytes) ∧ v6IsPrivate c a = .ok false ∧ v6IsGlobal c a = .ok true ∧
      v6IsLinkLocal c a = .ok true) ∧
    (∃ a : V6, a.WF c.M ∧ ¬ Private6 (beValue a.bytes) ∧ ¬ Mapped6 (beValue a.bytes) ∧ v6IsPrivate c a = .ok true) := by
  constructor
  · have hw : (wrongLinkLocal c).WF c.M := ⟨rfl, Nat.zero_le _, by simp [wrongLinkLocal, emptyScope]⟩
    have hl : LinkLocal6 (beValue (wrongLinkLocal c).bytes) := by
      simp only [wrongLinkLocal, LinkLocal6]; decide +kernel
    obtain ⟨r, r1, r2⟩ := C39_v6_link_local c hc (wrongLinkLocal c) hw
    obtain ⟨s, s1, s2, _⟩ := C39_v6_private_computes c hc (wrongLinkLocal c) hw
    have s3 := s2 (by simp only [wrongLinkLocal]; decide +kernel)
    have hs : s = false := by
      rw [Bool.eq_false_iff, Ne, s3]; simp only [wrongLinkLocal, Private4]; decide +kernel
    rw [hs] at s1
    exact ⟨_, hw, hl, s1, C39_v6_global c _ _ s1, by rw [r1, r2.mpr hl]⟩
  · have hw : (wrongGlobal c).WF c.M := ⟨rfl, Nat.zero_le _, by simp [wrongGlobal, emptyScope]⟩
    obtain ⟨s, s1, s2, _⟩ := C39_v6_private_computes c hc (wrongGlobal c) hw
    have s3 := (s2 (by simp only [wrongGlobal]; decide +kernel)).mpr (by simp only [wrongGlobal, Private4]; decide +kernel)
    rw [s3] at s1
    exact ⟨_, hw, by simp only [wrongGlobal, Private6]; decide +kernel, by simp only [wrongGlobal, Mapped6]; decide +kernel, s1⟩

example := C39_v6_private_wrong exCfg rfl

/-- C39, IPv6 `is_site_local`. -/
theorem C39_v6_site_local (c : Cfg) (hc : c.le = true) (a : V6) (ha : a.WF c.M) :
    ∃ r, v6IsSiteLocal c a = .ok r ∧ (r = true ↔ SiteLocal6 (beValue a.bytes)) := by
  refine ⟨_, textContains_eq (fam6Law c hc) _ _ (v6SiteLocal_denotes c hc) ⟨a.bytes, emptyScope c.M⟩
    ⟨ha.1, Nat.zero_le _, by simp [emptyScope]⟩, ?_⟩
  show inEntry 128 _ (beValue a.bytes) = true ↔ _
  rw [inEntry_iff]
  simp only [octo, SiteLocal6]; omega

example : v6IsReserved exCfg ⟨[0xfe, 0x7f, 0, 0, 0, 0, 0, 0, 0, 0, 0, 0, 0, 0, 0, 1], emptyScope 16⟩ = .ok true := by
  decide +kernel
example : v6IsPrivate exCfg ⟨[0, 0, 0, 0, 0, 0, 0, 0, 0, 0, 0xff, 0xff, 192, 168, 0, 1], emptyScope 16⟩ = .ok true := by
  decide +kernel
example : Mapped6 (beValue [0, 0, 0, 0, 0, 0, 0, 0, 0, 0, 0xff, 0xff, 192, 168, 0, 1]) := by
  unfold Mapped6; decide +kernel

end Ip
