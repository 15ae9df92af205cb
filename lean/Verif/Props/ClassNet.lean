import Verif.Props.Class
/-
Classification of networks (C40).
-/
set_option autoImplicit false

namespace Ip
open Spec

/-! ### Classes that are one interval -/

/-- C40, IPv4 networks, classes that consist of one block: the network has the property iff all of its
addresses have it. -/
theorem C40_v4_multicast (n : Net (List (BitVec 8))) (hn : NetOk4 n) :
    ∃ r, v4NetIsMulticast true n = .ok r ∧ (r = true ↔ ∀ x, InNet 32 n.plen (beValue n.addr) x → Multicast4 x) :=
  bothEnds_interval fam4Law _ _ _ (fun a ha => C39_v4_multicast a ha) n hn

example := C40_v4_multicast ex16 ex16_ok

/-- C40, see `C40_v4_multicast`. -/
theorem C40_v4_reserved (n : Net (List (BitVec 8))) (hn : NetOk4 n) :
    ∃ r, v4NetIsReserved true n = .ok r ∧ (r = true ↔ ∀ x, InNet 32 n.plen (beValue n.addr) x → Reserved4 x) :=
  bothEnds_interval fam4Law _ _ _ (fun a ha => C39_v4_reserved a ha) n hn

example := C40_v4_reserved ex16 ex16_ok

/-- C40, see `C40_v4_multicast`. -/
theorem C40_v4_loopback (n : Net (List (BitVec 8))) (hn : NetOk4 n) :
    ∃ r, v4NetIsLoopback true n = .ok r ∧ (r = true ↔ ∀ x, InNet 32 n.plen (beValue n.addr) x → Loopback4 x) :=
  bothEnds_interval fam4Law _ _ _ (fun a ha => C39_v4_loopback a ha) n hn

example := C40_v4_loopback ex16 ex16_ok

/-- C40, see `C40_v4_multicast`. -/
theorem C40_v4_link_local (n : Net (List (BitVec 8))) (hn : NetOk4 n) :
    ∃ r, v4NetIsLinkLocal true n = .ok r ∧ (r = true ↔ ∀ x, InNet 32 n.plen (beValue n.addr) x → LinkLocal4 x) :=
  bothEnds_interval fam4Law _ _ _ (fun a ha => C39_v4_link_local a ha) n hn

example := C40_v4_link_local ex16 ex16_ok

/-- C40, IPv4 `is_unspecified`. -/
theorem C40_v4_unspecified (n : Net (List (BitVec 8))) (hn : NetOk4 n) :
    ∃ r, v4NetIsUnspecified true n = .ok r ∧ (r = true ↔ ∀ x, InNet 32 n.plen (beValue n.addr) x → x = 0) := by
  obtain ⟨r, r1, r2⟩ := bothEnds_interval fam4Law (fun a => .ok (bytesUnspecified a)) 0 0
    (fun a _ => ⟨_, rfl, (C39_unspecified a).trans (by show _ ↔ 0 ≤ beValue a ∧ beValue a ≤ 0; omega)⟩) n hn
  refine ⟨r, r1, r2.trans ⟨fun h x hx => ?_, fun h x hx => ?_⟩⟩
  · have := h x hx; omega
  · have := h x hx; omega

example := C40_v4_unspecified ex16 ex16_ok

/-- C40, IPv6 networks, classes that consist of one block. -/
theorem C40_v6_multicast (c : Cfg) (hc : c.le = true) (n : Net V6) (hn : NetOk6 c n) :
    ∃ r, v6NetIsMulticast c n = .ok r ∧
      (r = true ↔ ∀ x, InNet 128 n.plen (beValue n.addr.bytes) x → Multicast6 x) :=
  bothEnds_interval (fam6Law c hc) _ _ _ (fun a ha => C39_v6_multicast c hc a ha) n hn

example := C40_v6_multicast exCfg rfl ex32 ex32_ok

/-- C40, see `C40_v6_multicast`. -/
theorem C40_v6_link_local (c : Cfg) (hc : c.le = true) (n : Net V6) (hn : NetOk6 c n) :
    ∃ r, v6NetIsLinkLocal c n = .ok r ∧
      (r = true ↔ ∀ x, InNet 128 n.plen (beValue n.addr.bytes) x → LinkLocal6 x) :=
  bothEnds_interval (fam6Law c hc) _ _ _ (fun a ha => C39_v6_link_local c hc a ha) n hn

example := C40_v6_link_local exCfg rfl ex32 ex32_ok

/-- C40, see `C40_v6_multicast`. -/
theorem C40_v6_site_local (c : Cfg) (hc : c.le = true) (n : Net V6) (hn : NetOk6 c n) :
    ∃ r, v6NetIsSiteLocal c n = .ok r ∧
      (r = true ↔ ∀ x, InNet 128 n.plen (beValue n.addr.bytes) x → SiteLocal6 x) :=
  bothEnds_interval (fam6Law c hc) _ _ _ (fun a ha => C39_v6_site_local c hc a ha) n hn

example := C40_v6_site_local exCfg rfl ex32 ex32_ok

/-- C40, IPv6 `is_loopback`. -/
theorem C40_v6_loopback (c : Cfg) (hc : c.le = true) (n : Net V6) (hn : NetOk6 c n) :
    ∃ r, v6NetIsLoopback c n = .ok r ∧ (r = true ↔ ∀ x, InNet 128 n.plen (beValue n.addr.bytes) x → x = 1) := by
  obtain ⟨r, r1, r2⟩ := bothEnds_interval (fam6Law c hc) v6IsLoopback 1 1
    (fun a ha => by
      obtain ⟨r, r1, r2⟩ := C39_v6_loopback a ha.1
      exact ⟨r, r1, r2.trans (by show _ ↔ 1 ≤ beValue a.bytes ∧ beValue a.bytes ≤ 1; omega)⟩) n hn
  refine ⟨r, r1, r2.trans ⟨fun h x hx => ?_, fun h x hx => ?_⟩⟩
  · have := h x hx; omega
  · have := h x hx; omega

example := C40_v6_loopback exCfg rfl ex32 ex32_ok

/-- C40, IPv6 `is_unspecified`. -/
theorem C40_v6_unspecified (c : Cfg) (hc : c.le = true) (n : Net V6) (hn : NetOk6 c n) :
    ∃ r, v6NetIsUnspecified c n = .ok r ∧ (r = true ↔ ∀ x, InNet 128 n.plen (beValue n.addr.bytes) x → x = 0) := by
  obtain ⟨r, r1, r2⟩ := bothEnds_interval (fam6Law c hc) (fun a => .ok (bytesUnspecified a.bytes)) 0 0
    (fun a _ => ⟨_, rfl, (C39_unspecified a.bytes).trans
      (by show _ ↔ 0 ≤ beValue a.bytes ∧ beValue a.bytes ≤ 0; omega)⟩) n hn
  refine ⟨r, r1, r2.trans ⟨fun h x hx => ?_, fun h x hx => ?_⟩⟩
  · have := h x hx; omega
  · have := h x hx; omega

example := C40_v6_unspecified exCfg rfl ex32 ex32_ok

/-! ### Private networks -/

/-- Both ends of a network in one entry of a table. -/
theorem any_both (w : Nat) (es : List (Nat × Nat)) (a b : Nat) :
    (es.any fun e => inEntry w e a && inEntry w e b) = true ↔
      ∃ e ∈ es, inEntry w e a = true ∧ inEntry w e b = true := by
  simp only [List.any_eq_true, Bool.and_eq_true]

/-- C40, IPv4 `is_private`: iff all addresses of the network are private. -/
theorem C40_v4_private (n : Net (List (BitVec 8))) (hn : NetOk4 n) :
    ∃ r, v4NetIsPrivate true n = .ok r ∧ (r = true ↔ ∀ x, InNet 32 n.plen (beValue n.addr) x → Private4 x) := by
  obtain ⟨b, b1, b2, b3, b4, b5⟩ := net_ends fam4Law n hn
  have e := tableContainsBoth_eq fam4Law _ _ v4Private_denotes n.addr b hn.wf b2
  rw [v4NetIsPrivate, b1, Res.ok_bind]
  refine ⟨_, e, ?_⟩
  have b5' : ∀ x, InNet 32 n.plen (beValue n.addr) x ↔ beValue n.addr ≤ x ∧ x ≤ beValue b := b5
  have b3' : beValue b = beValue n.addr + 2 ^ (32 - n.plen) - 1 := b3
  have hpos := Nat.two_pow_pos (32 - n.plen)
  simp only [b5']
  refine (any_both 32 _ (beValue n.addr) (beValue b)).trans ⟨?_, fun h => ?_⟩
  · rintro ⟨e, he, h1, h2⟩ x hx
    rw [inEntry_iff] at h1 h2
    exact (v4Private_any x).mp (List.any_eq_true.mpr ⟨e, he, (inEntry_iff _ _ _).mpr ⟨by omega, by omega⟩⟩)
  · obtain ⟨e, he, h1, h2⟩ := cover 32 v4PrivateMax Private4 v4Outside_ok v4Private_max (beValue n.addr) (32 - n.plen)
      hn.aligned (fun x h1 h2 => h x ⟨h1, by omega⟩)
    exact ⟨e, List.mem_of_mem_take he, h1, by rw [b3']; exact h2⟩

example := C40_v4_private ex16 ex16_ok

/-- C40 (partial), IPv4 `is_global`, what it computes: a network is global unless all of its addresses are
shared or all of them are private.  Missing: it is not true that all addresses of a global network are
global, see `C40_v4_global_wrong`. -/
theorem C40_v4_global_partial (n : Net (List (BitVec 8))) (hn : NetOk4 n) :
    ∃ r, v4NetIsGlobal true n = .ok r ∧
      (r = true ↔ ¬ (∀ x, InNet 32 n.plen (beValue n.addr) x → Shared4 x) ∧
        ¬ (∀ x, InNet 32 n.plen (beValue n.addr) x → Private4 x)) ∧
      ((∀ x, InNet 32 n.plen (beValue n.addr) x → ¬ Private4 x ∧ ¬ Shared4 x) → r = true) := by
  obtain ⟨p, p1, p2⟩ := C40_v4_private n hn
  obtain ⟨b, b1, b2, b3, b4, b5⟩ := net_ends fam4Law n hn
  have e := textContainsBoth_eq fam4Law _ _ v4Public_denotes n.addr b hn.wf b2
  have b5' : ∀ x, InNet 32 n.plen (beValue n.addr) x ↔ beValue n.addr ≤ x ∧ x ≤ beValue b := b5
  have b4' : beValue n.addr ≤ beValue b := b4
  have hs : (inEntry 32 (quad 100 64 0 0, 10) (beValue n.addr) && inEntry 32 (quad 100 64 0 0, 10) (beValue b)) = true ↔
      ∀ x, InNet 32 n.plen (beValue n.addr) x → Shared4 x := by
    rw [Bool.and_eq_true, inEntry_iff, inEntry_iff]
    simp only [b5', Shared4, quad]
    constructor
    · intro h x hx; omega
    · intro h
      have h1 := h (beValue n.addr) ⟨Nat.le_refl _, b4'⟩
      have h2 := h (beValue b) ⟨b4', Nat.le_refl _⟩
      omega
  have key : ∃ r, v4NetIsGlobal true n = .ok r ∧
      (r = true ↔ ¬ (∀ x, InNet 32 n.plen (beValue n.addr) x → Shared4 x) ∧
        ¬ (∀ x, InNet 32 n.plen (beValue n.addr) x → Private4 x)) := by
    rw [v4NetIsGlobal, b1, Res.ok_bind, e, Res.ok_bind, p1, Res.ok_bind, ← hs, ← p2]
    show ∃ r, (if (inEntry 32 (quad 100 64 0 0, 10) (beValue n.addr) &&
      inEntry 32 (quad 100 64 0 0, 10) (beValue b)) = true then _ else _) = _ ∧ _
    cases (inEntry 32 (quad 100 64 0 0, 10) (beValue n.addr) && inEntry 32 (quad 100 64 0 0, 10) (beValue b)) <;>
      cases p <;> exact ⟨_, rfl, by simp⟩
  obtain ⟨r, r1, r2⟩ := key
  refine ⟨r, r1, r2, fun h => r2.mpr ⟨fun h' => ?_, fun h' => ?_⟩⟩
  · have := (b5' (beValue n.addr)).mpr ⟨Nat.le_refl _, b4'⟩
    exact (h _ this).2 (h' _ this)
  · have := (b5' (beValue n.addr)).mpr ⟨Nat.le_refl _, b4'⟩
    exact (h _ this).1 (h' _ this)

example := C40_v4_global_partial ex16 ex16_ok

/-- C40, negation: `8.0.0.0/6` is reported to be global although it contains `10.0.0.0`, which is private. -/
theorem C40_v4_global_wrong : ∃ n : Net (List (BitVec 8)), NetOk4 n ∧ v4NetIsGlobal true n = .ok true ∧
    InNet 32 n.plen (beValue n.addr) (quad 10 0 0 0) ∧ Private4 (quad 10 0 0 0) := by
  have hn : NetOk4 ⟨[8, 0, 0, 0], [252, 0, 0, 0], 6⟩ := ⟨rfl, by decide, ⟨_, rfl, rfl, by decide⟩, by decide⟩
  refine ⟨_, hn, by decide +kernel, ?_, by unfold Private4; decide⟩
  obtain ⟨b, _, _, b3, _, b5⟩ := net_ends fam4Law _ hn
  exact (b5 _).mpr ⟨by decide, by rw [b3]; decide⟩

/-- C40 (partial), IPv6 `is_private`, what it computes: a network is private iff all of its addresses are in
the ranges of the registry, with the exception of `::/127`.  Missing: `::/127` (`C40_v6_private_wrong`), and
that IPv4 mapped addresses count as private here although not all of them are. -/
theorem C40_v6_private_partial (c : Cfg) (hc : c.le = true) (n : Net V6) (hn : NetOk6 c n) :
    ∃ r, v6NetIsPrivate c n = .ok r ∧
      (r = true ↔ (∀ x, InNet 128 n.plen (beValue n.addr.bytes) x → Private6 x ∨ Mapped6 x) ∧
        ¬ (beValue n.addr.bytes = 0 ∧ n.plen = 127)) := by
  obtain ⟨b, b1, b2, b3, b4, b5⟩ := net_ends (fam6Law c hc) n hn
  have e := tableContainsBoth_eq (fam6Law c hc) _ _ (v6Private_denotes c hc) n.addr b hn.wf b2
  rw [v6NetIsPrivate, b1, Res.ok_bind]
  refine ⟨_, e, ?_⟩
  have b5' : ∀ x, InNet 128 n.plen (beValue n.addr.bytes) x ↔ beValue n.addr.bytes ≤ x ∧ x ≤ beValue b.bytes := b5
  have b3' : beValue b.bytes = beValue n.addr.bytes + 2 ^ (128 - n.plen) - 1 := b3
  have hpl : n.plen ≤ 128 := hn.plen
  have hpos := Nat.two_pow_pos (128 - n.plen)
  have ha : beValue n.addr.bytes % 2 ^ (128 - n.plen) = 0 := hn.aligned
  simp only [b5']
  refine (any_both 128 _ (beValue n.addr.bytes) (beValue b.bytes)).trans ⟨?_, fun h => ?_⟩
  · rintro ⟨e, he, h1, h2⟩
    refine ⟨fun x hx => ?_, ?_⟩
    · rw [inEntry_iff] at h1 h2
      exact (v6Private_any x).mp (List.any_eq_true.mpr ⟨e, he, (inEntry_iff _ _ _).mpr ⟨by omega, by omega⟩⟩)
    · rintro ⟨h3, h4⟩
      rw [h3, h4] at b3'
      rw [h3] at h1
      rw [b3'] at h2
      have hd : ∀ e ∈ v6PrivateEntries, ¬ (inEntry 128 e 0 = true ∧ inEntry 128 e (0 + 2 ^ (128 - 127) - 1) = true) := by
        decide +kernel
      exact hd e he ⟨h1, h2⟩
  · obtain ⟨h, h'⟩ := h
    obtain ⟨e, he, h1, h2⟩ := cover 128 v6PrivateMax _ v6Outside_ok v6Private_max (beValue n.addr.bytes) (128 - n.plen)
      ha (fun x h1 h2 => h x ⟨h1, by omega⟩)
    rw [← b3'] at h2
    have hm : ∀ e ∈ v6PrivateMax, e = (0, 127) ∨ e ∈ v6PrivateEntries := by decide +kernel
    rcases hm e he with rfl | h3
    · rw [inEntry_iff] at h1 h2
      simp only [show 128 - 127 = 1 from rfl] at h1 h2
      have hk : 128 - n.plen < 1 := by
        by_contra hk
        rcases Nat.eq_or_lt_of_not_lt hk with hk | hk
        · rw [hk] at b3'
          exact h' ⟨by omega, by omega⟩
        · have : 2 ^ 2 ≤ 2 ^ (128 - n.plen) := Nat.pow_le_pow_right (by decide) hk
          omega
      have hz : 128 - n.plen = 0 := by omega
      rw [hz] at b3'
      rcases (show beValue n.addr.bytes = 0 ∨ beValue n.addr.bytes = 1 by omega) with h3 | h3
      · rw [b3', h3]; exact ⟨(octo 0 0 0 0 0 0 0 0, 128), by decide +kernel⟩
      · rw [b3', h3]; exact ⟨(octo 0 0 0 0 0 0 0 1, 128), by decide +kernel⟩
    · exact ⟨e, h3, h1, h2⟩

example := C40_v6_private_partial exCfg rfl ex32 ex32_ok

/-- C40, `is_global` of an IPv6 network is the negation of `is_private`. -/
theorem C40_v6_global (c : Cfg) (n : Net V6) (r : Bool) (h : v6NetIsPrivate c n = .ok r) : v6NetIsGlobal c n = .ok (!r) := by
  rw [v6NetIsGlobal, h]; rfl

example : ∃ r, v6NetIsPrivate exCfg ex32 = .ok r := ⟨true, by decide +kernel⟩

/-- The network `::/127`. -/
def net127 (c : Cfg) : Net V6 :=
  ⟨⟨List.replicate 16 0, emptyScope c.M⟩, ⟨List.replicate 15 255 ++ [254], emptyScope c.M⟩, 127⟩

theorem net127_ok (c : Cfg) : NetOk6 c (net127 c) :=
  ⟨⟨rfl, Nat.zero_le _, by simp [net127, emptyScope]⟩, by show 127 ≤ 128; decide, ⟨List.replicate 15 255 ++ [254], rfl, rfl, by
    show _ = 2 ^ 128 - 2 ^ (128 - 127); decide +kernel⟩, by
    show beValue (List.replicate 16 0) % 2 ^ (128 - 127) = 0; decide +kernel⟩

/-- The network `::ffff:0:0/96`. -/
def net96 (c : Cfg) : Net V6 :=
  ⟨⟨[0, 0, 0, 0, 0, 0, 0, 0, 0, 0, 255, 255, 0, 0, 0, 0], emptyScope c.M⟩,
    ⟨List.replicate 12 255 ++ [0, 0, 0, 0], emptyScope c.M⟩, 96⟩

theorem net96_ok (c : Cfg) : NetOk6 c (net96 c) :=
  ⟨⟨rfl, Nat.zero_le _, by simp [net96, emptyScope]⟩, by show 96 ≤ 128; decide,
    ⟨List.replicate 12 255 ++ [0, 0, 0, 0], rfl, rfl, by
    show _ = 2 ^ 128 - 2 ^ (128 - 96); decide +kernel⟩, by
    show beValue [0, 0, 0, 0, 0, 0, 0, 0, 0, 0, 255, 255, 0, 0, 0, 0] % 2 ^ (128 - 96) = 0; decide +kernel⟩

/-- C40, negation: `::/127` is not private (and hence global) although both of its addresses are private,
and `::ffff:0:0/96` is private although its address `::ffff:8.8.8.8` is not. -/
theorem C40_v6_private_wrong (c : Cfg) (hc : c.le = true) :
    (NetOk6 c (net127 c) ∧ v6NetIsPrivate c (net127 c) = .ok false ∧ v6NetIsGlobal c (net127 c) = .ok true ∧
      (∀ x, InNet 128 127 0 x → Private6 x)) ∧
    (NetOk6 c (net96 c) ∧ v6NetIsPrivate c (net96 c) = .ok true ∧
      ∃ a : V6, a.WF c.M ∧ InNet 128 96 (beValue (net96 c).addr.bytes) (beValue a.bytes) ∧ v6IsPrivate c a = .ok false) := by
  constructor
  · obtain ⟨r, r1, r2⟩ := C40_v6_private_partial c hc _ (net127_ok c)
    have hr : r = false := by
      rw [Bool.eq_false_iff, Ne, r2]
      intro h
      exact h.2 ⟨by simp only [net127]; decide +kernel, rfl⟩
    rw [hr] at r1
    refine ⟨net127_ok c, r1, C40_v6_global c _ _ r1, fun x hx => ?_⟩
    obtain ⟨b, _, _, b3, _, b5⟩ := net_ends (fam6Law c hc) _ (net127_ok c)
    have hz : (fam6 c).v (net127 c).addr = 0 := by show beValue (List.replicate 16 0) = 0; decide +kernel
    rw [hz] at b5 b3
    have := (b5 x).mp hx
    have b3' : (fam6 c).v b = 0 + 2 ^ (128 - 127) - 1 := b3
    simp only [Private6]
    left
    omega
  · obtain ⟨r, r1, r2⟩ := C40_v6_private_partial c hc _ (net96_ok c)
    obtain ⟨b, _, _, b3, _, b5⟩ := net_ends (fam6Law c hc) _ (net96_ok c)
    have hz : (fam6 c).v (net96 c).addr = octo 0 0 0 0 0 0xffff 0 0 := by
      show beValue [0, 0, 0, 0, 0, 0, 0, 0, 0, 0, 255, 255, 0, 0, 0, 0] = _
      decide +kernel
    have hz' : beValue (net96 c).addr.bytes = octo 0 0 0 0 0 0xffff 0 0 := hz
    rw [hz] at b5 b3
    have b3' : (fam6 c).v b = octo 0 0 0 0 0 0xffff 0xffff 0xffff := by
      rw [b3]
      show octo 0 0 0 0 0 0xffff 0 0 + 2 ^ (128 - 96) - 1 = _
      decide +kernel
    rw [b3'] at b5
    have b5' : ∀ x, InNet 128 96 (octo 0 0 0 0 0 0xffff 0 0) x ↔
      octo 0 0 0 0 0 0xffff 0 0 ≤ x ∧ x ≤ octo 0 0 0 0 0 0xffff 0xffff 0xffff := b5
    have hr : r = true := r2.mpr ⟨fun x hx => by rw [hz'] at hx; exact .inr ((b5' x).mp hx), by
      rintro ⟨h, _⟩; rw [hz'] at h; revert h; decide +kernel⟩
    rw [hr] at r1
    have hw : V6.WF c.M ⟨[0, 0, 0, 0, 0, 0, 0, 0, 0, 0, 255, 255, 8, 8, 8, 8], emptyScope c.M⟩ :=
      ⟨rfl, Nat.zero_le _, by simp [emptyScope]⟩
    obtain ⟨s, s1, s2, _⟩ := C39_v6_private_computes c hc _ hw
    have s3 := s2 (by
      show beValue [0, 0, 0, 0, 0, 0, 0, 0, 0, 0, 255, 255, 8, 8, 8, 8] / 2 ^ 32 % 2 ^ 16 = 65535
      decide +kernel)
    have hs : s = false := by
      rw [Bool.eq_false_iff, Ne, s3]; simp only [Private4]; decide +kernel
    rw [hs] at s1
    refine ⟨net96_ok c, r1, _, hw, ?_, s1⟩
    rw [hz']
    refine (b5' (beValue [0, 0, 0, 0, 0, 0, 0, 0, 0, 0, 255, 255, 8, 8, 8, 8])).mpr ?_
    decide +kernel

example := C40_v6_private_wrong exCfg rfl

/-! ### Reserved IPv6 networks -/

/-- Aligned blocks with reserved ends. -/
theorem reserved_block (a k : Nat) (hk : k ≤ 128) (ha : a % 2 ^ k = 0) (hl : a + 2 ^ k ≤ 2 ^ 128)
    (h1 : Reserved6 a) (h2 : Reserved6 (a + 2 ^ k - 1)) (h3 : ¬ (a = 0 ∧ k = 127)) (x : Nat)
    (hx : a ≤ x) (hx' : x < a + 2 ^ k) : Reserved6 x := by
  rcases Nat.lt_or_ge k 120 with h | h
  · have e : x / 2 ^ 119 = a / 2 ^ 119 := by
      have e1 := (block_iff k a x ha).mpr ⟨hx, hx'⟩
      have d : ∀ z, z / 2 ^ 119 = z / 2 ^ k / 2 ^ (119 - k) := by
        intro z
        rw [Nat.div_div_eq_div_mul, ← Nat.pow_add, Nat.add_sub_cancel' (by omega)]
      rw [d, e1, ← d]
    clear h2 ha hl hx hx' h3
    simp only [Reserved6, octo] at h1 ⊢
    omega
  · simp only [Reserved6, octo] at h1 h2 ⊢
    interval_cases k <;> omega

/-- C40 (partial), IPv6 `is_reserved`, what it computes: a network is reserved iff all of its addresses are,
with the exception of `::/1`.  Missing: `::/1`, see `C40_v6_reserved_wrong`. -/
theorem C40_v6_reserved_partial (c : Cfg) (hc : c.le = true) (n : Net V6) (hn : NetOk6 c n) :
    ∃ r, v6NetIsReserved c n = .ok r ∧
      (r = true ↔ (∀ x, InNet 128 n.plen (beValue n.addr.bytes) x → Reserved6 x) ∨
        (beValue n.addr.bytes = 0 ∧ n.plen = 1)) := by
  obtain ⟨b, b1, b2, b3, b4, b5⟩ := net_ends (fam6Law c hc) n hn
  obtain ⟨r, r1, r2⟩ := C39_v6_reserved c hc n.addr hn.wf
  obtain ⟨s, s1, s2⟩ := C39_v6_reserved c hc b b2
  have b5' : ∀ x, InNet 128 n.plen (beValue n.addr.bytes) x ↔ beValue n.addr.bytes ≤ x ∧ x ≤ beValue b.bytes := b5
  have b3' : beValue b.bytes = beValue n.addr.bytes + 2 ^ (128 - n.plen) - 1 := b3
  have b4' : beValue n.addr.bytes ≤ beValue b.bytes := b4
  have hb : beValue b.bytes < 2 ^ 128 := (fam6Law c hc).v_lt b b2
  have hpl : n.plen ≤ 128 := hn.plen
  have hpos := Nat.two_pow_pos (128 - n.plen)
  have ha : beValue n.addr.bytes % 2 ^ (128 - n.plen) = 0 := hn.aligned
  simp only [v6NetIsReserved, Fam.bothEnds, r1, Res.ok_bind, b1, s1, b5']
  refine ⟨r && s, by cases r <;> rfl, ?_⟩
  rw [Bool.and_eq_true, r2, s2]
  constructor
  · rintro ⟨h1, h2⟩
    by_cases h3 : beValue n.addr.bytes = 0 ∧ n.plen = 1
    · exact .inr h3
    · left
      rw [b3'] at h2
      intro x hx
      exact reserved_block _ _ (by omega) ha (by omega) h1 h2 (by omega) x hx.1 (by omega)
  · rintro (h | ⟨h3, h4⟩)
    · exact ⟨h _ ⟨Nat.le_refl _, b4'⟩, h _ ⟨b4', Nat.le_refl _⟩⟩
    · rw [b3', h3, h4]
      simp only [Reserved6, octo]
      decide +kernel

example := C40_v6_reserved_partial exCfg rfl ex32 ex32_ok

/-- The network `::/1`. -/
def netHalf (c : Cfg) : Net V6 :=
  ⟨⟨List.replicate 16 0, emptyScope c.M⟩, ⟨128 :: List.replicate 15 0, emptyScope c.M⟩, 1⟩

theorem netHalf_ok (c : Cfg) : NetOk6 c (netHalf c) :=
  ⟨⟨rfl, Nat.zero_le _, by simp [netHalf, emptyScope]⟩, by show 1 ≤ 128; decide,
    ⟨128 :: List.replicate 15 0, rfl, rfl, by
    show _ = 2 ^ 128 - 2 ^ (128 - 1); decide +kernel⟩, by
    show beValue (List.replicate 16 0) % 2 ^ (128 - 1) = 0; decide +kernel⟩

/-- C40, negation: `::/1` is reserved although its address `2001:4860::` is not. -/
theorem C40_v6_reserved_wrong (c : Cfg) (hc : c.le = true) :
    NetOk6 c (netHalf c) ∧ v6NetIsReserved c (netHalf c) = .ok true ∧
      InNet 128 1 0 (octo 0x2001 0x4860 0 0 0 0 0 0) ∧ ¬ Reserved6 (octo 0x2001 0x4860 0 0 0 0 0 0) := by
  obtain ⟨r, r1, r2⟩ := C40_v6_reserved_partial c hc _ (netHalf_ok c)
  have hz : beValue (netHalf c).addr.bytes = 0 := by simp only [netHalf]; decide +kernel
  have hr : r = true := r2.mpr (.inr ⟨hz, rfl⟩)
  rw [hr] at r1
  refine ⟨netHalf_ok c, r1, ?_, by simp only [Reserved6]; decide +kernel⟩
  obtain ⟨b, _, _, b3, _, b5⟩ := net_ends (fam6Law c hc) _ (netHalf_ok c)
  have hz' : (fam6 c).v (netHalf c).addr = 0 := hz
  rw [hz'] at b5 b3
  refine (b5 _).mpr ⟨Nat.zero_le _, ?_⟩
  rw [b3]
  show _ ≤ 0 + 2 ^ (128 - 1) - 1
  decide +kernel

example : v4NetIsPrivate true ex16 = .ok true ∧ v4NetIsGlobal true ex16 = .ok false := by decide +kernel
example : v4NetIsPrivate true ⟨[192, 160, 0, 0], [255, 240, 0, 0], 12⟩ = .ok false := by decide +kernel

end Ip
