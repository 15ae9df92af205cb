import Verif.Lemmas.NetSpec
import Verif.Lemmas.Samples
/-
Properties of networks: C22, C24, C27-C30, C33, C35 (supernet), C38, C19 and C53 for networks.
Little endian hosts; IPv6 for every compile time configuration `c`.
-/
set_option autoImplicit false

namespace Ip
open Spec

/-- The invariant of IPv4 networks. -/
abbrev NetOk4 (n : Net (List (BitVec 8))) : Prop := NetOk (fam4 true) WF4 n

/-- The invariant of IPv6 networks. -/
abbrev NetOk6 (c : Cfg) (n : Net V6) : Prop := NetOk (fam6 c) (V6.WF c.M) n

/-- `192.168.0.0/16`. -/
def ex16 : Net (List (BitVec 8)) := ⟨[192, 168, 0, 0], [255, 255, 0, 0], 16⟩

/-- `192.168.128.0/17`. -/
def ex17 : Net (List (BitVec 8)) := ⟨[192, 168, 128, 0], [255, 255, 128, 0], 17⟩

theorem ex16_ok : NetOk4 ex16 := ⟨rfl, by decide, ⟨_, rfl, rfl, by decide⟩, by decide⟩
theorem ex17_ok : NetOk4 ex17 := ⟨rfl, by decide, ⟨_, rfl, rfl, by decide⟩, by decide⟩

/-- `2001:db8::/32`. -/
def ex32 : Net V6 := ⟨⟨[0x20, 1, 0xd, 0xb8, 0, 0, 0, 0, 0, 0, 0, 0, 0, 0, 0, 0], emptyScope 16⟩,
  ⟨[255, 255, 255, 255, 0, 0, 0, 0, 0, 0, 0, 0, 0, 0, 0, 0], emptyScope 16⟩, 32⟩

theorem ex32_ok : NetOk6 exCfg ex32 :=
  ⟨⟨rfl, Nat.zero_le _, by simp [ex32, emptyScope, exCfg]⟩, by decide, ⟨_, rfl, rfl, by decide⟩, by decide⟩

theorem ex32_good : ex32.addr.Good false 16 := ⟨ex32_ok.wf, by unfold ZoneOk; decide, by decide⟩

/-! ### C22 -/

/-- C22 (partial): for prefix lengths up to the width the netmask has exactly the `p` leading bits set.
Missing: larger prefix lengths are not rejected, see `C22_oversize_undefined`. -/
theorem C22_netmask_partial (p : Nat) :
    (p ≤ 32 → ∃ b, v4FromPrefix true p = .ok b ∧ b.length = 4 ∧ IsMask 32 p (beValue b)) ∧
    (p ≤ 128 → ∃ b, v6FromPrefix p = .ok b ∧ b.length = 16 ∧ IsMask 128 p (beValue b)) := by
  refine ⟨v4FromPrefix_mask p, fun h => ?_⟩
  obtain ⟨b, h1, h2, h3⟩ := v6FromPrefix_val p h
  exact ⟨b, h1, h2, h3 ▸ mask_isMask 128 p h⟩

example := (C22_netmask_partial 20).1 (by decide)
example := (C22_netmask_partial 61).2 (by decide)

/-- C22, negation: a prefix length above the width is undefined behaviour, also through `from_address`. -/
theorem C22_oversize_undefined (c : Cfg) (p : Nat) (strict : Bool) :
    (32 < p → ∀ a, (fam4 true).fromAddress a p strict = .ub) ∧
    (128 < p → ∀ a, (fam6 c).fromAddress a p strict = .ub) := by
  constructor
  · intro h a
    show (v4FromPrefix true p >>= _) = _
    rw [v4FromPrefix_ub true p h]; rfl
  · intro h a
    show (((v6FromPrefix p >>= _) : Res V6) >>= _) = _
    rw [v6FromPrefix_ub p h]; rfl

example : v4FromPrefix true 20 = .ok [255, 255, 240, 0] := by decide
example : v6FromPrefix 61 = .ok [255, 255, 255, 255, 255, 255, 255, 0xf8, 0, 0, 0, 0, 0, 0, 0, 0] := by decide

/-! ### C24 -/

/-- C24, IPv4 `from_address`: strict mode fails exactly when a host bit is set, non strict mode clears
exactly the host bits. -/
theorem C24_from_address_v4 (a : List (BitVec 8)) (ha : a.length = 4) (p : Nat) (hp : p ≤ 32) :
    (((fam4 true).fromAddress a p true = .err .has_host_bits_set 0 ↔ ∃ i, i < 32 - p ∧ (beValue a).testBit i = true) ∧
      ((¬ ∃ i, i < 32 - p ∧ (beValue a).testBit i = true) →
        ∃ n, (fam4 true).fromAddress a p true = .ok n ∧ n.addr = a ∧ n.plen = p)) ∧
    ∃ n, (fam4 true).fromAddress a p false = .ok n ∧ n.plen = p ∧
      ∀ i, (beValue n.addr).testBit i = ((beValue a).testBit i && decide (32 - p ≤ i)) :=
  fromAddress_spec fam4Law a ha p hp

example := C24_from_address_v4 [192, 168, 3, 4] rfl 17 (by decide)

/-- C24, IPv6 `from_address`. -/
theorem C24_from_address_v6 (c : Cfg) (hc : c.le = true) (a : V6) (ha : a.WF c.M) (p : Nat) (hp : p ≤ 128) :
    (((fam6 c).fromAddress a p true = .err .has_host_bits_set 0 ↔ ∃ i, i < 128 - p ∧ (beValue a.bytes).testBit i = true) ∧
      ((¬ ∃ i, i < 128 - p ∧ (beValue a.bytes).testBit i = true) →
        ∃ n, (fam6 c).fromAddress a p true = .ok n ∧ n.addr = a ∧ n.plen = p)) ∧
    ∃ n, (fam6 c).fromAddress a p false = .ok n ∧ n.plen = p ∧
      ∀ i, (beValue n.addr.bytes).testBit i = ((beValue a.bytes).testBit i && decide (128 - p ≤ i)) :=
  fromAddress_spec (fam6Law c hc) a ha p hp

example : (fam4 true).fromAddress [192, 168, 3, 4] 16 true = .err .has_host_bits_set 0 := by decide
example : (fam4 true).fromAddress [192, 168, 3, 4] 16 false = .ok ex16 := by decide

/-- C24: every network obtained from `from_address`, from parsing any input (well formed or not), or by
default construction satisfies the invariant, for every prefix length and both modes. -/
theorem C24_invariant_v4 :
    (∀ a p s n, a.length = 4 → (fam4 true).fromAddress a p s = .ok n → NetOk4 n ∧ n.plen = p) ∧
    (∀ evs s n, (fam4 true).parseNet evs s = .ok n → NetOk4 n) ∧
    (∃ n, (fam4 true).defaultNet = .ok n ∧ NetOk4 n) := by
  refine ⟨?_, ?_, ?_⟩
  · intro a p s n ha h
    have := fromAddress_ok fam4Law a ha p s n h
    exact ⟨this.1, this.2.1⟩
  · intro evs s n h
    exact parseNet_ok fam4Law fam4_parseArray_ok fam4_parseNetmask_ok evs s n h
  · exact ⟨⟨[0, 0, 0, 0], [255, 255, 255, 255], 32⟩, by decide, ⟨rfl, by decide, ⟨_, rfl, rfl, by decide⟩, by decide⟩⟩

example := C24_invariant_v4.1 [192, 168, 7, 9] 16 false _ rfl rfl
example : ∃ n, (fam4 true).parseNet (readChars "10.0.0.0/255.128.0.0".toList) true = .ok n ∧ n.plen = 9 := ⟨_, rfl, rfl⟩

/-- C24, the invariant for IPv6. -/
theorem C24_invariant_v6 (c : Cfg) (hc : c.le = true) :
    (∀ a p s n, a.WF c.M → (fam6 c).fromAddress a p s = .ok n → NetOk6 c n ∧ n.plen = p) ∧
    (∀ evs s n, (fam6 c).parseNet evs s = .ok n → NetOk6 c n) ∧
    (∃ n, (fam6 c).defaultNet = .ok n ∧ NetOk6 c n) := by
  have L := fam6Law c hc
  refine ⟨?_, ?_, ?_⟩
  · intro a p s n ha h
    have := fromAddress_ok L a ha p s n h
    exact ⟨this.1, this.2.1⟩
  · intro evs s n h
    exact parseNet_ok L (fam6_parseArray_ok c) (fam6_parseNetmask_ok c) evs s n h
  · obtain ⟨m, m1, m2, m3⟩ := L.fromPrefix 128 (Nat.le_refl _)
    obtain ⟨z, z1, z2, z3⟩ := L.zero
    refine ⟨⟨(fam6 c).zero, (fam6 c).ofBytes m, 128⟩, ?_, ⟨?_, Nat.le_refl _, ⟨m, rfl, m2, m3⟩, ?_⟩⟩
    · show ((fam6 c).fromPrefix 128 >>= _) = _
      rw [m1]; rfl
    · show V6.WF c.M (fam6 c).zero
      rw [z1]; exact L.wf_ofBytes z z2
    · show beValue ((fam6 c).bytes (fam6 c).zero) % _ = 0
      rw [z1, L.bytes_ofBytes, z3, Nat.zero_mod]

example := C24_invariant_v6 exCfg rfl

/-- C24, what the invariant means: the mask is the one of the prefix length, the network address has no
bit in common with the hostmask. -/
theorem C24_no_host_bits_v4 (n : Net (List (BitVec 8))) (hn : NetOk4 n) :
    IsMask 32 n.plen (beValue n.mask) ∧ beValue n.addr &&& beValue ((fam4 true).hostmask n) = 0 ∧ n.plen ≤ 32 := by
  have h := hostmask_spec fam4Law n hn
  exact ⟨h.2.2.1, h.2.2.2.2, hn.plen⟩

example := C24_no_host_bits_v4 ex17 ex17_ok

/-- C24, what the invariant means for IPv6. -/
theorem C24_no_host_bits_v6 (c : Cfg) (hc : c.le = true) (n : Net V6) (hn : NetOk6 c n) :
    IsMask 128 n.plen (beValue n.mask.bytes) ∧ beValue n.addr.bytes &&& beValue ((fam6 c).hostmask n).bytes = 0 ∧
      n.plen ≤ 128 := by
  have h := hostmask_spec (fam6Law c hc) n hn
  exact ⟨h.2.2.1, h.2.2.2.2, hn.plen⟩

example := C24_no_host_bits_v6 exCfg rfl ex32 ex32_ok

/-! ### C27 -/

/-- C27, IPv4: `contains` holds iff the address agrees with the network address on the leading bits, iff
it lies between network and broadcast address. -/
theorem C27_contains_v4 (n : Net (List (BitVec 8))) (hn : NetOk4 n) (a : List (BitVec 8)) (ha : a.length = 4) :
    ∃ r b, (fam4 true).contains n a = .ok r ∧ (fam4 true).broadcast n = .ok b ∧
      (r = true ↔ InNet 32 n.plen (beValue n.addr) (beValue a)) ∧
      (r = true ↔ beValue n.addr ≤ beValue a ∧ beValue a ≤ beValue b) :=
  contains_spec fam4Law n hn a ha

example := C27_contains_v4 ex17 ex17_ok [192, 168, 3, 4] rfl

/-- C27, IPv6; scope ids are ignored. -/
theorem C27_contains_v6 (c : Cfg) (hc : c.le = true) (n : Net V6) (hn : NetOk6 c n) (a : V6) (ha : a.WF c.M) :
    ∃ r b, (fam6 c).contains n a = .ok r ∧ (fam6 c).broadcast n = .ok b ∧
      (r = true ↔ InNet 128 n.plen (beValue n.addr.bytes) (beValue a.bytes)) ∧
      (r = true ↔ beValue n.addr.bytes ≤ beValue a.bytes ∧ beValue a.bytes ≤ beValue b.bytes) :=
  contains_spec (fam6Law c hc) n hn a ha

example : (fam4 true).contains ex16 [192, 168, 7, 9] = .ok true ∧ (fam4 true).contains ex16 [192, 169, 0, 0] = .ok false := by
  decide

/-! ### C28 -/

/-- C28, IPv4: `overlaps` holds iff an address belongs to both networks; it is symmetric; overlapping
networks are nested. -/
theorem C28_overlaps_v4 (a b : Net (List (BitVec 8))) (ha : NetOk4 a) (hb : NetOk4 b) :
    ∃ r, (fam4 true).overlaps a b = .ok r ∧ (fam4 true).overlaps b a = .ok r ∧
      (r = true ↔ ∃ x, InNet 32 a.plen (beValue a.addr) x ∧ InNet 32 b.plen (beValue b.addr) x) ∧
      (r = true → (∀ x, InNet 32 a.plen (beValue a.addr) x → InNet 32 b.plen (beValue b.addr) x) ∨
        (∀ x, InNet 32 b.plen (beValue b.addr) x → InNet 32 a.plen (beValue a.addr) x)) :=
  overlaps_spec fam4Law a b ha hb

example := C28_overlaps_v4 ex16 ex17 ex16_ok ex17_ok

/-- C28, IPv6. -/
theorem C28_overlaps_v6 (c : Cfg) (hc : c.le = true) (a b : Net V6) (ha : NetOk6 c a) (hb : NetOk6 c b) :
    ∃ r, (fam6 c).overlaps a b = .ok r ∧ (fam6 c).overlaps b a = .ok r ∧
      (r = true ↔ ∃ x, InNet 128 a.plen (beValue a.addr.bytes) x ∧ InNet 128 b.plen (beValue b.addr.bytes) x) ∧
      (r = true → (∀ x, InNet 128 a.plen (beValue a.addr.bytes) x → InNet 128 b.plen (beValue b.addr.bytes) x) ∨
        (∀ x, InNet 128 b.plen (beValue b.addr.bytes) x → InNet 128 a.plen (beValue a.addr.bytes) x)) :=
  overlaps_spec (fam6Law c hc) a b ha hb

example : (fam4 true).overlaps ex16 ex17 = .ok true ∧ (fam4 true).overlaps ex17 ex16 = .ok true := by decide

/-! ### C29 -/

/-- C29, IPv4: `subnet_of` is inclusion of the sets of addresses, and `supernet_of` its converse. -/
theorem C29_subnet_v4 (a b : Net (List (BitVec 8))) (ha : NetOk4 a) (hb : NetOk4 b) :
    ∃ r, (fam4 true).subnetOf a b = .ok r ∧ (fam4 true).supernetOf b a = .ok r ∧
      (r = true ↔ ∀ x, InNet 32 a.plen (beValue a.addr) x → InNet 32 b.plen (beValue b.addr) x) :=
  subnet_spec fam4Law a b ha hb ⟨_, rfl⟩ ⟨_, rfl⟩

example := C29_subnet_v4 ex17 ex16 ex17_ok ex16_ok

theorem plain6 (c : Cfg) (a : V6) (h : a.scope = emptyScope c.M) : a = (fam6 c).ofBytes a.bytes := by
  cases a
  simp only at h
  subst h
  rfl

/-- C29, IPv6, for networks without scope id (for scoped networks see `C29_scoped_inconsistent`). -/
theorem C29_subnet_v6 (c : Cfg) (hc : c.le = true) (a b : Net V6) (ha : NetOk6 c a) (hb : NetOk6 c b)
    (sa : a.addr.scope = emptyScope c.M) (sb : b.addr.scope = emptyScope c.M) :
    ∃ r, (fam6 c).subnetOf a b = .ok r ∧ (fam6 c).supernetOf b a = .ok r ∧
      (r = true ↔ ∀ x, InNet 128 a.plen (beValue a.addr.bytes) x → InNet 128 b.plen (beValue b.addr.bytes) x) :=
  subnet_spec (fam6Law c hc) a b ha hb ⟨a.addr.bytes, plain6 c _ sa⟩ ⟨b.addr.bytes, plain6 c _ sb⟩

example := C29_subnet_v6 exCfg rfl ex32 ex32 ex32_ok ex32_ok rfl rfl

/-- C29: `subnet_of` is a partial order. -/
theorem C29_order_v4 (a b d : Net (List (BitVec 8))) (ha : NetOk4 a) (hb : NetOk4 b) (hd : NetOk4 d) :
    (fam4 true).subnetOf a a = .ok true ∧
    ((fam4 true).subnetOf a b = .ok true → (fam4 true).subnetOf b a = .ok true → a = b) ∧
    ((fam4 true).subnetOf a b = .ok true → (fam4 true).subnetOf b d = .ok true → (fam4 true).subnetOf a d = .ok true) := by
  obtain ⟨r1, p1, _, q1⟩ := C29_subnet_v4 a a ha ha
  obtain ⟨r2, p2, _, q2⟩ := C29_subnet_v4 a b ha hb
  obtain ⟨r3, p3, _, q3⟩ := C29_subnet_v4 b a hb ha
  obtain ⟨r4, p4, _, q4⟩ := C29_subnet_v4 b d hb hd
  obtain ⟨r5, p5, _, q5⟩ := C29_subnet_v4 a d ha hd
  rw [p1, p2, p3, p4, p5]
  refine ⟨by rw [q1.mpr (fun x h => h)], ?_, ?_⟩
  · intro h1 h2
    have e1 := q2.mp (by cases h1; rfl)
    have e2 := q3.mp (by cases h2; rfl)
    obtain ⟨k1, k2⟩ := net_ext fam4Law a b ha hb (fun x => ⟨e1 x, e2 x⟩)
    obtain ⟨m, m1, m2, m3⟩ := ha.mask
    obtain ⟨m', n1, n2, n3⟩ := hb.mask
    have hm : m = m' := beValue_inj _ _ (by omega) (by rw [m3, n3, k2])
    have l1 : a.addr.length = 4 := ha.wf
    have l2 : b.addr.length = 4 := hb.wf
    have hA : a.addr = b.addr := beValue_inj _ _ (by rw [l1, l2]) k1
    cases a; cases b
    simp only at *
    subst hA; subst k2; rw [m1, n1, hm]
  · intro h1 h2
    have e1 := q2.mp (by cases h1; rfl)
    have e2 := q4.mp (by cases h2; rfl)
    rw [q5.mpr (fun x h => e2 x (e1 x h))]

example := C29_order_v4 ex17 ex16 ex17 ex17_ok ex16_ok ex17_ok

/-- C29: `subnet_of` is a partial order on IPv6 networks without scope id. -/
theorem C29_order_v6 (c : Cfg) (hc : c.le = true) (a b d : Net V6) (ha : NetOk6 c a) (hb : NetOk6 c b) (hd : NetOk6 c d)
    (sa : a.addr.scope = emptyScope c.M) (sb : b.addr.scope = emptyScope c.M) (sd : d.addr.scope = emptyScope c.M) :
    (fam6 c).subnetOf a a = .ok true ∧
    ((fam6 c).subnetOf a b = .ok true → (fam6 c).subnetOf b a = .ok true → a = b) ∧
    ((fam6 c).subnetOf a b = .ok true → (fam6 c).subnetOf b d = .ok true → (fam6 c).subnetOf a d = .ok true) := by
  obtain ⟨r1, p1, _, q1⟩ := C29_subnet_v6 c hc a a ha ha sa sa
  obtain ⟨r2, p2, _, q2⟩ := C29_subnet_v6 c hc a b ha hb sa sb
  obtain ⟨r3, p3, _, q3⟩ := C29_subnet_v6 c hc b a hb ha sb sa
  obtain ⟨r4, p4, _, q4⟩ := C29_subnet_v6 c hc b d hb hd sb sd
  obtain ⟨r5, p5, _, q5⟩ := C29_subnet_v6 c hc a d ha hd sa sd
  rw [p1, p2, p3, p4, p5]
  refine ⟨by rw [q1.mpr (fun x h => h)], ?_, ?_⟩
  · intro h1 h2
    have e1 := q2.mp (by cases h1; rfl)
    have e2 := q3.mp (by cases h2; rfl)
    obtain ⟨k1, k2⟩ := net_ext (fam6Law c hc) a b ha hb (fun x => ⟨e1 x, e2 x⟩)
    obtain ⟨m, m1, m2, m3⟩ := ha.mask
    obtain ⟨m', n1, n2, n3⟩ := hb.mask
    have hm : m = m' := beValue_inj _ _ (by omega) (by rw [m3, n3, k2])
    have hA : a.addr.bytes = b.addr.bytes := beValue_inj _ _ (by rw [ha.wf.1, hb.wf.1]) k1
    have hB : a.addr = b.addr := by rw [plain6 c _ sa, plain6 c _ sb, hA]
    cases a; cases b
    simp only at *
    subst hB; subst k2; rw [m1, n1, hm]
  · intro h1 h2
    have e1 := q2.mp (by cases h1; rfl)
    have e2 := q4.mp (by cases h2; rfl)
    rw [q5.mpr (fun x h => e2 x (e1 x h))]

example : (fam4 true).subnetOf ex17 ex16 = .ok true ∧ (fam4 true).subnetOf ex16 ex17 = .ok false := by decide

/-- Outside of C29's range: with scope ids the result depends on the order of the scope ids, so of two
networks with the same addresses one is a subnet of the other but not conversely. -/
theorem C29_scoped_inconsistent : ∃ a b : Net V6, NetOk6 exCfg a ∧ NetOk6 exCfg b ∧ a.addr.bytes = b.addr.bytes ∧
    a.plen = b.plen ∧ (fam6 exCfg).subnetOf a b = .ok false ∧ (fam6 exCfg).subnetOf b a = .ok true := by
  refine ⟨⟨⟨[0xfe, 0x80, 0, 0, 0, 0, 0, 0, 0, 0, 0, 0, 0, 0, 0, 0], ⟨'1' :: List.replicate 15 '\x00', 1⟩⟩,
      ⟨[255, 255, 0, 0, 0, 0, 0, 0, 0, 0, 0, 0, 0, 0, 0, 0], emptyScope 16⟩, 16⟩,
    ⟨⟨[0xfe, 0x80, 0, 0, 0, 0, 0, 0, 0, 0, 0, 0, 0, 0, 0, 0], ⟨'2' :: List.replicate 15 '\x00', 1⟩⟩,
      ⟨[255, 255, 0, 0, 0, 0, 0, 0, 0, 0, 0, 0, 0, 0, 0, 0], emptyScope 16⟩, 16⟩,
    ⟨⟨rfl, by simp [FStr.WF], by simp [exCfg]⟩, by decide, ⟨_, rfl, rfl, by decide⟩, by decide⟩,
    ⟨⟨rfl, by simp [FStr.WF], by simp [exCfg]⟩, by decide, ⟨_, rfl, rfl, by decide⟩, by decide⟩, rfl, rfl, ?_, ?_⟩
  · decide +kernel
  · decide +kernel

/-! ### C30 -/

/-- C30, IPv4: the hostmask has exactly the bits the netmask lacks; the broadcast address is the largest
address of the network. -/
theorem C30_broadcast_v4 (n : Net (List (BitVec 8))) (hn : NetOk4 n) :
    (IsHostMask 32 n.plen (beValue ((fam4 true).hostmask n)) ∧
      beValue ((fam4 true).hostmask n) + beValue n.mask = 2 ^ 32 - 1) ∧
    ∃ b, (fam4 true).broadcast n = .ok b ∧ b.length = 4 ∧ InNet 32 n.plen (beValue n.addr) (beValue b) ∧
      ∀ x, InNet 32 n.plen (beValue n.addr) x → x ≤ beValue b := by
  obtain ⟨_, h1, _, h2, _⟩ := hostmask_spec fam4Law n hn
  obtain ⟨b, b1, b2, _, b3, b4⟩ := broadcast_spec fam4Law n hn
  exact ⟨⟨h1, h2⟩, b, b1, b2, b3, b4⟩

example := C30_broadcast_v4 ex17 ex17_ok

/-- C30, IPv6. -/
theorem C30_broadcast_v6 (c : Cfg) (hc : c.le = true) (n : Net V6) (hn : NetOk6 c n) :
    (IsHostMask 128 n.plen (beValue ((fam6 c).hostmask n).bytes) ∧
      beValue ((fam6 c).hostmask n).bytes + beValue n.mask.bytes = 2 ^ 128 - 1) ∧
    ∃ b, (fam6 c).broadcast n = .ok b ∧ b.WF c.M ∧ InNet 128 n.plen (beValue n.addr.bytes) (beValue b.bytes) ∧
      ∀ x, InNet 128 n.plen (beValue n.addr.bytes) x → x ≤ beValue b.bytes := by
  obtain ⟨_, h1, _, h2, _⟩ := hostmask_spec (fam6Law c hc) n hn
  obtain ⟨b, b1, b2, _, b3, b4⟩ := broadcast_spec (fam6Law c hc) n hn
  exact ⟨⟨h1, h2⟩, b, b1, b2, b3, b4⟩

example := C30_broadcast_v6 exCfg rfl ex32 ex32_ok

/-- C30 (partial): unless the prefix length is 0, `addresses_count` is the number of addresses: the
addresses are exactly `network address + i` for `i` below it.  Missing: prefix length 0, see
`C30_count_wraps`. -/
theorem C30_count_v4_partial (n : Net (List (BitVec 8))) (hn : NetOk4 n) (h0 : n.plen ≠ 0) :
    ∃ u, (fam4 true).addressesCount n = .ok u ∧
      ∀ x, InNet 32 n.plen (beValue n.addr) x ↔ ∃ i, i < u.toNat ∧ x = beValue n.addr + i := by
  obtain ⟨u, h1, h2⟩ := addressesCount_eq fam4Law n hn
  refine ⟨u, h1, fun x => ?_⟩
  have hlt : 2 ^ (32 - n.plen) < 2 ^ 32 := Nat.pow_lt_pow_right (by decide) (by omega)
  have h2' : u.toNat = 2 ^ (32 - n.plen) := by rw [h2]; exact Nat.mod_eq_of_lt hlt
  rw [show InNet 32 n.plen (beValue n.addr) x ↔ _ from inNet_interval fam4Law n hn x, h2']
  show beValue n.addr ≤ x ∧ x < beValue n.addr + 2 ^ (32 - n.plen) ↔ _
  exact ⟨fun h => ⟨x - beValue n.addr, by omega, by omega⟩, fun ⟨i, h1, h2⟩ => by omega⟩

example := C30_count_v4_partial ex17 ex17_ok (by decide)

/-- C30 (partial), IPv6. -/
theorem C30_count_v6_partial (c : Cfg) (hc : c.le = true) (n : Net V6) (hn : NetOk6 c n) (h0 : n.plen ≠ 0) :
    ∃ u, (fam6 c).addressesCount n = .ok u ∧
      ∀ x, InNet 128 n.plen (beValue n.addr.bytes) x ↔ ∃ i, i < u.val ∧ x = beValue n.addr.bytes + i := by
  obtain ⟨u, h1, h2⟩ := addressesCount_eq (fam6Law c hc) n hn
  refine ⟨u, h1, fun x => ?_⟩
  have hlt : 2 ^ (128 - n.plen) < 2 ^ 128 := Nat.pow_lt_pow_right (by decide) (by omega)
  have h2' : u.val = 2 ^ (128 - n.plen) := by rw [h2]; exact Nat.mod_eq_of_lt hlt
  rw [show InNet 128 n.plen (beValue n.addr.bytes) x ↔ _ from inNet_interval (fam6Law c hc) n hn x, h2']
  show beValue n.addr.bytes ≤ x ∧ x < beValue n.addr.bytes + 2 ^ (128 - n.plen) ↔ _
  exact ⟨fun h => ⟨x - beValue n.addr.bytes, by omega, by omega⟩, fun ⟨i, h1, h2⟩ => by omega⟩

example := C30_count_v6_partial exCfg rfl ex32 ex32_ok (by decide)

/-- C30, negation: the count of `0.0.0.0/0` and of `::/0` is 0. -/
theorem C30_count_wraps : (fam4 true).addressesCount ⟨[0, 0, 0, 0], [0, 0, 0, 0], 0⟩ = .ok 0#32 ∧
    (fam6 exCfg).addressesCount ⟨⟨List.replicate 16 0, emptyScope 16⟩, ⟨List.replicate 16 0, emptyScope 16⟩, 0⟩ =
      .ok ⟨0#64, 0#64⟩ := by
  decide +kernel

example : (fam4 true).addressesCount ex17 = .ok 32768#32 := by decide

/-! ### C33 -/

/-- C33 (partial), IPv4: for an admissible difference `supernet` is the unique network of prefix length
`prefixlen() - diff` that contains the network; with `new_prefix` the same.  Missing: the difference 32,
see `C33_supernet_undefined`. -/
theorem C33_supernet_v4_partial (n : Net (List (BitVec 8))) (hn : NetOk4 n) (h0 : n.plen ≠ 0) (d : Nat)
    (hd : d ≤ n.plen) (hw : d < 32) :
    ∃ r, (fam4 true).supernet n d none = .ok r ∧ (fam4 true).supernet n 1 (some (n.plen - d)) = .ok r ∧
      NetOk4 r ∧ r.plen = n.plen - d ∧
      (∀ x, InNet 32 n.plen (beValue n.addr) x → InNet 32 r.plen (beValue r.addr) x) ∧
      ∀ r', NetOk4 r' → r'.plen = n.plen - d →
        (∀ x, InNet 32 n.plen (beValue n.addr) x → InNet 32 r'.plen (beValue r'.addr) x) →
        beValue r'.addr = beValue r.addr :=
  supernet_spec fam4Law n hn h0 d hd hw

example := C33_supernet_v4_partial ex17 ex17_ok (by decide) 9 (by decide) (by decide)

/-- C33 (partial), IPv6.  The scope id is dropped. -/
theorem C33_supernet_v6_partial (c : Cfg) (hc : c.le = true) (n : Net V6) (hn : NetOk6 c n) (h0 : n.plen ≠ 0) (d : Nat)
    (hd : d ≤ n.plen) (hw : d < 128) :
    ∃ r, (fam6 c).supernet n d none = .ok r ∧ (fam6 c).supernet n 1 (some (n.plen - d)) = .ok r ∧
      NetOk6 c r ∧ r.plen = n.plen - d ∧
      (∀ x, InNet 128 n.plen (beValue n.addr.bytes) x → InNet 128 r.plen (beValue r.addr.bytes) x) ∧
      ∀ r', NetOk6 c r' → r'.plen = n.plen - d →
        (∀ x, InNet 128 n.plen (beValue n.addr.bytes) x → InNet 128 r'.plen (beValue r'.addr.bytes) x) →
        beValue r'.addr.bytes = beValue r.addr.bytes :=
  supernet_spec (fam6Law c hc) n hn h0 d hd hw

example := C33_supernet_v6_partial exCfg rfl ex32 ex32_ok (by decide) 9 (by decide) (by decide)

/-- C33, negation: going from a single address to the whole address space is undefined behaviour (a shift
by the width), in both families. -/
theorem C33_supernet_undefined (c : Cfg) (hc : c.le = true) :
    (∀ n, NetOk4 n → n.plen = 32 → (fam4 true).supernet n 32 none = .ub ∧ (fam4 true).supernet n 1 (some 0) = .ub) ∧
    (∀ n, NetOk6 c n → n.plen = 128 → (fam6 c).supernet n 128 none = .ub ∧ (fam6 c).supernet n 1 (some 0) = .ub) :=
  ⟨fun n hn h => supernet_ub fam4Law n hn h, fun n hn h => supernet_ub (fam6Law c hc) n hn h⟩

example : (fam4 true).supernet ex17 1 none = .ok ex16 := by decide
example : NetOk4 ⟨[10, 0, 0, 1], [255, 255, 255, 255], 32⟩ := ⟨rfl, by decide, ⟨_, rfl, rfl, by decide⟩, by decide⟩

/-! ### C35, supernet -/

/-- C35, `supernet` of IPv4 networks: the error codes are reported exactly for inadmissible arguments;
the network of prefix length 0 is its own supernet for all arguments. -/
theorem C35_supernet_v4 (n : Net (List (BitVec 8))) (hn : NetOk4 n) (diff : Nat) (newp : Option Nat) :
    (n.plen = 0 → (fam4 true).supernet n diff newp = .ok n) ∧
    (n.plen ≠ 0 → newp = none → (diff > n.plen ↔ (fam4 true).supernet n diff newp = .err .invalid_prefixlen_diff 0)) ∧
    (∀ p, n.plen ≠ 0 → newp = some p →
      (p > n.plen ↔ (fam4 true).supernet n diff newp = .err .new_prefix_must_be_shorter 0) ∧
      (p ≤ n.plen ∧ diff ≠ 1 ↔ (fam4 true).supernet n diff newp = .err .cannot_set_prefixlen_diff_and_new_prefix 0)) ∧
    (∀ e v, (fam4 true).supernet n diff newp = .err e v → v = 0 ∧ (e = .invalid_prefixlen_diff ∨
      e = .new_prefix_must_be_shorter ∨ e = .cannot_set_prefixlen_diff_and_new_prefix)) :=
  supernet_errors fam4Law n hn diff newp

example := C35_supernet_v4 ex17 ex17_ok 18 (some 3)

/-- C35, `supernet` of IPv6 networks. -/
theorem C35_supernet_v6 (c : Cfg) (hc : c.le = true) (n : Net V6) (hn : NetOk6 c n) (diff : Nat) (newp : Option Nat) :
    (n.plen = 0 → (fam6 c).supernet n diff newp = .ok n) ∧
    (n.plen ≠ 0 → newp = none → (diff > n.plen ↔ (fam6 c).supernet n diff newp = .err .invalid_prefixlen_diff 0)) ∧
    (∀ p, n.plen ≠ 0 → newp = some p →
      (p > n.plen ↔ (fam6 c).supernet n diff newp = .err .new_prefix_must_be_shorter 0) ∧
      (p ≤ n.plen ∧ diff ≠ 1 ↔ (fam6 c).supernet n diff newp = .err .cannot_set_prefixlen_diff_and_new_prefix 0)) ∧
    (∀ e v, (fam6 c).supernet n diff newp = .err e v → v = 0 ∧ (e = .invalid_prefixlen_diff ∨
      e = .new_prefix_must_be_shorter ∨ e = .cannot_set_prefixlen_diff_and_new_prefix)) :=
  supernet_errors (fam6Law c hc) n hn diff newp

example : (fam4 true).supernet ex17 18 none = .err .invalid_prefixlen_diff 0 := by decide
example : (fam4 true).supernet ex17 2 (some 16) = .err .cannot_set_prefixlen_diff_and_new_prefix 0 := by decide

/-! ### C38 -/

theorem mask_lt_iff (w p q : Nat) (hp : p ≤ w) (hq : q ≤ w) :
    2 ^ w - 2 ^ (w - p) < 2 ^ w - 2 ^ (w - q) ↔ p < q := by
  have a1 : 2 ^ (w - p) ≤ 2 ^ w := Nat.pow_le_pow_right (by decide) (by omega)
  have a2 := Nat.two_pow_pos (w - q)
  have a3 : 2 ^ (w - q) < 2 ^ (w - p) ↔ w - q < w - p := Nat.pow_lt_pow_iff_right (by decide)
  omega

theorem net_order {A U : Type} {F : Fam A U} {WF : A → Prop} {val : U → Nat} (L : F.Law WF val) (a b : Net A)
    (ha : NetOk F WF a) (hb : NetOk F WF b) (ea : Bool) (oa : Ordering) (h1 : F.eq a.addr b.addr = .ok ea)
    (h2 : F.cmp a.addr b.addr = .ok oa) (h3 : ea = true ↔ oa = .eq) :
    F.netEq a b = .ok (ea && decide (a.plen = b.plen)) ∧ F.netCmp a b = .ok (oa.then (compare a.plen b.plen)) ∧
    (F.lt a.addr b.addr = .ok (decide (oa = .lt)) →
      F.netLt a b = .ok (decide (oa.then (compare a.plen b.plen) = .lt))) := by
  obtain ⟨m, m1, m2, m3⟩ := ha.mask
  obtain ⟨m', n1, n2, n3⟩ := hb.mask
  have pa := ha.plen
  have pb := hb.plen
  have hi := mask_inj F.maxPrefix a.plen b.plen pa pb
  have hl := mask_lt_iff F.maxPrefix a.plen b.plen pa pb
  have hg := mask_lt_iff F.maxPrefix b.plen a.plen pb pa
  have e2 : F.eq a.mask b.mask = .ok (decide (a.plen = b.plen)) := by
    rw [m1, n1, L.eq m m' m2 n2, m3, n3]
    congr 1
    rw [decide_eq_decide]
    exact ⟨hi, fun e => by rw [e]⟩
  have c2 : F.cmp a.mask b.mask = .ok (compare a.plen b.plen) := by
    rw [m1, n1, L.cmp m m' m2 n2, m3, n3]
    congr 1
    rcases Nat.lt_trichotomy a.plen b.plen with g | g | g
    · rw [Nat.compare_eq_lt.mpr g, Nat.compare_eq_lt.mpr (hl.mpr g)]
    · rw [g, Nat.compare_eq_eq.mpr rfl, Nat.compare_eq_eq.mpr rfl]
    · rw [Nat.compare_eq_gt.mpr g, Nat.compare_eq_gt.mpr (hg.mpr g)]
  have t2 : F.lt a.mask b.mask = .ok (decide (a.plen < b.plen)) := by
    rw [m1, n1, L.lt m m' m2 n2, m3, n3]
    congr 1
    rw [decide_eq_decide]
    exact hl
  refine ⟨?_, ?_, ?_⟩
  · unfold Fam.netEq
    rw [h1, Res.ok_bind]
    cases ea
    · rfl
    · simpa using e2
  · unfold Fam.netCmp
    rw [h2, Res.ok_bind]
    cases oa
    · rfl
    · simpa [Ordering.then] using c2
    · rfl
  · intro t1
    unfold Fam.netLt
    rw [h1, Res.ok_bind, e2, Res.ok_bind]
    cases ea
    · have : oa ≠ .eq := fun e => Bool.noConfusion (h3.mpr e)
      rw [if_neg (by simp), t1]
      cases oa
      · rfl
      · exact absurd rfl this
      · rfl
    · have := h3.mp rfl
      subst this
      rw [if_pos rfl, t2]
      by_cases g : a.plen = b.plen
      · simp [g, Ordering.then]
      · rw [if_neg (by simpa using g)]
        congr 1
        rw [decide_eq_decide]
        exact Nat.compare_eq_lt.symm

/-- C38, IPv4: equality is equality of network address and prefix length; `<=>` and `<` order by network
address, then by prefix length. -/
theorem C38_order_v4 (a b : Net (List (BitVec 8))) (ha : NetOk4 a) (hb : NetOk4 b) :
    ∃ e o l, (fam4 true).netEq a b = .ok e ∧ (fam4 true).netCmp a b = .ok o ∧ (fam4 true).netLt a b = .ok l ∧
      (e = true ↔ beValue a.addr = beValue b.addr ∧ a.plen = b.plen) ∧
      o = (compare (beValue a.addr) (beValue b.addr)).then (compare a.plen b.plen) ∧
      (l = true ↔ o = .lt) ∧ (e = true ↔ o = .eq) := by
  have L := fam4Law
  have l1 := L.len _ ha.wf
  have l2 := L.len _ hb.wf
  have e1 : (fam4 true).eq a.addr b.addr = .ok (decide (beValue a.addr = beValue b.addr)) :=
    L.eq a.addr b.addr l1 l2
  have c1 : (fam4 true).cmp a.addr b.addr = .ok (compare (beValue a.addr) (beValue b.addr)) :=
    L.cmp a.addr b.addr l1 l2
  have t1 : (fam4 true).lt a.addr b.addr = .ok (decide (beValue a.addr < beValue b.addr)) :=
    L.lt a.addr b.addr l1 l2
  obtain ⟨r1, r2, r3⟩ := net_order L a b ha hb _ _ e1 c1 (by rw [decide_eq_true_iff]; exact Nat.compare_eq_eq.symm)
  refine ⟨_, _, _, r1, r2, r3 ?_, ?_, rfl, by rw [decide_eq_true_iff], ?_⟩
  · rw [t1]
    congr 1
    rw [decide_eq_decide]
    exact Nat.compare_eq_lt.symm
  · simp
  · rcases Nat.lt_trichotomy (beValue a.addr) (beValue b.addr) with h | h | h
    · simp [Nat.compare_eq_lt.mpr h, Ordering.then]; omega
    · simp [h, Ordering.then]
    · simp [Nat.compare_eq_gt.mpr h, Ordering.then]; omega

example := C38_order_v4 ex17 ex16 ex17_ok ex16_ok

/-- C38, IPv4: `<` is a strict total order, with `==` as its equality. -/
theorem C38_total_v4 (a b d : Net (List (BitVec 8))) (ha : NetOk4 a) (hb : NetOk4 b) (hd : NetOk4 d) :
    (fam4 true).netLt a a = .ok false ∧
    ((fam4 true).netLt a b = .ok true → (fam4 true).netLt b d = .ok true → (fam4 true).netLt a d = .ok true) ∧
    ((fam4 true).netLt a b = .ok true ∨ (fam4 true).netEq a b = .ok true ∨ (fam4 true).netLt b a = .ok true) := by
  have key : ∀ a b : Net (List (BitVec 8)), NetOk4 a → NetOk4 b → ((fam4 true).netLt a b = .ok true ↔
      beValue a.addr < beValue b.addr ∨ beValue a.addr = beValue b.addr ∧ a.plen < b.plen) ∧
      ((fam4 true).netEq a b = .ok true ↔ beValue a.addr = beValue b.addr ∧ a.plen = b.plen) ∧
      ∃ l, (fam4 true).netLt a b = .ok l := by
    intro a b ha hb
    obtain ⟨e, o, l, h1, h2, h3, h4, h5, h6, h7⟩ := C38_order_v4 a b ha hb
    rw [h1, h3]
    refine ⟨?_, ?_, l, rfl⟩
    · rw [show (Res.ok l = Res.ok true ↔ l = true) from ⟨fun h => by cases h; rfl, fun h => by rw [h]⟩, h6, h5]
      rcases Nat.lt_trichotomy (beValue a.addr) (beValue b.addr) with h | h | h
      · simp [Nat.compare_eq_lt.mpr h, Ordering.then, h]
      · simp [h, Ordering.then, Nat.compare_eq_lt]
      · simp [Nat.compare_eq_gt.mpr h, Ordering.then]; omega
    · rw [show (Res.ok e = Res.ok true ↔ e = true) from ⟨fun h => by cases h; rfl, fun h => by rw [h]⟩, h4]
  obtain ⟨k1, _, l, k2⟩ := key a a ha ha
  refine ⟨?_, ?_, ?_⟩
  · rw [k2]
    cases l
    · rfl
    · have := k1.mp k2; omega
  · rw [(key a b ha hb).1, (key b d hb hd).1, (key a d ha hd).1]
    omega
  · rw [(key a b ha hb).1, (key b a hb ha).1, (key a b ha hb).2.1]
    omega

example := C38_total_v4 ex17 ex16 ex17 ex17_ok ex16_ok ex17_ok

/-- C38, IPv6: equality compares the address bits, the scope ids and the prefix length; `<=>` orders by
address (with scope id), then by prefix length.  With `<=>` (`c.spaceship`) `<` is derived from it. -/
theorem C38_order_v6 (c : Cfg) (hc : c.le = true) (hv : ∀ x y, c.val x = c.val y → x = y) (a b : Net V6)
    (ha : NetOk6 c a) (hb : NetOk6 c b) :
    ∃ e o, (fam6 c).netEq a b = .ok e ∧ (fam6 c).netCmp a b = .ok o ∧
      (e = true ↔ (a.addr.bytes = b.addr.bytes ∧ a.addr.scope.contents = b.addr.scope.contents) ∧ a.plen = b.plen) ∧
      (e = true ↔ o = .eq) ∧
      (o = .lt ↔ V6Lt c.val (beValue a.addr.bytes) a.addr.scope.contents (beValue b.addr.bytes) b.addr.scope.contents ∨
        (a.addr.bytes = b.addr.bytes ∧ a.addr.scope.contents = b.addr.scope.contents ∧ a.plen < b.plen)) ∧
      (c.spaceship = true → (fam6 c).netLt a b = .ok (decide (o = .lt))) := by
  have L := fam6Law c hc
  obtain ⟨o, e, h1, h2, h3, h4, h5, h6⟩ := C15_v6_compare c.val hv c.M a.addr b.addr ha.wf hb.wf
  obtain ⟨r1, r2, r3⟩ := net_order L a b ha hb e o h2 h1 (by rw [h5, h6])
  refine ⟨_, _, r1, r2, ?_, ?_, ?_, fun hs => r3 ?_⟩
  · rw [Bool.and_eq_true, decide_eq_true_iff, h6]
  · rw [Bool.and_eq_true, decide_eq_true_iff, h6, ← h5]
    cases o <;> simp [Ordering.then]
  · rw [← h3, ← and_assoc, ← h5]
    cases o <;> simp [Ordering.then, Nat.compare_eq_lt]
  · show v6Lt c a.addr b.addr = _
    unfold v6Lt
    rw [if_pos hs, h1]
    rfl

example := C38_order_v6 exCfg rfl exCfg_val ex32 ex32 ex32_ok ex32_ok

/-- C38, IPv6: `<=>` is a strict total order, with `==` as its equality. -/
theorem C38_total_v6 (c : Cfg) (hc : c.le = true) (hv : ∀ x y, c.val x = c.val y → x = y) (a b d : Net V6)
    (ha : NetOk6 c a) (hb : NetOk6 c b) (hd : NetOk6 c d) :
    (fam6 c).netCmp a a = .ok .eq ∧
    ((fam6 c).netCmp a b = .ok .lt → (fam6 c).netCmp b d = .ok .lt → (fam6 c).netCmp a d = .ok .lt) ∧
    ((fam6 c).netCmp a b = .ok .lt ∨ (fam6 c).netEq a b = .ok true ∨ (fam6 c).netCmp b a = .ok .lt) := by
  have key : ∀ a b : Net V6, NetOk6 c a → NetOk6 c b → ((fam6 c).netCmp a b = .ok .lt ↔
      V6Lt c.val (beValue a.addr.bytes) a.addr.scope.contents (beValue b.addr.bytes) b.addr.scope.contents ∨
      (beValue a.addr.bytes = beValue b.addr.bytes ∧ a.addr.scope.contents = b.addr.scope.contents ∧ a.plen < b.plen)) ∧
      ((fam6 c).netEq a b = .ok true ↔
        (beValue a.addr.bytes = beValue b.addr.bytes ∧ a.addr.scope.contents = b.addr.scope.contents) ∧ a.plen = b.plen) ∧
      ((fam6 c).netEq a b = .ok true ↔ (fam6 c).netCmp a b = .ok .eq) := by
    intro a b ha hb
    obtain ⟨e, o, h1, h2, h3, h4, h5, _⟩ := C38_order_v6 c hc hv a b ha hb
    have hi : a.addr.bytes = b.addr.bytes ↔ beValue a.addr.bytes = beValue b.addr.bytes :=
      ⟨fun h => by rw [h], beValue_inj _ _ (by rw [ha.wf.1, hb.wf.1])⟩
    rw [hi] at h3 h5
    rw [h1, h2]
    have ho : ∀ o', (Res.ok o = Res.ok o' ↔ o = o') := fun o' => ⟨fun h => by cases h; rfl, fun h => by rw [h]⟩
    have he : (Res.ok e = Res.ok true ↔ e = true) := ⟨fun h => by cases h; rfl, fun h => by rw [h]⟩
    exact ⟨(ho _).trans h5, he.trans h3, he.trans (h4.trans (ho _).symm)⟩
  refine ⟨?_, ?_, ?_⟩
  · obtain ⟨_, k2, k3⟩ := key a a ha ha
    exact k3.mp (k2.mpr ⟨⟨rfl, rfl⟩, rfl⟩)
  · rw [(key a b ha hb).1, (key b d hb hd).1, (key a d ha hd).1]
    have t := (C15_v6_order_total c.val hv (beValue a.addr.bytes) (beValue b.addr.bytes) (beValue d.addr.bytes)
      a.addr.scope.contents b.addr.scope.contents d.addr.scope.contents).2.1
    rintro (h | ⟨h1, h2, h3⟩) (g | ⟨g1, g2, g3⟩)
    · exact .inl (t h g)
    · exact .inl (by rw [← g1, ← g2]; exact h)
    · exact .inl (by rw [h1, h2]; exact g)
    · exact .inr ⟨by omega, by rw [h2, g2], by omega⟩
  · rw [(key a b ha hb).1, (key b a hb ha).1, (key a b ha hb).2.1]
    rcases (C15_v6_order_total c.val hv (beValue a.addr.bytes) (beValue b.addr.bytes) 0
      a.addr.scope.contents b.addr.scope.contents []).2.2 with h | ⟨h1, h2⟩ | h
    · exact .inl (.inl h)
    · rcases Nat.lt_trichotomy a.plen b.plen with g | g | g
      · exact .inl (.inr ⟨h1, h2, g⟩)
      · exact .inr (.inl ⟨⟨h1, h2⟩, g⟩)
      · exact .inr (.inr (.inr ⟨h1.symm, h2.symm, g⟩))
    · exact .inr (.inr (.inl h))

example := C38_total_v6 exCfg rfl exCfg_val ex32 ex32 ex32 ex32_ok ex32_ok ex32_ok

/-- C38 (partial), IPv6 `<` without `<=>`.  Missing: pairs where the scope ids are ordered against the
addresses, see `C15_v6_less_wrong`. -/
theorem C38_less_v6_partial (c : Cfg) (hc : c.le = true) (hv : ∀ x y, c.val x = c.val y → x = y)
    (hs : c.spaceship = false) (a b : Net V6) (ha : NetOk6 c a) (hb : NetOk6 c b)
    (hx : ¬ (beValue b.addr.bytes < beValue a.addr.bytes ∧ ScopeLt c.val a.addr.scope.contents b.addr.scope.contents)) :
    ∃ o, (fam6 c).netCmp a b = .ok o ∧ (fam6 c).netLt a b = .ok (decide (o = .lt)) := by
  have L := fam6Law c hc
  obtain ⟨o, e, h1, h2, h3, h4, h5, h6⟩ := C15_v6_compare c.val hv c.M a.addr b.addr ha.wf hb.wf
  obtain ⟨r1, r2, r3⟩ := net_order L a b ha hb e o h2 h1 (by rw [h5, h6])
  refine ⟨_, r2, r3 ?_⟩
  obtain ⟨r, g1, g2⟩ := C15_v6_less_partial c.val hv c.M a.addr b.addr ha.wf hb.wf hx
  show v6Lt c a.addr b.addr = _
  unfold v6Lt
  rw [if_neg (by simp [hs]), g1]
  congr 1
  rw [Bool.eq_iff_iff, g2, decide_eq_true_iff, h3]

example : (fam4 true).netCmp ex16 ex17 = .ok .lt ∧ (fam4 true).netLt ex16 ex17 = .ok true ∧
    (fam4 true).netEq ex16 ex17 = .ok false := by decide

/-! ### C19, C53 -/

/-- C19, networks: equal networks have equal hashes. -/
theorem C19_network_hash (c : Cfg) (hc : c.le = true) (hv : ∀ x y, c.val x = c.val y → x = y) :
    (∀ a b, NetOk4 a → NetOk4 b → (fam4 true).netEq a b = .ok true →
      ∃ h, (fam4 true).netHash a = .ok h ∧ (fam4 true).netHash b = .ok h) ∧
    (∀ a b, NetOk6 c a → NetOk6 c b → (fam6 c).netEq a b = .ok true →
      ∃ h, (fam6 c).netHash a = .ok h ∧ (fam6 c).netHash b = .ok h) := by
  constructor
  · intro a b ha hb h
    obtain ⟨e, o, l, h1, _, _, h2, _⟩ := C38_order_v4 a b ha hb
    rw [h1] at h
    cases h
    obtain ⟨k1, k2⟩ := h2.mp rfl
    have l1 : a.addr.length = 4 := ha.wf
    have l2 : b.addr.length = 4 := hb.wf
    have k3 : a.addr = b.addr := beValue_inj _ _ (by rw [l1, l2]) k1
    obtain ⟨m, m1, m2, m3⟩ := ha.mask
    obtain ⟨m', n1, n2, n3⟩ := hb.mask
    have hm : m = m' := beValue_inj _ _ (by omega) (by rw [m3, n3, k2])
    refine ⟨calcHash (v4Hash a.addr) [v4Hash a.mask], rfl, ?_⟩
    rw [k3, m1, hm, ← n1]
    rfl
  · intro a b ha hb h
    obtain ⟨e, o, h1, _, h2, _⟩ := C38_order_v6 c hc hv a b ha hb
    rw [h1] at h
    cases h
    obtain ⟨⟨k1, k2⟩, k3⟩ := h2.mp rfl
    obtain ⟨m, m1, m2, m3⟩ := ha.mask
    obtain ⟨m', n1, n2, n3⟩ := hb.mask
    have hm : m = m' := beValue_inj _ _ (by omega) (by rw [m3, n3, k3])
    have hm2 : a.mask = b.mask := by rw [m1, n1, hm]
    have wm : a.mask.WF c.M := by rw [m1]; exact (fam6Law c hc).wf_ofBytes m m2
    show ∃ h, (v6Hash c.conv a.addr >>= _) = _ ∧ (v6Hash c.conv b.addr >>= _) = _
    unfold v6Hash
    rw [FStr.hash_eq c.conv _ ha.wf.2.1, FStr.hash_eq c.conv _ hb.wf.2.1, ha.wf.2.2, hb.wf.2.2, k1, k2]
    simp only [Res.ok_bind]
    show ∃ h, (v6Hash c.conv a.mask >>= _) = _ ∧ (v6Hash c.conv b.mask >>= _) = _
    rw [← hm2]
    unfold v6Hash
    rw [FStr.hash_eq c.conv _ wm.2.1]
    exact ⟨_, rfl, rfl⟩

example := C19_network_hash exCfg rfl exCfg_val

/-- C53, networks: `swap` exchanges the values. -/
theorem C53_network_swap_v4 (a b : Net (List (BitVec 8))) (ha : NetOk4 a) (hb : NetOk4 b) :
    (fam4 true).netSwap a b = .ok (b, a) := by
  obtain ⟨m, m1, m2, m3⟩ := ha.mask
  obtain ⟨m', n1, n2, n3⟩ := hb.mask
  have l1 : a.addr.length = 4 := ha.wf
  have l2 : b.addr.length = 4 := hb.wf
  have l3 : a.mask.length = b.mask.length := by
    rw [m1, n1]
    show m.length = m'.length
    omega
  show ((Res.ok (bytesSwap a.addr b.addr)) >>= _) = _
  rw [Res.ok_bind]
  show ((Res.ok (bytesSwap a.mask b.mask)) >>= _) = _
  rw [Res.ok_bind, bytesSwap_eq _ _ (by rw [l1, l2]), bytesSwap_eq _ _ l3]

example := C53_network_swap_v4 ex16 ex17 ex16_ok ex17_ok

/-- C53, IPv6 networks: `swap` exchanges addresses, scope ids, masks and prefix lengths. -/
theorem C53_network_swap_v6 (c : Cfg) (hc : c.le = true) (a b : Net V6) (ha : NetOk6 c a) (hb : NetOk6 c b) :
    ∃ x y, (fam6 c).netSwap a b = .ok (x, y) ∧
      (x.addr.bytes = b.addr.bytes ∧ x.addr.scope.contents = b.addr.scope.contents ∧ x.mask.bytes = b.mask.bytes ∧
        x.plen = b.plen) ∧
      (y.addr.bytes = a.addr.bytes ∧ y.addr.scope.contents = a.addr.scope.contents ∧ y.mask.bytes = a.mask.bytes ∧
        y.plen = a.plen) := by
  obtain ⟨m, m1, m2, m3⟩ := ha.mask
  obtain ⟨m', n1, n2, n3⟩ := hb.mask
  have L := fam6Law c hc
  have w1 : a.mask.WF c.M := by rw [m1]; exact L.wf_ofBytes m m2
  have w2 : b.mask.WF c.M := by rw [n1]; exact L.wf_ofBytes m' n2
  obtain ⟨x, y, h1, _, _, h2, h3, h4, h5⟩ := C53_v6_swap c.M a.addr b.addr ha.wf hb.wf
  obtain ⟨x', y', g1, _, _, g2, g3, _, _⟩ := C53_v6_swap c.M a.mask b.mask w1 w2
  refine ⟨⟨x, x', b.plen⟩, ⟨y, y', a.plen⟩, ?_, ⟨h2, h4, g2, rfl⟩, ⟨h3, h5, g3, rfl⟩⟩
  show (v6Swap a.addr b.addr >>= _) = _
  rw [h1, Res.ok_bind]
  show (v6Swap a.mask b.mask >>= _) = _
  rw [g1]
  rfl

example : (fam4 true).netSwap ex16 ex17 = .ok (ex17, ex16) := by decide

end Ip
