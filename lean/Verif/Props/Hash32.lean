import Verif.Props.Hash

set_option autoImplicit false

namespace Ip
open Spec

theorem maskHash4_nodup32 : ((List.range 33).map fun p => v4Hash32 (maskOctets 4 p)).Nodup := by decide +kernel
theorem maskHash6_nodup32 : ((List.range 129).map fun p => calcHash32 0 ((maskOctets 16 p).map (·.setWidth 32))).Nodup ∧
    ((List.range 129).map fun p => calcHash32 2166136261#32 ((maskOctets 16 p).map (·.setWidth 32))).Nodup := by
  decide +kernel

theorem mask_octets4 (n : Net (List (BitVec 8))) (hn : NetOk4 n) : n.plen < 33 ∧ n.mask = maskOctets 4 n.plen := by
  have hp : n.plen ≤ 32 := hn.plen
  obtain ⟨m, h1, h2, h3⟩ := hn.mask
  have h2 : 8 * m.length = 32 := h2
  have h3 : beValue m = 2 ^ 32 - 2 ^ (32 - n.plen) := h3
  have h1 : n.mask = m := h1
  refine ⟨by omega, ?_⟩
  rw [h1]
  refine beValue_inj _ _ ?_ (by rw [h3, maskOctets_value4 _ (by omega)])
  simp only [maskOctets, List.length_map, List.length_range]
  omega

theorem mask_octets6 (c : Cfg) (n : Net V6) (hn : NetOk6 c n) :
    n.plen < 129 ∧ n.mask = ⟨maskOctets 16 n.plen, emptyScope c.M⟩ := by
  have hp : n.plen ≤ 128 := hn.plen
  obtain ⟨m, h1, h2, h3⟩ := hn.mask
  have h2 : 8 * m.length = 128 := h2
  have h3 : beValue m = 2 ^ 128 - 2 ^ (128 - n.plen) := h3
  have h1 : n.mask = ⟨m, emptyScope c.M⟩ := h1
  have e : m = maskOctets 16 n.plen := by
    refine beValue_inj _ _ ?_ (by rw [h3, maskOctets_value6 _ (by omega)])
    simp only [maskOctets, List.length_map, List.length_range]
    omega
  exact ⟨by omega, by rw [h1, e]⟩

/-- What `hash` of an IPv6 address computes. -/
theorem v6Hash32_eq (conv : Char → BitVec 32) (M : Nat) (a : V6) (ha : a.WF M) :
    v6Hash32 conv a = .ok (calcHash32 (if M = 0 then 0#32 else
      a.scope.contents.foldl (fun v x => (v ^^^ conv x) * 16777619#32) 2166136261#32) (a.bytes.map (·.setWidth 32))) := by
  unfold v6Hash32
  rw [FStr.hash32_eq conv _ ha.2.1, ha.2.2]
  rfl

theorem emptyScope_wf (m : List (BitVec 8)) (h : m.length = 16) (M : Nat) : (⟨m, emptyScope M⟩ : V6).WF M :=
  ⟨h, Nat.zero_le _, by simp [emptyScope]⟩

theorem maskOctets_length (n p : Nat) : (maskOctets n p).length = n := by simp [maskOctets]

/-- C64, 32 bit `size_t`: IPv4 networks that differ in exactly one octet of the address and not in the prefix length, or
only in the prefix length, have different hashes. -/
theorem C64_v4_network_32 (a b : Net (List (BitVec 8))) (ha : NetOk4 a) (hb : NetOk4 b)
    (h : OneApart a.addr b.addr ∧ a.plen = b.plen ∨ a.addr = b.addr ∧ a.plen ≠ b.plen) : v4NetHash32 a ≠ v4NetHash32 b := by
  show hashSum32 (v4Hash32 a.addr) (v4Hash32 a.mask) ≠ hashSum32 (v4Hash32 b.addr) (v4Hash32 b.mask)
  rw [(mask_octets4 a ha).2, (mask_octets4 b hb).2]
  rcases h with ⟨h1, h2⟩ | ⟨h1, h2⟩
  · rw [h2]
    exact fun e => (C64_v4 _ _ h1).2 (hashSum32_seed _ _ _ e)
  · rw [h1]
    exact fun e => h2 (nodup_range_map _ 33 maskHash4_nodup32 _ _ (mask_octets4 a ha).1 (mask_octets4 b hb).1 (hashSum32_value _ _ _ e))

example := C64_v4_network_32 ex16 ⟨[192, 168, 0, 0], [255, 255, 128, 0], 17⟩ ex16_ok ⟨rfl, by decide, ⟨_, rfl, rfl, by decide⟩, by decide⟩
  (.inr ⟨rfl, by decide⟩)

/-- C64, 32 bit `size_t`: the same for IPv6 networks, and for one character of the scope id. -/
theorem C64_v6_network_32 (c : Cfg) (hc : c.le = true) (conv : Char → BitVec 32) (hv : ∀ x y, conv x = conv y → x = y) (a b : Net V6)
    (ha : NetOk6 c a) (hb : NetOk6 c b)
    (h : OneApart a.addr.bytes b.addr.bytes ∧ a.addr.scope.contents = b.addr.scope.contents ∧ a.plen = b.plen ∨
      a.addr.bytes = b.addr.bytes ∧ OneApart a.addr.scope.contents b.addr.scope.contents ∧ a.plen = b.plen ∨
      a.addr.bytes = b.addr.bytes ∧ a.addr.scope.contents = b.addr.scope.contents ∧ a.plen ≠ b.plen) :
    ∃ x y, v6NetHash32 conv a = .ok x ∧ v6NetHash32 conv b = .ok y ∧ x ≠ y := by
  obtain ⟨pa, ma⟩ := mask_octets6 c a ha
  obtain ⟨pb, mb⟩ := mask_octets6 c b hb
  have hm := fun p => v6Hash32_eq conv c.M _ (emptyScope_wf (maskOctets 16 p) (maskOctets_length _ _) c.M)
  have hash : ∀ (n : Net V6) (x y : BitVec 32), v6Hash32 conv n.addr = .ok x → v6Hash32 conv n.mask = .ok y →
      v6NetHash32 conv n = .ok (hashSum32 x y) := by
    intro n x y h1 h2
    unfold v6NetHash32
    rw [h1, h2]
    rfl
  have one : (OneApart a.addr.bytes b.addr.bytes ∧ a.addr.scope.contents = b.addr.scope.contents ∨
      a.addr.bytes = b.addr.bytes ∧ OneApart a.addr.scope.contents b.addr.scope.contents) → a.plen = b.plen →
      ∃ x y, v6NetHash32 conv a = .ok x ∧ v6NetHash32 conv b = .ok y ∧ x ≠ y := by
    intro h1 h2
    obtain ⟨_, x, y, k1, k2, k3⟩ := C64_v6 (fun x => BitVec.ofNat 64 x.toNat) ofNat64_inj conv hv c.M _ _ ha.wf hb.wf h1
    refine ⟨_, _, hash a _ _ k1 (by rw [ma]; exact hm _), hash b _ _ k2 (by rw [mb]; exact hm _), ?_⟩
    rw [h2]
    exact fun e => k3 (hashSum32_seed _ _ _ e)
  rcases h with ⟨h1, h2, h3⟩ | ⟨h1, h2, h3⟩ | ⟨h1, h2, h3⟩
  · exact one (.inl ⟨h1, h2⟩) h3
  · exact one (.inr ⟨h1, h2⟩) h3
  · refine ⟨_, _, hash a _ _ (v6Hash32_eq conv c.M _ ha.wf) (by rw [ma]; exact hm _),
      hash b _ _ (v6Hash32_eq conv c.M _ hb.wf) (by rw [mb]; exact hm _), ?_⟩
    rw [h1, h2]
    intro e
    have e := hashSum32_value _ _ _ e
    apply h3
    by_cases z : c.M = 0
    · rw [if_pos z] at e
      exact nodup_range_map _ 129 maskHash6_nodup32.1 _ _ pa pb e
    · rw [if_neg z] at e
      exact nodup_range_map _ 129 maskHash6_nodup32.2 _ _ pa pb e

example := C64_v6_network_32 exCfg rfl (fun c => BitVec.ofNat 32 c.toNat) ofNat32_inj ex32
  { ex32 with plen := 33, mask := ⟨255 :: 255 :: 255 :: 255 :: 128 :: List.replicate 11 0, emptyScope 16⟩ }
  ex32_ok ⟨ex32_ok.wf, by decide, ⟨_, rfl, rfl, by decide +kernel⟩, by decide +kernel⟩ (.inr (.inr ⟨rfl, rfl, by decide⟩))

/-- C64 is false of 128 bit integers when `size_t` has 32 bits: both the upper half, before it is mixed with the lower
one, and the result are cut.  0 has the hash of a number that differs from it only in the lower half, and of one that
differs only in the upper half. -/
theorem C64_uint128_32_violated :
    (⟨0, 0⟩ : U128).hash32 = 0xE20904C2#32 ∧ (⟨0, 0xC669700AA5E7F330⟩ : U128).hash32 = 0xE20904C2#32 ∧
    (⟨0x9E2388AC4F2394E6, 0⟩ : U128).hash32 = 0xE20904C2#32 := by decide +kernel

/-- C19, 32 bit `size_t`: equal addresses and networks have equal hashes. -/
theorem C19_hash_32 (c : Cfg) (hc : c.le = true) (hv : ∀ x y, c.val x = c.val y → x = y) (conv : Char → BitVec 32) :
    (∀ a b : AnyAddr, AddrOkAny c a → AddrOkAny c b → anyEquals c.val a b = .ok true →
      ∃ h, anyHash32 conv a = .ok h ∧ anyHash32 conv b = .ok h) ∧
    (∀ a b : AnyNet, NetOkAny c a → NetOkAny c b → anyNetEq c a b = .ok true →
      ∃ h, anyNetHash32 conv a = .ok h ∧ anyNetHash32 conv b = .ok h) := by
  have v6 : ∀ a b : V6, a.WF c.M → b.WF c.M → a.bytes = b.bytes → a.scope.contents = b.scope.contents →
      ∃ h, v6Hash32 conv a = .ok h ∧ v6Hash32 conv b = .ok h := by
    intro a b ha hb h1 h2
    rw [v6Hash32_eq conv c.M a ha, v6Hash32_eq conv c.M b hb, h1, h2]
    exact ⟨_, rfl, rfl⟩
  constructor
  · intro a b ha hb h
    cases a <;> cases b <;> simp only [anyEquals, anyHash32, Res.ok.injEq, Bool.false_eq_true] at h ⊢
    · rename_i a b
      have la : a.length = 4 := ha
      have lb : b.length = 4 := hb
      rw [(bytesEq_iff a b (by omega)).1 h]
      exact ⟨_, rfl, rfl⟩
    · rename_i a b
      obtain ⟨o, e, _, h1, _, _, _, h2⟩ := C15_v6_compare c.val hv c.M a b ha hb
      rw [h1] at h
      cases h
      obtain ⟨h3, h4⟩ := h2.1 rfl
      exact v6 a b ha hb h3 h4
  · intro a b ha hb h
    cases a <;> cases b <;> simp only [anyNetEq, anyNetHash32, hc, Res.ok.injEq, Bool.false_eq_true] at h ⊢
    · rename_i a b
      obtain ⟨e, o, l, h1, _, _, h2, _⟩ := C38_order_v4 a b ha hb
      rw [h1] at h
      cases h
      obtain ⟨k1, k2⟩ := h2.mp rfl
      have l1 : a.addr.length = 4 := NetOk.wf ha
      have l2 : b.addr.length = 4 := NetOk.wf hb
      have k3 : a.addr = b.addr := beValue_inj _ _ (by rw [l1, l2]) k1
      unfold v4NetHash32
      rw [(mask_octets4 a ha).2, (mask_octets4 b hb).2, k3, k2]
      exact ⟨_, rfl, rfl⟩
    · rename_i a b
      obtain ⟨e, o, h1, _, h2, _⟩ := C38_order_v6 c hc hv a b ha hb
      rw [h1] at h
      cases h
      obtain ⟨⟨k1, k2⟩, k3⟩ := h2.mp rfl
      obtain ⟨x, x1, x2⟩ := v6 a.addr b.addr (NetOk.wf ha) (NetOk.wf hb) k1 k2
      have hm : a.mask = b.mask := by rw [(mask_octets6 c a ha).2, (mask_octets6 c b hb).2, k3]
      have wm : a.mask.WF c.M := by
        rw [(mask_octets6 c a ha).2]; exact emptyScope_wf _ (maskOctets_length _ _) _
      unfold v6NetHash32
      rw [x1, x2, ← hm, v6Hash32_eq conv c.M _ wm]
      exact ⟨_, rfl, rfl⟩

example : AddrOkAny exCfg (.v6 exDoc) ∧ anyEquals exCfg.val (.v6 exDoc) (.v6 exDoc) = .ok true := ⟨exDoc_ok, by decide +kernel⟩

end Ip
