import Verif.Lemmas.Hash
import Verif.Props.AnyNet

set_option autoImplicit false

namespace Ip
open Spec

theorem ofNat64_inj (x y : Char) (h : BitVec.ofNat 64 x.toNat = BitVec.ofNat 64 y.toNat) : x = y := by
  have := congrArg BitVec.toNat h
  have hx := x.valid
  have hy := y.valid
  have : x.toNat = y.toNat := by
    simp only [BitVec.toNat_ofNat] at this
    have l : ∀ c : Char, c.toNat < 2 ^ 32 := fun c => c.val.toNat_lt
    have := l x; have := l y
    omega
  exact Char.ext (UInt32.toNat_inj.1 this)

theorem ofNat32_inj (x y : Char) (h : BitVec.ofNat 32 x.toNat = BitVec.ofNat 32 y.toNat) : x = y := by
  have := congrArg BitVec.toNat h
  have : x.toNat = y.toNat := by
    simp only [BitVec.toNat_ofNat] at this
    have l : ∀ c : Char, c.toNat < 2 ^ 32 := fun c => c.val.toNat_lt
    have := l x; have := l y
    omega
  exact Char.ext (UInt32.toNat_inj.1 this)

/-- A case of the definition. -/
theorem oneApart_mid {α : Type} (l r : List α) (x y : α) (h : x ≠ y) : OneApart (l ++ x :: r) (l ++ y :: r) := by
  refine ⟨l.length, x, y, by simp, by simp, h, fun k hk => ?_⟩
  rcases Nat.lt_or_gt_of_ne hk with h | h
  · simp [List.getElem?_append_left h]
  · obtain ⟨j, rfl⟩ : ∃ j, k = l.length + (j + 1) := ⟨k - l.length - 1, by omega⟩
    simp [List.getElem?_append_right]

/-- C64: IPv4 addresses that differ in exactly one octet have different hashes, with 64 and 32 bit `size_t`. -/
theorem C64_v4 (a b : List (BitVec 8)) (h : OneApart a b) : v4Hash a ≠ v4Hash b ∧ v4Hash32 a ≠ v4Hash32 b := by
  constructor
  · unfold v4Hash
    rw [calcHash_foldl, calcHash_foldl]
    exact foldl_oneApart _ hashSum_seed hashSum_value _ _ (h.map _ (setWidth_inj (by decide))) _
  · unfold v4Hash32
    rw [calcHash32_foldl, calcHash32_foldl]
    exact foldl_oneApart _ hashSum32_seed hashSum32_value _ _ (h.map _ (setWidth_inj (by decide))) _

example := C64_v4 [10, 0, 0, 1] [10, 0, 7, 1] (oneApart_mid [10, 0] [1] 0 7 (by decide))

/-- C64: fixed strings that differ in exactly one character have different hashes. -/
theorem C64_fixed_string (conv : Char → BitVec 64) (hv : ∀ x y, conv x = conv y → x = y)
    (conv' : Char → BitVec 32) (hv' : ∀ x y, conv' x = conv' y → x = y) (a b : FStr) (ha : a.WF) (hb : b.WF)
    (h : OneApart a.contents b.contents) :
    (∃ x y, FStr.hash conv a = .ok x ∧ FStr.hash conv b = .ok y ∧ x ≠ y) ∧
    ∃ x y, FStr.hash32 conv' a = .ok x ∧ FStr.hash32 conv' b = .ok y ∧ x ≠ y :=
  ⟨FStr.hash_oneApart conv hv a b ha hb h, FStr.hash32_oneApart conv' hv' a b ha hb h⟩

example := C64_fixed_string exCfg.conv exCfg_conv (fun c => BitVec.ofNat 32 c.toNat) (char_word_inj 32 (by decide))
  exScoped.scope ⟨['b', '\x00', 'x'], 1⟩ exScoped_ok.2.1 (by simp [FStr.WF]) (oneApart_mid [] [] 'a' 'b' (by decide))

/-- C64: IPv6 addresses that differ in exactly one octet, or in exactly one character of the scope id, have different
hashes, with 64 and 32 bit `size_t`. -/
theorem C64_v6 (conv : Char → BitVec 64) (hv : ∀ x y, conv x = conv y → x = y)
    (conv' : Char → BitVec 32) (hv' : ∀ x y, conv' x = conv' y → x = y) (M : Nat) (a b : V6) (ha : a.WF M) (hb : b.WF M)
    (h : OneApart a.bytes b.bytes ∧ a.scope.contents = b.scope.contents ∨
      a.bytes = b.bytes ∧ OneApart a.scope.contents b.scope.contents) :
    (∃ x y, v6Hash conv a = .ok x ∧ v6Hash conv b = .ok y ∧ x ≠ y) ∧
    ∃ x y, v6Hash32 conv' a = .ok x ∧ v6Hash32 conv' b = .ok y ∧ x ≠ y := by
  rcases h with ⟨h, he⟩ | ⟨he, h⟩
  · unfold v6Hash v6Hash32
    rw [FStr.hash_eq conv _ ha.2.1, FStr.hash_eq conv _ hb.2.1, FStr.hash32_eq conv' _ ha.2.1, FStr.hash32_eq conv' _ hb.2.1,
      ha.2.2, hb.2.2, he]
    refine ⟨⟨_, _, rfl, rfl, ?_⟩, ⟨_, _, rfl, rfl, ?_⟩⟩
    · rw [calcHash_foldl, calcHash_foldl]
      exact foldl_oneApart _ hashSum_seed hashSum_value _ _ (h.map _ (setWidth_inj (by decide))) _
    · rw [calcHash32_foldl, calcHash32_foldl]
      exact foldl_oneApart _ hashSum32_seed hashSum32_value _ _ (h.map _ (setWidth_inj (by decide))) _
  · obtain ⟨⟨x, y, h1, h2, h3⟩, x', y', k1, k2, k3⟩ := C64_fixed_string conv hv conv' hv' a.scope b.scope ha.2.1 hb.2.1 h
    unfold v6Hash v6Hash32
    rw [h1, h2, k1, k2, he]
    refine ⟨⟨_, _, rfl, rfl, ?_⟩, ⟨_, _, rfl, rfl, ?_⟩⟩
    · rw [calcHash_foldl, calcHash_foldl]
      exact fun e => h3 (foldl_seed _ hashSum_seed _ _ _ e)
    · rw [calcHash32_foldl, calcHash32_foldl]
      exact fun e => k3 (foldl_seed _ hashSum32_seed _ _ _ e)

example := C64_v6 exCfg.conv exCfg_conv (fun c => BitVec.ofNat 32 c.toNat) (char_word_inj 32 (by decide)) 16 exDoc ex32.addr exDoc_ok ex32_good.1
  (.inl ⟨oneApart_mid (exDoc.bytes.take 15) [] 1 0 (by decide), by decide⟩)

/-- C64: 128 bit integers that differ in exactly one half have different hashes. -/
theorem C64_uint128 (x y : U128) (h : x.upper = y.upper ∧ x.lower ≠ y.lower ∨ x.upper ≠ y.upper ∧ x.lower = y.lower) :
    x.hash ≠ y.hash := by
  unfold U128.hash
  intro e
  have e := hashCombine_inj _ _ e
  rcases h with ⟨h1, h2⟩ | ⟨h1, h2⟩
  · rw [h1] at e
    exact h2 (add_left_inj' _ _ _ e)
  · rw [h2] at e
    exact h1 (hashCombine_inj _ _ (add_right_inj' _ _ _ (add_right_inj' _ _ _ e)))

example := C64_uint128 ⟨7, 9⟩ ⟨7, 3⟩ (by decide)

/-- The octets of the netmask with prefix length `p`, for addresses of `n` octets. -/
def maskOctets (n p : Nat) : List (BitVec 8) :=
  (List.range n).map fun i => BitVec.ofNat 8 ((2 ^ (8 * n) - 2 ^ (8 * n - p)) / 2 ^ (8 * (n - 1 - i)))

theorem maskOctets_value4 : ∀ p < 33, beValue (maskOctets 4 p) = 2 ^ 32 - 2 ^ (32 - p) := by decide +kernel
theorem maskOctets_value6 : ∀ p < 129, beValue (maskOctets 16 p) = 2 ^ 128 - 2 ^ (128 - p) := by decide +kernel

theorem maskHash4_nodup : ((List.range 33).map fun p => v4Hash (maskOctets 4 p)).Nodup := by decide +kernel
theorem maskHash6_nodup : ((List.range 129).map fun p => calcHash 0 ((maskOctets 16 p).map (·.setWidth 64))).Nodup ∧
    ((List.range 129).map fun p => calcHash 14695981039346656037#64 ((maskOctets 16 p).map (·.setWidth 64))).Nodup := by
  decide +kernel

theorem nodup_range_map {α : Type} (f : Nat → α) (n : Nat) (h : ((List.range n).map f).Nodup) (p q : Nat) (hp : p < n) (hq : q < n)
    (e : f p = f q) : p = q := by
  have := (List.nodup_iff_getElem?_ne_getElem?.1 h)
  rcases Nat.lt_trichotomy p q with hlt | heq | hgt
  · exact absurd (by simp [hp, hq, e]) (this p q hlt (by simpa using hq))
  · exact heq
  · exact absurd (by simp [hp, hq, e]) (this q p hgt (by simpa using hp))

/-- C64: IPv4 networks that differ in exactly one octet of the address and not in the prefix length, or only in the prefix
length, have different hashes. -/
theorem C64_v4_network (a b : Net (List (BitVec 8))) (ha : NetOk4 a) (hb : NetOk4 b)
    (h : OneApart a.addr b.addr ∧ a.plen = b.plen ∨ a.addr = b.addr ∧ a.plen ≠ b.plen) :
    ∃ x y, (fam4 true).netHash a = .ok x ∧ (fam4 true).netHash b = .ok y ∧ x ≠ y := by
  have hm : ∀ n : Net (List (BitVec 8)), NetOk4 n → n.plen < 33 ∧ n.mask = maskOctets 4 n.plen := by
    intro n hn
    have hp : n.plen ≤ 32 := hn.plen
    obtain ⟨m, h1, h2, h3⟩ := hn.mask
    have h2 : 8 * m.length = 32 := h2
    have h3 : beValue m = 2 ^ 32 - 2 ^ (32 - n.plen) := h3
    have h1 : n.mask = m := h1
    refine ⟨by omega, ?_⟩
    rw [h1]
    refine beValue_inj _ _ ?_ (by rw [h3, maskOctets_value4 _ (by omega)])
    simp only [maskOctets, List.length_map, List.length_range]
    omega
  refine ⟨calcHash (v4Hash a.addr) [v4Hash a.mask], calcHash (v4Hash b.addr) [v4Hash b.mask], rfl, rfl, ?_⟩
  rw [(hm a ha).2, (hm b hb).2]
  rcases h with ⟨h1, h2⟩ | ⟨h1, h2⟩
  · rw [h2]
    exact fun e => (C64_v4 _ _ h1).1 (hashSum_seed _ _ _ e)
  · rw [h1]
    exact fun e => h2 (nodup_range_map _ 33 maskHash4_nodup _ _ (hm a ha).1 (hm b hb).1 (hashSum_value _ _ _ e))

example := C64_v4_network ex16 ⟨[192, 168, 0, 0], [255, 255, 128, 0], 17⟩ ex16_ok ⟨rfl, by decide, ⟨_, rfl, rfl, by decide⟩, by decide⟩
  (.inr ⟨rfl, by decide⟩)

/-- C64: the same for IPv6 networks, and for one character of the scope id. -/
theorem C64_v6_network (c : Cfg) (hc : c.le = true) (hv : ∀ x y, c.conv x = c.conv y → x = y) (a b : Net V6)
    (ha : NetOk6 c a) (hb : NetOk6 c b)
    (h : OneApart a.addr.bytes b.addr.bytes ∧ a.addr.scope.contents = b.addr.scope.contents ∧ a.plen = b.plen ∨
      a.addr.bytes = b.addr.bytes ∧ OneApart a.addr.scope.contents b.addr.scope.contents ∧ a.plen = b.plen ∨
      a.addr.bytes = b.addr.bytes ∧ a.addr.scope.contents = b.addr.scope.contents ∧ a.plen ≠ b.plen) :
    ∃ x y, (fam6 c).netHash a = .ok x ∧ (fam6 c).netHash b = .ok y ∧ x ≠ y := by
  have hm : ∀ n : Net V6, NetOk6 c n → n.plen < 129 ∧
      v6Hash c.conv n.mask = .ok (calcHash (if c.M = 0 then 0#64 else 14695981039346656037#64)
        ((maskOctets 16 n.plen).map (·.setWidth 64))) := by
    intro n hn
    have hp : n.plen ≤ 128 := hn.plen
    obtain ⟨m, h1, h2, h3⟩ := hn.mask
    have wm : n.mask.WF c.M := by rw [h1]; exact (fam6Law c hc).wf_ofBytes m h2
    have h2 : 8 * m.length = 128 := h2
    have h3 : beValue m = 2 ^ 128 - 2 ^ (128 - n.plen) := h3
    have h1 : n.mask = ⟨m, emptyScope c.M⟩ := h1
    have e : m = maskOctets 16 n.plen := by
      refine beValue_inj _ _ ?_ (by rw [h3, maskOctets_value6 _ (by omega)])
      simp only [maskOctets, List.length_map, List.length_range]
      omega
    refine ⟨by omega, ?_⟩
    unfold v6Hash
    rw [FStr.hash_eq c.conv _ wm.2.1, wm.2.2, h1, ← e]
    rfl
  obtain ⟨pa, ma⟩ := hm a ha
  obtain ⟨pb, mb⟩ := hm b hb
  have hash : ∀ (n : Net V6) (x y : BitVec 64), v6Hash c.conv n.addr = .ok x → v6Hash c.conv n.mask = .ok y →
      (fam6 c).netHash n = .ok (hashSum x y) := by
    intro n x y h1 h2
    show (v6Hash c.conv n.addr >>= fun a => v6Hash c.conv n.mask >>= fun m => Res.ok (calcHash a [m])) = _
    rw [h1, h2]
    rfl
  rcases h with ⟨h1, h2, h3⟩ | ⟨h1, h2, h3⟩ | ⟨h1, h2, h3⟩
  · obtain ⟨⟨x, y, k1, k2, k3⟩, _⟩ := C64_v6 c.conv hv (fun x => BitVec.ofNat 32 x.toNat) ofNat32_inj c.M _ _ ha.wf hb.wf (.inl ⟨h1, h2⟩)
    refine ⟨_, _, hash a _ _ k1 ma, hash b _ _ k2 mb, ?_⟩
    rw [h3]
    exact fun e => k3 (hashSum_seed _ _ _ e)
  · obtain ⟨⟨x, y, k1, k2, k3⟩, _⟩ := C64_v6 c.conv hv (fun x => BitVec.ofNat 32 x.toNat) ofNat32_inj c.M _ _ ha.wf hb.wf (.inr ⟨h1, h2⟩)
    refine ⟨_, _, hash a _ _ k1 ma, hash b _ _ k2 mb, ?_⟩
    rw [h3]
    exact fun e => k3 (hashSum_seed _ _ _ e)
  · have hx : ∀ n : Net V6, NetOk6 c n → v6Hash c.conv n.addr = .ok (calcHash (if c.M = 0 then 0#64 else
        n.addr.scope.contents.foldl (fun v x => (v ^^^ c.conv x) * 1099511628211#64) 14695981039346656037#64)
        (n.addr.bytes.map (·.setWidth 64))) := by
      intro n hn
      unfold v6Hash
      rw [FStr.hash_eq c.conv _ hn.wf.2.1, hn.wf.2.2]
      rfl
    refine ⟨_, _, hash a _ _ (hx a ha) ma, hash b _ _ (hx b hb) mb, ?_⟩
    rw [h1, h2]
    intro e
    have e := hashSum_value _ _ _ e
    apply h3
    split at e
    · exact nodup_range_map _ 129 maskHash6_nodup.1 _ _ pa pb e
    · exact nodup_range_map _ 129 maskHash6_nodup.2 _ _ pa pb e

example := C64_v6_network exCfg rfl exCfg_conv ex32 { ex32 with plen := 33, mask := ⟨255 :: 255 :: 255 :: 255 :: 128 :: List.replicate 11 0, emptyScope 16⟩ }
  ex32_ok ⟨ex32_ok.wf, by decide, ⟨_, rfl, rfl, by decide +kernel⟩, by decide +kernel⟩ (.inr (.inr ⟨rfl, rfl, by decide⟩))

/-- C64: `ip_address` and `ip_network` have the hashes of the addresses and networks they hold. -/
theorem C64_any (c : Cfg) (hc : c.le = true) (hv : ∀ x y, c.conv x = c.conv y → x = y) :
    (∀ a b, OneApart a b → anyHash c.conv (.v4 a) ≠ anyHash c.conv (.v4 b)) ∧
    (∀ a b : V6, a.WF c.M → b.WF c.M → OneApart a.bytes b.bytes → a.scope.contents = b.scope.contents →
      anyHash c.conv (.v6 a) ≠ anyHash c.conv (.v6 b)) ∧
    (∀ a b, NetOk4 a → NetOk4 b → a.addr = b.addr → a.plen ≠ b.plen → anyNetHash c (.v4 a) ≠ anyNetHash c (.v4 b)) ∧
    ∀ a b, NetOk6 c a → NetOk6 c b → a.addr = b.addr → a.plen ≠ b.plen → anyNetHash c (.v6 a) ≠ anyNetHash c (.v6 b) := by
  refine ⟨fun a b h e => ?_, fun a b ha hb h1 h2 e => ?_, fun a b ha hb h1 h2 e => ?_, fun a b ha hb h1 h2 e => ?_⟩
  · simp only [anyHash, Res.ok.injEq] at e
    exact (C64_v4 a b h).1 e
  · obtain ⟨⟨x, y, k1, k2, k3⟩, _⟩ := C64_v6 c.conv hv (fun x => BitVec.ofNat 32 x.toNat) ofNat32_inj c.M a b ha hb (.inl ⟨h1, h2⟩)
    simp only [anyHash, k1, k2, Res.ok.injEq] at e
    exact k3 e
  · obtain ⟨x, y, k1, k2, k3⟩ := C64_v4_network a b ha hb (.inr ⟨h1, h2⟩)
    simp only [anyNetHash, hc, k1, k2, Res.ok.injEq] at e
    exact k3 e
  · obtain ⟨x, y, k1, k2, k3⟩ := C64_v6_network c hc hv a b ha hb (.inr (.inr ⟨by rw [h1], by rw [h1], h2⟩))
    simp only [anyNetHash, k1, k2, Res.ok.injEq] at e
    exact k3 e

example := C64_any exCfg rfl exCfg_conv

/-- Eight octets of a number. -/
def octets8 (l : BitVec 64) : List (BitVec 8) := (List.range 8).map fun i => (l >>> (8 * i)).setWidth 8

theorem octets8_inj (x y : BitVec 64) (h : octets8 x = octets8 y) : x = y := by
  unfold octets8 at h
  rw [List.map_inj_left] at h
  apply BitVec.eq_of_getLsbD_eq
  intro j hj
  have := congrArg (fun b => b.getLsbD (j % 8)) (h (j / 8) (by simp; omega))
  simp only [BitVec.getLsbD_setWidth, BitVec.getLsbD_ushiftRight, Nat.mod_lt j (by decide : 8 > 0), decide_true, Bool.true_and] at this
  rwa [Nat.div_add_mod] at this

instance : Finite (BitVec 64) := Finite.of_injective (fun x : BitVec 64 => x.toFin) fun x y h => BitVec.eq_of_toFin_eq h

/-- C64, limit: hashes do not identify objects, although the documentation says so.  Two different IPv6 addresses without
scope id have the same hash, and so do two different 128 bit integers. -/
theorem C64_not_unique (conv : Char → BitVec 64) (M : Nat) :
    (∃ a b : V6, a.WF M ∧ b.WF M ∧ a ≠ b ∧ a.scope = emptyScope M ∧ b.scope = emptyScope M ∧
      ∃ x, v6Hash conv a = .ok x ∧ v6Hash conv b = .ok x) ∧
    ∃ x y : U128, x ≠ y ∧ x.hash = y.hash := by
  refine ⟨?_, ⟨0#64, 0#64⟩, ⟨1#64, - hashCombine 1#64⟩, by decide, by decide +kernel⟩
  let addr (k : BitVec 8) (l : BitVec 64) : V6 := ⟨k :: (octets8 l ++ List.replicate 7 0#8), emptyScope M⟩
  have wf : ∀ k l, (addr k l).WF M := fun k l =>
    ⟨by simp [addr, octets8], Nat.zero_le _, by simp [addr, emptyScope]⟩
  let g (k : BitVec 8) (l : BitVec 64) : BitVec 64 :=
    calcHash (if M = 0 then 0#64 else 14695981039346656037#64) ((addr k l).bytes.map (·.setWidth 64))
  have hg : ∀ k l, v6Hash conv (addr k l) = .ok (g k l) := by
    intro k l
    unfold v6Hash
    rw [FStr.hash_eq conv _ (wf k l).2.1, (wf k l).2.2]
    rfl
  by_cases hi : Function.Injective (g 0)
  · obtain ⟨l, hl⟩ := Finite.injective_iff_surjective.1 hi (g 1 0)
    refine ⟨addr 0 l, addr 1 0, wf _ _, wf _ _, ?_, rfl, rfl, g 1 0, by rw [hg, hl], hg _ _⟩
    intro e
    have := congrArg V6.bytes e
    simp [addr] at this
  · unfold Function.Injective at hi
    simp only [not_forall] at hi
    obtain ⟨x, y, hxy, hne⟩ := hi
    refine ⟨addr 0 x, addr 0 y, wf _ _, wf _ _, ?_, rfl, rfl, g 0 y, by rw [hg, hxy], hg _ _⟩
    intro e
    have := congrArg V6.bytes e
    simp only [addr, List.cons.injEq, true_and, List.append_cancel_right_eq] at this
    exact hne (octets8_inj _ _ this)

example : OneApart ([10, 0, 0, 1] : List (BitVec 8)) [10, 0, 7, 1] :=
  ⟨2, 0, 7, rfl, rfl, by decide, fun k hk => by
    match k with
    | 0 | 1 | 3 => rfl
    | 2 => exact absurd rfl hk
    | k + 4 => rfl⟩
example : ∀ x y, exCfg.conv x = exCfg.conv y → x = y := ofNat64_inj

end Ip
