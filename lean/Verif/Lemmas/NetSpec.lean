import Verif.Lemmas.NetParse
/-
The statements about networks for any address family; `Verif/Props/Net.lean` instantiates them.
-/
set_option autoImplicit false

namespace Ip
open Spec

section
variable {A U : Type} {F : Fam A U} {WF : A → Prop} {val : U → Nat}

theorem inNet_interval (L : F.Law WF val) (n : Net A) (hn : NetOk F WF n) (x : Nat) :
    InNet F.maxPrefix n.plen (F.v n.addr) x ↔
      F.v n.addr ≤ x ∧ x < F.v n.addr + 2 ^ (F.maxPrefix - n.plen) := by
  have hv := L.v_lt _ hn.wf
  have hal : F.v n.addr % 2 ^ (F.maxPrefix - n.plen) = 0 := hn.aligned
  have hr := aligned_room F.maxPrefix _ _ (Nat.sub_le ..) hv hal
  rw [inNet_iff _ _ _ _ hv, block_iff _ _ _ hal]
  omega

theorem contains_spec (L : F.Law WF val) (n : Net A) (hn : NetOk F WF n) (a : A) (ha : WF a) :
    ∃ r b, F.contains n a = .ok r ∧ F.broadcast n = .ok b ∧
      (r = true ↔ InNet F.maxPrefix n.plen (F.v n.addr) (F.v a)) ∧
      (r = true ↔ F.v n.addr ≤ F.v a ∧ F.v a ≤ F.v b) := by
  obtain ⟨b, b1, b2, b3⟩ := broadcast_eq L n hn
  refine ⟨_, _, contains_iff L n hn a ha, b1, ?_, ?_⟩
  · rw [decide_eq_true_iff, inNet_interval L n hn]
  · rw [decide_eq_true_iff, L.v_ofBytes, b3]
    have := Nat.two_pow_pos (F.maxPrefix - n.plen)
    omega

theorem overlaps_spec (L : F.Law WF val) (a b : Net A) (ha : NetOk F WF a) (hb : NetOk F WF b) :
    ∃ r, F.overlaps a b = .ok r ∧ F.overlaps b a = .ok r ∧
      (r = true ↔ ∃ x, InNet F.maxPrefix a.plen (F.v a.addr) x ∧ InNet F.maxPrefix b.plen (F.v b.addr) x) ∧
      (r = true → (∀ x, InNet F.maxPrefix a.plen (F.v a.addr) x → InNet F.maxPrefix b.plen (F.v b.addr) x) ∨
        (∀ x, InNet F.maxPrefix b.plen (F.v b.addr) x → InNet F.maxPrefix a.plen (F.v a.addr) x)) := by
  obtain ⟨r, h1, h2⟩ := overlaps_eq L a b ha hb
  obtain ⟨s, h3, h4⟩ := overlaps_eq L b a hb ha
  have hrs : r = s := by
    rw [Bool.eq_iff_iff, h2, h4]
    exact ⟨fun ⟨x, p, q⟩ => ⟨x, q, p⟩, fun ⟨x, p, q⟩ => ⟨x, q, p⟩⟩
  simp only [inNet_interval L a ha, inNet_interval L b hb]
  refine ⟨r, h1, by rw [h3, hrs], h2, ?_⟩
  intro hr
  have hx := h2.mp hr
  rcases Nat.le_total (F.maxPrefix - a.plen) (F.maxPrefix - b.plen) with e | e
  · left
    have := blocks_nested _ _ _ _ e ha.aligned hb.aligned hx
    intro x hx; simp only [Fam.v] at *; omega
  · right
    obtain ⟨y, y1, y2⟩ := hx
    have := blocks_nested _ _ _ _ e hb.aligned ha.aligned ⟨y, y2, y1⟩
    intro x hx; simp only [Fam.v] at *; omega

/-- Two networks with the same addresses have the same address and prefix length. -/
theorem net_ext (L : F.Law WF val) (a b : Net A) (ha : NetOk F WF a) (hb : NetOk F WF b)
    (h : ∀ x, InNet F.maxPrefix a.plen (F.v a.addr) x ↔ InNet F.maxPrefix b.plen (F.v b.addr) x) :
    F.v a.addr = F.v b.addr ∧ a.plen = b.plen := by
  simp only [inNet_interval L a ha, inNet_interval L b hb] at h
  have pa := Nat.two_pow_pos (F.maxPrefix - a.plen)
  have pb := Nat.two_pow_pos (F.maxPrefix - b.plen)
  have h1 := (h (F.v a.addr)).mp ⟨by omega, by omega⟩
  have h2 := (h (F.v b.addr)).mpr ⟨by omega, by omega⟩
  have e : F.v a.addr = F.v b.addr := by omega
  have h3 := (h (F.v a.addr + 2 ^ (F.maxPrefix - a.plen) - 1)).mp ⟨by omega, by omega⟩
  have h4 := (h (F.v b.addr + 2 ^ (F.maxPrefix - b.plen) - 1)).mpr ⟨by omega, by omega⟩
  have e2 : 2 ^ (F.maxPrefix - a.plen) = 2 ^ (F.maxPrefix - b.plen) := by omega
  have e3 := Nat.pow_right_injective (Nat.le_refl 2) e2
  have := ha.plen
  have := hb.plen
  exact ⟨e, by omega⟩

theorem subnet_spec (L : F.Law WF val) (a b : Net A) (ha : NetOk F WF a) (hb : NetOk F WF b)
    (pa : ∃ x, a.addr = F.ofBytes x) (pb : ∃ x, b.addr = F.ofBytes x) :
    ∃ r, F.subnetOf a b = .ok r ∧ F.supernetOf b a = .ok r ∧
      (r = true ↔ ∀ x, InNet F.maxPrefix a.plen (F.v a.addr) x → InNet F.maxPrefix b.plen (F.v b.addr) x) := by
  refine ⟨_, isSubnetOf_eq L a b ha hb pa pb, isSubnetOf_eq L a b ha hb pa pb, ?_⟩
  rw [decide_eq_true_iff]
  simp only [inNet_interval L a ha, inNet_interval L b hb]
  have p1 := Nat.two_pow_pos (F.maxPrefix - a.plen)
  constructor
  · intro h x hx; omega
  · intro h
    have h1 := h (F.v a.addr) ⟨by omega, by omega⟩
    have h2 := h (F.v a.addr + 2 ^ (F.maxPrefix - a.plen) - 1) ⟨by omega, by omega⟩
    omega

theorem broadcast_spec (L : F.Law WF val) (n : Net A) (hn : NetOk F WF n) :
    ∃ b, F.broadcast n = .ok b ∧ WF b ∧ (∃ x, b = F.ofBytes x) ∧ InNet F.maxPrefix n.plen (F.v n.addr) (F.v b) ∧
      ∀ x, InNet F.maxPrefix n.plen (F.v n.addr) x → x ≤ F.v b := by
  obtain ⟨b, b1, b2, b3⟩ := broadcast_eq L n hn
  have p1 := Nat.two_pow_pos (F.maxPrefix - n.plen)
  refine ⟨_, b1, L.wf_ofBytes b b2, ⟨b, rfl⟩, ?_, ?_⟩
  · rw [inNet_interval L n hn, L.v_ofBytes, b3]; omega
  · intro x hx
    rw [inNet_interval L n hn] at hx
    rw [L.v_ofBytes, b3]; omega

theorem hostmask_spec (L : F.Law WF val) (n : Net A) (hn : NetOk F WF n) :
    WF (F.hostmask n) ∧ IsHostMask F.maxPrefix n.plen (F.v (F.hostmask n)) ∧ IsMask F.maxPrefix n.plen (F.v n.mask) ∧
      F.v (F.hostmask n) + F.v n.mask = 2 ^ F.maxPrefix - 1 ∧ F.v n.addr &&& F.v (F.hostmask n) = 0 := by
  obtain ⟨m, m1, m2, m3⟩ := hn.mask
  obtain ⟨h, h1, h2, h3⟩ := hostmask_eq L n hn
  have hle : 2 ^ (F.maxPrefix - n.plen) ≤ 2 ^ F.maxPrefix := Nat.pow_le_pow_right (by decide) (by omega)
  have hp := Nat.two_pow_pos (F.maxPrefix - n.plen)
  rw [h1, m1, L.v_ofBytes, L.v_ofBytes, h3, m3]
  refine ⟨L.wf_ofBytes h h2, (isHostMask_iff _ _ _).mpr rfl, mask_isMask _ _ hn.plen, by omega, ?_⟩
  rw [Nat.and_two_pow_sub_one_eq_mod]
  exact hn.aligned

theorem fromAddress_spec (L : F.Law WF val) (a : A) (ha : WF a) (p : Nat) (hp : p ≤ F.maxPrefix) :
    ((F.fromAddress a p true = .err .has_host_bits_set 0 ↔ ∃ i, i < F.maxPrefix - p ∧ (F.v a).testBit i = true) ∧
      ((¬ ∃ i, i < F.maxPrefix - p ∧ (F.v a).testBit i = true) →
        ∃ n, F.fromAddress a p true = .ok n ∧ n.addr = a ∧ n.plen = p)) ∧
    ∃ n, F.fromAddress a p false = .ok n ∧ n.plen = p ∧
      ∀ i, (F.v n.addr).testBit i = ((F.v a).testBit i && decide (F.maxPrefix - p ≤ i)) := by
  have key : F.v a % 2 ^ (F.maxPrefix - p) = 0 ↔ ¬ ∃ i, i < F.maxPrefix - p ∧ (F.v a).testBit i = true := by
    constructor
    · rintro h ⟨i, h1, h2⟩
      have : (F.v a % 2 ^ (F.maxPrefix - p)).testBit i = false := by rw [h, Nat.zero_testBit]
      rw [Nat.testBit_mod_two_pow, h2] at this
      simp [h1] at this
    · intro h
      apply Nat.eq_of_testBit_eq
      intro i
      rw [Nat.testBit_mod_two_pow, Nat.zero_testBit]
      by_cases hi : i < F.maxPrefix - p
      · cases hb : (F.v a).testBit i
        · simp
        · exact absurd ⟨i, hi, hb⟩ h
      · simp [hi]
  obtain ⟨m, b, h1, h2, h3, h4, h5⟩ := fromAddress_eq L a ha p hp true
  obtain ⟨m', b', g1, g2, g3, g4, g5⟩ := fromAddress_eq L a ha p hp false
  have hbits : ∀ i, (F.v a / 2 ^ (F.maxPrefix - p) * 2 ^ (F.maxPrefix - p)).testBit i =
      ((F.v a).testBit i && decide (F.maxPrefix - p ≤ i)) := by
    intro i
    rw [Nat.testBit_mul_two_pow, Nat.testBit_div_two_pow]
    by_cases hi : F.maxPrefix - p ≤ i
    · simp [hi, Nat.sub_add_cancel hi]
    · simp [hi]
  refine ⟨⟨?_, ?_⟩, ?_⟩
  · rw [h5]
    by_cases h : F.v a % 2 ^ (F.maxPrefix - p) = 0
    · rw [if_pos h]
      exact ⟨fun e => by simp at e, fun e => absurd e (key.mp h)⟩
    · rw [if_neg h]
      simp only [if_true, true_iff]
      exact Classical.byContradiction fun e => h (key.mpr e)
  · intro h
    rw [h5, if_pos (key.mpr h)]
    exact ⟨_, rfl, rfl, rfl⟩
  · rw [g5]
    by_cases h : F.v a % 2 ^ (F.maxPrefix - p) = 0
    · rw [if_pos h]
      refine ⟨_, rfl, rfl, ?_⟩
      intro i
      rw [← hbits i]
      congr 1
      have := Nat.div_add_mod (F.v a) (2 ^ (F.maxPrefix - p))
      rw [h, Nat.mul_comm, Nat.add_zero] at this
      exact this.symm
    · rw [if_neg h]
      refine ⟨_, rfl, rfl, ?_⟩
      intro i
      rw [L.v_ofBytes, g4, hbits i]

/-- The result of `supernet`: the arguments are either reduced to a difference or rejected. -/
theorem supernet_spec (L : F.Law WF val) (n : Net A) (hn : NetOk F WF n) (h0 : n.plen ≠ 0) (d : Nat) (hd : d ≤ n.plen)
    (hw : d < F.maxPrefix) :
    ∃ r, F.supernet n d none = .ok r ∧ F.supernet n 1 (some (n.plen - d)) = .ok r ∧
      NetOk F WF r ∧ r.plen = n.plen - d ∧
      (∀ x, InNet F.maxPrefix n.plen (F.v n.addr) x → InNet F.maxPrefix r.plen (F.v r.addr) x) ∧
      ∀ r', NetOk F WF r' → r'.plen = n.plen - d →
        (∀ x, InNet F.maxPrefix n.plen (F.v n.addr) x → InNet F.maxPrefix r'.plen (F.v r'.addr) x) →
        F.v r'.addr = F.v r.addr := by
  obtain ⟨a, m, s, u, r, h1, h2, h3, h4, h5, h6, h7, h8, h9⟩ := supernet_go L n hn d hd hw
  have hv := L.v_lt _ hn.wf
  have hpn := hn.plen
  have hself : InNet F.maxPrefix n.plen (F.v n.addr) (F.v n.addr) := by
    rw [inNet_interval L n hn]
    have := Nat.two_pow_pos (F.maxPrefix - n.plen)
    omega
  refine ⟨r, ?_, ?_, h6, h7, ?_, ?_⟩
  · rw [Fam.supernet, if_neg h0]
    simp only
    rw [if_neg (by omega), h1, Res.ok_bind, h2, Res.ok_bind, h3, Res.ok_bind, h4, Res.ok_bind, h5]; rfl
  · rw [Fam.supernet, if_neg h0]
    simp only
    rw [if_neg (by omega), if_neg (by simp), if_neg (by omega), h1, Res.ok_bind, h2, Res.ok_bind,
      show n.plen - (n.plen - d) = d by omega, h3, Res.ok_bind, h4, Res.ok_bind, h5]; rfl
  · intro x hx
    rw [inNet_interval L n hn] at hx
    rw [inNet_interval L r h6, h9, h7]
    have hk : F.maxPrefix - n.plen ≤ F.maxPrefix - (n.plen - d) := by omega
    have hdm := Nat.div_add_mod (F.v n.addr) (2 ^ (F.maxPrefix - (n.plen - d)))
    rw [Nat.mul_comm] at hdm
    have hml := Nat.mod_lt (F.v n.addr) (Nat.two_pow_pos (F.maxPrefix - (n.plen - d)))
    have hn2 := blocks_nested (F.maxPrefix - n.plen) (F.maxPrefix - (n.plen - d)) (F.v n.addr)
      (F.v n.addr / 2 ^ (F.maxPrefix - (n.plen - d)) * 2 ^ (F.maxPrefix - (n.plen - d))) hk hn.aligned
      (Nat.mul_mod_left ..) ⟨F.v n.addr, ⟨by omega, by omega⟩, ⟨by omega, by omega⟩⟩
    omega
  · intro r' k1 k2 k3
    have h10 := k3 _ hself
    have wv := L.v_lt _ k1.wf
    rw [inNet_iff _ _ _ _ wv, k2] at h10
    have al : F.v r'.addr % 2 ^ (F.maxPrefix - r'.plen) = 0 := k1.aligned
    rw [k2] at al
    have hdm := Nat.div_add_mod (F.v r'.addr) (2 ^ (F.maxPrefix - (n.plen - d)))
    rw [al, Nat.mul_comm] at hdm
    rw [h9, h10.2]
    omega

theorem supernet_errors (L : F.Law WF val) (n : Net A) (hn : NetOk F WF n) (diff : Nat) (newp : Option Nat) :
    (n.plen = 0 → F.supernet n diff newp = .ok n) ∧
    (n.plen ≠ 0 → newp = none → (diff > n.plen ↔ F.supernet n diff newp = .err .invalid_prefixlen_diff 0)) ∧
    (∀ p, n.plen ≠ 0 → newp = some p →
      (p > n.plen ↔ F.supernet n diff newp = .err .new_prefix_must_be_shorter 0) ∧
      (p ≤ n.plen ∧ diff ≠ 1 ↔ F.supernet n diff newp = .err .cannot_set_prefixlen_diff_and_new_prefix 0)) ∧
    (∀ e v, F.supernet n diff newp = .err e v → v = 0 ∧ (e = .invalid_prefixlen_diff ∨ e = .new_prefix_must_be_shorter ∨
      e = .cannot_set_prefixlen_diff_and_new_prefix)) := by
  have hpn := hn.plen
  have key : ∀ d, d ≤ n.plen → ∀ e v, (F.toUint n.addr >>= fun a => F.toUint n.mask >>= fun m => F.ops.shl m d >>= fun s =>
      F.fromUint (F.ops.and a s) >>= fun u => Fam.noexcept (F.fromAddress u (n.plen - d) true)) ≠ .err e v := by
    intro d hd e v h
    by_cases hw : d < F.maxPrefix
    · obtain ⟨a, m, s, u, r, h1, h2, h3, h4, h5, _⟩ := supernet_go L n hn d hd hw
      rw [h1, Res.ok_bind, h2, Res.ok_bind, h3, Res.ok_bind, h4, Res.ok_bind, h5] at h
      cases h
    · obtain ⟨mb, m1, m2, m3⟩ := hn.mask
      obtain ⟨a, h1, h2⟩ := L.toUint _ hn.wf
      obtain ⟨m, h3, h4⟩ := L.toUint n.mask (by rw [m1]; exact L.wf_ofBytes mb m2)
      rw [h1, Res.ok_bind, h3, Res.ok_bind, show d = F.maxPrefix by omega, L.ops.shl_ub] at h
      cases h
  refine ⟨fun h => by rw [Fam.supernet, if_pos h], ?_, ?_, ?_⟩
  · rintro h rfl
    rw [Fam.supernet, if_neg h]
    simp only
    by_cases hd : diff > n.plen
    · rw [if_pos hd]; simp [hd]
    · rw [if_neg hd]
      exact ⟨fun e => absurd e hd, fun e => absurd e (key diff (by omega) _ _)⟩
  · rintro p h rfl
    rw [Fam.supernet, if_neg h]
    simp only
    by_cases hp : p > n.plen
    · rw [if_pos hp]
      simp [hp]
    · rw [if_neg hp]
      by_cases hd : diff ≠ 1
      · rw [if_pos hd]; simp [hd]; omega
      · rw [if_neg hd, if_neg (by omega)]
        exact ⟨⟨fun e => absurd e hp, fun e => absurd e (key _ (by omega) _ _)⟩,
          ⟨fun e => absurd e.2 hd, fun e => absurd e (key _ (by omega) _ _)⟩⟩
  · intro e v h
    rw [Fam.supernet] at h
    split at h
    · cases h
    · cases newp with
      | none =>
        simp only at h
        split at h
        · cases h; simp
        · exact absurd h (key _ (by omega) _ _)
      | some p =>
        simp only at h
        split at h
        · cases h; simp
        · split at h
          · cases h; simp
          · rw [if_neg (by omega)] at h
            exact absurd h (key _ (by omega) _ _)

theorem supernet_ub (L : F.Law WF val) (n : Net A) (hn : NetOk F WF n) (h : n.plen = F.maxPrefix) :
    F.supernet n F.maxPrefix none = .ub ∧ F.supernet n 1 (some 0) = .ub := by
  have hpos := L.pos
  obtain ⟨mb, m1, m2, m3⟩ := hn.mask
  obtain ⟨a, h1, h2⟩ := L.toUint _ hn.wf
  obtain ⟨m, h3, h4⟩ := L.toUint n.mask (by rw [m1]; exact L.wf_ofBytes mb m2)
  constructor
  · rw [Fam.supernet, if_neg (by omega)]
    simp only
    rw [if_neg (by omega), h1, Res.ok_bind, h3, Res.ok_bind, L.ops.shl_ub]; rfl
  · rw [Fam.supernet, if_neg (by omega)]
    simp only
    rw [if_neg (by omega), if_neg (by simp), if_neg (by omega), h1, Res.ok_bind, h3, Res.ok_bind, Nat.sub_zero, h,
      L.ops.shl_ub]; rfl

end

end Ip
