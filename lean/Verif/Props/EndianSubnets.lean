import Verif.Props.EndianHosts
/-
C66, what the subnetworks of an IPv6 network are on big endian hosts: most programs end.
-/
set_option autoImplicit false

namespace Ip
open Spec

theorem be6_hostmask (c : Cfg) (n : Net V6) (hn : NetOk6 c n) : (fam6 (c.onHost false)).hostmask n = ⟨hostMaskBytes n.plen, emptyScope c.M⟩ := by
  obtain ⟨m, m1, m2, m3⟩ := hn.mask
  have m2 : m.length = 16 := by
    have : 8 * m.length = 128 := m2
    omega
  have hp : n.plen ≤ 128 := hn.plen
  have mb : n.mask.bytes = m := by rw [m1]; rfl
  obtain ⟨b, b1, b2, b3⟩ := v6FromPrefix_val n.plen hp
  have : b = m := beValue_inj _ _ (by rw [b2, m2]) (by rw [b3, m3]; rfl)
  have t1 := (hostMask_table ⟨n.plen, by omega⟩).1
  simp only [b1, Res.ok_bind] at t1
  show V6.mk (n.mask.bytes.map (· ^^^ 0xFF#8)) (emptyScope c.M) = _
  rw [mb, ← this, Res.ok.inj t1]

/-- An address with host bits for a prefix length. -/
def Spec.HasHostBits (p : Nat) (a : V6) : Prop := ∃ i, i < 128 - p ∧ (beValue a.bytes).testBit i = true

/-- An iterator that is moved forward by steps. -/
theorem be6_step (c : Cfg) (p : V6) (u : U128) (hu : v6FromUint false u = .ok p.bytes) (s k : U128) :
    ∃ (a : V6) (x : AIter V6 U128), (fam6 (c.onHost false)).aiAdd ⟨⟨p.bytes, emptyScope c.M⟩, u, 0⟩ ((fam6 (c.onHost false)).ops.mul s k) =
      .ok ⟨a, x.off, x.carry⟩ ∧ (a.scope = emptyScope c.M ∧ a.bytes.length = 16) ∧ turned a = (u.val + s.val * k.val) % 2 ^ 128 := by
  have zero : (u128Ops.ofI64 0#64).val = 0 := by decide
  obtain ⟨f, f1, f2, _, f4⟩ := be6_fromUint u
  rw [hu] at f1
  have mv : (u128Ops.mul s k).val = s.val * k.val % 2 ^ 128 := u128Law.mul s k
  have ul := u.val_lt
  simp only [Spec.two128] at ul
  by_cases z : (u128Ops.mul s k).val = 0
  · refine ⟨⟨p.bytes, emptyScope c.M⟩, ⟨⟨p.bytes, emptyScope c.M⟩, u, 0⟩, ?_, ⟨rfl, ?_⟩, ?_⟩
    · unfold Fam.aiAdd
      have : (!(fam6 (c.onHost false)).ops.eq ((fam6 (c.onHost false)).ops.mul s k) ((fam6 (c.onHost false)).ops.ofI64 0#64)) = false := by
        show (!u128Ops.eq (u128Ops.mul s k) (u128Ops.ofI64 0#64)) = false
        rw [u128Law.eq, z, zero]
        rfl
      rw [this]
      rfl
    · rw [Res.ok.inj f1]
      exact f2
    · show beValue (halvesReversed p.bytes) = _
      rw [Res.ok.inj f1, f4, Nat.add_mod, ← mv, z, Nat.add_zero, Nat.mod_mod]
      exact (Nat.mod_eq_of_lt ul).symm
  · obtain ⟨g, g1, g2, _, g4⟩ := be6_fromUint (u128Ops.add u (u128Ops.mul s k))
    refine ⟨⟨g, emptyScope c.M⟩, ⟨⟨g, emptyScope c.M⟩, u128Ops.add u (u128Ops.mul s k),
      if u128Ops.lt (u128Ops.add u (u128Ops.mul s k)) u then 1 - 0 else 0⟩, ?_, ⟨rfl, g2⟩, ?_⟩
    · unfold Fam.aiAdd
      have : (!(fam6 (c.onHost false)).ops.eq ((fam6 (c.onHost false)).ops.mul s k) ((fam6 (c.onHost false)).ops.ofI64 0#64)) = true := by
        show (!u128Ops.eq (u128Ops.mul s k) (u128Ops.ofI64 0#64)) = true
        rw [u128Law.eq, zero, decide_eq_false z]
        rfl
      rw [if_pos this]
      show ((v6FromUint false (u128Ops.add u (u128Ops.mul s k)) >>= fun b => Res.ok (V6.mk b (emptyScope c.M))) >>= fun cur => _) = _
      rw [g1]
      rfl
    · show beValue (halvesReversed g) = _
      rw [g4, u128Law.add, mv, Nat.add_mod_mod]

/-- C66, IPv6 on big endian hosts, exactly: the sequence of subnetworks ends at one more than the last address of the network,
both read with each half in the opposite order.  If that address has host bits the program ends.  Otherwise the sequence starts
with the address of the network, its step is the shifted host mask and one more, and its size the number of steps; the element
`k` is `k` steps behind the first, and the program ends at `operator[]` and `at` if that address has host bits. -/
theorem C66_v6_subnets_exact (c : Cfg) (n : Net V6) (hn : NetOk6 c n) (hp : n.plen < 128) (d : Nat) (hd : n.plen + d ≤ 128) (hd' : d < 128)
    (h0 : n.plen + d ≠ 0) (mask step : Nat) (hm : mask = beValue (halvesReversed (hostMaskBytes n.plen))) (hs : step = mask / 2 ^ d + 1) :
    ∃ last : V6, last.bytes.length = 16 ∧ last.scope = emptyScope c.M ∧ turned last = (turned n.addr + mask + 1) % 2 ^ 128 ∧
      (HasHostBits (n.plen + d) last → (fam6 (c.onHost false)).subnets n d none = .ub) ∧
      (¬ HasHostBits (n.plen + d) last → ∃ s, (fam6 (c.onHost false)).subnets n d none = .ok s ∧
        s.first.cur.addr = ⟨n.addr.bytes, emptyScope c.M⟩ ∧ s.first.cur.plen = n.plen + d ∧
        s.last.cur.addr = last ∧ s.last.cur.plen = n.plen + d ∧ s.first.step.val = step ∧ s.size.val = mask / step + 1 ∧
        ∀ k : U128, ∃ a : V6, a.bytes.length = 16 ∧ a.scope = emptyScope c.M ∧ turned a = (turned n.addr + step * k.val) % 2 ^ 128 ∧
          (HasHostBits (n.plen + d) a → Fam.noexcept ((fam6 (c.onHost false)).subnetsAt s k) = .ub) ∧
          (¬ HasHostBits (n.plen + d) a → ∃ r, Fam.noexcept ((fam6 (c.onHost false)).subnetsAt s k) = .ok r ∧ r.addr = a ∧ r.plen = n.plen + d)) := by
  obtain ⟨o, o1, o2, o3⟩ := be6_broadcast c n hn
  obtain ⟨u, u1, u2⟩ := be6_toUint n.addr.bytes hn.wf.1
  obtain ⟨b, b1, b2⟩ := be6_toUint o o2
  have lh : (hostMaskBytes n.plen).length = 16 := by simp [hostMaskBytes]
  obtain ⟨h, h1, h2⟩ := be6_toUint (hostMaskBytes n.plen) lh
  obtain ⟨s, s1, s2⟩ := u128Law.shr h d hd'
  obtain ⟨f, f1, f2, f3, f4⟩ := be6_fromUint u
  have ff : f = n.addr.bytes := halvesReversed_inj _ _ f2 hn.wf.1 (by rw [f4, u2])
  subst ff
  have one : (u128Ops.ofI64 1#64).val = 1 := by decide
  obtain ⟨l, l1, l2, l3, l4⟩ := be6_fromUint (u128Ops.add b (u128Ops.ofI64 1#64))
  have ml : mask < 2 ^ 128 := by
    have := h.val_lt
    simp only [Spec.two128] at this
    rw [hm, ← h2]
    exact this
  have sl : step < 2 ^ 128 := by
    rw [hs]
    by_cases hz : d = 0
    · subst hz
      have t : ∀ p : Fin 128, p.val ≠ 0 → beValue (halvesReversed (hostMaskBytes p.val)) + 1 < 2 ^ 128 := by decide +kernel
      have := t ⟨n.plen, hp⟩ (by simpa using h0)
      simp only at this
      rw [Nat.pow_zero, Nat.div_one, hm]
      exact this
    · have : mask / 2 ^ d ≤ mask / 2 := by
        refine Nat.div_le_div_left ?_ (by decide)
        calc 2 = 2 ^ 1 := rfl
          _ ≤ 2 ^ d := Nat.pow_le_pow_right (by decide) (by omega)
      omega
  have stepv : (u128Ops.add s (u128Ops.ofI64 1#64)).val = step := by
    rw [u128Law.add, one, s2, h2, ← hm, ← hs]
    exact Nat.mod_eq_of_lt sl
  have subv : (u128Ops.sub b u).val = mask := by
    have e1 : b.val = u.val + mask := by rw [b2, o3, u2, hm]; rfl
    have := u.val_lt
    have := b.val_lt
    simp only [Spec.two128] at *
    rw [u128Law.sub, e1]
    omega
  obtain ⟨q, q1, q2⟩ := u128Law.div (u128Ops.sub b u) (u128Ops.add s (u128Ops.ofI64 1#64)) (by rw [stepv, hs]; exact Nat.succ_ne_zero _)
  have L := fam6Law (c.onHost true) rfl
  have wf1 : V6.WF (c.onHost true).M ⟨n.addr.bytes, emptyScope c.M⟩ := L.wf_ofBytes _ (by rw [f2]; rfl)
  have wf2 : V6.WF (c.onHost true).M ⟨l, emptyScope c.M⟩ := L.wf_ofBytes _ (by rw [l2]; rfl)
  have spec1 := C24_from_address_v6 (c.onHost true) rfl _ wf1 (n.plen + d) hd
  have spec2 := C24_from_address_v6 (c.onHost true) rfl _ wf2 (n.plen + d) hd
  have same : ∀ a, (fam6 (c.onHost false)).fromAddress a (n.plen + d) true = (fam6 (c.onHost true)).fromAddress a (n.plen + d) true :=
    fun a => (onHost_same c false true).2.2.1 _ _ _
  -- the first address has no host bits
  obtain ⟨r1, r2, r3, r4⟩ := spec1.1.2 (by
    rintro ⟨i, i1, i2⟩
    have al : beValue n.addr.bytes % 2 ^ (128 - n.plen) = 0 := hn.aligned
    have := Nat.testBit_mod_two_pow (beValue n.addr.bytes) (128 - n.plen) i
    rw [al, Nat.zero_testBit, i2, decide_eq_true (by omega)] at this
    cases this)
  have nu : (fam6 (c.onHost false)).toUint n.addr = .ok u := u1
  have nu' : (fam6 (c.onHost false)).toUint ⟨n.addr.bytes, emptyScope c.M⟩ = .ok u := u1
  have bu : (fam6 (c.onHost false)).toUint ⟨o, emptyScope c.M⟩ = .ok b := b1
  have hu : (fam6 (c.onHost false)).toUint ⟨hostMaskBytes n.plen, emptyScope c.M⟩ = .ok h := h1
  have lu : (fam6 (c.onHost false)).toUint ⟨l, emptyScope c.M⟩ = .ok (u128Ops.add b (u128Ops.ofI64 1#64)) := l3
  have fr1 : (fam6 (c.onHost false)).fromUint u = .ok ⟨n.addr.bytes, emptyScope c.M⟩ := by
    show (v6FromUint false u >>= fun b => _) = _
    rw [f1]; rfl
  have fr2 : (fam6 (c.onHost false)).fromUint ((fam6 (c.onHost false)).ops.add b ((fam6 (c.onHost false)).ops.ofI64 1#64)) =
      .ok ⟨l, emptyScope c.M⟩ := by
    show (v6FromUint false (u128Ops.add b (u128Ops.ofI64 1#64)) >>= fun b => _) = _
    rw [l1]; rfl
  have sh : (fam6 (c.onHost false)).ops.shr h d = .ok s := s1
  have eq : (fam6 (c.onHost false)).eq ⟨n.addr.bytes, emptyScope c.M⟩ ⟨l, emptyScope c.M⟩ = .ok _ :=
    L.eq n.addr.bytes l (by rw [f2]; rfl) (by rw [l2]; rfl)
  have dv : (fam6 (c.onHost false)).ops.div ((fam6 (c.onHost false)).ops.sub b u)
      ((fam6 (c.onHost false)).ops.add s ((fam6 (c.onHost false)).ops.ofI64 1#64)) = .ok q := q1
  have rs : (fam6 (c.onHost false)).removeScope n.addr = .ok ⟨n.addr.bytes, emptyScope c.M⟩ := v6RemoveScope_eq c.spaces c.M n.addr hn.wf
  have np : (n.plen + d) % 2 ^ 64 = n.plen + d := Nat.mod_eq_of_lt (by omega)
  have run : ∀ R : Res (Net V6), (fam6 (c.onHost true)).fromAddress ⟨l, emptyScope c.M⟩ (n.plen + d) true = R →
      (fam6 (c.onHost false)).subnets n d none = Fam.noexcept (R >>= fun y => .ok
        ⟨⟨r1, ⟨⟨n.addr.bytes, emptyScope c.M⟩, u, 0⟩, u128Ops.add s (u128Ops.ofI64 1#64), n.plen + d⟩,
         ⟨y, ⟨⟨l, emptyScope c.M⟩, u128Ops.add b (u128Ops.ofI64 1#64), if decide (beValue n.addr.bytes = beValue l) then 1 else 0⟩,
          u128Ops.add s (u128Ops.ofI64 1#64), n.plen + d⟩, u128Ops.add q (u128Ops.ofI64 1#64)⟩) := by
    intro R hR
    have mx : (fam6 (c.onHost false)).maxPrefix = 128 := rfl
    unfold Fam.subnets
    rw [rs]
    simp only [Fam.noexcept, Res.ok_bind, mx]
    rw [if_neg (by omega)]
    simp only [np]
    rw [if_neg (by omega), o1]
    simp only [Res.ok_bind]
    unfold Fam.subnetsMk Fam.niMk Fam.aiMk
    rw [be6_hostmask c n hn]
    simp only [nu', bu, hu, fr1, fr2, sh, same, r2, eq, lu, hR, dv, Res.ok_bind]
    cases R <;> rfl
  refine ⟨⟨l, emptyScope c.M⟩, l2, rfl, ?_, fun hb => ?_, fun hb => ?_⟩
  · show beValue (halvesReversed l) = _
    rw [l4, u128Law.add, one, b2, o3, hm]
  · rw [run _ (spec2.1.1.2 hb)]
    rfl
  · obtain ⟨y1, y2, y3, y4⟩ := spec2.1.2 hb
    refine ⟨_, run _ y2, r3, r4, y3, y4, stepv, ?_, fun k => ?_⟩
    rotate_left
    · obtain ⟨a, x, x1, x2, x3⟩ := be6_step c n.addr u f1 (u128Ops.add s (u128Ops.ofI64 1#64)) k
      have wf3 : V6.WF (c.onHost true).M a := by
        have : a = ⟨a.bytes, emptyScope c.M⟩ := by rw [← x2.1]
        rw [this]
        exact L.wf_ofBytes _ (by rw [x2.2]; rfl)
      have spec3 := C24_from_address_v6 (c.onHost true) rfl _ wf3 (n.plen + d) hd
      have tu : u.val = turned n.addr := u2
      refine ⟨a, x2.2, x2.1, by rw [x3, stepv, tu], fun hb => ?_, fun hb => ?_⟩
      · unfold Fam.subnetsAt Fam.niAdd
        simp only [x1, Res.ok_bind, same, spec3.1.1.2 hb]
        rfl
      · obtain ⟨y5, y6, y7, y8⟩ := spec3.1.2 hb
        refine ⟨y5, ?_, y7, y8⟩
        unfold Fam.subnetsAt Fam.niAdd
        simp only [x1, Res.ok_bind, same, y6]
        rfl
    show (u128Ops.add q (u128Ops.ofI64 1#64)).val = _
    rw [u128Law.add, one, q2, subv, stepv]
    refine Nat.mod_eq_of_lt ?_
    have : mask / step < 2 ^ d := by
      rw [Nat.div_lt_iff_lt_mul (by rw [hs]; exact Nat.succ_pos _), hs, Nat.mul_add, Nat.mul_one]
      have := Nat.div_add_mod mask (2 ^ d)
      have := Nat.mod_lt mask (Nat.two_pow_pos d)
      omega
    have : 2 ^ d ≤ 2 ^ 127 := Nat.pow_le_pow_right (by decide) (by omega)
    omega

example := C66_v6_subnets_exact exCfg ex32 ex32_ok (by decide) 16 (by decide) (by decide) (by decide) _ _ rfl rfl

-- single addresses have no host bits, so that the sequence and all its elements exist
example : ∃ s, (fam6 (exCfg.onHost false)).subnets ex32 96 none = .ok s ∧ ∀ k, ∃ r, Fam.noexcept ((fam6 (exCfg.onHost false)).subnetsAt s k) = .ok r := by
  obtain ⟨_, _, _, _, _, h⟩ := C66_v6_subnets_exact exCfg ex32 ex32_ok (by decide) 96 (by decide) (by decide) (by decide) _ _ rfl rfl
  have none : ∀ a, ¬ HasHostBits (32 + 96) a := fun a ⟨i, hi, _⟩ => by omega
  obtain ⟨s, h1, _, _, _, _, _, _, h2⟩ := h (none _)
  refine ⟨s, h1, fun k => ?_⟩
  obtain ⟨a, _, _, _, _, h3⟩ := h2 k
  obtain ⟨r, h4, _⟩ := h3 (none _)
  exact ⟨r, h4⟩

/-- Eight bytes in both orders: the last one is the upper one of the number read in the opposite order. -/
theorem eight_bytes (b : List (BitVec 8)) (h : b.length = 8) :
    beValue b % 2 = beValue b.reverse / 2 ^ 56 % 2 ∧ (beValue b = 2 ^ 64 - 1 → beValue b.reverse = 2 ^ 64 - 1) ∧
    (beValue b < 2 ^ 64 - 2 ^ 8 → beValue b.reverse % 2 ^ 56 ≠ 2 ^ 56 - 1) := by
  match b, h with
  | [a0, a1, a2, a3, a4, a5, a6, a7], _ =>
    have h0 := a0.isLt
    have h1 := a1.isLt
    have h2 := a2.isLt
    have h3 := a3.isLt
    have h4 := a4.isLt
    have h5 := a5.isLt
    have h6 := a6.isLt
    have h7 := a7.isLt
    simp only [List.reverse_cons, List.reverse_nil, List.nil_append, List.cons_append, beValue, List.length_cons, List.length_nil,
      Nat.zero_add, Nat.reduceAdd, Nat.reducePow, Nat.add_zero, Nat.mul_one] at *
    have top : (a7.toNat * 72057594037927936 + (a6.toNat * 281474976710656 + (a5.toNat * 1099511627776 + (a4.toNat * 4294967296 +
        (a3.toNat * 16777216 + (a2.toNat * 65536 + (a1.toNat * 256 + a0.toNat))))))) / 72057594037927936 = a7.toNat := by omega
    refine ⟨?_, by omega, by omega⟩
    rw [top]
    omega

/-- The numbers of `C66_v6_subnets_ends`, first half. -/
theorem ends_first (B Bu Bl Ru Rl Lu Ll Su Sl : Nat) (hB : B = Bu * 2 ^ 64 + Bl) (hl : Bl < 2 ^ 64) (m : Nat) (hm : 0 < m)
    (e : B = 2 ^ 65 * m - 1) (less : B < 2 ^ 128 - 2 ^ 72) (hR : Ru < 2 ^ 64)
    (x1 : Bu % 2 = Ru / 2 ^ 56 % 2) (x3 : Bu < 2 ^ 64 - 2 ^ 8 → Ru % 2 ^ 56 ≠ 2 ^ 56 - 1) (y2 : Bl = 2 ^ 64 - 1 → Rl = 2 ^ 64 - 1)
    (z1 : Lu % 2 = Su / 2 ^ 56 % 2) (hSl : Sl < 2 ^ 64) (hLl : Ll < 2 ^ 64)
    (l3 : Su * 2 ^ 64 + Sl = (Ru * 2 ^ 64 + Rl + 1) % 2 ^ 128) : (Lu * 2 ^ 64 + Ll) / 2 ^ 64 % 2 = 1 := by
  have full : Bl = 2 ^ 64 - 1 := by clear x1 x3 y2 z1 l3; omega
  have odd : Bu % 2 = 1 := by clear x1 x3 y2 z1 l3; omega
  have lt : Bu < 2 ^ 64 - 2 ^ 8 := by clear x1 x3 y2 z1 l3; omega
  have k1 := x3 lt
  have k2 := y2 full
  have up : Su = Ru + 1 := by clear x1 x3 y2 z1 e hB less; omega
  have div : (Lu * 2 ^ 64 + Ll) / 2 ^ 64 = Lu := by clear x1 x3 y2 z1 e hB less l3; omega
  have kept : Su / 2 ^ 56 = Ru / 2 ^ 56 := by clear x1 x3 y2 z1 e hB less l3; omega
  rw [div, z1, kept, ← x1, odd]

/-- The numbers of `C66_v6_subnets_ends`, second half. -/
theorem ends_second (Bl Ru Rl Lu Ll Su Sl : Nat) (odd : Bl % 2 = 1) (less : Bl < 2 ^ 64 - 2 ^ 8) (hR : Rl < 2 ^ 64)
    (y1 : Bl % 2 = Rl / 2 ^ 56 % 2) (y3 : Bl < 2 ^ 64 - 2 ^ 8 → Rl % 2 ^ 56 ≠ 2 ^ 56 - 1)
    (w1 : Ll % 2 = Sl / 2 ^ 56 % 2) (hS : Sl < 2 ^ 64) (l3 : Su * 2 ^ 64 + Sl = (Ru * 2 ^ 64 + Rl + 1) % 2 ^ 128) :
    (Lu * 2 ^ 64 + Ll) / 2 ^ 0 % 2 = 1 := by
  have k1 := y3 less
  have up : Sl = Rl + 1 := by clear y1 y3 w1; omega
  have kept : Sl / 2 ^ 56 = Rl / 2 ^ 56 := by clear y1 y3 w1 l3; omega
  have : Ll % 2 = 1 := by rw [w1, kept, ← y1, odd]
  rw [Nat.pow_zero, Nat.div_one]
  omega

/-- The bit of `2 ^ k`. -/
theorem testBit_of_odd (x k : Nat) (h : x / 2 ^ k % 2 = 1) : x.testBit k = true := by
  rw [Nat.testBit_eq_decide_div_mod_eq, h]
  rfl

/-- The last address of a network and the next one, in halves `B` and `L`, and with the bytes in the opposite order, `R` and `S`. -/
theorem be6_ends (c : Cfg) (n : Net V6) (hn : NetOk6 c n) (d : Nat) (h1 : 1 ≤ n.plen) (hp : n.plen + d < 128) :
    ∃ B Bu Bl Ru Rl Lu Ll Su Sl : Nat, B = Bu * 2 ^ 64 + Bl ∧ Bl < 2 ^ 64 ∧ B = beValue n.addr.bytes + 2 ^ (128 - n.plen) - 1 ∧
      Ru < 2 ^ 64 ∧ Rl < 2 ^ 64 ∧ Bu % 2 = Ru / 2 ^ 56 % 2 ∧ (Bu < 2 ^ 64 - 2 ^ 8 → Ru % 2 ^ 56 ≠ 2 ^ 56 - 1) ∧
      Bl % 2 = Rl / 2 ^ 56 % 2 ∧ (Bl = 2 ^ 64 - 1 → Rl = 2 ^ 64 - 1) ∧ (Bl < 2 ^ 64 - 2 ^ 8 → Rl % 2 ^ 56 ≠ 2 ^ 56 - 1) ∧
      Lu % 2 = Su / 2 ^ 56 % 2 ∧ Ll % 2 = Sl / 2 ^ 56 % 2 ∧ Su < 2 ^ 64 ∧ Sl < 2 ^ 64 ∧ Ll < 2 ^ 64 ∧
      Su * 2 ^ 64 + Sl = (Ru * 2 ^ 64 + Rl + 1) % 2 ^ 128 ∧
      ∀ i, i < 128 - (n.plen + d) → (Lu * 2 ^ 64 + Ll) / 2 ^ i % 2 = 1 → (fam6 (c.onHost false)).subnets n d none = .ub := by
  obtain ⟨l, l1, l2, l3, l4, _⟩ := C66_v6_subnets_exact c n hn (by omega) d (by omega) (by omega) (by omega) _ _ rfl rfl
  obtain ⟨o, o1, o2, o3⟩ := be6_broadcast c n hn
  have ok : NetOk6 (c.onHost true) n := ⟨hn.wf, hn.plen, hn.mask, hn.aligned⟩
  obtain ⟨b, b1, b2, b3⟩ := broadcast_eq (fam6Law (c.onHost true) rfl) n ok
  rw [((onHost_same c false true).2.2.2.2.1 n).1, b1] at o1
  have ob : b = o := congrArg V6.bytes (Res.ok.inj o1)
  subst ob
  have bv : beValue b = beValue n.addr.bytes + 2 ^ (128 - n.plen) - 1 := b3
  rw [← o3] at l3
  obtain ⟨s1, s2, s3, s4⟩ := turned_split ⟨b, emptyScope c.M⟩ o2
  obtain ⟨t1, t2, t3, t4⟩ := turned_split l l1
  have e : beValue (halvesReversed b) = turned ⟨b, emptyScope c.M⟩ := rfl
  rw [e, s1, t1] at l3
  have bu : (b.take 8).length = 8 := by simp [o2]
  have bl : (b.drop 8).length = 8 := by simp [o2]
  have lu : (l.bytes.take 8).length = 8 := by simp [l1]
  have ll : (l.bytes.drop 8).length = 8 := by simp [l1]
  obtain ⟨x1, _, x3⟩ := eight_bytes _ bu
  obtain ⟨y1, y2, y3⟩ := eight_bytes _ bl
  refine ⟨beValue b, _, _, _, _, _, _, _, _, s2, s4, bv, beValue_lt_pow _ 64 (by rw [List.length_reverse, bu]), s3, x1, x3, y1, y2, y3,
    (eight_bytes _ lu).1, (eight_bytes _ ll).1, beValue_lt_pow _ 64 (by rw [List.length_reverse, lu]), t3, t4, l3, fun i hi h => l4 ⟨i, hi, ?_⟩⟩
  rw [t2]
  exact testBit_of_odd _ _ h

/-- C66, IPv6 on big endian hosts: programs end at `subnets` for all networks and new prefix lengths within the first half of the
address, except `::/0` and those at the end of the address space, and within the second half, except those at the end of it. -/
theorem C66_v6_subnets_ends (c : Cfg) (n : Net V6) (hn : NetOk6 c n) (d : Nat) (h1 : 1 ≤ n.plen)
    (h : (n.plen + d < 64 ∧ beValue n.addr.bytes + 2 ^ (128 - n.plen) ≤ 2 ^ 128 - 2 ^ 72) ∨
      (64 ≤ n.plen ∧ n.plen + d < 128 ∧ beValue n.addr.bytes % 2 ^ 64 + 2 ^ (128 - n.plen) ≤ 2 ^ 64 - 2 ^ 8)) :
    (fam6 (c.onHost false)).subnets n d none = .ub := by
  have hp : n.plen + d < 128 := by
    rcases h with h | h
    · exact Nat.lt_trans h.1 (by decide)
    · exact h.2.1
  obtain ⟨B, Bu, Bl, Ru, Rl, Lu, Ll, Su, Sl, s2, s4, bv, xr, s3, x1, x3, y1, y2, y3, z1, w1, zr, t3, t4, l3, fin⟩ := be6_ends c n hn d h1 hp
  have al : beValue n.addr.bytes % 2 ^ (128 - n.plen) = 0 := hn.aligned
  have pos := Nat.two_pow_pos (128 - n.plen)
  generalize beValue n.addr.bytes = V at h al bv
  rcases h with ⟨a1, a2⟩ | ⟨a1, a2, a3⟩
  · refine fin 64 (by clear bv al a2; omega) ?_
    obtain ⟨k, hk⟩ : ∃ k, 2 ^ (128 - n.plen) = 2 ^ 65 * k :=
      ⟨2 ^ (63 - n.plen), by rw [← Nat.pow_add]; congr 1; clear bv al a2 pos; omega⟩
    obtain ⟨j, hj⟩ : ∃ j, V = 2 ^ (128 - n.plen) * j := ⟨_, (Nat.mul_div_cancel' (Nat.dvd_of_mod_eq_zero al)).symm⟩
    have kp : 0 < k := Nat.pos_of_ne_zero fun e => by
      rw [e, Nat.mul_zero] at hk
      exact absurd hk pos.ne'
    have hv : B = 2 ^ 65 * (k * j + k) - 1 := by
      rw [bv, hj, hk, Nat.mul_add, Nat.mul_assoc]
    have less : B < 2 ^ 128 - 2 ^ 72 := by
      generalize 2 ^ (128 - n.plen) = q at bv a2 pos
      clear x1 x3 y1 y2 y3 z1 w1 l3 hv hk hj al fin s2
      omega
    exact ends_first _ _ _ _ _ _ _ _ _ s2 s4 _ (Nat.add_pos_right _ kp) hv less xr x1 x3 y2 z1 t3 t4 l3
  · refine fin 0 (by clear bv al a3; omega) ?_
    obtain ⟨k, hk⟩ : ∃ k, 2 ^ (128 - n.plen) = 2 * k :=
      ⟨2 ^ (127 - n.plen), by rw [← Nat.pow_succ']; congr 1; clear bv al a3 pos; omega⟩
    have dv : V % 2 = 0 := Nat.mod_eq_zero_of_dvd (Nat.dvd_trans ⟨k, hk⟩ (Nat.dvd_of_mod_eq_zero al))
    generalize 2 ^ (128 - n.plen) = m at hk pos a3 bv
    have odd : Bl % 2 = 1 := by
      clear x1 x3 y1 y2 y3 z1 w1 l3 fin al
      omega
    have less : Bl < 2 ^ 64 - 2 ^ 8 := by
      clear x1 x3 y1 y2 y3 z1 w1 l3 fin al
      omega
    exact ends_second _ _ _ _ _ _ _ odd less s3 y1 y3 w1 t3 l3

/-- `2001:db8::/32` cannot be divided into networks of `/48` on big endian hosts, and `2001:db8::/120` not into those of `/124`. -/
example : (fam6 (exCfg.onHost false)).subnets ex32 16 none = .ub :=
  C66_v6_subnets_ends exCfg ex32 ex32_ok 16 (by decide) (.inl ⟨by decide, by decide +kernel⟩)

example : (fam6 (exCfg.onHost false)).subnets ⟨ex32.addr, ⟨List.replicate 15 255 ++ [0], emptyScope 16⟩, 120⟩ 4 none = .ub :=
  C66_v6_subnets_ends exCfg _ exBe120_ok 4 (by decide) (.inr ⟨by decide, by decide, by decide +kernel⟩)

theorem inside_interval {A U : Type} {F : Fam A U} {WF : A → Prop} {val : U → Nat} (L : F.Law WF val) (n o : Net A) (hn : NetOk F WF n)
    (ho : NetOk F WF o) (hsub : ∀ t, InNet F.maxPrefix o.plen (F.v o.addr) t → InNet F.maxPrefix n.plen (F.v n.addr) t) :
    F.v n.addr ≤ F.v o.addr ∧ F.v o.addr + 2 ^ (F.maxPrefix - o.plen) ≤ F.v n.addr + 2 ^ (F.maxPrefix - n.plen) := by
  have hP := Nat.two_pow_pos (F.maxPrefix - n.plen)
  have hO := Nat.two_pow_pos (F.maxPrefix - o.plen)
  simp only [inNet_interval L n hn, inNet_interval L o ho] at hsub
  have a := hsub (F.v o.addr) ⟨by omega, by omega⟩
  have b := hsub (F.v o.addr + 2 ^ (F.maxPrefix - o.plen) - 1) ⟨by omega, by omega⟩
  omega

/-- C66, IPv6 on big endian hosts: programs end at `address_exclude` for the same networks, whatever smaller network is
excluded. -/
theorem C66_v6_exclude_ends (c : Cfg) (n o : Net V6) (hn : NetOk6 c n) (ho : NetOk6 c o) (h1 : 1 ≤ n.plen) (hlt : n.plen < o.plen)
    (hsub : ∀ t, InNet 128 o.plen (beValue o.addr.bytes) t → InNet 128 n.plen (beValue n.addr.bytes) t)
    (h : (n.plen + 1 < 64 ∧ beValue n.addr.bytes + 2 ^ (128 - n.plen) ≤ 2 ^ 128 - 2 ^ 72) ∨
      (64 ≤ n.plen ∧ n.plen + 1 < 128 ∧ beValue n.addr.bytes % 2 ^ 64 + 2 ^ (128 - n.plen) ≤ 2 ^ 64 - 2 ^ 8)) :
    (fam6 (c.onHost false)).addressExclude n o = .ub := by
  have L := fam6Law (c.onHost true) rfl
  have ok : ∀ m, NetOk6 c m → NetOk6 (c.onHost true) m := fun m hm => ⟨hm.wf, hm.plen, hm.mask, hm.aligned⟩
  obtain ⟨l, l1, l2⟩ := removeScopeNet_eq L (fun h => Bool.noConfusion h) n (ok n hn)
  obtain ⟨r, r1, r2⟩ := removeScopeNet_eq L (fun h => Bool.noConfusion h) o (ok o ho)
  have same : ∀ m, (fam6 (c.onHost false)).removeScopeNet m = (fam6 (c.onHost true)).removeScopeNet m := by
    intro m
    show (v6RemoveScope c.spaces c.M m.addr >>= fun a => (fam6 (c.onHost false)).fromAddress a m.plen true) =
      (v6RemoveScope c.spaces c.M m.addr >>= fun a => (fam6 (c.onHost true)).fromAddress a m.plen true)
    simp only [(onHost_same c false true).2.2.1]
  have hin := inside_interval L n o (ok n hn) (ok o ho) hsub
  have hsb := subnetOf_isNet L r2 l2
  rw [decide_eq_true hin] at hsb
  have heq := netEq_isNet L l2 r2
  rw [decide_eq_false (fun e => absurd e.2 hlt.ne)] at heq
  have sm := onHost_same c false true
  have lok : NetOk6 c l := by
    have := l2.netOk L
    exact ⟨this.wf, this.plen, this.mask, this.aligned⟩
  have lv : beValue l.addr.bytes = beValue n.addr.bytes := l2.v_eq L
  have lp : l.plen = n.plen := l2.plen
  have ends : (fam6 (c.onHost false)).subnets l 1 none = .ub :=
    C66_v6_subnets_ends c l lok 1 (lp ▸ h1) (by rw [lv, lp]; exact h)
  unfold Fam.addressExclude
  rw [same, same, l1, r1]
  simp only [Fam.noexcept, Res.ok_bind, (sm.2.2.2.2.2.1 r l).2.1, hsb, (sm.2.2.2.2.2.2.1 l r).1, heq, Bool.not_true, Bool.false_eq_true,
    if_false, Fam.exSeqMk, Fam.exMk, Fam.halves, ends]
  rfl

example : (fam6 (exCfg.onHost false)).addressExclude ex32 ⟨ex32.addr, ⟨List.replicate 15 255 ++ [0], emptyScope 16⟩, 120⟩ = .ub :=
  C66_v6_exclude_ends exCfg ex32 _ ex32_ok exBe120_ok (by decide) (by decide)
    (fun _ h => ⟨h.1, fun i hi => h.2 i (Nat.le_trans (by decide) hi)⟩) (.inl ⟨by decide, by decide +kernel⟩)

/-- The 16 bytes of `2 ^ m`. -/
def Spec.bitBytes (m : Nat) : List (BitVec 8) := (List.range 16).map fun i => BitVec.ofNat 8 (2 ^ m / 2 ^ (8 * (15 - i)))

/-- Where the bit is when each half is read in the opposite order. -/
def bitPlace (m : Nat) : Nat := 64 * (m / 64) + (56 - 8 * (m % 64 / 8)) + m % 8

theorem bitBytes_table : ∀ m : Fin 128, beValue (bitBytes m.val) = 2 ^ m.val ∧ beValue (halvesReversed (bitBytes m.val)) = 2 ^ bitPlace m.val := by
  decide +kernel

theorem turnedHost_table : ∀ p : Fin 129, beValue (halvesReversed (hostMaskBytes p.val)) =
    2 ^ 128 - 1 - (if p.val ≤ 64 then halfMask p.val * 2 ^ 64 else (2 ^ 64 - 1) * 2 ^ 64 + halfMask (p.val - 64)) := by
  decide +kernel

/-- For all prefix lengths and distances: the step is not the right one, or the step to the middle is not. -/
theorem subnets_pairs : ((List.range 128).all fun p => (List.range 128).all fun d => d == 0 || Nat.blt 128 (p + d) ||
    !((((2 ^ 128 - 1 - (if p ≤ 64 then halfMask p * 2 ^ 64 else (2 ^ 64 - 1) * 2 ^ 64 + halfMask (p - 64))) / 2 ^ d + 1) * 2 ^ 0) % 2 ^ 128 ==
        2 ^ bitPlace (128 - (p + d) + 0)) ||
    !((((2 ^ 128 - 1 - (if p ≤ 64 then halfMask p * 2 ^ 64 else (2 ^ 64 - 1) * 2 ^ 64 + halfMask (p - 64))) / 2 ^ d + 1) * 2 ^ (d - 1)) % 2 ^ 128 ==
        2 ^ bitPlace (128 - (p + d) + (d - 1)))) = true := by
  decide +kernel

theorem subnets_table (p d : Nat) (hp : p < 128) (h1 : 1 ≤ d) (hd : p + d ≤ 128) (hd' : d < 128) :
    ∃ j, j < d ∧ ((beValue (halvesReversed (hostMaskBytes p)) / 2 ^ d + 1) * 2 ^ j) % 2 ^ 128 ≠ 2 ^ bitPlace (128 - (p + d) + j) := by
  have t := List.all_eq_true.1 (List.all_eq_true.1 subnets_pairs p (List.mem_range.2 hp)) d (List.mem_range.2 hd')
  have e := turnedHost_table ⟨p, by omega⟩
  simp only at e
  have nd : (d == 0) = false := by simp; omega
  have np : Nat.blt 128 (p + d) = false := by
    rw [Bool.eq_false_iff]
    intro h
    rw [Nat.blt_eq] at h
    omega
  rw [← e, nd, np, Bool.false_or, Bool.false_or, Bool.or_eq_true, Bool.not_eq_true', Bool.not_eq_true', beq_eq_false_iff_ne,
    beq_eq_false_iff_ne] at t
  exact t.elim (fun t => ⟨0, by omega, t⟩) fun t => ⟨d - 1, by omega, t⟩

/-- A bit below a prefix is added in each order. -/
theorem turned_bit (a r : V6) (ha : a.bytes.length = 16) (hr : r.bytes.length = 16) (m : Nat) (hm : m < 128)
    (al : beValue a.bytes % 2 ^ (m + 1) = 0) (e : beValue r.bytes = beValue a.bytes + 2 ^ m) : turned r = turned a + 2 ^ bitPlace m := by
  obtain ⟨t1, t2⟩ := bitBytes_table ⟨m, hm⟩
  simp only at t1 t2
  have lh : (bitBytes m).length = 16 := by simp [bitBytes]
  have bit : (beValue a.bytes).testBit m = false := by
    have := Nat.testBit_mod_two_pow (beValue a.bytes) (m + 1) m
    rw [al, Nat.zero_testBit, decide_eq_true (by omega), Bool.true_and] at this
    exact this.symm
  have and0 : beValue a.bytes &&& 2 ^ m = 0 := by
    refine Nat.eq_of_testBit_eq fun i => ?_
    rw [Nat.testBit_and, Nat.testBit_two_pow, Nat.zero_testBit]
    by_cases h : m = i
    · rw [← h, bit, Bool.false_and]
    · rw [decide_eq_false h, Bool.and_false]
  obtain ⟨z, z1, _, z3⟩ := bytesZip_and a.bytes (bitBytes m) (by rw [ha, lh])
  obtain ⟨o, o1, o2, o3⟩ := bytesZip_or a.bytes (bitBytes m) (by rw [ha, lh])
  obtain ⟨lo, sum⟩ := or_sum _ _ z o ha lh z1 (by rw [z3, t1, and0]) o1
  have ro : r.bytes = o := beValue_inj _ _ (by rw [hr, lo]) (by
    rw [e, o3, t1]
    have q : beValue a.bytes = 2 ^ (m + 1) * (beValue a.bytes / 2 ^ (m + 1)) := by
      have := Nat.div_add_mod (beValue a.bytes) (2 ^ (m + 1))
      omega
    rw [q, ← Nat.two_pow_add_eq_or_of_lt (Nat.pow_lt_pow_right (by decide) (by omega))])
  show beValue (halvesReversed r.bytes) = _
  rw [ro, sum, t2]
  rfl

theorem u128_of (x : Nat) (h : x < 2 ^ 128) : ∃ k : U128, k.val = x := by
  refine ⟨⟨BitVec.ofNat 64 (x / 2 ^ 64), BitVec.ofNat 64 x⟩, ?_⟩
  simp only [U128.val, BitVec.toNat_ofNat]
  omega

/-- C66, IPv6 on big endian hosts: `subnets` is right for no network and no new prefix length but its own.  The program ends, or one
of the elements is not the network that it is on little endian hosts. -/
theorem C66_v6_subnets_wrong (c : Cfg) (n : Net V6) (hn : NetOk6 c n) (hp : n.plen < 128) (d : Nat) (h1 : 1 ≤ d) (hd : n.plen + d ≤ 128)
    (hd' : d < 128) :
    (fam6 (c.onHost false)).subnets n d none = .ub ∨
    ∃ s, (fam6 (c.onHost false)).subnets n d none = .ok s ∧ ∃ k : U128, k.val < 2 ^ d ∧
      ∀ r, Fam.noexcept ((fam6 (c.onHost false)).subnetsAt s k) = .ok r →
        beValue r.addr.bytes ≠ beValue n.addr.bytes + k.val * 2 ^ (128 - (n.plen + d)) := by
  obtain ⟨last, _, _, _, ends, runs⟩ := C66_v6_subnets_exact c n hn hp d hd hd' (by omega) _ _ rfl rfl
  by_cases hb : HasHostBits (n.plen + d) last
  · exact .inl (ends hb)
  · obtain ⟨s, s1, _, _, _, _, _, _, at'⟩ := runs hb
    obtain ⟨j, j1, j2⟩ := subnets_table n.plen d hp h1 hd hd'
    obtain ⟨k, kv⟩ := u128_of (2 ^ j) (Nat.pow_lt_pow_right (by decide) (by omega))
    refine .inr ⟨s, s1, k, by rw [kv]; exact Nat.pow_lt_pow_right (by decide) j1, fun r hr e => j2 ?_⟩
    obtain ⟨a, a1, _, a3, a4, a5⟩ := at' k
    by_cases hh : HasHostBits (n.plen + d) a
    · rw [a4 hh] at hr
      cases hr
    · obtain ⟨r', r1, r2, _⟩ := a5 hh
      rw [r1] at hr
      cases hr
      rw [r2, kv, ← Nat.pow_add, Nat.add_comm j] at e
      have al : beValue n.addr.bytes % 2 ^ (128 - n.plen) = 0 := hn.aligned
      have t := turned_bit n.addr a hn.wf.1 a1 (128 - (n.plen + d) + j) (by omega) (by
        refine Nat.mod_eq_zero_of_dvd (dvd_trans (Nat.pow_dvd_pow 2 ?_) (Nat.dvd_of_mod_eq_zero al))
        omega) e
      have tl := turned_lt a a1
      rw [a3, kv] at t
      generalize (beValue (halvesReversed (hostMaskBytes n.plen)) / 2 ^ d + 1) * 2 ^ j = x at *
      rw [a3] at tl
      have pl : 2 ^ bitPlace (128 - (n.plen + d) + j) < 2 ^ 128 := by
        refine Nat.pow_lt_pow_right (by decide) ?_
        unfold bitPlace
        omega
      have nl := turned_lt n.addr hn.wf.1
      generalize 2 ^ bitPlace (128 - (n.plen + d) + j) = y at *
      omega

example := C66_v6_subnets_wrong exCfg ex32 ex32_ok (by decide) 96 (by decide) (by decide) (by decide)

end Ip
