import Verif.Props.EndianCount
/-
C66, what loops over the hosts of an IPv6 network visit on big endian hosts, and what its supernets are, exactly.
-/
set_option autoImplicit false

namespace Ip
open Spec

/-- The number that big endian hosts take an address for: each half in the opposite order. -/
def Spec.turned (a : V6) : Nat := beValue (halvesReversed a.bytes)

theorem be6_toUint (b : List (BitVec 8)) (h : b.length = 16) : ∃ u, v6ToUint false b = .ok u ∧ u.val = beValue (halvesReversed b) :=
  C14_uint_exact false b h

/-- The bytes that big endian hosts make of a number. -/
theorem be6_fromUint (u : U128) : ∃ b, v6FromUint false u = .ok b ∧ b.length = 16 ∧ v6ToUint false b = .ok u ∧
    beValue (halvesReversed b) = u.val := by
  obtain ⟨_, h2, b, h3, h4⟩ := C14_v6_uint_inverse false (List.replicate 16 0#8) rfl u
  rw [h3, Res.ok_bind] at h2
  obtain ⟨v, v1, v2⟩ := be6_toUint b h4
  rw [h2] at v1
  cases v1
  exact ⟨b, h3, h4, h2, v2.symm⟩

/-- An iterator of a big endian host that stands at a number, as the constructor and the operators make it. -/
def At6 (c : Cfg) (u : U128) (x : AIter V6 U128) : Prop :=
  ∃ b, v6FromUint false u = .ok b ∧ x = ⟨⟨b, emptyScope c.M⟩, u, 0⟩

theorem At6.turned {c : Cfg} {u : U128} {x : AIter V6 U128} (h : At6 c u x) :
    turned x.cur = u.val ∧ x.cur.scope = emptyScope c.M ∧ x.cur.bytes.length = 16 := by
  obtain ⟨b, b1, rfl⟩ := h
  obtain ⟨d, d1, d2, _, d3⟩ := be6_fromUint u
  rw [b1] at d1
  cases d1
  exact ⟨d3, rfl, d2⟩

theorem be6_mk (c : Cfg) (u : U128) : ∃ a x, (fam6 (c.onHost false)).fromUint u = .ok a ∧
    (fam6 (c.onHost false)).aiMk a 0 = .ok x ∧ At6 c u x := by
  obtain ⟨b, b1, _, b3, _⟩ := be6_fromUint u
  refine ⟨⟨b, emptyScope c.M⟩, ⟨⟨b, emptyScope c.M⟩, u, 0⟩, ?_, ?_, b, b1, rfl⟩
  · show (v6FromUint false u >>= fun b => _) = _
    rw [b1]; rfl
  · show (v6ToUint false b >>= fun u => _) = _
    rw [b3]; rfl

theorem be6_inc (c : Cfg) (u : U128) (x : AIter V6 U128) (hx : At6 c u x) (hu : u.val + 1 < 2 ^ 128) :
    ∃ y w, (fam6 (c.onHost false)).aiInc x = .ok y ∧ At6 c w y ∧ w.val = u.val + 1 := by
  obtain ⟨b, b1, rfl⟩ := hx
  have one : (U128.ofI64 1#64).val = 1 := by decide
  have hw : (u.add (U128.ofI64 1#64)).val = u.val + 1 := by
    rw [U128.val_add, one]
    simp only [Spec.two128]
    omega
  have lt : u128Ops.lt (u128Ops.add u (u128Ops.ofI64 1#64)) u = false := by
    have := u128Law.lt (u128Ops.add u (u128Ops.ofI64 1#64)) u
    rw [this]
    apply decide_eq_false
    show ¬ (u.add (U128.ofI64 1#64)).val < u.val
    rw [hw]
    omega
  obtain ⟨d, d1, _⟩ := be6_fromUint (u.add (U128.ofI64 1#64))
  refine ⟨⟨⟨d, emptyScope c.M⟩, u.add (U128.ofI64 1#64), 0⟩, u.add (U128.ofI64 1#64), ?_, ⟨d, d1, rfl⟩, hw⟩
  have nz : (!(fam6 (c.onHost false)).ops.eq ((fam6 (c.onHost false)).ops.ofI64 1#64) ((fam6 (c.onHost false)).ops.ofI64 0#64)) = true := by
    show (!u128Ops.eq (u128Ops.ofI64 1#64) (u128Ops.ofI64 0#64)) = true
    decide
  unfold Fam.aiInc Fam.aiAdd
  rw [if_pos nz]
  show ((v6FromUint false (u.add (U128.ofI64 1#64)) >>= fun b => Res.ok (V6.mk b (emptyScope c.M))) >>= fun cur =>
    Res.ok (AIter.mk cur (u.add (U128.ofI64 1#64)) (if u128Ops.lt (u128Ops.add u (u128Ops.ofI64 1#64)) u = true then _ else _))) = _
  rw [lt, d1]
  rfl

theorem be6_eq (c : Cfg) (u w : U128) (x y : AIter V6 U128) (hx : At6 c u x) (hy : At6 c w y) :
    (fam6 (c.onHost false)).aiEq x y = .ok (decide (u.val = w.val)) := by
  have t1 := hx.turned
  have t2 := hy.turned
  obtain ⟨b, b1, rfl⟩ := hx
  obtain ⟨d, d1, rfl⟩ := hy
  show (if (0 : Int) = 0 then v6Equals c.val ⟨b, emptyScope c.M⟩ ⟨d, emptyScope c.M⟩ else _) = _
  rw [if_pos rfl]
  have := (fam6Law (c.onHost true) rfl).eq b d (show 8 * b.length = 128 by rw [t1.2.2]) (show 8 * d.length = 128 by rw [t2.2.2])
  refine this.trans (congrArg Res.ok (decide_eq_decide.2 ⟨fun h => ?_, fun h => ?_⟩))
  · have : b = d := beValue_inj _ _ (t1.2.2.trans t2.2.2.symm) h
    subst this
    rw [← t1.1, ← t2.1]
  · have : u = w := U128.val_inj h
    subst this
    rw [b1] at d1
    cases d1
    rfl

/-- The loop from one number to another. -/
theorem be6_visit (c : Cfg) : ∀ (k : Nat) (u w : U128) (x y : AIter V6 U128), At6 c u x → At6 c w y → w.val = u.val + k →
    ∃ l : List V6, l.map turned = List.range' u.val k ∧ (∀ a ∈ l, a.scope = emptyScope c.M ∧ a.bytes.length = 16) ∧
      ∀ fuel, k < fuel → (fam6 (c.onHost false)).aiOps.visit fuel x y = .ok l := by
  intro k
  induction k with
  | zero =>
    intro u w x y hx hy hk
    refine ⟨[], rfl, by simp, fun fuel hf => ?_⟩
    obtain ⟨f, rfl⟩ : ∃ f, fuel = f + 1 := ⟨fuel - 1, by omega⟩
    have e : (fam6 (c.onHost false)).aiOps.eq x y = .ok true := (be6_eq c u w x y hx hy).trans (by rw [hk]; simp)
    simp only [IterOps.visit, e, Res.ok_bind, if_true]
  | succ k ih =>
    intro u w x y hx hy hk
    have hw := w.val_lt
    simp only [Spec.two128] at hw
    obtain ⟨z, v, z1, z2, z3⟩ := be6_inc c u x hx (by omega)
    obtain ⟨l, l1, l2, l3⟩ := ih v w z y z2 hy (by omega)
    have t := hx.turned
    refine ⟨x.cur :: l, ?_, ?_, fun fuel hf => ?_⟩
    · rw [List.map_cons, l1, t.1, z3, List.range'_succ]
    · intro a ha
      rcases List.mem_cons.1 ha with rfl | ha
      · exact t.2
      · exact l2 a ha
    · obtain ⟨f, rfl⟩ : ∃ f, fuel = f + 1 := ⟨fuel - 1, by omega⟩
      have e : (fam6 (c.onHost false)).aiOps.eq x y = .ok false :=
        (be6_eq c u w x y hx hy).trans (by rw [hk]; simp)
      have i : (fam6 (c.onHost false)).aiOps.inc x = .ok z := z1
      simp only [IterOps.visit, e, i, Res.ok_bind, Bool.false_eq_true, if_false, l3 f (by omega)]
      rfl

/-- The last address of a network. -/
theorem be6_broadcast (c : Cfg) (n : Net V6) (hn : NetOk6 c n) :
    ∃ o, (fam6 (c.onHost false)).broadcast n = .ok ⟨o, emptyScope c.M⟩ ∧ o.length = 16 ∧
      beValue (halvesReversed o) = turned n.addr + beValue (halvesReversed (hostMaskBytes n.plen)) := by
  have ok : NetOk6 (c.onHost true) n := ⟨hn.wf, hn.plen, hn.mask, hn.aligned⟩
  obtain ⟨_, h2, hp⟩ := C24_no_host_bits_v6 (c.onHost true) rfl n ok
  obtain ⟨m, m1, m2, m3⟩ := hn.mask
  have m2 : m.length = 16 := by
    have : 8 * m.length = 128 := m2
    omega
  have e0 : ((fam6 (c.onHost true)).hostmask n).bytes = n.mask.bytes.map (· ^^^ 0xFF#8) := rfl
  have mb : n.mask.bytes = m := by rw [m1]; rfl
  have hmask : n.mask.bytes.map (· ^^^ 0xFF#8) = hostMaskBytes n.plen := by
    obtain ⟨b, b1, b2, b3⟩ := v6FromPrefix_val n.plen hp
    have : b = m := beValue_inj _ _ (by rw [b2, m2]) (by rw [b3, m3]; rfl)
    have t1 := (hostMask_table ⟨n.plen, by omega⟩).1
    simp only [b1, Res.ok_bind] at t1
    rw [mb, ← this]
    exact Res.ok.inj t1
  rw [e0, hmask] at h2
  have la : n.addr.bytes.length = 16 := hn.wf.1
  have lh : (hostMaskBytes n.plen).length = 16 := by simp [hostMaskBytes]
  obtain ⟨z, z1, _, z3⟩ := bytesZip_and n.addr.bytes (hostMaskBytes n.plen) (by rw [la, lh])
  obtain ⟨o, o1, _, _⟩ := bytesZip_or n.addr.bytes (hostMaskBytes n.plen) (by rw [la, lh])
  obtain ⟨lo, sum⟩ := or_sum _ _ z o la lh z1 (by rw [z3, h2]) o1
  refine ⟨o, ?_, lo, sum⟩
  show (bytesZip (· ||| ·) n.addr.bytes (n.mask.bytes.map (· ^^^ 0xFF#8)) >>= fun b => _) = _
  rw [hmask, o1]
  rfl

theorem turned_lt (a : V6) (h : a.bytes.length = 16) : turned a < 2 ^ 128 := by
  obtain ⟨u, _, u2⟩ := be6_toUint a.bytes h
  have := u.val_lt
  simp only [Spec.two128] at this
  show beValue (halvesReversed a.bytes) < _
  omega

/-- C66, IPv6 on big endian hosts, exactly: a loop over `hosts()` counts up from the address of the network with each half
of the bytes read in the opposite order, and stops at the last address read in the same way.  (As on little endian hosts the loop
of a network that ends with the last address of all does not stop there.) -/
theorem C66_v6_hosts_exact (c : Cfg) (n : Net V6) (hn : NetOk6 c n) (hp : n.plen < 128) (first count : Nat)
    (hf : first = turned n.addr + if n.plen = 127 then 0 else 1)
    (hc : count = beValue (halvesReversed (hostMaskBytes n.plen)) + if n.plen = 127 then 1 else 0)
    (fit : first + count < 2 ^ 128) :
    ∃ (s : HostsSeq V6 U128) (l : List V6), (fam6 (c.onHost false)).hosts n = .ok s ∧ l.map turned = List.range' first count ∧
      (∀ a ∈ l, a.scope = emptyScope c.M ∧ a.bytes.length = 16) ∧
      (∀ fuel, count < fuel → (fam6 (c.onHost false)).aiOps.visit fuel s.first s.last = .ok l) ∧
      ((fam6 (c.onHost false)).hostsSize s).val = count := by
  obtain ⟨o, o1, o2, o3⟩ := be6_broadcast c n hn
  obtain ⟨u, u1, u2⟩ := be6_toUint n.addr.bytes hn.wf.1
  obtain ⟨b, b1, b2⟩ := be6_toUint o o2
  have nu : (fam6 (c.onHost false)).toUint n.addr = .ok u := u1
  have bu : (fam6 (c.onHost false)).toUint ⟨o, emptyScope c.M⟩ = .ok b := b1
  have one : (U128.ofI64 1#64).val = 1 := by decide
  have tu : u.val = turned n.addr := u2
  have size : ∀ x w : U128, ∀ s t : AIter V6 U128, At6 c x s → At6 c w t → w.val = x.val + count →
      ((fam6 (c.onHost false)).hostsSize ⟨s, t⟩).val = count := by
    intro x w s t hs ht h
    obtain ⟨_, _, rfl⟩ := hs
    obtain ⟨_, _, rfl⟩ := ht
    show (w.sub x).val = count
    have := x.val_lt
    rw [U128.val_sub]
    simp only [Spec.two128] at *
    omega
  unfold Fam.hosts
  rw [o1, Res.ok_bind]
  unfold Fam.hostsMk
  have hmax : (fam6 (c.onHost false)).maxPrefix = 128 := rfl
  rw [hmax]
  have add1 : ∀ x : U128, x.val + 1 < 2 ^ 128 → ((fam6 (c.onHost false)).ops.add x ((fam6 (c.onHost false)).ops.ofI64 1#64)).val = x.val + 1 := by
    intro x hx
    show (x.add (U128.ofI64 1#64)).val = _
    rw [U128.val_add, one]
    simp only [Spec.two128]
    omega
  by_cases h : n.plen = 127
  · rw [if_pos h] at hf hc
    rw [if_pos (by omega)]
    obtain ⟨a, x, a1, a2, a3⟩ := be6_mk c u
    obtain ⟨d, y, d1, d2, d3⟩ := be6_mk c ((fam6 (c.onHost false)).ops.add b ((fam6 (c.onHost false)).ops.ofI64 1#64))
    have bw := add1 b (by omega)
    obtain ⟨l, l1, l2, l3⟩ := be6_visit c count _ _ x y a3 d3 (by omega)
    refine ⟨⟨x, y⟩, l, ?_, by rw [l1, hf, tu]; rfl, l2, l3, size _ _ _ _ a3 d3 (by omega)⟩
    simp only [nu, bu, a1, a2, d1, d2, Res.ok_bind]
  · rw [if_neg h] at hf hc
    rw [if_neg (by omega), if_neg (by omega)]
    have uw := add1 u (by omega)
    have bw := add1 b (by omega)
    obtain ⟨a, x, a1, a2, a3⟩ := be6_mk c ((fam6 (c.onHost false)).ops.add u ((fam6 (c.onHost false)).ops.ofI64 1#64))
    obtain ⟨d, y, d1, d2, d3⟩ := be6_mk c ((fam6 (c.onHost false)).ops.add b ((fam6 (c.onHost false)).ops.ofI64 1#64))
    obtain ⟨l, l1, l2, l3⟩ := be6_visit c count _ _ x y a3 d3 (by omega)
    have six : (fam6 (c.onHost false)).isV6 = true := rfl
    refine ⟨⟨x, y⟩, l, ?_, by rw [l1, hf, uw, tu], l2, l3, size _ _ _ _ a3 d3 (by omega)⟩
    simp only [nu, bu, a1, a2, d1, d2, six, if_true, Res.ok_bind]

/-- `2001:db8::/120`: the loop visits `255 * 2 ^ 56` addresses instead of 255. -/
theorem exBe120_ok : NetOk6 exCfg ⟨ex32.addr, ⟨List.replicate 15 255 ++ [0], emptyScope 16⟩, 120⟩ :=
  ⟨ex32_ok.wf, by decide, ⟨_, rfl, rfl, by decide⟩, by decide⟩

example := C66_v6_hosts_exact exCfg _ exBe120_ok (by decide) (turned ex32.addr + 1) (255 * 2 ^ 56) rfl (by decide +kernel) (by decide +kernel)

theorem turned_split (a : V6) (h : a.bytes.length = 16) :
    turned a = beValue (a.bytes.take 8).reverse * 2 ^ 64 + beValue (a.bytes.drop 8).reverse ∧
    beValue a.bytes = beValue (a.bytes.take 8) * 2 ^ 64 + beValue (a.bytes.drop 8) ∧
    beValue (a.bytes.drop 8).reverse < 2 ^ 64 ∧ beValue (a.bytes.drop 8) < 2 ^ 64 := by
  have l8 : (a.bytes.drop 8).length = 8 := by rw [List.length_drop, h]
  refine ⟨?_, ?_, beValue_lt_pow _ 64 (by rw [List.length_reverse, l8]), beValue_lt_pow _ 64 (by rw [l8])⟩
  · unfold turned halvesReversed
    rw [beValue_append, List.length_reverse, l8, show (256 : Nat) ^ 8 = 2 ^ 64 by decide]
  · conv_lhs => rw [← List.take_append_drop 8 a.bytes]
    rw [beValue_append, l8, show (256 : Nat) ^ 8 = 2 ^ 64 by decide]

theorem zeros_reversed (b : List (BitVec 8)) (h : b.length = 8) (z : beValue b = 0) : beValue b.reverse = 0 := by
  have : b = List.replicate 8 0#8 := beValue_inj _ _ (by rw [h]; rfl) (by rw [z]; decide)
  subst this
  decide

theorem same_reversed (a b : List (BitVec 8)) (ha : a.length = 8) (hb : b.length = 8) :
    beValue a.reverse = beValue b.reverse ↔ beValue a = beValue b := by
  constructor
  · intro h
    have := beValue_inj _ _ (by rw [List.length_reverse, List.length_reverse, ha, hb]) h
    rw [List.reverse_inj.1 this]
  · intro h
    rw [beValue_inj _ _ (ha.trans hb.symm) h]

/-- C66, IPv6 on big endian hosts: the number of addresses in the loop is right for the prefix length 64 alone, and then the
loop visits the hosts of the network, in another order. -/
theorem C66_v6_hosts_right (c : Cfg) (n : Net V6) (hn : NetOk6 c n) (hp : n.plen < 128) (first count : Nat)
    (hf : first = turned n.addr + if n.plen = 127 then 0 else 1)
    (hc : count = beValue (halvesReversed (hostMaskBytes n.plen)) + if n.plen = 127 then 1 else 0)
    (fit : first + count < 2 ^ 128) :
    (count = 2 ^ (128 - n.plen) - (if n.plen = 127 then 0 else 1) ↔ n.plen = 64) ∧
    (n.plen = 64 → ∃ (s : HostsSeq V6 U128) (l : List V6), (fam6 (c.onHost false)).hosts n = .ok s ∧
      (∀ fuel, count < fuel → (fam6 (c.onHost false)).aiOps.visit fuel s.first s.last = .ok l) ∧ l.Nodup ∧
      ∀ a, a.WF c.M → a.scope = emptyScope c.M →
        (a ∈ l ↔ InNet 128 64 (beValue n.addr.bytes) (beValue a.bytes) ∧ beValue a.bytes ≠ beValue n.addr.bytes)) := by
  have table := (hostMask_table ⟨n.plen, by omega⟩).2
  simp only at table
  obtain ⟨o, _, o2, o3⟩ := be6_broadcast c n hn
  have ol := turned_lt ⟨o, emptyScope c.M⟩ o2
  have ol' : beValue (halvesReversed o) < 2 ^ 128 := ol
  constructor
  · by_cases h : n.plen = 127
    · rw [if_pos h] at hc ⊢
      rw [h] at hc ⊢
      have : beValue (halvesReversed (hostMaskBytes 127)) = 2 ^ 56 := by decide +kernel
      rw [this] at hc
      omega
    · rw [if_neg h] at hf hc ⊢
      have pos : 0 < 2 ^ (128 - n.plen) := Nat.pow_pos (by decide)
      by_cases h0 : n.plen = 0
      · rw [h0] at hc
        have : beValue (halvesReversed (hostMaskBytes 0)) = 2 ^ 128 - 1 := by decide +kernel
        omega
      · have lt : 2 ^ (128 - n.plen) < 2 ^ 128 := Nat.pow_lt_pow_right (by decide) (by omega)
        rw [Nat.mod_eq_of_lt (by omega), Nat.mod_eq_of_lt lt] at table
        constructor
        · intro e
          rcases table.1 (by omega) with h1 | h1 | h1 <;> omega
        · intro e
          have := table.2 (.inr (.inl e))
          omega
  · intro h
    obtain ⟨s, l, s1, l1, l2, l3, _⟩ := C66_v6_hosts_exact c n hn hp first count hf hc fit
    have hall : beValue (halvesReversed (hostMaskBytes 64)) = 2 ^ 64 - 1 := by decide +kernel
    rw [if_neg (by omega)] at hf hc
    rw [h, hall] at hc
    refine ⟨s, l, s1, l3, ?_, ?_⟩
    · have d : (l.map turned).Pairwise (· < ·) := by rw [l1]; exact pairwise_range' _ _
      exact List.Pairwise.of_map turned (fun a b h e => by rw [e] at h; omega) d
    · intro a wa sa
      have la : a.bytes.length = 16 := wa.1
      have ln : n.addr.bytes.length = 16 := hn.wf.1
      obtain ⟨a1, a2, a3, a4⟩ := turned_split a la
      obtain ⟨n1, n2, n3, n4⟩ := turned_split n.addr ln
      have low : beValue (n.addr.bytes.drop 8) = 0 := by
        have : beValue n.addr.bytes % 2 ^ (128 - n.plen) = 0 := hn.aligned
        rw [h] at this
        omega
      have nlow : beValue (n.addr.bytes.drop 8).reverse = 0 := zeros_reversed _ (by rw [List.length_drop, ln]) low
      have upper := same_reversed (a.bytes.take 8) (n.addr.bytes.take 8) (by rw [List.length_take, la]; rfl) (by rw [List.length_take, ln]; rfl)
      have lower := same_reversed (a.bytes.drop 8) (n.addr.bytes.drop 8) (by rw [List.length_drop, la]) (by rw [List.length_drop, ln])
      have mem : a ∈ l ↔ turned a ∈ List.range' first count := by
        rw [← l1, List.mem_map]
        constructor
        · exact fun h => ⟨a, h, rfl⟩
        · rintro ⟨b, b1, b2⟩
          have hb := l2 b b1
          have : b = a := by
            have e : halvesReversed b.bytes = halvesReversed a.bytes :=
              beValue_inj _ _ (by simp [halvesReversed, hb.2, la]) b2
            obtain ⟨e1, e2⟩ := List.append_inj e (by simp [hb.2, la])
            have e3 : b.bytes = a.bytes := by
              rw [← List.take_append_drop 8 b.bytes, ← List.take_append_drop 8 a.bytes, List.reverse_inj.1 e1, List.reverse_inj.1 e2]
            cases b
            cases a
            simp only at e3 hb sa
            rw [e3, hb.1, sa]
          exact this ▸ b1
      have al : beValue a.bytes < 2 ^ 128 := beValue_lt_pow _ 128 (by rw [la])
      rw [mem, mem_range'_iff, inNet_iff 128 64 _ _ (beValue_lt_pow _ 128 (by rw [ln]))]
      rw [low, nlow] at lower
      rw [low] at n2
      rw [nlow] at n1
      have k1 : beValue a.bytes / 2 ^ (128 - 64) = beValue (a.bytes.take 8) := by omega
      have k2 : beValue n.addr.bytes / 2 ^ (128 - 64) = beValue (n.addr.bytes.take 8) := by omega
      rw [k1, k2, ← upper]
      constructor
      · intro hr
        have e : beValue (a.bytes.take 8).reverse = beValue (n.addr.bytes.take 8).reverse := by omega
        refine ⟨⟨al, e⟩, fun q => ?_⟩
        have := upper.1 e
        have z : beValue (a.bytes.drop 8) = 0 := by omega
        have := lower.2 z
        omega
      · rintro ⟨⟨_, e⟩, q⟩
        have := upper.1 e
        have z : beValue (a.bytes.drop 8).reverse ≠ 0 := fun z => q (by have := lower.1 z; omega)
        omega

/-- `2001:db8::/64`. -/
theorem exBe64_ok : NetOk6 exCfg ⟨ex32.addr, ⟨List.replicate 8 255 ++ List.replicate 8 0, emptyScope 16⟩, 64⟩ :=
  ⟨ex32_ok.wf, by decide, ⟨_, rfl, rfl, by decide⟩, by decide⟩

example := (C66_v6_hosts_right exCfg _ exBe64_ok (by decide) (turned ex32.addr + 1) (2 ^ 64 - 1) rfl (by decide +kernel) (by decide +kernel)).2 rfl

/-- The netmask, read with each half in the opposite order. -/
theorem be6_mask (c : Cfg) (n : Net V6) (hn : NetOk6 c n) :
    ∃ m, v6ToUint false n.mask.bytes = .ok m ∧ m.val = 2 ^ 128 - 1 - beValue (halvesReversed (hostMaskBytes n.plen)) := by
  obtain ⟨m, m1, m2, m3⟩ := hn.mask
  have m2 : m.length = 16 := by
    have : 8 * m.length = 128 := m2
    omega
  have mb : n.mask.bytes = m := by rw [m1]; rfl
  have hp : n.plen ≤ 128 := hn.plen
  obtain ⟨b, b1, b2, b3⟩ := v6FromPrefix_val n.plen hp
  have e : b = m := beValue_inj _ _ (by rw [b2, m2]) (by rw [b3, m3]; rfl)
  have table : ∀ p : Fin 129, (v6FromPrefix p.val >>= fun m => .ok (beValue (halvesReversed m))) =
      Res.ok (2 ^ 128 - 1 - beValue (halvesReversed (hostMaskBytes p.val))) := by decide +kernel
  have t := table ⟨n.plen, by omega⟩
  simp only [b1, Res.ok_bind] at t
  obtain ⟨u, u1, u2⟩ := be6_toUint m m2
  refine ⟨u, by rw [mb]; exact u1, ?_⟩
  rw [u2, ← e]
  exact Res.ok.inj t

/-- C66, IPv6 on big endian hosts, exactly: the address of a supernet is the address of the network under the shifted
netmask, both read with each half in the opposite order.  If that address has host bits the program ends. -/
theorem C66_v6_supernet_exact (c : Cfg) (n : Net V6) (hn : NetOk6 c n) (h0 : n.plen ≠ 0) (d : Nat) (hd : d ≤ n.plen) (hd' : d < 128) :
    ∃ a : V6, a.bytes.length = 16 ∧ a.scope = emptyScope c.M ∧
      turned a = turned n.addr &&& ((2 ^ 128 - 1 - beValue (halvesReversed (hostMaskBytes n.plen))) * 2 ^ d % 2 ^ 128) ∧
      ((∃ i, i < 128 - (n.plen - d) ∧ (beValue a.bytes).testBit i = true) → (fam6 (c.onHost false)).supernet n d none = .ub) ∧
      ((¬ ∃ i, i < 128 - (n.plen - d) ∧ (beValue a.bytes).testBit i = true) →
        ∃ r, (fam6 (c.onHost false)).supernet n d none = .ok r ∧ r.addr = a ∧ r.plen = n.plen - d) := by
  obtain ⟨u, u1, u2⟩ := be6_toUint n.addr.bytes hn.wf.1
  obtain ⟨m, m1, m2⟩ := be6_mask c n hn
  obtain ⟨s, s1, s2⟩ := u128Law.shl m d hd'
  obtain ⟨b, b1, b2, _, b4⟩ := be6_fromUint (u128Ops.and u s)
  have wf : V6.WF (c.onHost true).M ⟨b, emptyScope c.M⟩ := (fam6Law (c.onHost true) rfl).wf_ofBytes b (by rw [b2]; rfl)
  have spec := C24_from_address_v6 (c.onHost true) rfl ⟨b, emptyScope c.M⟩ wf (n.plen - d) (Nat.le_trans (Nat.sub_le ..) hn.plen)
  have same : (fam6 (c.onHost false)).fromAddress ⟨b, emptyScope c.M⟩ (n.plen - d) true =
      (fam6 (c.onHost true)).fromAddress ⟨b, emptyScope c.M⟩ (n.plen - d) true := (onHost_same c false true).2.2.1 _ _ _
  have run : (fam6 (c.onHost false)).supernet n d none =
      Fam.noexcept ((fam6 (c.onHost true)).fromAddress ⟨b, emptyScope c.M⟩ (n.plen - d) true) := by
    have nu : (fam6 (c.onHost false)).toUint n.addr = .ok u := u1
    have mu : (fam6 (c.onHost false)).toUint n.mask = .ok m := m1
    have sh : (fam6 (c.onHost false)).ops.shl m d = .ok s := s1
    have fr : (fam6 (c.onHost false)).fromUint ((fam6 (c.onHost false)).ops.and u s) = .ok ⟨b, emptyScope c.M⟩ := by
      show (v6FromUint false (u128Ops.and u s) >>= fun b => _) = _
      rw [b1]
      rfl
    unfold Fam.supernet
    rw [if_neg h0]
    show (if d > n.plen then _ else _) = _
    rw [if_neg (by omega)]
    simp only [nu, mu, sh, fr, Res.ok_bind]
    rw [same]
  refine ⟨⟨b, emptyScope c.M⟩, b2, rfl, ?_, fun h => ?_, fun h => ?_⟩
  · unfold turned
    simp only
    rw [b4, u128Law.and, s2, m2, u2]
  · rw [run, spec.1.1.2 h]
    rfl
  · obtain ⟨r, r1, r2, r3⟩ := spec.1.2 h
    exact ⟨r, by rw [run, r1]; rfl, r2, r3⟩

example := C66_v6_supernet_exact exCfg ex32 ex32_ok (by decide) 8 (by decide) (by decide)

/-- The bytes of the netmask of a prefix length. -/
def Spec.maskBytes (p : Nat) : List (BitVec 8) := (hostMaskBytes p).map (· ^^^ 0xFF#8)

/-- The netmask of a prefix length, read with each half in the opposite order. -/
def Spec.turnedMask (p : Nat) : Nat := 2 ^ 128 - 1 - beValue (halvesReversed (hostMaskBytes p))

theorem maskBytes_table : ∀ p : Fin 129, (maskBytes p.val).length = 16 ∧ beValue (maskBytes p.val) = 2 ^ 128 - 2 ^ (128 - p.val) ∧
    beValue (halvesReversed (maskBytes p.val)) = turnedMask p.val := by
  decide +kernel

/-- Half a netmask, its bytes in the opposite order: whole bytes, and the bits of the next one. -/
def halfMask (p : Nat) : Nat := 2 ^ (8 * (p / 8)) - 1 + (256 - 2 ^ (8 - p % 8)) * 2 ^ (8 * (p / 8))

theorem turnedMask_eq : ∀ p : Fin 129, turnedMask p.val =
    if p.val ≤ 64 then halfMask p.val * 2 ^ 64 else (2 ^ 64 - 1) * 2 ^ 64 + halfMask (p.val - 64) := by
  decide +kernel

theorem supernet_pairs : ((List.range 129).all fun p => (List.range 128).all fun d => d == 0 || p.blt d ||
    (((if p ≤ 64 then halfMask p * 2 ^ 64 else (2 ^ 64 - 1) * 2 ^ 64 + halfMask (p - 64)) &&&
      ((if p ≤ 64 then halfMask p * 2 ^ 64 else (2 ^ 64 - 1) * 2 ^ 64 + halfMask (p - 64)) * 2 ^ d % 2 ^ 128) ==
        (if p - d ≤ 64 then halfMask (p - d) * 2 ^ 64 else (2 ^ 64 - 1) * 2 ^ 64 + halfMask (p - d - 64))) ==
      (p.ble 8 || (d == p && p % 8 == 0 && p.ble 64) || (d == 64 && Nat.ble 64 p)))) = true := by
  decide +kernel

theorem supernet_table (p d : Nat) (hp : p ≤ 128) (h1 : 1 ≤ d) (hd : d ≤ p) (hd' : d < 128) :
    (turnedMask p &&& (turnedMask p * 2 ^ d % 2 ^ 128) = turnedMask (p - d) ↔
      p ≤ 8 ∨ (d = p ∧ p % 8 = 0 ∧ p ≤ 64) ∨ (d = 64 ∧ 64 ≤ p)) := by
  have t := List.all_eq_true.1 (List.all_eq_true.1 supernet_pairs p (List.mem_range.2 (by omega))) d (List.mem_range.2 hd')
  have e1 := turnedMask_eq ⟨p, by omega⟩
  have e2 := turnedMask_eq ⟨p - d, by omega⟩
  simp only at e1 e2
  have nd : (d == 0) = false := by simp; omega
  have np : p.blt d = false := by
    rw [Bool.eq_false_iff]
    intro h
    rw [Nat.blt_eq] at h
    omega
  rw [← e1, ← e2, nd, np, Bool.false_or, Bool.false_or, beq_iff_eq] at t
  rw [← beq_iff_eq, t]
  simp only [Bool.or_eq_true, Bool.and_eq_true, beq_iff_eq, Nat.ble_eq, or_assoc, and_assoc]

theorem zipWith_and (a b : List (BitVec 8)) (h : a.length = b.length) :
    beValue (List.zipWith (· &&& ·) a b) = beValue a &&& beValue b := by
  obtain ⟨r, h1, _, h3⟩ := bytesZip_and a b h
  have : ∀ (a b : List (BitVec 8)), a.length = b.length → bytesZip (· &&& ·) a b = .ok (List.zipWith (· &&& ·) a b) := by
    intro a
    induction a with
    | nil => intro b h; cases b with
      | nil => rfl
      | cons _ _ => simp at h
    | cons x xs ih => intro b h; cases b with
      | nil => simp at h
      | cons y ys => simp [bytesZip, ih ys (by simpa using h)]
  rw [this a b h] at h1
  cases h1
  exact h3

theorem halvesReversed_zip (a b : List (BitVec 8)) (ha : a.length = 16) (hb : b.length = 16) :
    halvesReversed (List.zipWith (· &&& ·) a b) = List.zipWith (· &&& ·) (halvesReversed a) (halvesReversed b) := by
  unfold halvesReversed
  rw [List.take_zipWith, List.drop_zipWith, List.reverse_zipWith (by simp [ha, hb]), List.reverse_zipWith (by simp [ha, hb]),
    List.zipWith_append (by simp [ha, hb])]

theorem halvesReversed_inj (a b : List (BitVec 8)) (ha : a.length = 16) (hb : b.length = 16)
    (h : beValue (halvesReversed a) = beValue (halvesReversed b)) : a = b := by
  have e : halvesReversed a = halvesReversed b := beValue_inj _ _ (by simp [halvesReversed, ha, hb]) h
  obtain ⟨e1, e2⟩ := List.append_inj e (by simp [ha, hb])
  rw [← List.take_append_drop 8 a, ← List.take_append_drop 8 b, List.reverse_inj.1 e1, List.reverse_inj.1 e2]

/-- The bytes of an address under a netmask. -/
theorem under_mask (b : List (BitVec 8)) (hb : b.length = 16) (p : Nat) (hp : p ≤ 128) :
    (List.zipWith (· &&& ·) b (maskBytes p)).length = 16 ∧
    beValue (List.zipWith (· &&& ·) b (maskBytes p)) = beValue b / 2 ^ (128 - p) * 2 ^ (128 - p) ∧
    beValue (halvesReversed (List.zipWith (· &&& ·) b (maskBytes p))) = beValue (halvesReversed b) &&& turnedMask p := by
  obtain ⟨t1, t2, t3⟩ := maskBytes_table ⟨p, by omega⟩
  simp only at t1 t2 t3
  refine ⟨by simp [hb, t1], ?_, ?_⟩
  · rw [zipWith_and b _ (hb.trans t1.symm), t2]
    exact and_mask 128 (128 - p) _ (by omega) (beValue_lt_pow _ 128 (by rw [hb]))
  · rw [halvesReversed_zip b _ hb t1, zipWith_and _ _ (by simp [halvesReversed, hb, t1]), t3]

theorem ones_cut (p d : Nat) (hp : p ≤ 128) (h1 : 1 ≤ d) (hd : d ≤ p) :
    (2 ^ 128 - 2 ^ (128 - p)) / 2 ^ (128 - (p - d)) * 2 ^ (128 - (p - d)) = 2 ^ 128 - 2 ^ (128 - (p - d)) := by
  have a1 : 2 ^ (128 - p) ≤ 2 ^ (128 - (p - d)) := Nat.pow_le_pow_right (by decide) (by omega)
  have a2 := two_pow_split 128 (128 - (p - d)) (by omega)
  have a3 : 0 < 2 ^ (128 - p) := Nat.two_pow_pos _
  have a4 : 0 < 2 ^ (128 - (128 - (p - d))) := Nat.two_pow_pos _
  have : (2 ^ 128 - 2 ^ (128 - p)) / 2 ^ (128 - (p - d)) = 2 ^ (128 - (128 - (p - d))) - 1 := by
    refine Nat.div_eq_of_lt_le ?_ ?_
    · rw [Nat.sub_mul, Nat.one_mul, ← a2]
      exact Nat.sub_le_sub_left a1 _
    · rw [Nat.sub_add_cancel a4, ← a2]
      exact Nat.sub_lt (Nat.two_pow_pos _) a3
  rw [this, Nat.sub_mul, Nat.one_mul, ← a2]

/-- C66, IPv6 on big endian hosts: `supernet` finds the right networks for all networks of a prefix length exactly if that is at
most 8, or the supernet is `::/0` and the prefix length a whole number of bytes up to 64, or 64 bits are dropped. -/
theorem C66_v6_supernet_right (c : Cfg) (p d : Nat) (hp : p ≤ 128) (h1 : 1 ≤ d) (hd : d ≤ p) (hd' : d < 128) :
    (∀ n, NetOk6 c n → n.plen = p → ∃ r r', (fam6 (c.onHost false)).supernet n d none = .ok r ∧
      (fam6 (c.onHost true)).supernet n d none = .ok r' ∧ r.addr = r'.addr ∧ r.plen = r'.plen) ↔
    p ≤ 8 ∨ (d = p ∧ p % 8 = 0 ∧ p ≤ 64) ∨ (d = 64 ∧ 64 ≤ p) := by
  rw [← supernet_table p d hp h1 hd hd']
  obtain ⟨q1, q2, q3⟩ := maskBytes_table ⟨p, by omega⟩
  obtain ⟨k1, k2, k3⟩ := maskBytes_table ⟨p - d, by omega⟩
  simp only at q1 q2 q3 k1 k2 k3
  have le : ∀ n, NetOk6 c n → n.plen = p → ∃ r', (fam6 (c.onHost true)).supernet n d none = .ok r' ∧ r'.plen = p - d ∧
      ∃ x, r'.addr = ⟨x, emptyScope c.M⟩ ∧ x.length = 16 ∧ beValue x = beValue n.addr.bytes / 2 ^ (128 - (p - d)) * 2 ^ (128 - (p - d)) := by
    intro n hn np
    have ok : NetOk6 (c.onHost true) n := ⟨hn.wf, hn.plen, hn.mask, hn.aligned⟩
    obtain ⟨a, m, s, u, r, g1, g2, g3, g4, g5, g6, g7, ⟨x, g8⟩, g9⟩ :=
      supernet_go (fam6Law (c.onHost true) rfl) n ok d (by omega) hd'
    obtain ⟨r', e1, _⟩ := C33_supernet_v6_partial (c.onHost true) rfl n ok (by omega) d (by omega) hd'
    have : (fam6 (c.onHost true)).supernet n d none = .ok r := by
      rw [Fam.supernet, if_neg (by omega)]
      simp only
      rw [if_neg (by omega), g1, Res.ok_bind, g2, Res.ok_bind, g3, Res.ok_bind, g4, Res.ok_bind, g5]
      rfl
    refine ⟨r, this, by rw [g7, np], x, g8, ?_, ?_⟩
    · have := g6.wf.1
      rw [g8] at this
      exact this
    · rw [g8, np] at g9
      exact g9
  constructor
  · intro h
    have al : (2 ^ 128 - 2 ^ (128 - p)) % 2 ^ (128 - p) = 0 :=
      Nat.mod_eq_zero_of_dvd (Nat.dvd_sub (Nat.pow_dvd_pow 2 (by omega)) (Nat.dvd_refl _))
    have ok : NetOk6 c ⟨⟨maskBytes p, emptyScope c.M⟩, ⟨maskBytes p, emptyScope c.M⟩, p⟩ := by
      refine ⟨(fam6Law (c.onHost true) rfl).wf_ofBytes (maskBytes p) (by rw [q1]; rfl), hp, ⟨_, rfl, by show 8 * (maskBytes p).length = 128; rw [q1], q2⟩, ?_⟩
      show beValue (maskBytes p) % 2 ^ (128 - p) = 0
      rw [q2]
      exact al
    obtain ⟨r, r', e1, e2, e3, e4⟩ := h _ ok rfl
    obtain ⟨s, s1, _, x, s2, s3, s4⟩ := le _ ok rfl
    rw [e2] at s1
    cases s1
    obtain ⟨a, a1, a2, a3, a4, a5⟩ := C66_v6_supernet_exact c _ ok (show p ≠ 0 by omega) d hd hd'
    have na : ¬ ∃ i, i < 128 - (p - d) ∧ (beValue a.bytes).testBit i = true := fun w => by
      rw [a4 w] at e1
      cases e1
    obtain ⟨t, t1, t2, _⟩ := a5 na
    rw [e1] at t1
    cases t1
    have xm : x = maskBytes (p - d) := by
      refine beValue_inj _ _ (s3.trans k1.symm) ?_
      rw [s4, k2]
      show beValue (maskBytes p) / _ * _ = _
      rw [q2]
      exact ones_cut p d hp h1 hd
    rw [s2, t2] at e3
    rw [e3] at a3
    simp only [turned, xm, k3, q3] at a3
    exact a3.symm
  · intro h n hn np
    obtain ⟨r', s1, s5, x, s2, s3, s4⟩ := le n hn np
    obtain ⟨a, a1, a2, a3, a4, a5⟩ := C66_v6_supernet_exact c n hn (by omega) d (by omega) hd'
    have ln : n.addr.bytes.length = 16 := hn.wf.1
    obtain ⟨_, u2, u3⟩ := under_mask n.addr.bytes ln p hp
    obtain ⟨v1, v2, v3⟩ := under_mask n.addr.bytes ln (p - d) (by omega)
    have self : List.zipWith (· &&& ·) n.addr.bytes (maskBytes p) = n.addr.bytes := by
      refine beValue_inj _ _ (by simp [ln, q1]) ?_
      have : beValue n.addr.bytes % 2 ^ (128 - n.plen) = 0 := hn.aligned
      rw [np] at this
      rw [u2]
      exact Nat.div_mul_cancel (Nat.dvd_of_mod_eq_zero this)
    rw [self] at u3
    have ab : a.bytes = x := by
      have : a.bytes = List.zipWith (· &&& ·) n.addr.bytes (maskBytes (p - d)) := by
        refine halvesReversed_inj _ _ a1 v1 ?_
        rw [v3]
        show turned a = _
        rw [a3, np]
        show beValue (halvesReversed n.addr.bytes) &&& _ = _
        rw [← h]
        show _ &&& (turnedMask p * 2 ^ d % 2 ^ 128) = _
        rw [← Nat.and_assoc, ← u3]
      rw [this]
      exact beValue_inj _ _ (v1.trans s3.symm) (v2.trans s4.symm)
    have na : ¬ ∃ i, i < 128 - (n.plen - d) ∧ (beValue a.bytes).testBit i = true := by
      rintro ⟨i, i1, i2⟩
      rw [ab, s4, np.symm, Nat.testBit_mul_two_pow] at i2
      simp at i2
      omega
    obtain ⟨r, r1, r2, r3⟩ := a5 na
    refine ⟨r, r', r1, s1, ?_, by rw [r3, s5, np]⟩
    rw [r2, s2]
    cases a
    simp only at ab a2
    rw [ab, a2]

example := (C66_v6_supernet_right exCfg 96 64 (by decide) (by decide) (by decide) (by decide)).2 (by decide)

end Ip
