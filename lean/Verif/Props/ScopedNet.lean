import Verif.Spec.ScopedNet
import Verif.Props.NetLaws
/-
C90: scope ids of IPv6 networks.  Little endian hosts; every compile time configuration `c`.
-/
set_option autoImplicit false

namespace Ip
open Spec

/-- Without the scope id only one network remains. -/
theorem Spec.SameButScope.removeScopeNet (c : Cfg) {n n' : Net V6} (hn : NetOk6 c n) (hn' : NetOk6 c n') (h : SameButScope n n') :
    (fam6 c).removeScopeNet n = (fam6 c).removeScopeNet n' := by
  have e1 : (fam6 c).removeScope n.addr = _ := v6RemoveScope_eq c.spaces c.M n.addr hn.wf
  have e2 : (fam6 c).removeScope n'.addr = _ := v6RemoveScope_eq c.spaces c.M n'.addr hn'.wf
  unfold Fam.removeScopeNet
  rw [e1, e2, h.addr, h.plen]
  rfl

/-- C90: the scope id of a network has no influence on `contains`, `overlaps`, `broadcast_address`, `hostmask`,
`addresses_count`, `hosts`, `subnets`, `address_exclude` (of neither network), nor on `supernet` of a network other
than the whole address space.  Missing: `subnet_of`, `supernet_of` and the whole address space, see `C90_violated`. -/
theorem C90_ignored_partial (c : Cfg) (n n' m m' : Net V6) (hn : NetOk6 c n) (hn' : NetOk6 c n') (hm : NetOk6 c m)
    (hm' : NetOk6 c m') (h : SameButScope n n') (g : SameButScope m m') :
    (∀ a a' : V6, a.bytes = a'.bytes → (fam6 c).contains n a = (fam6 c).contains n' a') ∧
    (fam6 c).overlaps n m = (fam6 c).overlaps n' m' ∧
    (fam6 c).broadcast n = (fam6 c).broadcast n' ∧ (fam6 c).hostmask n = (fam6 c).hostmask n' ∧
    (fam6 c).addressesCount n = (fam6 c).addressesCount n' ∧ (fam6 c).hosts n = (fam6 c).hosts n' ∧
    (∀ d newp, (fam6 c).subnets n d newp = (fam6 c).subnets n' d newp) ∧
    (fam6 c).addressExclude n m = (fam6 c).addressExclude n' m' ∧
    (n.plen ≠ 0 → ∀ d newp, (fam6 c).supernet n d newp = (fam6 c).supernet n' d newp) := by
  have r1 := h.removeScopeNet c hn hn'
  have r2 := g.removeScopeNet c hm hm'
  have e1 : (fam6 c).removeScope n.addr = _ := v6RemoveScope_eq c.spaces c.M n.addr hn.wf
  have e2 : (fam6 c).removeScope n'.addr = _ := v6RemoveScope_eq c.spaces c.M n'.addr hn'.wf
  have x : (fam6 c).addressExclude n m = (fam6 c).addressExclude n' m' := by
    unfold Fam.addressExclude
    rw [r1, r2]
  have y : ∀ d newp, (fam6 c).subnets n d newp = (fam6 c).subnets n' d newp := by
    intro d newp
    unfold Fam.subnets
    rw [e1, e2]
    obtain ⟨⟨b, s⟩, k, p⟩ := n
    obtain ⟨⟨b', s'⟩, k', p'⟩ := n'
    obtain ⟨h1, h2, h3⟩ := h
    simp only at h1 h2 h3
    subst h1; subst h2; subst h3
    rfl
  clear hn hn' hm hm' r1 r2 e1 e2
  obtain ⟨⟨b, s⟩, k, p⟩ := n
  obtain ⟨⟨b', s'⟩, k', p'⟩ := n'
  obtain ⟨⟨u, s2⟩, l, q⟩ := m
  obtain ⟨⟨u', s2'⟩, l', q'⟩ := m'
  obtain ⟨h1, h2, h3⟩ := h
  obtain ⟨g1, g2, g3⟩ := g
  simp only at h1 h2 h3 g1 g2 g3
  subst h1; subst h2; subst h3; subst g1; subst g2; subst g3
  refine ⟨?_, rfl, rfl, rfl, rfl, rfl, y, x, ?_⟩
  · rintro ⟨a, t⟩ ⟨a', t'⟩ e
    simp only at e
    subst e
    rfl
  · intro h0 d newp
    have h0' : p ≠ 0 := h0
    unfold Fam.supernet
    rw [if_neg h0', if_neg h0']
    rfl

/-- C90: the whole address space is its own supernet, with its scope id. -/
theorem C90_whole (c : Cfg) (n : Net V6) (h : n.plen = 0) (d : Nat) (newp : Option Nat) : (fam6 c).supernet n d newp = .ok n := by
  unfold Fam.supernet
  rw [if_pos h]

/-- C90: what `subnet_of` and `supernet_of` answer, for all networks. -/
theorem C90_subnet_of (c : Cfg) (hc : c.le = true) (hv : ∀ x y, c.val x = c.val y → x = y) (n m : Net V6)
    (hn : NetOk6 c n) (hm : NetOk6 c m) :
    ∃ r, (fam6 c).subnetOf n m = .ok r ∧ (fam6 c).supernetOf m n = .ok r ∧ (r = true ↔ Covers n m ∧ ¬ ScopeForbids c n m) := by
  obtain ⟨r, h1, h2, h3⟩ := C29_scoped_v6 c hc hv n m hn hm
  refine ⟨r, h1, h2, h3.trans (and_congr_right fun _ => ?_)⟩
  unfold ScopeForbids
  cases c.spaceship <;> simp
  tauto

/-- Scope ids are not smaller than each other. -/
theorem ScopeLt.asymm (val : Char → Int) (hv : ∀ x y, val x = val y → x = y) (s t : List Char) (h : ScopeLt val s t) :
    ¬ ScopeLt val t s := by
  rw [← lexCmp_lt_iff val hv] at h ⊢
  have := (FStr.lexCmp_neg val s t).mp h
  omega

/-- Networks do not forbid each other. -/
theorem ScopeForbids.asymm (c : Cfg) (hv : ∀ x y, c.val x = c.val y → x = y) (n m : Net V6) (h : ScopeForbids c n m) :
    ¬ ScopeForbids c m n := fun g => ScopeLt.asymm c.val hv _ _ h.1 g.1

/-- C90: overlapping networks of which neither is a subnet of the other are exactly those where the smaller one has a
forbidden scope id. -/
theorem C90_overlaps (c : Cfg) (hc : c.le = true) (hv : ∀ x y, c.val x = c.val y → x = y) (n m : Net V6)
    (hn : NetOk6 c n) (hm : NetOk6 c m) :
    ∃ r s t, (fam6 c).overlaps n m = .ok r ∧ (fam6 c).subnetOf n m = .ok s ∧ (fam6 c).subnetOf m n = .ok t ∧
      (r = true ↔ Covers n m ∨ Covers m n) ∧ (s = true ∨ t = true → r = true) ∧
      (r = true ∧ s = false ∧ t = false ↔
        Covers n m ∧ ¬ Covers m n ∧ ScopeForbids c n m ∨ Covers m n ∧ ¬ Covers n m ∧ ScopeForbids c m n) := by
  obtain ⟨r, r1, -, r2, r3⟩ := C28_overlaps_v6 c hc n m hn hm
  obtain ⟨s, s1, -, s2⟩ := C90_subnet_of c hc hv n m hn hm
  obtain ⟨t, t1, -, t2⟩ := C90_subnet_of c hc hv m n hm hn
  have k : r = true ↔ Covers n m ∨ Covers m n := by
    constructor
    · exact r3
    · have m1 := self_mem (fam6Law c hc) n hn
      have m2 := self_mem (fam6Law c hc) m hm
      rintro (h | h)
      · exact r2.mpr ⟨_, m1, h _ m1⟩
      · exact r2.mpr ⟨_, h _ m2, m2⟩
  refine ⟨r, s, t, r1, s1, t1, k, ?_, ?_⟩
  · rw [s2, t2, k]
    tauto
  · have n1 := ScopeForbids.asymm c hv n m
    rw [← Bool.not_eq_true, ← Bool.not_eq_true, s2, t2, k]
    clear r1 r2 r3 s1 s2 t1 t2 k
    generalize Covers n m = P at *
    generalize Covers m n = Q at *
    generalize ScopeForbids c n m = X at *
    generalize ScopeForbids c m n = Y at *
    tauto

/-- C90: the network around an address has the bits of the network that contains the address.  Its scope id is that of
the address if the address is the first of the network, otherwise it is empty.  A network is rebuilt from its own
address, with the scope id. -/
theorem C90_from_address (c : Cfg) (hc : c.le = true) (n : Net V6) (hn : NetOk6 c n) (a : V6) (ha : a.WF c.M) :
    (fam6 c).fromAddress n.addr n.plen true = .ok n ∧
    ∃ r m, (fam6 c).contains n a = .ok r ∧ (fam6 c).fromAddress a n.plen false = .ok m ∧ (r = true ↔ SameButScope m n) ∧
      m.addr.scope = if m.addr.bytes = a.bytes then a.scope else emptyScope c.M := by
  have L := fam6Law c hc
  refine ⟨?_, ?_⟩
  · obtain ⟨m, b, h1, h2, h3, h4, h5⟩ := fromAddress_eq L n.addr hn.wf n.plen hn.plen true
    have al : (fam6 c).v n.addr % 2 ^ ((fam6 c).maxPrefix - n.plen) = 0 := hn.aligned
    rw [if_pos al] at h5
    rw [h5]
    obtain ⟨k, k1, k2, k3⟩ := hn.mask
    rw [beValue_inj m k (by omega) (by rw [h2, k3]), ← k1]
  · obtain ⟨r, _, r1, -, r2, -⟩ := contains_spec L n hn a ha
    obtain ⟨m, b, h1, h2, h3, h4, h5⟩ := fromAddress_eq L a ha n.plen hn.plen false
    obtain ⟨k, k1, k2, k3⟩ := hn.mask
    have em : (fam6 c).ofBytes m = n.mask := by rw [k1, beValue_inj m k (by omega) (by rw [h2, k3])]
    have hlt := L.v_lt _ hn.wf
    have hal : (fam6 c).v n.addr % 2 ^ ((fam6 c).maxPrefix - n.plen) = 0 := hn.aligned
    have pos := Nat.two_pow_pos ((fam6 c).maxPrefix - n.plen)
    have hr : r = true ↔ (fam6 c).v a / 2 ^ ((fam6 c).maxPrefix - n.plen) * 2 ^ ((fam6 c).maxPrefix - n.plen) = (fam6 c).v n.addr := by
      rw [r2, inNet_iff _ _ _ _ hlt]
      have d1 := Nat.div_add_mod ((fam6 c).v n.addr) (2 ^ ((fam6 c).maxPrefix - n.plen))
      rw [hal, Nat.add_zero, Nat.mul_comm] at d1
      constructor
      · rintro ⟨-, h⟩
        rw [h, d1]
      · intro h
        refine ⟨L.v_lt _ ha, ?_⟩
        rw [← h, Nat.mul_div_cancel _ pos]
    by_cases e : (fam6 c).v a % 2 ^ ((fam6 c).maxPrefix - n.plen) = 0
    · rw [if_pos e] at h5
      have d2 := Nat.div_add_mod ((fam6 c).v a) (2 ^ ((fam6 c).maxPrefix - n.plen))
      rw [e, Nat.add_zero, Nat.mul_comm] at d2
      refine ⟨r, _, r1, h5, ?_, by rw [if_pos rfl]⟩
      rw [hr, d2]
      exact ⟨fun h => ⟨beValue_inj _ _ (by rw [ha.1, hn.wf.1]) h, em, rfl⟩, fun h => by show beValue a.bytes = beValue n.addr.bytes; rw [h.addr]⟩
    · rw [if_neg e, if_neg (by simp)] at h5
      have hb : b.length = 16 := by have : 8 * b.length = 128 := h3; omega
      refine ⟨r, _, r1, h5, ?_, ?_⟩
      · rw [hr, ← h4]
        exact ⟨fun h => ⟨beValue_inj _ _ (by show b.length = _; rw [hb, hn.wf.1]) h, em, rfl⟩, fun h => by
          show beValue b = beValue n.addr.bytes; rw [← h.addr]; rfl⟩
      · rw [if_neg]
        · rfl
        · intro h
          have h' : b = a.bytes := h
          apply e
          have : (fam6 c).v a = beValue b := by rw [h']; rfl
          rw [this, h4, Nat.mul_mod_left]

/-- C90: a network, with any scope id, is a subnet of its supernets, which have no scope id. -/
theorem C90_supernet (c : Cfg) (hc : c.le = true) (hv : ∀ x y, c.val x = c.val y → x = y) (n : Net V6) (hn : NetOk6 c n)
    (h0 : n.plen ≠ 0) (d : Nat) (hd : d ≤ n.plen) (hw : d < 128) :
    ∃ r, (fam6 c).supernet n d none = .ok r ∧ NetOk6 c r ∧ r.plen = n.plen - d ∧ r.addr.scope = emptyScope c.M ∧
      (fam6 c).subnetOf n r = .ok true := by
  obtain ⟨r, r1, r2, r3, r4⟩ := supernet_plain (fam6Law c hc) n hn h0 d hd hw
  have sr := ((plain6_iff c r).mp r2).2
  obtain ⟨s, s1, -, s2⟩ := C90_subnet_of c hc hv n r hn r2.ok
  refine ⟨r, r1, r2.ok, r3, sr, ?_⟩
  rw [s1, s2.mpr ⟨r4, ?_⟩]
  rintro ⟨h, -⟩
  rw [sr] at h
  rcases h with ⟨x, t, h⟩ | ⟨p, x, y, t, t', -, h, -⟩
  · simp [emptyScope, FStr.contents] at h
  · simp [emptyScope, FStr.contents] at h

/-- C90: a network without scope id within a network that has one, as the loops over `subnets` and `address_exclude`
give, is not a subnet of it: with `<=>` the first one, without it all of them. -/
theorem C90_parts (c : Cfg) (hc : c.le = true) (hv : ∀ x y, c.val x = c.val y → x = y) (n m : Net V6)
    (hn : NetOk6 c n) (hm : NetOk6 c m) (sm : m.addr.scope = emptyScope c.M) (h : Covers m n) :
    (fam6 c).subnetOf m n = .ok (decide (n.addr.scope.contents = [] ∨ (c.spaceship = true ∧ m.addr.bytes ≠ n.addr.bytes))) := by
  obtain ⟨s, s1, -, s2⟩ := C90_subnet_of c hc hv m n hm hn
  rw [s1]
  congr 1
  rw [Bool.eq_iff_iff, s2, decide_eq_true_iff]
  have e : ScopeLt c.val m.addr.scope.contents n.addr.scope.contents ↔ n.addr.scope.contents ≠ [] := by
    rw [sm, show (emptyScope c.M).contents = [] by simp [emptyScope, FStr.contents]]
    unfold ScopeLt
    constructor
    · rintro (⟨x, t, h⟩ | ⟨p, x, y, t, t', h, -⟩)
      · rw [h]; simp
      · simp at h
    · intro h
      obtain ⟨x, t, e⟩ := List.exists_cons_of_ne_nil h
      exact .inl ⟨x, t, by rw [e]; rfl⟩
  unfold ScopeForbids
  rw [e]
  tauto

/-- `fe80::/10` and `::%1/0`, beside `exScope10`, which is `fe80::%1/10`. -/
def exPlain10 : Net V6 := ⟨⟨exScope10.addr.bytes, emptyScope 16⟩, exScope10.mask, 10⟩

/-- See `exPlain10`. -/
def exScope0 : Net V6 := ⟨⟨List.replicate 16 0, exScope10.addr.scope⟩, ⟨List.replicate 16 0, emptyScope 16⟩, 0⟩

theorem exPlain10_ok : NetOk6 exCfg exPlain10 ∧ NetOk6 exCfg exScope0 ∧ SameButScope exScope10 exPlain10 :=
  ⟨⟨⟨rfl, Nat.zero_le _, by simp [exPlain10, emptyScope, exCfg]⟩, by decide, ⟨_, rfl, rfl, by decide⟩, by decide⟩,
    ⟨⟨rfl, exScope10_ok.1.wf.2.1, exScope10_ok.1.wf.2.2⟩, by decide, ⟨_, rfl, rfl, by decide⟩, by decide⟩, ⟨rfl, rfl, rfl⟩⟩

/-- C90, negation: `fe80::%1/10` is a subnet of `fe80::/10`, which is not a subnet of `fe80::%1/10`; the supernet of
`::%1/0` has the scope id, that of `8000::%1/1` has not. -/
theorem C90_violated : SameButScope exScope10 exPlain10 ∧
    (fam6 exCfg).subnetOf exScope10 exPlain10 = .ok true ∧ (fam6 exCfg).subnetOf exPlain10 exScope10 = .ok false ∧
    (fam6 exCfg).subnetOf exPlain10 exPlain10 = .ok true ∧
    (fam6 exCfg).supernet exScope0 1 none = .ok exScope0 ∧ exScope0.addr.scope.contents = ['1'] ∧
    ∃ r, (fam6 exCfg).supernet exScope10 10 none = .ok r ∧ r.addr.scope.contents = [] :=
  ⟨exPlain10_ok.2.2, by decide +kernel, by decide +kernel, by decide +kernel, by decide +kernel, by decide,
    ⟨⟨List.replicate 16 0, emptyScope 16⟩, ⟨List.replicate 16 0, emptyScope 16⟩, 0⟩, by decide +kernel, by decide⟩

example := C90_ignored_partial exCfg exScope10 exPlain10 exPlain64 exPlain64 exScope10_ok.1 exPlain10_ok.1 exScope10_ok.2
  exScope10_ok.2 exPlain10_ok.2.2 ⟨rfl, rfl, rfl⟩
example := C90_whole exCfg exScope0 rfl 3 none
example := C90_subnet_of exCfg rfl exCfg_val exScope10 exPlain64 exScope10_ok.1 exScope10_ok.2
example := C90_overlaps exCfg rfl exCfg_val exPlain64 exScope10 exScope10_ok.2 exScope10_ok.1
example : ScopeForbids exCfg exPlain64 exScope10 :=
  ⟨.inl ⟨'1', [], by decide⟩, fun _ => rfl⟩
example := C90_from_address exCfg rfl exScope10 exScope10_ok.1 exPlain64.addr exScope10_ok.2.wf
example := C90_supernet exCfg rfl exCfg_val exScope10 exScope10_ok.1 (by decide) 3 (by decide) (by decide)
example : (fam6 exCfg).subnetOf exPlain10 exScope10 = .ok false :=
  (C90_parts exCfg rfl exCfg_val exScope10 exPlain10 exScope10_ok.1 exPlain10_ok.1 rfl (fun _ h => h)).trans (by decide)

end Ip
