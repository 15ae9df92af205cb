import Verif.Lemmas.AIter
import Verif.Lemmas.NetSpec
/-
Network iterators, and the sequences made by `hosts()` and `subnets()`.
-/
set_option autoImplicit false

namespace Ip
open Spec

section
variable {A U : Type} {F : Fam A U} {WF : A → Prop} {val : U → Nat}

/-! ### Networks without scope id -/

/-- `n` is the network of prefix length `p` whose address has the value `v`, without scope id. -/
structure IsNet (F : Fam A U) (p v : Nat) (n : Net A) : Prop where
  addr : IsAddr F v n.addr
  plen : n.plen = p
  mask : F.fromPrefix p = .ok n.mask
  le : p ≤ F.maxPrefix
  aligned : v % 2 ^ (F.maxPrefix - p) = 0

theorem IsNet.inj {p v : Nat} {a b : Net A} (ha : IsNet F p v a) (hb : IsNet F p v b) : a = b := by
  have e1 := IsAddr.inj ha.addr hb.addr
  have e2 : a.mask = b.mask := by
    have := ha.mask.symm.trans hb.mask
    injection this
  have e3 := ha.plen.trans hb.plen.symm
  cases a; cases b; simp_all

theorem IsNet.v_lt (L : F.Law WF val) {p v : Nat} {n : Net A} (h : IsNet F p v n) : v < 2 ^ F.maxPrefix := by
  rw [← h.addr.v_eq L]
  exact L.v_lt _ (h.addr.wf L)

theorem IsNet.v_eq (L : F.Law WF val) {p v : Nat} {n : Net A} (h : IsNet F p v n) : F.v n.addr = v := h.addr.v_eq L

theorem IsNet.netOk (L : F.Law WF val) {p v : Nat} {n : Net A} (h : IsNet F p v n) : NetOk F WF n := by
  obtain ⟨m, m1, m2, m3⟩ := L.fromPrefix p h.le
  have hm : n.mask = F.ofBytes m := by
    have := h.mask.symm.trans m1
    injection this
  have hv : beValue (F.bytes n.addr) = v := h.v_eq L
  exact ⟨h.addr.wf L, by rw [h.plen]; exact h.le, ⟨m, hm, m2, by rw [m3, h.plen]⟩, by rw [hv, h.plen]; exact h.aligned⟩

theorem NetOk.isNet (L : F.Law WF val) {n : Net A} (h : NetOk F WF n) (hp : ∃ x, n.addr = F.ofBytes x) :
    IsNet F n.plen (F.v n.addr) n := by
  obtain ⟨x, hx⟩ := hp
  obtain ⟨m, m1, m2, m3⟩ := h.mask
  obtain ⟨m', n1, n2, n3⟩ := L.fromPrefix n.plen h.plen
  have hl := L.len _ h.wf
  rw [hx, L.bytes_ofBytes] at hl
  refine ⟨⟨x, hx, hl, by rw [hx, L.v_ofBytes]⟩, rfl, ?_, h.plen, h.aligned⟩
  rw [n1, m1, beValue_inj m m' (by omega) (by omega)]

theorem fromAddress_isNet (L : F.Law WF val) {p v : Nat} {a : A} (ha : IsAddr F v a) (hp : p ≤ F.maxPrefix)
    (hal : v % 2 ^ (F.maxPrefix - p) = 0) : ∃ n, F.fromAddress a p true = .ok n ∧ IsNet F p v n := by
  obtain ⟨m, b, h1, h2, h3, h4, h5⟩ := fromAddress_eq L a (ha.wf L) p hp true
  rw [ha.v_eq L, if_pos hal] at h5
  refine ⟨_, h5, ha, rfl, ?_, hp, hal⟩
  obtain ⟨m', n1, n2, n3⟩ := L.fromPrefix p hp
  show _ = Res.ok (F.ofBytes m)
  rw [n1, beValue_inj m m' (by omega) (by omega)]

theorem fromAddress_misaligned (L : F.Law WF val) {p v : Nat} {a : A} (ha : IsAddr F v a) (hp : p ≤ F.maxPrefix)
    (hal : v % 2 ^ (F.maxPrefix - p) ≠ 0) : F.fromAddress a p true = .err .has_host_bits_set 0 := by
  obtain ⟨m, b, h1, h2, h3, h4, h5⟩ := fromAddress_eq L a (ha.wf L) p hp true
  rw [ha.v_eq L, if_neg hal] at h5
  exact h5

theorem pow_inj_le (w p q : Nat) (hp : p ≤ w) (hq : q ≤ w) (h : 2 ^ w - 2 ^ (w - p) = 2 ^ w - 2 ^ (w - q)) : p = q := by
  have h1 : 2 ^ (w - p) ≤ 2 ^ w := Nat.pow_le_pow_right (by decide) (by omega)
  have h2 : 2 ^ (w - q) ≤ 2 ^ w := Nat.pow_le_pow_right (by decide) (by omega)
  have e := Nat.pow_right_injective (Nat.le_refl 2) (show 2 ^ (w - p) = 2 ^ (w - q) by omega)
  omega

theorem netEq_isNet (L : F.Law WF val) {p q v u : Nat} {a b : Net A} (ha : IsNet F p v a) (hb : IsNet F q u b) :
    F.netEq a b = .ok (decide (v = u ∧ p = q)) := by
  obtain ⟨m, m1, m2, m3⟩ := L.fromPrefix p ha.le
  obtain ⟨m', n1, n2, n3⟩ := L.fromPrefix q hb.le
  have e1 : a.mask = F.ofBytes m := by have := ha.mask.symm.trans m1; injection this
  have e2 : b.mask = F.ofBytes m' := by have := hb.mask.symm.trans n1; injection this
  simp only [Fam.netEq, ha.addr.eq L hb.addr, Res.ok_bind, e1, e2, L.eq m m' m2 n2]
  by_cases h : v = u
  · rw [if_pos (by simpa using h)]
    congr 1
    rw [decide_eq_decide, m3, n3]
    constructor
    · intro e; exact ⟨h, pow_inj_le _ _ _ ha.le hb.le e⟩
    · rintro ⟨_, rfl⟩; rfl
  · rw [if_neg (by simpa using h), decide_eq_false (fun x => h x.1)]

theorem subnetOf_isNet (L : F.Law WF val) {p q v u : Nat} {a b : Net A} (ha : IsNet F p v a) (hb : IsNet F q u b) :
    F.subnetOf a b = .ok (decide (u ≤ v ∧ v + 2 ^ (F.maxPrefix - p) ≤ u + 2 ^ (F.maxPrefix - q))) := by
  rw [Fam.subnetOf, isSubnetOf_eq L a b (ha.netOk L) (hb.netOk L) ha.addr.plain hb.addr.plain, ha.v_eq L, hb.v_eq L,
    ha.plen, hb.plen]

/-! ### Network iterators -/

/-- The states of network iterators with step `step` over networks of prefix length `p`. -/
structure NIter.Ok (F : Fam A U) (val : U → Nat) (step : U) (p : Nat) (x : NIter A U) : Prop where
  it : x.it.Ok F val
  step : x.step = step
  plen : x.plen = p
  cur : IsNet F p (val x.it.off) x.cur

/-- The position of a network iterator is the one of its address iterator. -/
def NIter.pos (F : Fam A U) (val : U → Nat) (x : NIter A U) : Nat := x.it.pos F val

theorem mod_aligned (w k a b : Nat) (hk : k ≤ w) (ha : a % 2 ^ k = 0) (hb : b % 2 ^ k = 0) :
    (a + b) % (2 * 2 ^ w) % 2 ^ w % 2 ^ k = 0 := by
  have hd : 2 ^ k ∣ 2 ^ w := Nat.pow_dvd_pow 2 hk
  have h1 : 2 ^ w ∣ 2 * 2 ^ w := ⟨2, by omega⟩
  rw [Nat.mod_mod_of_dvd _ h1, Nat.mod_mod_of_dvd _ hd, Nat.add_mod, ha, hb]
  rfl

theorem mul_mod_aligned (w k a b : Nat) (hk : k ≤ w) (ha : a % 2 ^ k = 0) : a * b % 2 ^ w % 2 ^ k = 0 := by
  rw [Nat.mod_mod_of_dvd _ (Nat.pow_dvd_pow 2 hk), Nat.mul_mod, ha, Nat.zero_mul, Nat.zero_mod]

theorem sub_aligned (w k a : Nat) (hk : k ≤ w) (ha : a % 2 ^ k = 0) : (2 * 2 ^ w - a) % 2 ^ k = 0 := by
  have h1 : 2 ^ k ∣ 2 * 2 ^ w := Nat.dvd_trans (Nat.pow_dvd_pow 2 hk) ⟨2, by omega⟩
  have h2 : 2 ^ k ∣ a := Nat.dvd_of_mod_eq_zero ha
  exact Nat.mod_eq_zero_of_dvd (Nat.dvd_sub h1 h2)

/-- The step from an address iterator to the network iterator at its position. -/
theorem niter_of (L : F.Law WF val) (step : U) (p : Nat) (hp : p ≤ F.maxPrefix) (y : AIter A U) (hy : y.Ok F val)
    (hal : val y.off % 2 ^ (F.maxPrefix - p) = 0) :
    ∃ n, F.fromAddress y.cur p true = .ok n ∧ (⟨n, y, step, p⟩ : NIter A U).Ok F val step p := by
  obtain ⟨n, h1, h2⟩ := fromAddress_isNet L hy.cur hp hal
  exact ⟨n, h1, hy, rfl, rfl, h2⟩

theorem NIter.add_law (L : F.Law WF val) (step : U) (p : Nat) (hs : val step % 2 ^ (F.maxPrefix - p) = 0)
    (x : NIter A U) (hx : x.Ok F val step p) (n : U) :
    ∃ y, F.niAdd x n = .ok y ∧ y.Ok F val step p ∧
      y.pos F val = (x.pos F val + val step * val n % 2 ^ F.maxPrefix) % (2 * 2 ^ F.maxPrefix) := by
  obtain ⟨y, y1, y2, y3⟩ := AIter.add_law L x.it hx.it (F.ops.mul x.step n)
  rw [L.ops.mul, hx.step] at y3
  have hp := hx.cur.le
  have hal := hx.cur.aligned
  have hx1 : AIter.pos F val x.it % 2 ^ (F.maxPrefix - p) = 0 := by
    rw [← Nat.mod_mod_of_dvd _ (Nat.pow_dvd_pow 2 (Nat.sub_le F.maxPrefix p)), AIter.pos_mod L]; exact hal
  have hy : val y.off % 2 ^ (F.maxPrefix - p) = 0 := by
    rw [← AIter.pos_mod L y, y3]
    exact mod_aligned _ _ _ _ (Nat.sub_le ..) hx1 (mul_mod_aligned _ _ _ _ (Nat.sub_le ..) hs)
  obtain ⟨m, m1, m2⟩ := niter_of L step p hp y y2 hy
  refine ⟨_, ?_, m2, y3⟩
  simp only [Fam.niAdd, y1, Res.ok_bind, hx.plen, m1]
  rw [hx.step]

theorem NIter.sub_law (L : F.Law WF val) (step : U) (p : Nat) (hs : val step % 2 ^ (F.maxPrefix - p) = 0)
    (x : NIter A U) (hx : x.Ok F val step p) (n : U) :
    ∃ y, F.niSub x n = .ok y ∧ y.Ok F val step p ∧
      y.pos F val =
        (x.pos F val + (2 * 2 ^ F.maxPrefix - val step * val n % 2 ^ F.maxPrefix)) % (2 * 2 ^ F.maxPrefix) := by
  obtain ⟨y, y1, y2, y3⟩ := AIter.sub_law L x.it hx.it (F.ops.mul x.step n)
  rw [L.ops.mul, hx.step] at y3
  have hp := hx.cur.le
  have hal := hx.cur.aligned
  have hx1 : AIter.pos F val x.it % 2 ^ (F.maxPrefix - p) = 0 := by
    rw [← Nat.mod_mod_of_dvd _ (Nat.pow_dvd_pow 2 (Nat.sub_le F.maxPrefix p)), AIter.pos_mod L]; exact hal
  have hy : val y.off % 2 ^ (F.maxPrefix - p) = 0 := by
    rw [← AIter.pos_mod L y, y3]
    exact mod_aligned _ _ _ _ (Nat.sub_le ..) hx1
      (sub_aligned _ _ _ (Nat.sub_le ..) (mul_mod_aligned _ _ _ _ (Nat.sub_le ..) hs))
  obtain ⟨m, m1, m2⟩ := niter_of L step p hp y y2 hy
  refine ⟨_, ?_, m2, y3⟩
  simp only [Fam.niSub, y1, Res.ok_bind, hx.plen, m1]
  rw [hx.step]

theorem NIter.base_law (L : F.Law WF val) (step : U) (p : Nat) (hs : val step % 2 ^ (F.maxPrefix - p) = 0)
    (x : NIter A U) (hx : x.Ok F val step p) :
    ∃ y, F.niBase x = .ok y ∧ y.Ok F val step p ∧
      y.pos F val = (x.pos F val + val step) % (2 * 2 ^ F.maxPrefix) := by
  obtain ⟨y, y1, y2, y3⟩ := aiter_forward L x.it hx.it x.step
  rw [hx.step] at y3
  have hp := hx.cur.le
  have hal := hx.cur.aligned
  have hx1 : AIter.pos F val x.it % 2 ^ (F.maxPrefix - p) = 0 := by
    rw [← Nat.mod_mod_of_dvd _ (Nat.pow_dvd_pow 2 (Nat.sub_le F.maxPrefix p)), AIter.pos_mod L]; exact hal
  have hy : val y.off % 2 ^ (F.maxPrefix - p) = 0 := by
    rw [← AIter.pos_mod L y, y3]
    exact mod_aligned _ _ _ _ (Nat.sub_le ..) hx1 hs
  obtain ⟨m, m1, m2⟩ := niter_of L step p hp y y2 hy
  obtain ⟨a, a1, _⟩ := fromUint_isAddr L (F.ops.add x.it.off x.step)
  rw [a1, Res.ok_bind] at y1
  injection y1 with y1
  refine ⟨_, ?_, m2, y3⟩
  have hc : y.cur = a := by rw [← y1]
  rw [hc] at m1
  simp only [Fam.niBase, a1, Res.ok_bind, hx.plen, m1]
  rw [y1, hx.step]

theorem NIter.reverse_law (L : F.Law WF val) (step : U) (p : Nat) (hs : val step % 2 ^ (F.maxPrefix - p) = 0)
    (x : NIter A U) (hx : x.Ok F val step p) :
    ∃ y, F.niReverse x = .ok y ∧ y.Ok F val step p ∧
      y.pos F val = (x.pos F val + (2 * 2 ^ F.maxPrefix - val step)) % (2 * 2 ^ F.maxPrefix) := by
  obtain ⟨y, y1, y2, y3⟩ := aiter_backward L x.it hx.it x.step
  rw [hx.step] at y3
  have hp := hx.cur.le
  have hal := hx.cur.aligned
  have hx1 : AIter.pos F val x.it % 2 ^ (F.maxPrefix - p) = 0 := by
    rw [← Nat.mod_mod_of_dvd _ (Nat.pow_dvd_pow 2 (Nat.sub_le F.maxPrefix p)), AIter.pos_mod L]; exact hal
  have hy : val y.off % 2 ^ (F.maxPrefix - p) = 0 := by
    rw [← AIter.pos_mod L y, y3]
    exact mod_aligned _ _ _ _ (Nat.sub_le ..) hx1 (sub_aligned _ _ _ (Nat.sub_le ..) hs)
  obtain ⟨m, m1, m2⟩ := niter_of L step p hp y y2 hy
  obtain ⟨a, a1, _⟩ := fromUint_isAddr L (F.ops.sub x.it.off x.step)
  rw [a1, Res.ok_bind] at y1
  injection y1 with y1
  refine ⟨_, ?_, m2, y3⟩
  have hc : y.cur = a := by rw [← y1]
  rw [hc] at m1
  simp only [Fam.niReverse, a1, Res.ok_bind, hx.plen, m1]
  rw [y1, hx.step]

theorem NIter.pos_inj (L : F.Law WF val) (step : U) (p : Nat) (x y : NIter A U) (hx : x.Ok F val step p)
    (hy : y.Ok F val step p) (h : x.pos F val = y.pos F val) : x = y := by
  have e := AIter.pos_inj L _ _ hx.it hy.it h
  have e1 : x.cur = y.cur := IsNet.inj hx.cur (by rw [e]; exact hy.cur)
  have e2 := hx.step.trans hy.step.symm
  have e3 := hx.plen.trans hy.plen.symm
  cases x; cases y; simp_all

theorem NIter.eq_law (L : F.Law WF val) (step : U) (p : Nat) (x y : NIter A U) (hx : x.Ok F val step p)
    (hy : y.Ok F val step p) : F.niEq x y = .ok (decide (x.pos F val = y.pos F val)) := by
  have e : x.pos F val = y.pos F val ↔ _ := AIter.pos_eq_iff L x.it y.it hx.it hy.it
  unfold Fam.niEq
  by_cases h : x.it.carry = y.it.carry
  · rw [if_pos h, netEq_isNet L hx.cur hy.cur]
    congr 1
    rw [decide_eq_decide, e]
    simp [h]
  · rw [if_neg h, decide_eq_false (fun h' => h (e.mp h').1)]

/-- Network iterators obey the laws of the circle. -/
theorem niLaw (L : F.Law WF val) (step : U) (p : Nat) (hs : val step % 2 ^ (F.maxPrefix - p) = 0) :
    IterLaw F.niOps (NIter.Ok F val step p) (NIter.pos F val) (2 * 2 ^ F.maxPrefix) (val step)
      (fun n => val step * val n % 2 ^ F.maxPrefix) (fun q n => IsNet F p (q % 2 ^ F.maxPrefix) n) where
  pos_lt x _ := AIter.pos_lt L x.it
  s_le := by have := L.ops.val_lt step; omega
  dist_le n := by have := Nat.mod_lt (val step * val n) (Nat.two_pow_pos F.maxPrefix); omega
  inj := NIter.pos_inj L step p
  deref x hx := by
    show IsNet F p (x.it.pos F val % 2 ^ F.maxPrefix) x.cur
    rw [AIter.pos_mod L]; exact hx.cur
  found_inj q a b := IsNet.inj
  inc x hx := by
    have := NIter.add_law L step p hs x hx (F.ops.ofI64 1#64)
    rw [val_one L, Nat.mul_one, Nat.mod_eq_of_lt (L.ops.val_lt step)] at this; exact this
  dec x hx := by
    have := NIter.sub_law L step p hs x hx (F.ops.ofI64 1#64)
    rw [val_one L, Nat.mul_one, Nat.mod_eq_of_lt (L.ops.val_lt step)] at this; exact this
  add x n hx := NIter.add_law L step p hs x hx n
  sub x n hx := NIter.sub_law L step p hs x hx n
  eq := NIter.eq_law L step p
  base := NIter.base_law L step p hs
  reverse := NIter.reverse_law L step p hs

theorem niMk_ok (L : F.Law WF val) (v : Nat) (a : A) (h : IsAddr F v a) (step : U) (p : Nat) (hp : p ≤ F.maxPrefix)
    (hal : v % 2 ^ (F.maxPrefix - p) = 0) (c : Int) (hc : c = 0 ∨ c = 1) :
    ∃ x, F.niMk a step p c = .ok x ∧ x.Ok F val step p ∧ x.it.carry = c ∧ val x.it.off = v := by
  obtain ⟨n, n1, n2⟩ := fromAddress_isNet L h hp hal
  obtain ⟨x, x1, x2, x3, x4, x5⟩ := aiMk_ok L v a h c hc
  refine ⟨⟨n, x, step, p⟩, by simp only [Fam.niMk, n1, x1, Res.ok_bind], ⟨x2, rfl, rfl, ?_⟩, x3, x4⟩
  rw [x4]; exact n2

theorem pos_of_carry0 (x : AIter A U) (h : x.carry = 0) : x.pos F val = val x.off := by
  unfold AIter.pos; rw [h]; simp

theorem pos_of_carry1 (x : AIter A U) (h : x.carry = 1) : x.pos F val = 2 ^ F.maxPrefix + val x.off := by
  unfold AIter.pos; rw [h]; simp

end
end Ip
