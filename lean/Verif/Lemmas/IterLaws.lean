import Verif.Lemmas.Subnets
/-
The laws of random access iterators, for any address family.
-/
set_option autoImplicit false

namespace Ip
open Spec

section
variable {A U : Type} {F : Fam A U} {WF : A → Prop} {val : U → Nat}

theorem uintDiff_val (L : F.Law WF val) (o n o' : U) (h : val o' = (val o + val n) % 2 ^ F.maxPrefix) :
    F.ops.sub o' o = n := by
  apply L.ops.inj
  have h1 := L.ops.val_lt o
  have h2 := L.ops.val_lt n
  rw [L.ops.sub, h, Nat.mod_add_mod, show val o + val n + (2 ^ F.maxPrefix - val o) = val n + 2 ^ F.maxPrefix by omega,
    Nat.add_mod_right, Nat.mod_eq_of_lt h2]

theorem off_of_pos (L : F.Law WF val) (x y : AIter A U) (k : Nat)
    (h : y.pos F val = (x.pos F val + k) % (2 * 2 ^ F.maxPrefix)) : val y.off = (val x.off + k) % 2 ^ F.maxPrefix := by
  rw [← AIter.pos_mod L y, h, Nat.mod_mod_of_dvd _ ⟨2, by omega⟩, Nat.add_mod, AIter.pos_mod L x, Nat.add_mod_mod]

/-- Address iterators: the laws for offsets of the type `uint_type`. -/
theorem aiter_laws (L : F.Law WF val) (x : AIter A U) (hx : x.Ok F val) (m n : U) :
    (∃ y z, F.aiAdd x n = .ok y ∧ y.Ok F val ∧ F.aiSub y n = .ok x ∧ F.aiSub x n = .ok z ∧ z.Ok F val ∧ F.aiAdd z n = .ok x ∧
      F.v y.cur = (F.v x.cur + val n) % 2 ^ F.maxPrefix ∧
      F.aiAt x n = .ok y.cur ∧ F.aiUintDiff y x = n ∧ F.aiUintDiff x z = n ∧
      (0 < val n → x.pos F val + val n < 2 * 2 ^ F.maxPrefix → F.aiLt x y = .ok true ∧ F.aiCmp x y = .ok .lt)) ∧
    (∃ a b, F.aiAdd x m = .ok a ∧ F.aiAdd a n = .ok b ∧
      (val m + val n < 2 ^ F.maxPrefix → F.aiAdd x (F.ops.add m n) = .ok b)) ∧
    (∃ y z, F.aiInc x = .ok y ∧ F.aiAdd x (F.ops.ofI64 1#64) = .ok y ∧ F.aiDec y = .ok x ∧
      F.aiDec x = .ok z ∧ F.aiSub x (F.ops.ofI64 1#64) = .ok z ∧ F.aiInc z = .ok x ∧
      F.v y.cur = (F.v x.cur + 1) % 2 ^ F.maxPrefix ∧ F.v x.cur = (F.v z.cur + 1) % 2 ^ F.maxPrefix) := by
  refine ⟨?_, ?_, ?_⟩
  · obtain ⟨y, z, h1, h2, h3, h4⟩ := (aiLaw L).add_sub x hx n
    obtain ⟨y', y1, y2, y3⟩ := AIter.add_law L x hx n
    obtain ⟨z', z1, z2, z3⟩ := AIter.sub_law L x hx n
    have ey : y = y' := by have := h1.symm.trans y1; injection this
    have ez : z = z' := by have := h3.symm.trans z1; injection this
    subst ey; subst ez
    have ho := off_of_pos L x y _ y3
    have hz' : x.pos F val = (z.pos F val + val n) % (2 * 2 ^ F.maxPrefix) := by
      rw [z3, mod_sub_add_cancel _ _ _ (AIter.pos_lt L x) (by have := L.ops.val_lt n; omega)]
    have hoz := off_of_pos L z x _ hz'
    refine ⟨y, z, h1, y2, h2, h3, z2, h4, ?_, ?_, uintDiff_val L _ _ _ ho, uintDiff_val L _ _ _ hoz, ?_⟩
    · rw [y2.cur.v_eq L, hx.cur.v_eq L, ho]
    · obtain ⟨a, a1, a2⟩ := fromUint_isAddr L (F.ops.add x.off n)
      rw [Fam.aiAt, a1]
      congr 1
      rw [L.ops.add, ← ho] at a2
      exact IsAddr.inj a2 y2.cur
    · intro hn hlt
      rw [Nat.mod_eq_of_lt hlt] at y3
      have h5 := AIter.lt_law L x y hx y2
      have h6 := AIter.cmp_law L x y hx y2
      rw [h5, h6]
      exact ⟨by rw [decide_eq_true (by omega)], by rw [Nat.compare_eq_lt.mpr (by omega)]⟩
  · obtain ⟨a, a1, a2, a3⟩ := AIter.add_law L x hx m
    obtain ⟨b, b1, b2, b3⟩ := AIter.add_law L a a2 n
    refine ⟨a, b, a1, b1, fun h => ?_⟩
    obtain ⟨c, c1, c2, c3⟩ := AIter.add_law L x hx (F.ops.add m n)
    rw [c1]; congr 1
    apply AIter.pos_inj L _ _ c2 b2
    rw [c3, b3, a3, L.ops.add, Nat.mod_eq_of_lt h, Nat.mod_add_mod, Nat.add_assoc]
  · obtain ⟨y, z, h1, h2, h3, h4⟩ := (aiLaw L).inc_dec x hx
    obtain ⟨y', y1, y2, y3⟩ := (aiLaw L).inc x hx
    obtain ⟨z', z1, z2, z3⟩ := (aiLaw L).dec x hx
    have ey : y = y' := by have := h1.symm.trans y1; injection this
    have ez : z = z' := by have := h3.symm.trans z1; injection this
    subst ey; subst ez
    have hz' : x.pos F val = (z.pos F val + 1) % (2 * 2 ^ F.maxPrefix) := by
      rw [z3, mod_sub_add_cancel _ _ _ (AIter.pos_lt L x) (by have := two_le_W L; omega)]
    refine ⟨y, z, h1, h1, h2, h3, h3, h4, ?_, ?_⟩
    · rw [y2.cur.v_eq L, hx.cur.v_eq L, off_of_pos L x y _ y3]
    · rw [z2.cur.v_eq L, hx.cur.v_eq L, off_of_pos L z x _ hz']

/-- Signed offsets that are not negative (and fit the `uint_type`). -/
theorem aiter_signed (L : F.Law WF val) (x : AIter A U) (hx : x.Ok F val) (n : BitVec 64) (h0 : n.toNat < 2 ^ 63)
    (hn : n.toNat < 2 ^ F.maxPrefix) :
    ∃ y, F.aiAddI x n = .ok y ∧ y.Ok F val ∧ F.aiSubI y n = .ok x ∧ F.aiAtI x n = .ok y.cur ∧
      F.aiDiff y x = n ∧ F.v y.cur = (F.v x.cur + n.toNat) % 2 ^ F.maxPrefix := by
  obtain ⟨⟨y, z, h1, h2, h3, _, _, _, h4, h5, h6, _⟩, _⟩ := aiter_laws L x hx (F.ops.ofI64 n) (F.ops.ofI64 n)
  have hval := ofI64_small L n h0 hn
  rw [hval] at h4
  refine ⟨y, h1, h2, h3, h5, ?_, h4⟩
  unfold Fam.aiUintDiff at h6
  rw [Fam.aiDiff, h6]
  apply BitVec.eq_of_toNat_eq
  rw [L.ops.toI64, hval, Nat.mod_eq_of_lt n.isLt]

theorem ofI64_neg (L : F.Law WF val) (k : Nat) (hk : 0 < k) (h63 : k ≤ 2 ^ 63) (hw : k < 2 ^ F.maxPrefix) :
    val (F.ops.ofI64 (BitVec.ofInt 64 (-(k : Int)))) = 2 ^ F.maxPrefix - k := by
  have h := L.ops.ofI64 (BitVec.ofInt 64 (-(k : Int)))
  rw [BitVec.toInt_ofInt, Int.bmod_eq_of_le (by norm_num; omega) (by norm_num; omega)] at h
  have e : (-(k : Int)) % 2 ^ F.maxPrefix = ((2 ^ F.maxPrefix - k : Nat) : Int) := by
    rw [← Int.add_emod_right]
    have : (((2 ^ F.maxPrefix - k : Nat) : Nat) : Int) = -(k : Int) + 2 ^ F.maxPrefix := by
      rw [Nat.cast_sub (by omega)]; push_cast; omega
    rw [← this]
    exact_mod_cast Nat.mod_eq_of_lt (by omega : 2 ^ F.maxPrefix - k < 2 ^ F.maxPrefix)
  rw [e] at h
  exact_mod_cast h

/-- Negative offsets: `it + (-k)` and `it - k` stand at the same address but are not equal. -/
theorem aiter_negative (L : F.Law WF val) (x : AIter A U) (hx : x.Ok F val) (k : Nat) (hk : 0 < k) (h63 : k < 2 ^ 63)
    (hw : k < 2 ^ F.maxPrefix) :
    ∃ y z, F.aiAddI x (BitVec.ofInt 64 (-(k : Int))) = .ok y ∧ F.aiSubI x (BitVec.ofNat 64 k) = .ok z ∧
      y.cur = z.cur ∧ F.aiEq y z = .ok false := by
  obtain ⟨y, y1, y2, y3⟩ := AIter.add_law L x hx (F.ops.ofI64 (BitVec.ofInt 64 (-(k : Int))))
  obtain ⟨z, z1, z2, z3⟩ := AIter.sub_law L x hx (F.ops.ofI64 (BitVec.ofNat 64 k))
  have hkn : (BitVec.ofNat 64 k).toNat = k := by
    rw [BitVec.toNat_ofNat]; exact Nat.mod_eq_of_lt (by omega)
  rw [ofI64_neg L k hk (by omega) hw] at y3
  rw [ofI64_small L _ (by omega) (by omega), hkn] at z3
  have hxl := AIter.pos_lt L x
  rw [add_mod_if _ _ _ hxl (by omega)] at y3 z3
  have ho : val y.off = val z.off := by
    rw [← AIter.pos_mod L y, ← AIter.pos_mod L z, y3, z3]
    have hm : ∀ a b W : Nat, a = b + W ∨ b = a + W → a % W = b % W := by
      rintro a b W (rfl | rfl) <;> simp
    apply hm
    split <;> split <;> omega
  refine ⟨y, z, y1, z1, IsAddr.inj y2.cur (by rw [ho]; exact z2.cur), ?_⟩
  rw [AIter.eq_law L y z y2 z2, decide_eq_false]
  rw [y3, z3]
  split <;> split <;> omega

/-- Network iterators: the laws for offsets of the type `uint_type`. -/
theorem niter_laws (L : F.Law WF val) (step : U) (p : Nat) (hs : val step % 2 ^ (F.maxPrefix - p) = 0) (x : NIter A U)
    (hx : x.Ok F val step p) (m n : U) :
    (∃ y z, F.niAdd x n = .ok y ∧ y.Ok F val step p ∧ F.niSub y n = .ok x ∧ F.niSub x n = .ok z ∧ z.Ok F val step p ∧
      F.niAdd z n = .ok x ∧ y.cur.plen = p ∧
      F.v y.cur.addr = (F.v x.cur.addr + val step * val n) % 2 ^ F.maxPrefix ∧
      F.niAt x n = .ok y.cur ∧
      (0 < val step → val step * val n < 2 ^ F.maxPrefix → F.niUintDiff y x = .ok n) ∧
      (F.niDiff y x).toNat = val step * val n % 2 ^ F.maxPrefix % 2 ^ 64) ∧
    (∃ a b, F.niAdd x m = .ok a ∧ F.niAdd a n = .ok b ∧
      (val step * (val m + val n) < 2 ^ F.maxPrefix → F.niAdd x (F.ops.add m n) = .ok b)) ∧
    (∃ y z, F.niInc x = .ok y ∧ F.niAdd x (F.ops.ofI64 1#64) = .ok y ∧ F.niDec y = .ok x ∧
      F.niDec x = .ok z ∧ F.niSub x (F.ops.ofI64 1#64) = .ok z ∧ F.niInc z = .ok x ∧
      F.v y.cur.addr = (F.v x.cur.addr + val step) % 2 ^ F.maxPrefix) := by
  have Ln := niLaw L step p hs
  refine ⟨?_, ?_, ?_⟩
  · obtain ⟨y, z, h1, h2, h3, h4⟩ := Ln.add_sub x hx n
    obtain ⟨y', y1, y2, y3⟩ := NIter.add_law L step p hs x hx n
    obtain ⟨z', z1, z2, z3⟩ := NIter.sub_law L step p hs x hx n
    have ey : y = y' := by have := h1.symm.trans y1; injection this
    have ez : z = z' := by have := h3.symm.trans z1; injection this
    subst ey; subst ez
    have ho := off_of_pos L x.it y.it _ y3
    have hd : F.aiUintDiff y.it x.it = F.ops.mul step n := by
      apply uintDiff_val L
      rw [L.ops.mul]; exact ho
    refine ⟨y, z, h1, y2, h2, h3, z2, h4, y2.cur.plen, ?_, ?_, ?_, ?_⟩
    · rw [y2.cur.v_eq L, hx.cur.v_eq L, ho, Nat.add_mod_mod]
    · have e : F.niAdd x n = .ok y := h1
      unfold Fam.niAdd at e
      unfold Fam.niAt
      obtain ⟨it, i1, i2⟩ := Res.bind_eq_ok.mp e
      obtain ⟨c, c1, c2⟩ := Res.bind_eq_ok.mp i2
      rw [i1, Res.ok_bind, c1]
      have e3 : (⟨c, it, x.step, x.plen⟩ : NIter A U) = y := by injection c2
      rw [← e3]
    · intro h0 hlt
      obtain ⟨r, r1, r2⟩ := L.ops.div (F.ops.mul step n) step (by omega)
      rw [Fam.niUintDiff, hd, y2.step, r1]
      congr 1
      apply L.ops.inj
      rw [r2, L.ops.mul, Nat.mod_eq_of_lt hlt, Nat.mul_div_cancel_left _ h0]
    · unfold Fam.aiUintDiff at hd
      rw [Fam.niDiff, Fam.aiDiff, hd, L.ops.toI64, L.ops.mul]
  · obtain ⟨a, a1, a2, a3⟩ := NIter.add_law L step p hs x hx m
    obtain ⟨b, b1, b2, b3⟩ := NIter.add_law L step p hs a a2 n
    refine ⟨a, b, a1, b1, fun h => ?_⟩
    obtain ⟨c, c1, c2, c3⟩ := NIter.add_law L step p hs x hx (F.ops.add m n)
    rw [c1]; congr 1
    apply NIter.pos_inj L step p _ _ c2 b2
    rw [Nat.mul_add] at h
    have e : val step * val (F.ops.add m n) % 2 ^ F.maxPrefix = val step * val m + val step * val n := by
      rw [L.ops.add, Nat.mul_mod, Nat.mod_mod, ← Nat.mul_mod, Nat.mul_add, Nat.mod_eq_of_lt h]
    rw [c3, b3, a3, e, Nat.mod_eq_of_lt (a := val step * val m) (by omega), Nat.mod_eq_of_lt (a := val step * val n) (by omega),
      Nat.mod_add_mod, Nat.add_assoc]
  · obtain ⟨y, z, h1, h2, h3, h4⟩ := Ln.inc_dec x hx
    obtain ⟨y', y1, y2, y3⟩ := Ln.inc x hx
    have ey : y = y' := by have := h1.symm.trans y1; injection this
    subst ey
    refine ⟨y, z, h1, h1, h2, h3, h3, h4, ?_⟩
    rw [y2.cur.v_eq L, hx.cur.v_eq L, off_of_pos L x.it y.it _ y3]

end
end Ip
