import Verif.Model.NetIter
import Verif.Lemmas.Net
/-
Address iterators: their position on a circle of `2^(w+1)` points, and loops over a range.
-/
set_option autoImplicit false

namespace Ip
open Spec

/-! ### Arithmetic modulo a variable -/

theorem add_mod_if (a b W : Nat) (ha : a < W) (hb : b ≤ W) :
    (a + b) % W = if a + b < W then a + b else a + b - W := by
  by_cases h : a + b < W
  · rw [if_pos h, Nat.mod_eq_of_lt h]
  · rw [if_neg h, Nat.mod_eq_sub_mod (by omega), Nat.mod_eq_of_lt (by omega)]

/-! ### Loops over a range, for any iterator that moves on a circle -/

/-- An iterator that moves on the circle of `M` points: `good` states, the position, the distance `s`
of one step, the distance of `n` steps, and what is found at a position. -/
structure IterLaw {I V U : Type} (O : IterOps I V U) (good : I → Prop) (pos : I → Nat) (M s : Nat) (dist : U → Nat)
    (found : Nat → V → Prop) : Prop where
  pos_lt : ∀ x, good x → pos x < M
  s_le : s ≤ M
  dist_le : ∀ n, dist n ≤ M
  inj : ∀ x y, good x → good y → pos x = pos y → x = y
  deref : ∀ x, good x → found (pos x) (O.deref x)
  found_inj : ∀ p a b, found p a → found p b → a = b
  inc : ∀ x, good x → ∃ y, O.inc x = .ok y ∧ good y ∧ pos y = (pos x + s) % M
  dec : ∀ x, good x → ∃ y, O.dec x = .ok y ∧ good y ∧ pos y = (pos x + (M - s)) % M
  add : ∀ x n, good x → ∃ y, O.add x n = .ok y ∧ good y ∧ pos y = (pos x + dist n) % M
  sub : ∀ x n, good x → ∃ y, O.sub x n = .ok y ∧ good y ∧ pos y = (pos x + (M - dist n)) % M
  eq : ∀ x y, good x → good y → O.eq x y = .ok (decide (pos x = pos y))
  base : ∀ x, good x → ∃ y, O.base x = .ok y ∧ good y ∧ pos y = (pos x + s) % M
  reverse : ∀ x, good x → ∃ y, O.reverse x = .ok y ∧ good y ∧ pos y = (pos x + (M - s)) % M

section
variable {I V U : Type} {O : IterOps I V U} {good : I → Prop} {pos : I → Nat} {M s : Nat} {dist : U → Nat}
  {found : Nat → V → Prop}

theorem mod_add_sub_cancel (p d M : Nat) (hp : p < M) (hd : d ≤ M) : ((p + d) % M + (M - d)) % M = p := by
  rw [Nat.mod_add_mod, show p + d + (M - d) = p + M by omega, Nat.add_mod_right, Nat.mod_eq_of_lt hp]

theorem mod_sub_add_cancel (p d M : Nat) (hp : p < M) (hd : d ≤ M) : ((p + (M - d)) % M + d) % M = p := by
  rw [Nat.mod_add_mod, show p + (M - d) + d = p + M by omega, Nat.add_mod_right, Nat.mod_eq_of_lt hp]

/-- The loop from `x` to `y`, `k` steps ahead. -/
theorem IterLaw.visit_eq (L : IterLaw O good pos M s dist found) (hs : 0 < s) :
    ∀ (k : Nat) (x y : I), good x → good y → k * s < M → pos y = (pos x + k * s) % M →
      ∃ l : List V, l.length = k ∧ (∀ i (h : i < l.length), found ((pos x + i * s) % M) l[i]) ∧
        ∀ fuel, k < fuel → O.visit fuel x y = .ok l := by
  intro k
  induction k with
  | zero =>
    intro x y hx hy _ hp
    refine ⟨[], rfl, fun i h => absurd h (by simp), ?_⟩
    intro fuel hf
    obtain ⟨f, rfl⟩ : ∃ f, fuel = f + 1 := ⟨fuel - 1, by omega⟩
    have hlt := L.pos_lt x hx
    rw [Nat.zero_mul, Nat.add_zero, Nat.mod_eq_of_lt hlt] at hp
    simp only [IterOps.visit, L.eq x y hx hy, Res.ok_bind, hp, decide_true, if_true]
  | succ k ih =>
    intro x y hx hy hk hp
    have hlt := L.pos_lt x hx
    have hsk : (k + 1) * s = k * s + s := by rw [Nat.add_mul, Nat.one_mul]
    have hne : pos x ≠ pos y := by
      rw [hp, add_mod_if _ _ _ hlt (by omega)]
      split <;> omega
    obtain ⟨z, z1, z2, z3⟩ := L.inc x hx
    have hz : pos y = (pos z + k * s) % M := by
      rw [z3, Nat.mod_add_mod, hp, hsk]; congr 1; omega
    obtain ⟨l, l1, l2, l3⟩ := ih z y z2 hy (by omega) hz
    refine ⟨O.deref x :: l, by simp [l1], ?_, ?_⟩
    · intro i hi
      cases i with
      | zero =>
        rw [Nat.zero_mul, Nat.add_zero, Nat.mod_eq_of_lt hlt]
        exact L.deref x hx
      | succ i =>
        have := l2 i (by simpa using hi)
        rw [z3, Nat.mod_add_mod] at this
        rw [show pos x + (i + 1) * s = pos x + s + i * s by rw [Nat.add_mul, Nat.one_mul]; omega]
        exact this
    · intro fuel hf
      obtain ⟨f, rfl⟩ : ∃ f, fuel = f + 1 := ⟨fuel - 1, by omega⟩
      simp only [IterOps.visit, L.eq x y hx hy, Res.ok_bind, z1]
      rw [if_neg (by simpa using hne)]
      show (O.visit f z y >>= _) = _
      rw [l3 f (by omega), Res.ok_bind]

/-- The loop over reverse iterators. -/
theorem IterLaw.rVisit_eq (L : IterLaw O good pos M s dist found) (hs : 0 < s) :
    ∀ (k : Nat) (x y : I), good x → good y → k * s < M → pos x = (pos y + k * s) % M →
      ∃ l : List V, l.length = k ∧ (∀ i (h : i < l.length), found ((pos y + (k - i) * s) % M) l[i]) ∧
        ∀ fuel, k < fuel → O.rVisit fuel ⟨x⟩ ⟨y⟩ = .ok l := by
  intro k
  induction k with
  | zero =>
    intro x y hx hy _ hp
    refine ⟨[], rfl, fun i h => absurd h (by simp), ?_⟩
    intro fuel hf
    obtain ⟨f, rfl⟩ : ∃ f, fuel = f + 1 := ⟨fuel - 1, by omega⟩
    have hlt := L.pos_lt y hy
    rw [Nat.zero_mul, Nat.add_zero, Nat.mod_eq_of_lt hlt] at hp
    simp only [IterOps.rVisit, IterOps.rEq, L.eq y x hy hx, Res.ok_bind, hp, decide_true, if_true]
  | succ k ih =>
    intro x y hx hy hk hp
    have hlt := L.pos_lt y hy
    have hlx := L.pos_lt x hx
    have hsk : (k + 1) * s = k * s + s := by rw [Nat.add_mul, Nat.one_mul]
    have hne : pos y ≠ pos x := by
      rw [hp, add_mod_if _ _ _ hlt (by omega)]
      split <;> omega
    obtain ⟨z, z1, z2, z3⟩ := L.dec x hx
    have hz : pos z = (pos y + k * s) % M := by
      rw [z3, hp, Nat.mod_add_mod, hsk,
        show pos y + (k * s + s) + (M - s) = pos y + k * s + M by have := L.s_le; omega, Nat.add_mod_right]
    obtain ⟨l, l1, l2, l3⟩ := ih z y z2 hy (by omega) hz
    refine ⟨O.deref x :: l, by simp [l1], ?_, ?_⟩
    · intro i hi
      cases i with
      | zero =>
        rw [Nat.sub_zero, ← hp]
        exact L.deref x hx
      | succ i =>
        have := l2 i (by simpa using hi)
        rw [show k + 1 - (i + 1) = k - i by omega]
        exact this
    · intro fuel hf
      obtain ⟨f, rfl⟩ : ∃ f, fuel = f + 1 := ⟨fuel - 1, by omega⟩
      simp only [IterOps.rVisit, IterOps.rEq, IterOps.rInc, IterOps.rDeref, L.eq y x hy hx, Res.ok_bind, z1]
      rw [if_neg (by simpa using hne)]
      show (O.rVisit f ⟨z⟩ ⟨y⟩ >>= _) = _
      rw [l3 f (by omega), Res.ok_bind]

/-- Reverse iteration visits the same values backwards. -/
theorem IterLaw.reverse_visit (L : IterLaw O good pos M s dist found) (hs : 0 < s) (k : Nat) (x y : I) (hx : good x)
    (hy : good y) (hk : k * s < M) (hp : pos y = (pos x + k * s) % M) :
    ∃ (l : List V) (rx ry : RIter I), O.rMk y = .ok rx ∧ O.rMk x = .ok ry ∧
      ∀ fuel, k < fuel → O.visit fuel x y = .ok l ∧ O.rVisit fuel rx ry = .ok l.reverse := by
  obtain ⟨l, l1, l2, l3⟩ := L.visit_eq hs k x y hx hy hk hp
  obtain ⟨a, a1, a2, a3⟩ := L.reverse y hy
  obtain ⟨b, b1, b2, b3⟩ := L.reverse x hx
  have hlx := L.pos_lt x hx
  have hab : pos a = (pos b + k * s) % M := by
    rw [a3, b3, hp, Nat.mod_add_mod, Nat.mod_add_mod]; congr 1; omega
  obtain ⟨r, r1, r2, r3⟩ := L.rVisit_eq hs k a b a2 b2 hk hab
  refine ⟨l, ⟨a⟩, ⟨b⟩, by simp only [IterOps.rMk, a1, Res.ok_bind], by simp only [IterOps.rMk, b1, Res.ok_bind], ?_⟩
  have hr : r = l.reverse := by
    apply List.ext_getElem (by simp [r1, l1])
    intro i h1 h2
    rw [List.getElem_reverse]
    have f1 := r2 i h1
    have f2 := l2 (l.length - 1 - i) (by omega)
    refine L.found_inj _ _ _ f1 ?_
    have e : (pos b + (k - i) * s) % M = (pos x + (l.length - 1 - i) * s) % M := by
      rw [b3, Nat.mod_add_mod, l1]
      obtain ⟨j, hj⟩ : ∃ j, k - i = j + 1 := ⟨k - i - 1, by omega⟩
      rw [hj, show k - 1 - i = j by omega, Nat.add_mul, Nat.one_mul,
        show pos x + (M - s) + (j * s + s) = pos x + j * s + M by have := L.s_le; omega, Nat.add_mod_right]
    rw [e]; exact f2
  intro fuel hf
  rw [← hr]
  exact ⟨l3 fuel hf, r3 fuel hf⟩

theorem IterLaw.base_rMk (L : IterLaw O good pos M s dist found) (x : I) (hx : good x) :
    ∃ r, O.rMk x = .ok r ∧ O.rBase r = .ok x := by
  obtain ⟨a, a1, a2, a3⟩ := L.reverse x hx
  obtain ⟨b, b1, b2, b3⟩ := L.base a a2
  refine ⟨⟨a⟩, by simp only [IterOps.rMk, a1, Res.ok_bind], ?_⟩
  rw [IterOps.rBase, b1]
  congr 1
  apply L.inj _ _ b2 hx
  rw [b3, a3, mod_sub_add_cancel _ _ _ (L.pos_lt x hx) L.s_le]

theorem IterLaw.add_sub (L : IterLaw O good pos M s dist found) (x : I) (hx : good x) (n : U) :
    ∃ y z, O.add x n = .ok y ∧ O.sub y n = .ok x ∧ O.sub x n = .ok z ∧ O.add z n = .ok x := by
  obtain ⟨y, y1, y2, y3⟩ := L.add x n hx
  obtain ⟨y', z1, z2, z3⟩ := L.sub y n y2
  obtain ⟨u, u1, u2, u3⟩ := L.sub x n hx
  obtain ⟨u', v1, v2, v3⟩ := L.add u n u2
  have e1 : y' = x := L.inj _ _ z2 hx (by rw [z3, y3, mod_add_sub_cancel _ _ _ (L.pos_lt x hx) (L.dist_le n)])
  have e2 : u' = x := L.inj _ _ v2 hx (by rw [v3, u3, mod_sub_add_cancel _ _ _ (L.pos_lt x hx) (L.dist_le n)])
  rw [e1] at z1
  rw [e2] at v1
  exact ⟨y, u, y1, z1, u1, v1⟩

theorem IterLaw.inc_dec (L : IterLaw O good pos M s dist found) (x : I) (hx : good x) :
    ∃ y z, O.inc x = .ok y ∧ O.dec y = .ok x ∧ O.dec x = .ok z ∧ O.inc z = .ok x := by
  obtain ⟨y, y1, y2, y3⟩ := L.inc x hx
  obtain ⟨y', z1, z2, z3⟩ := L.dec y y2
  obtain ⟨u, u1, u2, u3⟩ := L.dec x hx
  obtain ⟨u', v1, v2, v3⟩ := L.inc u u2
  have e1 : y' = x := L.inj _ _ z2 hx (by rw [z3, y3, mod_add_sub_cancel _ _ _ (L.pos_lt x hx) L.s_le])
  have e2 : u' = x := L.inj _ _ v2 hx (by rw [v3, u3, mod_sub_add_cancel _ _ _ (L.pos_lt x hx) L.s_le])
  rw [e1] at z1
  rw [e2] at v1
  exact ⟨y, u, y1, z1, u1, v1⟩

theorem IterLaw.add_add (L : IterLaw O good pos M s dist found) (x : I) (hx : good x) (m n k : U)
    (h : dist k = (dist m + dist n) % M) :
    ∃ y z, O.add x m = .ok y ∧ O.add y n = .ok z ∧ O.add x k = .ok z := by
  obtain ⟨y, y1, y2, y3⟩ := L.add x m hx
  obtain ⟨z, z1, z2, z3⟩ := L.add y n y2
  obtain ⟨u, u1, u2, u3⟩ := L.add x k hx
  refine ⟨y, z, y1, z1, ?_⟩
  rw [u1]; congr 1
  apply L.inj _ _ u2 z2
  rw [u3, z3, y3, h, Nat.mod_add_mod, Nat.add_mod_mod, Nat.add_assoc]

end

/-! ### Address iterators -/

section
variable {A U : Type} {F : Fam A U} {WF : A → Prop} {val : U → Nat}

/-- Conversion of a small integer. -/
theorem ofI64_small (L : F.Law WF val) (x : BitVec 64) (h0 : x.toNat < 2 ^ 63) (hw : x.toNat < 2 ^ F.maxPrefix) :
    val (F.ops.ofI64 x) = x.toNat := by
  have h := L.ops.ofI64 x
  have hx : x.toInt = (x.toNat : Int) := by
    rw [BitVec.toInt_eq_toNat_cond, if_pos (by omega)]
  have hw' : (x.toNat : Int) < 2 ^ F.maxPrefix := by exact_mod_cast hw
  rw [hx, Int.emod_eq_of_lt (by omega) hw'] at h
  exact_mod_cast h

theorem two_le_W (L : F.Law WF val) : 2 < 2 ^ F.maxPrefix := by
  have h := L.pos
  have : 2 ^ 2 ≤ 2 ^ F.maxPrefix := Nat.pow_le_pow_right (by decide) (by omega)
  omega

theorem val_one (L : F.Law WF val) : val (F.ops.ofI64 1#64) = 1 :=
  ofI64_small L 1#64 (by decide) (by have := two_le_W L; exact Nat.lt_trans (by decide) this)

theorem val_zero (L : F.Law WF val) : val (F.ops.ofI64 0#64) = 0 :=
  ofI64_small L 0#64 (by decide) (by exact Nat.two_pow_pos _)

/-- The address `a` is without scope id and has the value `v`. -/
def IsAddr (F : Fam A U) (v : Nat) (a : A) : Prop :=
  ∃ b, a = F.ofBytes b ∧ 8 * b.length = F.maxPrefix ∧ beValue b = v

theorem IsAddr.inj {v : Nat} {a b : A} (h : IsAddr F v a) (h' : IsAddr F v b) : a = b := by
  obtain ⟨x, rfl, x2, x3⟩ := h
  obtain ⟨y, rfl, y2, y3⟩ := h'
  congr 1
  exact beValue_inj _ _ (by omega) (by omega)

theorem IsAddr.wf (L : F.Law WF val) {v : Nat} {a : A} (h : IsAddr F v a) : WF a := by
  obtain ⟨x, rfl, x2, x3⟩ := h
  exact L.wf_ofBytes x x2

theorem IsAddr.v_eq (L : F.Law WF val) {v : Nat} {a : A} (h : IsAddr F v a) : F.v a = v := by
  obtain ⟨x, rfl, x2, x3⟩ := h
  rw [L.v_ofBytes, x3]

theorem IsAddr.plain {v : Nat} {a : A} (h : IsAddr F v a) : ∃ x, a = F.ofBytes x := by
  obtain ⟨x, rfl, _⟩ := h
  exact ⟨x, rfl⟩

theorem IsAddr.eq (L : F.Law WF val) {v u : Nat} {a b : A} (h : IsAddr F v a) (h' : IsAddr F u b) :
    F.eq a b = .ok (decide (v = u)) := by
  obtain ⟨x, rfl, x2, x3⟩ := h
  obtain ⟨y, rfl, y2, y3⟩ := h'
  rw [L.eq x y x2 y2, x3, y3]

theorem IsAddr.lt (L : F.Law WF val) {v u : Nat} {a b : A} (h : IsAddr F v a) (h' : IsAddr F u b) :
    F.lt a b = .ok (decide (v < u)) := by
  obtain ⟨x, rfl, x2, x3⟩ := h
  obtain ⟨y, rfl, y2, y3⟩ := h'
  rw [L.lt x y x2 y2, x3, y3]

theorem IsAddr.cmp (L : F.Law WF val) {v u : Nat} {a b : A} (h : IsAddr F v a) (h' : IsAddr F u b) :
    F.cmp a b = .ok (compare v u) := by
  obtain ⟨x, rfl, x2, x3⟩ := h
  obtain ⟨y, rfl, y2, y3⟩ := h'
  rw [L.cmp x y x2 y2, x3, y3]

theorem IsAddr.toUint (L : F.Law WF val) {v : Nat} {a : A} (h : IsAddr F v a) : ∃ u, F.toUint a = .ok u ∧ val u = v := by
  obtain ⟨u, h1, h2⟩ := L.toUint a (h.wf L)
  exact ⟨u, h1, h2.trans (h.v_eq L)⟩

theorem fromUint_isAddr (L : F.Law WF val) (u : U) : ∃ a, F.fromUint u = .ok a ∧ IsAddr F (val u) a := by
  obtain ⟨b, h1, h2, h3⟩ := L.fromUint u
  exact ⟨_, h1, b, rfl, h2, h3⟩

/-- The states of address iterators: the current address is the one of the offset, without scope id,
and the carry is 0 or 1. -/
structure AIter.Ok (F : Fam A U) (val : U → Nat) (x : AIter A U) : Prop where
  cur : IsAddr F (val x.off) x.cur
  carry : x.carry = 0 ∨ x.carry = 1

/-- The position on the circle of `2^(w+1)` points: the carry is the highest bit. -/
def AIter.pos (F : Fam A U) (val : U → Nat) (x : AIter A U) : Nat :=
  (if x.carry = 1 then 2 ^ F.maxPrefix else 0) + val x.off

theorem AIter.pos_lt (L : F.Law WF val) (x : AIter A U) : x.pos F val < 2 * 2 ^ F.maxPrefix := by
  have := L.ops.val_lt x.off
  unfold AIter.pos
  split <;> omega

theorem AIter.pos_mod (L : F.Law WF val) (x : AIter A U) : x.pos F val % 2 ^ F.maxPrefix = val x.off := by
  have := L.ops.val_lt x.off
  unfold AIter.pos
  split
  · rw [Nat.add_mod_left, Nat.mod_eq_of_lt this]
  · rw [Nat.zero_add, Nat.mod_eq_of_lt this]

theorem AIter.pos_inj (L : F.Law WF val) (x y : AIter A U) (hx : x.Ok F val) (hy : y.Ok F val)
    (h : x.pos F val = y.pos F val) : x = y := by
  have e : val x.off = val y.off := by rw [← AIter.pos_mod L x, h, AIter.pos_mod L y]
  have e1 : x.off = y.off := L.ops.inj _ _ e
  have e2 : x.cur = y.cur := IsAddr.inj hx.cur (by rw [e]; exact hy.cur)
  have hW := Nat.two_pow_pos F.maxPrefix
  have e3 : x.carry = y.carry := by
    unfold AIter.pos at h
    rcases hx.carry with a | a <;> rcases hy.carry with b | b <;> simp [a, b] at h ⊢ <;> omega
  cases x; cases y; simp_all

theorem carry_forward (W o n o' : Nat) (c : Int) (ho : o < W) (hn : n < W) (hc : c = 0 ∨ c = 1)
    (h : o' = if o + n < W then o + n else o + n - W) :
    (if (if o' < o then 1 - c else c) = 1 then W else 0) + o' = (((if c = 1 then W else 0) + o) + n) % (2 * W) := by
  have hp : (if c = 1 then W else 0) + o < 2 * W := by split <;> omega
  rw [add_mod_if _ _ _ hp (by omega)]
  clear hp
  by_cases e : o + n < W
  · rw [if_pos e] at h
    rw [if_neg (show ¬ o' < o by omega)]
    rcases hc with rfl | rfl
    · rw [if_neg (show ¬ (0 : Int) = 1 by decide), if_pos (show 0 + o + n < 2 * W by omega)]; omega
    · rw [if_pos rfl, if_pos (show W + o + n < 2 * W by omega)]; omega
  · rw [if_neg e] at h
    rw [if_pos (show o' < o by omega)]
    rcases hc with rfl | rfl
    · rw [if_pos (show (1 : Int) - 0 = 1 by decide), if_neg (show ¬ (0 : Int) = 1 by decide),
        if_pos (show 0 + o + n < 2 * W by omega)]; omega
    · rw [if_neg (show ¬ (1 : Int) - 1 = 1 by decide), if_pos rfl, if_neg (show ¬ W + o + n < 2 * W by omega)]; omega

theorem carry_backward (W o n o' : Nat) (c : Int) (ho : o < W) (hn : n < W) (hc : c = 0 ∨ c = 1)
    (h : o' = if o + (W - n) < W then o + (W - n) else o + (W - n) - W) :
    (if (if o < o' then 1 - c else c) = 1 then W else 0) + o' =
      (((if c = 1 then W else 0) + o) + (2 * W - n)) % (2 * W) := by
  have hp : (if c = 1 then W else 0) + o < 2 * W := by split <;> omega
  rw [add_mod_if _ _ _ hp (by omega)]
  clear hp
  by_cases e : o + (W - n) < W
  · rw [if_pos e] at h
    rw [if_pos (show o < o' by omega)]
    rcases hc with rfl | rfl
    · rw [if_pos (show (1 : Int) - 0 = 1 by decide), if_neg (show ¬ (0 : Int) = 1 by decide),
        if_pos (show 0 + o + (2 * W - n) < 2 * W by omega)]; omega
    · rw [if_neg (show ¬ (1 : Int) - 1 = 1 by decide), if_pos rfl,
        if_neg (show ¬ W + o + (2 * W - n) < 2 * W by omega)]; omega
  · rw [if_neg e] at h
    rw [if_neg (show ¬ o < o' by omega)]
    rcases hc with rfl | rfl
    · rw [if_neg (show ¬ (0 : Int) = 1 by decide), if_neg (show ¬ 0 + o + (2 * W - n) < 2 * W by omega)]; omega
    · rw [if_pos rfl, if_neg (show ¬ W + o + (2 * W - n) < 2 * W by omega)]; omega

/-- Moving the offset forward by `d` with the carry flipped on overflow. -/
theorem aiter_forward (L : F.Law WF val) (x : AIter A U) (hx : x.Ok F val) (n : U) :
    ∃ y : AIter A U, (do
        let cur ← F.fromUint (F.ops.add x.off n)
        Res.ok (⟨cur, F.ops.add x.off n, if F.ops.lt (F.ops.add x.off n) x.off then 1 - x.carry else x.carry⟩ :
          AIter A U)) = .ok y ∧ y.Ok F val ∧ y.pos F val = (x.pos F val + val n) % (2 * 2 ^ F.maxPrefix) := by
  obtain ⟨a, a1, a2⟩ := fromUint_isAddr L (F.ops.add x.off n)
  refine ⟨_, by rw [a1, Res.ok_bind], ⟨a2, ?_⟩, ?_⟩
  · show (if _ then _ else _) = (0 : Int) ∨ (if _ then _ else _) = (1 : Int)
    rcases hx.carry with h | h <;> rw [h] <;> split <;> simp
  · have h1 := L.ops.val_lt x.off
    have h2 := L.ops.val_lt n
    have h3 := L.ops.add x.off n
    rw [add_mod_if _ _ _ h1 (by omega)] at h3
    simp only [AIter.pos, L.ops.lt, decide_eq_true_eq]
    exact carry_forward _ _ _ _ _ h1 h2 hx.carry h3

/-- Moving the offset backward. -/
theorem aiter_backward (L : F.Law WF val) (x : AIter A U) (hx : x.Ok F val) (n : U) :
    ∃ y : AIter A U, (do
        let cur ← F.fromUint (F.ops.sub x.off n)
        Res.ok (⟨cur, F.ops.sub x.off n, if F.ops.lt x.off (F.ops.sub x.off n) then 1 - x.carry else x.carry⟩ :
          AIter A U)) = .ok y ∧ y.Ok F val ∧
      y.pos F val = (x.pos F val + (2 * 2 ^ F.maxPrefix - val n)) % (2 * 2 ^ F.maxPrefix) := by
  obtain ⟨a, a1, a2⟩ := fromUint_isAddr L (F.ops.sub x.off n)
  refine ⟨_, by rw [a1, Res.ok_bind], ⟨a2, ?_⟩, ?_⟩
  · show (if _ then _ else _) = (0 : Int) ∨ (if _ then _ else _) = (1 : Int)
    rcases hx.carry with h | h <;> rw [h] <;> split <;> simp
  · have h1 := L.ops.val_lt x.off
    have h2 := L.ops.val_lt n
    have h3 := L.ops.sub x.off n
    rw [add_mod_if _ _ _ h1 (by omega)] at h3
    simp only [AIter.pos, L.ops.lt, decide_eq_true_eq]
    exact carry_backward _ _ _ _ _ h1 h2 hx.carry h3

theorem AIter.add_law (L : F.Law WF val) (x : AIter A U) (hx : x.Ok F val) (n : U) :
    ∃ y, F.aiAdd x n = .ok y ∧ y.Ok F val ∧ y.pos F val = (x.pos F val + val n) % (2 * 2 ^ F.maxPrefix) := by
  unfold Fam.aiAdd
  rw [L.ops.eq, val_zero L]
  by_cases h : val n = 0
  · rw [if_neg (by simpa using h)]
    exact ⟨x, rfl, hx, by rw [h, Nat.add_zero, Nat.mod_eq_of_lt (AIter.pos_lt L x)]⟩
  · rw [if_pos (by simpa using h)]
    exact aiter_forward L x hx n

theorem AIter.sub_law (L : F.Law WF val) (x : AIter A U) (hx : x.Ok F val) (n : U) :
    ∃ y, F.aiSub x n = .ok y ∧ y.Ok F val ∧
      y.pos F val = (x.pos F val + (2 * 2 ^ F.maxPrefix - val n)) % (2 * 2 ^ F.maxPrefix) := by
  unfold Fam.aiSub
  rw [L.ops.eq, val_zero L]
  by_cases h : val n = 0
  · rw [if_neg (by simpa using h)]
    exact ⟨x, rfl, hx, by rw [h, Nat.sub_zero, Nat.add_mod_right, Nat.mod_eq_of_lt (AIter.pos_lt L x)]⟩
  · rw [if_pos (by simpa using h)]
    exact aiter_backward L x hx n

theorem AIter.pos_eq_iff (L : F.Law WF val) (x y : AIter A U) (hx : x.Ok F val) (hy : y.Ok F val) :
    x.pos F val = y.pos F val ↔ x.carry = y.carry ∧ val x.off = val y.off := by
  have h1 := L.ops.val_lt x.off
  have h2 := L.ops.val_lt y.off
  unfold AIter.pos
  rcases hx.carry with a | a <;> rcases hy.carry with b | b <;> simp [a, b] <;> omega

theorem AIter.eq_law (L : F.Law WF val) (x y : AIter A U) (hx : x.Ok F val) (hy : y.Ok F val) :
    F.aiEq x y = .ok (decide (x.pos F val = y.pos F val)) := by
  unfold Fam.aiEq
  have e := AIter.pos_eq_iff L x y hx hy
  by_cases h : x.carry = y.carry
  · rw [if_pos h, hx.cur.eq L hy.cur]
    congr 1
    rw [decide_eq_decide, e]
    simp [h]
  · rw [if_neg h, decide_eq_false (fun h' => h (e.mp h').1)]

theorem AIter.lt_law (L : F.Law WF val) (x y : AIter A U) (hx : x.Ok F val) (hy : y.Ok F val) :
    F.aiLt x y = .ok (decide (x.pos F val < y.pos F val)) := by
  have h1 := L.ops.val_lt x.off
  have h2 := L.ops.val_lt y.off
  unfold Fam.aiLt
  rw [hx.cur.lt L hy.cur]
  unfold AIter.pos
  rcases hx.carry with a | a <;> rcases hy.carry with b | b <;> simp [a, b] <;> omega

theorem AIter.cmp_law (L : F.Law WF val) (x y : AIter A U) (hx : x.Ok F val) (hy : y.Ok F val) :
    F.aiCmp x y = .ok (compare (x.pos F val) (y.pos F val)) := by
  have h1 := L.ops.val_lt x.off
  have h2 := L.ops.val_lt y.off
  unfold Fam.aiCmp
  rw [hx.cur.cmp L hy.cur]
  unfold AIter.pos
  have c01 : compare (0 : Int) 1 = .lt := rfl
  have c10 : compare (1 : Int) 0 = .gt := rfl
  rcases hx.carry with a | a <;> rcases hy.carry with b | b <;> simp only [a, b]
  · simp
  · rw [c01]; simp; symm; rw [Nat.compare_eq_lt]; omega
  · rw [c10]; simp; symm; rw [Nat.compare_eq_gt]; omega
  · simp only [compare, compareOfLessAndEq]; simp

/-- Address iterators obey the laws of a circle of `2^(w+1)` points. -/
theorem aiLaw (L : F.Law WF val) : IterLaw F.aiOps (AIter.Ok F val) (AIter.pos F val) (2 * 2 ^ F.maxPrefix) 1 val
    (fun p a => IsAddr F (p % 2 ^ F.maxPrefix) a) where
  pos_lt x _ := AIter.pos_lt L x
  s_le := by have := Nat.two_pow_pos F.maxPrefix; omega
  dist_le n := by have := L.ops.val_lt n; omega
  inj := AIter.pos_inj L
  deref x hx := by
    show IsAddr F (x.pos F val % 2 ^ F.maxPrefix) x.cur
    rw [AIter.pos_mod L]; exact hx.cur
  found_inj p a b := IsAddr.inj
  inc x hx := by have := AIter.add_law L x hx (F.ops.ofI64 1#64); rw [val_one L] at this; exact this
  dec x hx := by have := AIter.sub_law L x hx (F.ops.ofI64 1#64); rw [val_one L] at this; exact this
  add x n hx := AIter.add_law L x hx n
  sub x n hx := AIter.sub_law L x hx n
  eq := AIter.eq_law L
  base x hx := by have := aiter_forward L x hx (F.ops.ofI64 1#64); rw [val_one L] at this; exact this
  reverse x hx := by have := aiter_backward L x hx (F.ops.ofI64 1#64); rw [val_one L] at this; exact this

theorem aiMk_ok (L : F.Law WF val) (v : Nat) (a : A) (h : IsAddr F v a) (c : Int) (hc : c = 0 ∨ c = 1) :
    ∃ x, F.aiMk a c = .ok x ∧ x.Ok F val ∧ x.carry = c ∧ val x.off = v ∧ x.cur = a := by
  obtain ⟨u, h1, h2⟩ := h.toUint L
  exact ⟨⟨a, u, c⟩, by simp only [Fam.aiMk, h1, Res.ok_bind], ⟨by rw [h2]; exact h, hc⟩, rfl, h2, rfl⟩

end
end Ip
