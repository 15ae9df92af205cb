import Verif.Spec.UndefinedAll
import Verif.Lemmas.Undefined
import Verif.Lemmas.ExcludeCtor
import Verif.Lemmas.NetSpec
/-
Which expressions of a program have no defined value, for any address family and with all constructors.
-/
set_option autoImplicit false

namespace Ip
open Spec

section
variable {A U : Type}

/-- A network iterator whose place fits its prefix length; the step can be any number. -/
structure NitHeld (F : Fam A U) (WF : A → Prop) (val : U → Nat) (x : NIter A U) : Prop where
  it : ItOk F WF val x.it
  net : NetOk F WF x.cur
  le : x.plen ≤ F.maxPrefix
  off : val x.it.off % 2 ^ (F.maxPrefix - x.plen) = 0

/-- An excluding iterator: the halves have no scope ids. -/
structure ExHeld (F : Fam A U) (WF : A → Prop) (x : ExIter A) : Prop where
  other : NetOk F WF x.other
  s1 : IsNet F x.s1.plen (F.v x.s1.addr) x.s1
  s2 : IsNet F x.s2.plen (F.v x.s2.addr) x.s2
  cur : NetOk F WF x.cur

/-- The invariant of all objects. -/
def HeldObj (F : Fam A U) (WF : A → Prop) (val : U → Nat) : Obj A U → Prop
  | .addr a => WF a
  | .net n => NetOk F WF n
  | .ait x => ItOk F WF val x
  | .rait r => ItOk F WF val r.it
  | .nit x => NitHeld F WF val x
  | .rnit r => NitHeld F WF val r.it
  | .hosts s => ItOk F WF val s.first ∧ ItOk F WF val s.last
  | .subs s => NitHeld F WF val s.first ∧ NitHeld F WF val s.last
  | .exit x => ExHeld F WF x
  | .exs s => ExHeld F WF s.first ∧ ExHeld F WF s.last

variable {F : Fam A U} {WF : A → Prop} {val : U → Nat}

instance (w q u p v : Nat) : Decidable (Part w q u p v) := by unfold Part; infer_instance

/-- What is used of a family beyond `Fam.Law`, `ProgLaw` and `SafeLaw`: comparisons of any networks have a result,
and a network without scope id equals a network `o` exactly if it has the same address and prefix length and `o`
has no scope id either. -/
structure TameLaw (F : Fam A U) (WF : A → Prop) (val : U → Nat) : Prop where
  total : ∀ a b, WF a → WF b → ∃ r, F.eq a b = .ok r
  tame : ∀ o, NetOk F WF o → ∃ same : Bool, ∀ p v m, IsNet F p v m →
    F.netEq m o = .ok (decide (v = F.v o.addr ∧ p = o.plen) && same) ∧
    F.subnetOf o m = .ok (decide (Part F.maxPrefix o.plen (F.v o.addr) p v))
  shr : ∀ x n, F.maxPrefix < n → (F.isV6 = false → F.ops.shr x n = .ub) ∧ (F.isV6 = true → ∃ r, F.ops.shr x n = .ok r ∧ val r = 0)

theorem NitSafe.held {x : NIter A U} (h : NitSafe F WF val x) : NitHeld F WF val x := ⟨h.it, h.net, h.le, h.off⟩

theorem IsNet.self {p v : Nat} {n : Net A} (L : F.Law WF val) (h : IsNet F p v n) : IsNet F n.plen (F.v n.addr) n := by
  rw [h.plen, h.v_eq L]; exact h

theorem ExAny.held (L : F.Law WF val) {x : ExIter A} (h : ExAny F x) : ExHeld F WF x := by
  obtain ⟨q, u, p, v, p', v', h⟩ := h
  obtain ⟨pc, vc, hc⟩ := h.cur
  exact ⟨h.other.netOk L, h.s1.self L, h.s2.self L, hc.netOk L⟩

theorem Out.imp {α : Type} {bad : Prop} {P Q : α → Prop} {r : Res α} (h : Out bad P r) (hf : ∀ a, P a → Q a) : Out bad Q r :=
  ⟨h.1, fun a ha => hf a (h.2 a ha)⟩

theorem Out.noexcept {α : Type} {bad : Prop} {P : α → Prop} {r : Res α} (h : Out bad P r) (he : ∀ e v, r ≠ .err e v) :
    Out bad P (Fam.noexcept r) := by
  cases r with
  | ok a => exact h
  | err e v => exact (he e v rfl).elim
  | ub => exact h

/-! ### Network iterators -/

/-- A strict network at the place of an address iterator. -/
theorem strict_out {β : Type} (L : F.Law WF val) (y : AIter A U) (hy : ItOk F WF val y) (p : Nat) (hp : p ≤ F.maxPrefix)
    (f : Net A → β) (Q : β → Prop) (hf : ∀ n, NetOk F WF n → val y.off % 2 ^ (F.maxPrefix - p) = 0 → Q (f n)) :
    Out (¬ 2 ^ (F.maxPrefix - p) ∣ val y.off) Q (Fam.noexcept (do let n ← F.fromAddress y.cur p true; .ok (f n))) := by
  obtain ⟨m, b, -, -, -, -, e⟩ := fromAddress_eq L y.cur hy.wf p hp true
  rw [← hy.off] at e
  by_cases h : val y.off % 2 ^ (F.maxPrefix - p) = 0
  · rw [if_pos h] at e
    have hn := (fromAddress_ok L y.cur hy.wf p true _ e).1
    rw [e]
    refine ⟨⟨fun h => (by cases h), fun h' => (h' (Nat.dvd_of_mod_eq_zero h)).elim⟩, fun a ha => ?_⟩
    cases ha
    exact hf _ hn h
  · rw [if_neg h, if_pos rfl] at e
    rw [e]
    exact ⟨⟨fun _ h' => h (Nat.mod_eq_zero_of_dvd h'), fun _ => rfl⟩, fun a ha => (by cases ha)⟩

theorem al_add (w k a b : Nat) (hk : k ≤ w) (ha : a % 2 ^ k = 0) : 2 ^ k ∣ (a + b) % 2 ^ w ↔ 2 ^ k ∣ b := by
  rw [Nat.dvd_mod_iff (Nat.pow_dvd_pow 2 hk)]
  exact Nat.dvd_add_right (Nat.dvd_of_mod_eq_zero ha)

theorem al_mod (w k b : Nat) (hk : k ≤ w) : 2 ^ k ∣ b % 2 ^ w ↔ 2 ^ k ∣ b := Nat.dvd_mod_iff (Nat.pow_dvd_pow 2 hk)

theorem al_neg (w k b : Nat) (hk : k ≤ w) (hb : b < 2 ^ w) : 2 ^ k ∣ 2 ^ w - b ↔ 2 ^ k ∣ b := by
  have h := Nat.pow_dvd_pow 2 hk
  constructor
  · intro h'
    have : b = 2 ^ w - (2 ^ w - b) := by omega
    rw [this]; exact Nat.dvd_sub h h'
  · exact fun h' => Nat.dvd_sub h h'

/-- The bad moves by `n` steps. -/
def Bad (F : Fam A U) (val : U → Nat) (x : NIter A U) (n : Nat) : Prop := ¬ 2 ^ (F.maxPrefix - x.plen) ∣ val x.step * n

theorem niAdd_out (L : F.Law WF val) (x : NIter A U) (hx : NitHeld F WF val x) (n : U) :
    Out (Bad F val x (val n)) (NitHeld F WF val) (Fam.noexcept (F.niAdd x n)) := by
  obtain ⟨y, h1, h2, h3⟩ := aiAdd_yields L x.it hx.it (F.ops.mul x.step n)
  have hk := Nat.sub_le F.maxPrefix x.plen
  simp only [Fam.niAdd, h1, Res.ok_bind]
  refine (strict_out L y h2 x.plen hx.le (fun cur => (⟨cur, y, x.step, x.plen⟩ : NIter A U)) _
    fun m hm ho => ⟨h2, hm, hx.le, ho⟩).congr ?_
  rw [h3, L.ops.mul, al_add _ _ _ _ hk hx.off, al_mod _ _ _ hk]
  rfl

theorem niSub_out (L : F.Law WF val) (x : NIter A U) (hx : NitHeld F WF val x) (n : U) :
    Out (Bad F val x (val n)) (NitHeld F WF val) (Fam.noexcept (F.niSub x n)) := by
  obtain ⟨y, h1, h2, h3⟩ := aiSub_yields L x.it hx.it (F.ops.mul x.step n)
  have hk := Nat.sub_le F.maxPrefix x.plen
  simp only [Fam.niSub, h1, Res.ok_bind]
  refine (strict_out L y h2 x.plen hx.le (fun cur => (⟨cur, y, x.step, x.plen⟩ : NIter A U)) _
    fun m hm ho => ⟨h2, hm, hx.le, ho⟩).congr ?_
  rw [h3, al_add _ _ _ _ hk hx.off, al_neg _ _ _ hk (L.ops.val_lt _), L.ops.mul, al_mod _ _ _ hk]
  rfl

theorem niBase_out (L : F.Law WF val) (x : NIter A U) (hx : NitHeld F WF val x) :
    Out (Bad F val x 1) (NitHeld F WF val) (Fam.noexcept (F.niBase x)) := by
  obtain ⟨a, h1, h2, h3⟩ := fromUint_yields L (F.ops.add x.it.off x.step)
  have hk := Nat.sub_le F.maxPrefix x.plen
  simp only [Fam.niBase, h1, Res.ok_bind]
  have hy : ItOk F WF val ⟨a, F.ops.add x.it.off x.step,
      if F.ops.lt (F.ops.add x.it.off x.step) x.it.off then 1 - x.it.carry else x.it.carry⟩ :=
    ⟨h2, h3.symm, flip_carry _ _ hx.it.carry⟩
  refine (strict_out L _ hy x.plen hx.le (fun cur => (⟨cur, _, x.step, x.plen⟩ : NIter A U)) _
    fun m hm ho => ⟨hy, hm, hx.le, ho⟩).congr ?_
  show ¬ _ ∣ val (F.ops.add x.it.off x.step) ↔ _
  rw [L.ops.add, al_add _ _ _ _ hk hx.off, Bad, Nat.mul_one]

theorem niReverse_out (L : F.Law WF val) (x : NIter A U) (hx : NitHeld F WF val x) :
    Out (Bad F val x 1) (NitHeld F WF val) (Fam.noexcept (F.niReverse x)) := by
  obtain ⟨a, h1, h2, h3⟩ := fromUint_yields L (F.ops.sub x.it.off x.step)
  have hk := Nat.sub_le F.maxPrefix x.plen
  simp only [Fam.niReverse, h1, Res.ok_bind]
  have hy : ItOk F WF val ⟨a, F.ops.sub x.it.off x.step,
      if F.ops.lt x.it.off (F.ops.sub x.it.off x.step) then 1 - x.it.carry else x.it.carry⟩ :=
    ⟨h2, h3.symm, flip_carry _ _ hx.it.carry⟩
  refine (strict_out L _ hy x.plen hx.le (fun cur => (⟨cur, _, x.step, x.plen⟩ : NIter A U)) _
    fun m hm ho => ⟨hy, hm, hx.le, ho⟩).congr ?_
  show ¬ _ ∣ val (F.ops.sub x.it.off x.step) ↔ _
  rw [L.ops.sub, al_add _ _ _ _ hk hx.off, al_neg _ _ _ hk (L.ops.val_lt _), Bad, Nat.mul_one]

theorem niAt_out (L : F.Law WF val) (x : NIter A U) (hx : NitHeld F WF val x) (n : U) :
    Out (Bad F val x (val n)) (NetOk F WF) (Fam.noexcept (F.niAt x n)) := by
  obtain ⟨y, h1, h2, h3⟩ := aiAdd_yields L x.it hx.it (F.ops.mul x.step n)
  have hk := Nat.sub_le F.maxPrefix x.plen
  have e : F.niAt x n = (do let m ← F.fromAddress y.cur x.plen true; .ok m) := by
    simp only [Fam.niAt, h1, Res.ok_bind]
    cases F.fromAddress y.cur x.plen true <;> rfl
  rw [e]
  refine (strict_out L y h2 x.plen hx.le (fun m => m) _ fun m hm ho => hm).congr ?_
  rw [h3, L.ops.mul, al_add _ _ _ _ hk hx.off, al_mod _ _ _ hk]
  rfl

theorem noexcept_map {α β : Type} (r : Res α) (f : α → β) :
    Fam.noexcept (r >>= fun a => .ok (f a)) = (Fam.noexcept r >>= fun a => .ok (f a)) := by
  cases r <;> rfl

theorem Out.map {α β : Type} {bad : Prop} {P : α → Prop} {Q : β → Prop} {r : Res α} {f : α → β} (h : Out bad P (Fam.noexcept r))
    (hf : ∀ a, P a → Q (f a)) : Out bad Q (Fam.noexcept (r >>= fun a => .ok (f a))) := by
  rw [noexcept_map]
  exact h.bind hf

theorem misfit_iff (x : NIter A U) (k : Nat) : Misfit F.maxPrefix val x k ↔ Bad F val x k := by
  unfold Misfit Bad
  rw [← Int.natCast_dvd_natCast]
  push_cast
  rfl

theorem misfit_one (x : NIter A U) : Misfit F.maxPrefix val x 1 ↔ Bad F val x 1 := misfit_iff x 1

theorem misfit_i64 (L : F.Law WF val) (x : NIter A U) (n : BitVec 64) :
    Misfit F.maxPrefix val x n.toInt ↔ Bad F val x (val (F.ops.ofI64 n)) := by
  rw [← misfit_iff]
  unfold Misfit
  rw [L.ops.ofI64]
  have h : (2 : Int) ^ (F.maxPrefix - x.plen) ∣ 2 ^ F.maxPrefix := pow_dvd_pow 2 (Nat.sub_le _ _)
  have e : (val x.step : Int) * n.toInt = val x.step * (n.toInt % 2 ^ F.maxPrefix) + 2 ^ F.maxPrefix * (val x.step * (n.toInt / 2 ^ F.maxPrefix)) := by
    conv => lhs; rw [← Int.mul_ediv_add_emod n.toInt (2 ^ F.maxPrefix)]
    ring
  rw [not_iff_not, e]
  exact Int.dvd_add_left (Dvd.dvd.mul_right h _)

theorem niMove_out (L : F.Law WF val) (m : Move U) (x : NIter A U) (hx : NitHeld F WF val x) :
    Out (Misfit F.maxPrefix val x (moveCount val m)) (NitHeld F WF val) (F.niMove m x) := by
  have one : val (F.ops.ofI64 1#64) = 1 := val_one L
  cases m with
  | inc => exact (niAdd_out L x hx (F.ops.ofI64 1#64)).congr (by rw [one]; exact (misfit_one x).symm)
  | dec => exact (niSub_out L x hx (F.ops.ofI64 1#64)).congr (by rw [one]; exact (misfit_one x).symm)
  | add n => exact (niAdd_out L x hx n).congr (misfit_iff x _).symm
  | sub n => exact (niSub_out L x hx n).congr (misfit_iff x _).symm
  | addI n => exact (niAdd_out L x hx (F.ops.ofI64 n)).congr (misfit_i64 L x n).symm
  | subI n => exact (niSub_out L x hx (F.ops.ofI64 n)).congr (misfit_i64 L x n).symm

theorem moveCount_opposite (m : Move U) : moveCount val m.opposite = moveCount val m := by
  cases m <;> rfl

theorem niMk_held (L : F.Law WF val) (a : A) (ha : WF a) (step : U) (p : Nat) (c : Int) (hc : c = 0 ∨ c = 1) :
    (p ≤ F.maxPrefix ∧ 2 ^ (F.maxPrefix - p) ∣ F.v a ∧ ∃ x, F.niMk a step p c = .ok x ∧ NitHeld F WF val x) ∨
    ((F.maxPrefix < p ∨ ¬ 2 ^ (F.maxPrefix - p) ∣ F.v a) ∧ ∀ β (f : NIter A U → Res β), Fam.noexcept (F.niMk a step p c >>= f) = .ub) := by
  obtain ⟨y, y1, y2⟩ := aiMk_yields L a ha c hc
  by_cases hp : p ≤ F.maxPrefix
  · obtain ⟨m, b, -, -, -, -, e⟩ := fromAddress_eq L a ha p hp true
    by_cases h : F.v a % 2 ^ (F.maxPrefix - p) = 0
    · rw [if_pos h] at e
      have hn := (fromAddress_ok L a ha p true _ e).1
      have ey : y.cur = a := by
        obtain ⟨u, h1, h2⟩ := L.toUint a ha
        simp only [Fam.aiMk, h1, Res.ok_bind] at y1
        cases y1; rfl
      refine .inl ⟨hp, Nat.dvd_of_mod_eq_zero h, ⟨_, y, step, p⟩, by simp only [Fam.niMk, e, y1, Res.ok_bind], y2, hn, hp, ?_⟩
      show val y.off % _ = 0
      rw [y2.off, ey]; exact h
    · rw [if_neg h, if_pos rfl] at e
      refine .inr ⟨.inr fun h' => h (Nat.mod_eq_zero_of_dvd h'), fun β f => ?_⟩
      simp only [Fam.niMk, e, Res.err_bind]
      rfl
  · refine .inr ⟨.inl (by omega), fun β f => ?_⟩
    have e : F.fromAddress a p true = .ub := (fromAddress_out L a ha p true).1.mpr (by omega)
    simp only [Fam.niMk, e, Res.ub_bind]
    rfl

theorem niMk_out (L : F.Law WF val) (a : A) (ha : WF a) (step : U) (p : Nat) (c : Int) (hc : c = 0 ∨ c = 1) :
    Out (F.maxPrefix < p ∨ ¬ 2 ^ (F.maxPrefix - p) ∣ F.v a) (NitHeld F WF val) (Fam.noexcept (F.niMk a step p c)) := by
  rcases niMk_held L a ha step p c hc with ⟨h1, h2, x, h3, h4⟩ | ⟨h1, h2⟩
  · rw [h3]
    refine ⟨⟨fun h => (by cases h), fun h => ?_⟩, fun y hy => (by cases hy; exact h4)⟩
    rcases h with h | h
    · omega
    · exact (h h2).elim
  · have e := h2 _ (fun x => .ok x)
    have e' : (F.niMk a step p c >>= fun x => .ok x) = F.niMk a step p c := by cases F.niMk a step p c <;> rfl
    rw [e'] at e
    rw [e]
    exact ⟨⟨fun _ => h1, fun _ => rfl⟩, fun y hy => (by cases hy)⟩

theorem niMk_bind {β : Type} {bad : Prop} {Q : β → Prop} (L : F.Law WF val) (a : A) (ha : WF a) (step : U) (p : Nat) (c : Int)
    (hc : c = 0 ∨ c = 1) (f : NIter A U → Res β)
    (hf : ∀ x, p ≤ F.maxPrefix → 2 ^ (F.maxPrefix - p) ∣ F.v a → NitHeld F WF val x → Out bad Q (Fam.noexcept (f x))) :
    Out ((F.maxPrefix < p ∨ ¬ 2 ^ (F.maxPrefix - p) ∣ F.v a) ∨ bad) Q (Fam.noexcept (F.niMk a step p c >>= f)) := by
  rcases niMk_held L a ha step p c hc with ⟨h1, h2, x, h3, h4⟩ | ⟨h1, h2⟩
  · rw [h3, Res.ok_bind]
    refine (hf x h1 h2 h4).congr ⟨.inr, fun h => ?_⟩
    rcases h with (h | h) | h
    · omega
    · exact (h h2).elim
    · exact h
  · rw [h2]
    exact ⟨⟨fun _ => .inl h1, fun _ => rfl⟩, fun y hy => (by cases hy)⟩

theorem subnetsMk1_out (L : F.Law WF val) (a : A) (ha : WF a) (p : Nat) :
    Out (p ≠ F.maxPrefix) (fun s => NitHeld F WF val s.first ∧ NitHeld F WF val s.last) (Fam.noexcept (F.subnetsMk1 a p)) := by
  have hfa : IsAddr F (F.v a) (F.ofBytes (F.bytes a)) := ⟨_, rfl, L.len _ ha, rfl⟩
  obtain ⟨n, n1, n2⟩ := L.toUint a ha
  have n2 : val n = F.v a := n2
  obtain ⟨l, l1, l2⟩ := fromUint_isAddr L (F.ops.add n (F.ops.ofI64 1#64))
  rw [L.ops.add, val_one L, n2] at l2
  have hlt := l2.lt L hfa
  simp only [Fam.subnetsMk1, n1, l1, hlt, Res.ok_bind]
  have hk := Nat.sub_le F.maxPrefix p
  refine (niMk_bind (bad := F.maxPrefix < p ∨ ¬ 2 ^ (F.maxPrefix - p) ∣ F.v l) L _ (hfa.wf L) _ p 0 (.inl rfl) _ fun x hp hx h => ?_).congr ?_
  · refine (niMk_bind (bad := False) L l (l2.wf L) _ p _ (carry01 _) _ fun y hp hy h' => ?_).congr (by rw [or_false])
    exact (Yields.noexcept ⟨_, rfl, h, h'⟩).out
  · rw [hfa.v_eq L, l2.v_eq L, al_mod _ _ _ hk]
    constructor
    · rintro ((h | h) | (h | h)) rfl
      · omega
      · simp at h
      · omega
      · simp at h
    · intro h
      by_cases h1 : F.maxPrefix < p
      · exact .inl (.inl h1)
      · have h2 : 2 ∣ 2 ^ (F.maxPrefix - p) := dvd_pow_self 2 (by omega)
        by_cases h3 : 2 ^ (F.maxPrefix - p) ∣ F.v a
        · refine .inr (.inr fun h4 => ?_)
          have := h2.trans h3
          have := h2.trans h4
          omega
        · exact .inl (.inr h3)

theorem subnetsMk_out (L : F.Law WF val) (S : SafeLaw F WF val) (T : TameLaw F WF val) (a b h : A) (ha : WF a) (hb : WF b) (hh : WF h)
    (d p : Nat) :
    Out (F.maxPrefix < p ∨ ¬ 2 ^ (F.maxPrefix - p) ∣ F.v a ∨ ¬ 2 ^ (F.maxPrefix - p) ∣ F.v b + 1 ∨ d = F.maxPrefix ∨
        (F.isV6 = false ∧ (F.maxPrefix < d ∨ (d = 0 ∧ F.v h + 1 = 2 ^ F.maxPrefix))))
      (fun s => NitHeld F WF val s.first ∧ NitHeld F WF val s.last) (Fam.noexcept (F.subnetsMk a b h d p)) := by
  obtain ⟨n, n1, n2⟩ := L.toUint a ha
  obtain ⟨u, u1, u2⟩ := L.toUint b hb
  obtain ⟨t, t1, t2⟩ := L.toUint h hh
  have n2 : val n = F.v a := n2
  have u2 : val u = F.v b := u2
  have t2 : val t = F.v h := t2
  obtain ⟨f, f1, f2⟩ := fromUint_isAddr L n
  obtain ⟨l, l1, l2⟩ := fromUint_isAddr L (F.ops.add u (F.ops.ofI64 1#64))
  rw [n2] at f2
  rw [L.ops.add, val_one L, u2] at l2
  have heq := f2.eq L l2
  have hk := Nat.sub_le F.maxPrefix p
  have hW := two_le_W L
  have hv := L.v_lt h hh
  simp only [Fam.subnetsMk, n1, u1, f1, l1, t1, heq, Res.ok_bind]
  -- the shift
  have shift : (F.ops.shr t d = .ub ∧ (d = F.maxPrefix ∨ (F.isV6 = false ∧ F.maxPrefix < d))) ∨
      (∃ s, F.ops.shr t d = .ok s ∧ ¬ (d = F.maxPrefix ∨ (F.isV6 = false ∧ F.maxPrefix < d)) ∧
        (val (F.ops.add s (F.ops.ofI64 1#64)) = 0 ↔ d = 0 ∧ F.v h + 1 = 2 ^ F.maxPrefix)) := by
    rcases Nat.lt_trichotomy d F.maxPrefix with hd | hd | hd
    · obtain ⟨s, s1, s2⟩ := L.ops.shr t d hd
      refine .inr ⟨s, s1, by omega, ?_⟩
      rw [L.ops.add, val_one L, s2, t2]
      have hle : F.v h / 2 ^ d ≤ F.v h := Nat.div_le_self _ _
      constructor
      · intro e
        by_cases hd0 : d = 0
        · subst hd0
          refine ⟨rfl, ?_⟩
          rw [Nat.pow_zero, Nat.div_one] at e
          by_contra hne
          rw [Nat.mod_eq_of_lt (by omega)] at e
          omega
        · have h2 : 2 ^ 1 ≤ 2 ^ d := Nat.pow_le_pow_right (by decide) (by omega)
          have : F.v h / 2 ^ d ≤ F.v h / 2 := Nat.div_le_div_left (by omega) (by decide)
          rw [Nat.mod_eq_of_lt (by omega)] at e
          exact (Nat.succ_ne_zero _ e).elim
      · rintro ⟨rfl, e⟩
        rw [Nat.pow_zero, Nat.div_one, e, Nat.mod_self]
    · subst hd
      exact .inl ⟨L.ops.shr_ub t, .inl rfl⟩
    · obtain ⟨h4, h6⟩ := T.shr t d hd
      cases hs : F.isV6 with
      | false => exact .inl ⟨h4 hs, .inr ⟨rfl, hd⟩⟩
      | true =>
        obtain ⟨s, s1, s2⟩ := h6 hs
        refine .inr ⟨s, s1, by simp; omega, ?_⟩
        rw [L.ops.add, val_one L, s2, Nat.mod_eq_of_lt (by omega)]
        omega
  rcases shift with ⟨s1, s2⟩ | ⟨s, s1, s2, s3⟩
  · rw [s1]
    refine ⟨⟨fun _ => ?_, fun _ => rfl⟩, fun x hx => (by cases hx)⟩
    rcases s2 with s2 | s2
    · exact .inr (.inr (.inr (.inl s2)))
    · exact .inr (.inr (.inr (.inr ⟨s2.1, .inl s2.2⟩)))
  · simp only [s1, Res.ok_bind]
    refine (niMk_bind (bad := (F.maxPrefix < p ∨ ¬ 2 ^ (F.maxPrefix - p) ∣ F.v l) ∨ (F.isV6 = false ∧ d = 0 ∧ F.v h + 1 = 2 ^ F.maxPrefix))
      L f (f2.wf L) _ p 0 (.inl rfl) _ fun x hp hx hx' => ?_).congr ?_
    · refine niMk_bind (bad := F.isV6 = false ∧ d = 0 ∧ F.v h + 1 = 2 ^ F.maxPrefix) L l (l2.wf L) _ p _ (carry01 _) _ fun y hp hy hy' => ?_
      by_cases hz : val (F.ops.add s (F.ops.ofI64 1#64)) = 0
      · obtain ⟨d1, d2⟩ := S.div (F.ops.sub u n) _ hz
        have hz' := s3.mp hz
        cases e : F.ops.div (F.ops.sub u n) (F.ops.add s (F.ops.ofI64 1#64)) with
        | err c v => exact (d2 c v e).elim
        | ub => exact ⟨⟨fun _ => ⟨d1.mp e, hz'⟩, fun _ => rfl⟩, fun x hx => (by cases hx)⟩
        | ok q =>
          refine ⟨⟨fun h => (by cases h), fun h => ?_⟩, fun x hx => (by cases hx; exact ⟨hx', hy'⟩)⟩
          have := d1.mpr h.1
          rw [e] at this; cases this
      · obtain ⟨q, q1, -⟩ := L.ops.div (F.ops.sub u n) _ hz
        rw [q1]
        exact ⟨⟨fun h => (by cases h), fun h => (hz (s3.mpr h.2)).elim⟩, fun x hx => (by cases hx; exact ⟨hx', hy'⟩)⟩
    · rw [f2.v_eq L, l2.v_eq L, al_mod _ _ _ hk]
      constructor
      · rintro ((h | h) | (h | h) | ⟨h1, h2⟩)
        · exact .inl h
        · exact .inr (.inl h)
        · exact .inl h
        · exact .inr (.inr (.inl h))
        · exact .inr (.inr (.inr (.inr ⟨h1, .inr h2⟩)))
      · rintro (h | h | h | h | ⟨h1, h | h⟩)
        · exact .inl (.inl h)
        · exact .inl (.inr h)
        · exact .inr (.inl (.inr h))
        · exact (s2 (.inl h)).elim
        · exact (s2 (.inr ⟨h1, h⟩)).elim
        · exact .inr (.inr ⟨h1, h⟩)

/-! ### Excluding iterators -/

theorem leaves_iff (L : F.Law WF val) (o m : Net A) (ho : NetOk F WF o) (hm : NetOk F WF m) :
    Leaves F.maxPrefix F.v o m ↔ ¬ Part F.maxPrefix o.plen (F.v o.addr) m.plen (F.v m.addr) := by
  unfold Leaves Part
  simp only [inNet_interval L o ho, inNet_interval L m hm]
  have hO := Nat.two_pow_pos (F.maxPrefix - o.plen)
  constructor
  · rintro ⟨t, h1, h2⟩ h3
    omega
  · intro h
    by_cases h1 : F.v m.addr ≤ F.v o.addr
    · exact ⟨F.v o.addr + 2 ^ (F.maxPrefix - o.plen) - 1, by omega, by omega⟩
    · exact ⟨F.v o.addr, by omega, by omega⟩

theorem netEq_total (L : F.Law WF val) (T : TameLaw F WF val) (a b : Net A) (ha : NetOk F WF a) (hb : NetOk F WF b) :
    ∃ r, F.netEq a b = .ok r := by
  obtain ⟨m, m1, m2, m3⟩ := ha.mask
  obtain ⟨m', n1, n2, n3⟩ := hb.mask
  obtain ⟨r, hr⟩ := T.total _ _ ha.wf hb.wf
  simp only [Fam.netEq, hr, Res.ok_bind, m1, n1, L.eq m m' m2 n2]
  split <;> exact ⟨_, rfl⟩

/-- The halves of any network. -/
theorem halves_total (L : F.Law WF val) (S : SafeLaw F WF val) (n : Net A) (hn : NetOk F WF n) :
    ∃ a b, F.halves n = .ok (a, b) ∧ IsNet F a.plen (F.v a.addr) a ∧ IsNet F b.plen (F.v b.addr) b := by
  have hpl := hn.plen
  by_cases hp : n.plen = F.maxPrefix
  · obtain ⟨a, b, h1, h2, h3⟩ := halves_host L n hn hp
    exact ⟨a, b, h1, h2.self L, h3.self L⟩
  · obtain ⟨l, a, b, -, -, h1, -, h2, h3⟩ := halves_ok L S n hn (by omega)
    exact ⟨a, b, h1, h2.self L, h3.self L⟩

/-- `operator++` with halves without scope ids. -/
theorem exInc_any (L : F.Law WF val) (S : SafeLaw F WF val) (T : TameLaw F WF val) (x : ExIter A) (ho : NetOk F WF x.other)
    (h1 : IsNet F x.s1.plen (F.v x.s1.addr) x.s1) (h2 : IsNet F x.s2.plen (F.v x.s2.addr) x.s2) (hc : NetOk F WF x.cur) :
    (F.exInc x = .ub ∧ ¬ Part F.maxPrefix x.other.plen (F.v x.other.addr) x.s1.plen (F.v x.s1.addr) ∧
      ¬ Part F.maxPrefix x.other.plen (F.v x.other.addr) x.s2.plen (F.v x.s2.addr)) ∨
    (Yields (ExHeld F WF) (F.exInc x) ∧ (Part F.maxPrefix x.other.plen (F.v x.other.addr) x.s1.plen (F.v x.s1.addr) ∨
      Part F.maxPrefix x.other.plen (F.v x.other.addr) x.s2.plen (F.v x.s2.addr))) := by
  obtain ⟨same, H⟩ := T.tame x.other ho
  obtain ⟨e1, d1⟩ := H _ _ _ h1
  obtain ⟨e2, d2⟩ := H _ _ _ h2
  obtain ⟨r1, c1⟩ := netEq_total L T x.cur x.s1 hc (h1.netOk L)
  obtain ⟨r2, c2⟩ := netEq_total L T x.cur x.s2 hc (h2.netOk L)
  obtain ⟨a1, b1, g1, g1a, g1b⟩ := halves_total L S x.s1 (h1.netOk L)
  obtain ⟨a2, b2, g2, g2a, g2b⟩ := halves_total L S x.s2 (h2.netOk L)
  have dflt : Yields (ExHeld F WF) F.exDefault := by
    obtain ⟨d, d1, d2⟩ := exDefault_yields L
    exact ⟨d, d1, d2.held L⟩
  have part : ∀ m : Net A, (decide (F.v m.addr = F.v x.other.addr ∧ m.plen = x.other.plen) && same) = true →
      Part F.maxPrefix x.other.plen (F.v x.other.addr) m.plen (F.v m.addr) := by
    intro m h
    rw [Bool.and_eq_true, decide_eq_true_iff] at h
    unfold Part
    rw [h.1.1, h.1.2]
    exact ⟨Nat.le_refl _, Nat.le_refl _⟩
  unfold Fam.exInc
  simp only [e1, e2, Res.ok_bind]
  cases q1 : (decide (F.v x.s1.addr = F.v x.other.addr ∧ x.s1.plen = x.other.plen) && same) with
  | true =>
    refine .inr ⟨?_, .inl (part _ q1)⟩
    simp only [Bool.not_true, Bool.false_and, Bool.false_eq_true, if_false, if_true, c2, Res.ok_bind]
    cases r2
    · exact ⟨_, rfl, ho, h1, h2, h2.netOk L⟩
    · exact dflt
  | false =>
    cases q2 : (decide (F.v x.s2.addr = F.v x.other.addr ∧ x.s2.plen = x.other.plen) && same) with
    | true =>
      refine .inr ⟨?_, .inr (part _ q2)⟩
      simp only [Bool.not_true, Bool.not_false, Bool.and_false, Bool.false_eq_true, if_false, if_true, c1, Res.ok_bind]
      cases r1
      · exact ⟨_, rfl, ho, h1, h2, h1.netOk L⟩
      · exact dflt
    | false =>
      simp only [Bool.not_false, Bool.and_self, if_true, d1, d2, Res.ok_bind, c1, c2, g1, g2, decide_eq_true_eq]
      by_cases p1 : Part F.maxPrefix x.other.plen (F.v x.other.addr) x.s1.plen (F.v x.s1.addr)
      · refine .inr ⟨?_, .inl p1⟩
        rw [if_pos p1]
        cases r2
        · exact ⟨_, rfl, ho, g1a, g1b, h2.netOk L⟩
        · exact dflt
      · rw [if_neg p1]
        by_cases p2 : Part F.maxPrefix x.other.plen (F.v x.other.addr) x.s2.plen (F.v x.s2.addr)
        · refine .inr ⟨?_, .inr p2⟩
          rw [if_pos p2]
          cases r1
          · exact ⟨_, rfl, ho, g2a, g2b, h1.netOk L⟩
          · exact dflt
        · rw [if_neg p2]
          exact .inl ⟨rfl, p1, p2⟩

theorem exInc_out (L : F.Law WF val) (S : SafeLaw F WF val) (T : TameLaw F WF val) (x : ExIter A) (hx : ExHeld F WF x) :
    Out (Leaves F.maxPrefix F.v x.other x.s1 ∧ Leaves F.maxPrefix F.v x.other x.s2) (ExHeld F WF) (F.exInc x) := by
  rw [leaves_iff L _ _ hx.other (hx.s1.netOk L), leaves_iff L _ _ hx.other (hx.s2.netOk L)]
  rcases exInc_any L S T x hx.other hx.s1 hx.s2 hx.cur with ⟨h1, h2⟩ | ⟨h1, h2⟩
  · rw [h1]
    exact ⟨⟨fun _ => h2, fun _ => rfl⟩, fun y hy => (by cases hy)⟩
  · refine h1.out.congr ⟨False.elim, fun h => ?_⟩
    exact h2.elim h.1 h.2

/-- The constructor of the excluding iterator, with any networks. -/
theorem exMk_out (L : F.Law WF val) (S : SafeLaw F WF val) (T : TameLaw F WF val) (n o : Net A) (hn : NetOk F WF n) (ho : NetOk F WF o) :
    Out (¬ (StrictlyInside F.maxPrefix o.plen (F.v o.addr) n.plen (F.v n.addr) ∨
        SelfOrNext F.maxPrefix o.plen (F.v o.addr) n.plen (F.v n.addr))) (ExHeld F WF) (F.exMk n o) ∧
    ∀ e v, F.exMk n o ≠ .err e v := by
  have hpl := hn.plen
  have hol := ho.plen
  have hO := Nat.two_pow_pos (F.maxPrefix - o.plen)
  have inside : StrictlyInside F.maxPrefix o.plen (F.v o.addr) n.plen (F.v n.addr) ↔
      n.plen < o.plen ∧ Part F.maxPrefix o.plen (F.v o.addr) n.plen (F.v n.addr) := by
    unfold StrictlyInside Part
    simp only [inNet_interval L n hn, inNet_interval L o ho]
    refine and_congr_right fun _ => ⟨fun h => ?_, fun h t ht => by omega⟩
    have a := h (F.v o.addr) ⟨by omega, by omega⟩
    have b := h (F.v o.addr + 2 ^ (F.maxPrefix - o.plen) - 1) ⟨by omega, by omega⟩
    omega
  have fin : ∀ a b p v q u, F.halves n = .ok (a, b) → IsNet F p v a → IsNet F q u b →
      ((Part F.maxPrefix o.plen (F.v o.addr) p v ∨ Part F.maxPrefix o.plen (F.v o.addr) q u) ↔
        (StrictlyInside F.maxPrefix o.plen (F.v o.addr) n.plen (F.v n.addr) ∨
        SelfOrNext F.maxPrefix o.plen (F.v o.addr) n.plen (F.v n.addr))) →
      Out (¬ (StrictlyInside F.maxPrefix o.plen (F.v o.addr) n.plen (F.v n.addr) ∨
        SelfOrNext F.maxPrefix o.plen (F.v o.addr) n.plen (F.v n.addr))) (ExHeld F WF) (F.exMk n o) ∧
      ∀ e v, F.exMk n o ≠ .err e v := by
    intro a b p v q u h ha hb e
    simp only [Fam.exMk, h, Res.ok_bind]
    rcases exInc_any L S T ⟨o, a, b, n⟩ ho (ha.self L) (hb.self L) hn with ⟨h1, h2, h3⟩ | ⟨⟨y, h1, h1'⟩, h2⟩
    · simp only [ha.plen, ha.v_eq L, hb.plen, hb.v_eq L] at h2 h3
      rw [h1]
      exact ⟨⟨⟨fun _ h => (e.mpr h).elim h2 h3, fun _ => rfl⟩, fun y hy => (by cases hy)⟩, fun e v h => (by cases h)⟩
    · simp only [ha.plen, ha.v_eq L, hb.plen, hb.v_eq L] at h2
      rw [h1]
      exact ⟨⟨⟨fun h => (by cases h), fun h => (h (e.mp h2)).elim⟩, fun y hy => (by cases hy; exact h1')⟩, fun e v h => (by cases h)⟩
  by_cases hp : n.plen = F.maxPrefix
  · obtain ⟨a, b, h1, h2, h3⟩ := halves_host L n hn hp
    refine fin a b _ _ _ _ h1 h2 h3 ?_
    unfold SelfOrNext
    rw [inside]
    have one : ∀ v, Part F.maxPrefix o.plen (F.v o.addr) F.maxPrefix v ↔ o.plen = F.maxPrefix ∧ F.v o.addr = v := by
      intro v
      unfold Part
      rw [Nat.sub_self, Nat.pow_zero]
      constructor
      · rintro ⟨c1, c2⟩
        refine ⟨?_, by omega⟩
        by_contra hne
        have : 2 ^ 1 ≤ 2 ^ (F.maxPrefix - o.plen) := Nat.pow_le_pow_right (by decide) (by omega)
        omega
      · rintro ⟨c1, c2⟩
        rw [c1, Nat.sub_self, Nat.pow_zero]
        omega
    rw [one, one]
    constructor
    · rintro (⟨c1, c2⟩ | ⟨c1, c2⟩)
      · exact .inr ⟨hp, c1, .inl c2⟩
      · exact .inr ⟨hp, c1, .inr c2⟩
    · rintro (⟨c1, -⟩ | ⟨-, c1, c2 | c2⟩)
      · omega
      · exact .inl ⟨c1, c2⟩
      · exact .inr ⟨c1, c2⟩
  · obtain ⟨l, a, b, -, -, h1, -, h2, h3⟩ := halves_ok L S n hn (by omega)
    refine fin a b _ _ _ _ h1 h2 h3 ?_
    have nself : ¬ SelfOrNext F.maxPrefix o.plen (F.v o.addr) n.plen (F.v n.addr) := fun h => hp h.1
    rw [or_iff_left nself, inside]
    have hhalf : 2 ^ (F.maxPrefix - n.plen) = 2 * 2 ^ (F.maxPrefix - (n.plen + 1)) := by
      rw [← Nat.pow_succ']; congr 1; omega
    have big : o.plen ≤ n.plen → 2 ^ (F.maxPrefix - n.plen) ≤ 2 ^ (F.maxPrefix - o.plen) :=
      fun h => Nat.pow_le_pow_right (by decide) (by omega)
    constructor
    · intro h
      have h' : Part F.maxPrefix o.plen (F.v o.addr) n.plen (F.v n.addr) ∧
          2 ^ (F.maxPrefix - o.plen) ≤ 2 ^ (F.maxPrefix - (n.plen + 1)) := by
        unfold Part at h ⊢
        omega
      refine ⟨?_, h'.1⟩
      by_contra hlt
      have := big (by omega)
      omega
    · rintro ⟨hlt, hpart⟩
      have hsplit := half_or (F.maxPrefix - (n.plen + 1)) (F.maxPrefix - o.plen) (F.v n.addr) (F.v o.addr) (by omega) ho.aligned
        (by rw [show F.maxPrefix - (n.plen + 1) + 1 = F.maxPrefix - n.plen by omega]; exact hn.aligned)
        (by rw [show F.maxPrefix - (n.plen + 1) + 1 = F.maxPrefix - n.plen by omega]; exact hpart)
      unfold Part at hpart ⊢
      rcases hsplit with h | h
      · exact .inl ⟨hpart.1, h⟩
      · exact .inr ⟨h, by omega⟩

theorem exSeqMk_out (L : F.Law WF val) (S : SafeLaw F WF val) (T : TameLaw F WF val) (n o : Net A) (hn : NetOk F WF n) (ho : NetOk F WF o) :
    Out (¬ (StrictlyInside F.maxPrefix o.plen (F.v o.addr) n.plen (F.v n.addr) ∨
        SelfOrNext F.maxPrefix o.plen (F.v o.addr) n.plen (F.v n.addr))) (fun s => ExHeld F WF s.first ∧ ExHeld F WF s.last)
      (F.exSeqMk n o) := by
  obtain ⟨d, d1, d2⟩ := exDefault_yields L
  simp only [Fam.exSeqMk, d1, Res.ok_bind]
  exact (exMk_out L S T n o hn ho).1.bind fun x hx => ⟨hx, d2.held L⟩

set_option maxHeartbeats 1000000 in
theorem eval_any (L : F.Law WF val) (G : ProgLaw F WF) (S : SafeLaw F WF val) (T : TameLaw F WF val) (st : List (Obj A U))
    (hst : ∀ o ∈ st, HeldObj F WF val o) (e : Expr U) (hsize : sizeArgs e) :
    OutO (UndefinedAny F.maxPrefix F.isV6 val F.v st e) (HeldObj F WF val) (F.eval st e) := by
  have get : ∀ i o, st[i]? = some o → HeldObj F WF val o := fun i o h => hst o (List.mem_of_getElem? h)
  cases e with
  | defNet => exact (defaultNet_yields L).obj fun n hn => hn.1
  | defAit => exact OutO.value (zero_it L)
  | defNit => exact (niDefault_yields L).obj fun n hn => hn.held
  | defSubs => exact (subnetsDefault_yields L).obj fun n hn => ⟨hn.1.held, hn.2.held⟩
  | defExit => exact (exDefault_yields L).obj fun n hn => hn.held L
  | defExs => exact (exSeqDefault_yields L).obj fun n hn => ⟨hn.1.held L, hn.2.held L⟩
  | fromUint u => exact (fromUint_yields L u).obj fun a ha => ha.1
  | fromAddress i p s =>
    simp only [Fam.eval, UndefinedAny, Undefined]
    split
    · next a e1 =>
      exact (fromAddress_out L a (get i _ e1) p s).obj (fun n hn => hn) ⟨fun h => ⟨⟨a, e1⟩, h⟩, fun h => h.2⟩
    · next h => exact OutO.none fun ⟨⟨a, h1⟩, _⟩ => h a h1
  | fromAddressCode i p s =>
    simp only [Fam.eval, UndefinedAny, Undefined]
    split
    · next a e1 =>
      exact Out.obj (Q := HeldObj F WF val) (r := F.fromAddressCode a p s none)
        (Out.setCode ((defaultNet_yields L).imp fun _ h => ⟨h.1, h.2.1⟩) (fromAddress_out L a (get i _ e1) p s) none)
        (f := fun n => .net n.2) (fun n hn => hn) ⟨fun h => ⟨⟨a, e1⟩, h⟩, fun h => h.2⟩
    · next h => exact OutO.none fun ⟨⟨a, h1⟩, _⟩ => h a h1
  | parse evs s =>
    exact Out.obj (P := NetOk F WF) ⟨S.parse evs s, fun n hn => G.parse _ _ n hn⟩ (fun n hn => hn) Iff.rfl
  | network i =>
    simp only [Fam.eval, UndefinedAny, Undefined]
    split
    · next n e1 => exact OutO.value (get i _ e1 : NetOk F WF n).wf
    · exact OutO.none not_false
  | netmask i =>
    simp only [Fam.eval, UndefinedAny, Undefined]
    split
    · next n e1 => exact OutO.value ((get i _ e1 : NetOk F WF n).mask_wf L)
    · exact OutO.none not_false
  | hostmask i =>
    simp only [Fam.eval, UndefinedAny, Undefined]
    split
    · next n e1 => exact OutO.value ((get i _ e1 : NetOk F WF n).hostmask_wf L)
    · exact OutO.none not_false
  | broadcast i =>
    simp only [Fam.eval, UndefinedAny, Undefined]
    split
    · next n e1 =>
      obtain ⟨b, b1, b2, -⟩ := broadcast_eq L n (get i _ e1)
      exact Yields.obj (P := WF) ⟨_, b1, L.wf_ofBytes b b2⟩ fun a ha => ha
    · exact OutO.none not_false
  | supernet i k newp =>
    simp only [Fam.eval, UndefinedAny, Undefined]
    split
    · next n e1 => exact (supernet_out L n (get i _ e1) k newp).obj (fun r hr => hr) ⟨fun h => ⟨n, e1, h⟩, fun ⟨m, h1, h2⟩ => by rw [e1] at h1; cases h1; exact h2⟩
    · next h => exact OutO.none fun ⟨n, h1, _⟩ => h n h1
  | supernetCode i k newp =>
    simp only [Fam.eval, UndefinedAny, Undefined]
    split
    · next n e1 =>
      exact Out.obj (Q := HeldObj F WF val) (r := F.supernetCode n k newp none)
        (Out.setCode ((defaultNet_yields L).imp fun _ h => ⟨h.1, h.2.1⟩) (supernet_out L n (get i _ e1) k newp) none)
        (f := fun r => .net r.2) (fun r hr => hr) ⟨fun h => ⟨n, e1, h⟩, fun ⟨m, h1, h2⟩ => by rw [e1] at h1; cases h1; exact h2⟩
    · next h => exact OutO.none fun ⟨n, h1, _⟩ => h n h1
  | hosts i =>
    simp only [Fam.eval, UndefinedAny, Undefined]
    split
    · next n e1 => exact (hosts_yields L n (get i _ e1)).obj fun s hs => hs
    · exact OutO.none not_false
  | hostsMk i j p m =>
    simp only [Fam.eval, UndefinedAny, Undefined]
    split
    · next a b e1 e2 => exact (hostsMk_yields L a b (get i _ e1) (get j _ e2) p m).obj fun s hs => hs
    · exact OutO.none not_false
  | subnets i k newp =>
    simp only [Fam.eval, UndefinedAny, Undefined]
    split
    · next n e1 => exact (subnets_out L S n (get i _ e1) k newp hsize.1 hsize.2).obj (fun s hs => ⟨hs.1.held, hs.2.held⟩) ⟨fun h => ⟨n, e1, h⟩, fun ⟨m, h1, h2⟩ => by rw [e1] at h1; cases h1; exact h2⟩
    · next h => exact OutO.none fun ⟨n, h1, _⟩ => h n h1
  | subnetsCode i k newp =>
    simp only [Fam.eval, UndefinedAny, Undefined]
    split
    · next n e1 =>
      exact Out.obj (Q := HeldObj F WF val) (r := F.subnetsCode n k newp none)
        (Out.setCode (subnetsDefault_yields L) (subnets_out L S n (get i _ e1) k newp hsize.1 hsize.2) none)
        (f := fun s => .subs s.2) (fun s hs => ⟨hs.1.held, hs.2.held⟩) ⟨fun h => ⟨n, e1, h⟩, fun ⟨m, h1, h2⟩ => by rw [e1] at h1; cases h1; exact h2⟩
    · next h => exact OutO.none fun ⟨n, h1, _⟩ => h n h1
  | subnetsMk1 i p =>
    simp only [Fam.eval, UndefinedAny]
    split
    · next a e1 => exact (subnetsMk1_out L a (get i _ e1) p).obj (fun s hs => hs) ⟨fun h => ⟨⟨a, e1⟩, h⟩, fun h => h.2⟩
    · next h => exact OutO.none fun ⟨⟨a, h1⟩, _⟩ => h a h1
  | subnetsMk i j k d p =>
    simp only [Fam.eval, UndefinedAny]
    split
    · next a b h e1 e2 e3 =>
      exact (subnetsMk_out L S T a b h (get i _ e1) (get j _ e2) (get k _ e3) d p).obj (fun s hs => hs)
        ⟨fun h' => ⟨a, b, h, e1, e2, e3, h'⟩, fun ⟨a', b', c', h1, h2, h3, h4⟩ => by
          rw [e1] at h1; rw [e2] at h2; rw [e3] at h3; cases h1; cases h2; cases h3; exact h4⟩
    · next h => exact OutO.none fun ⟨a, b, c, h1, h2, h3, _⟩ => h a b c h1 h2 h3
  | exclude i j =>
    simp only [Fam.eval, UndefinedAny, Undefined]
    split
    · next a b e1 e2 => exact (addressExclude_out L S a b (get i _ e1) (get j _ e2)).obj (fun s hs => ⟨hs.1.held L, hs.2.held L⟩) Iff.rfl
    · exact OutO.none not_false
  | excludeCode i j =>
    simp only [Fam.eval, UndefinedAny, Undefined]
    split
    · next a b e1 e2 =>
      exact Out.obj (Q := HeldObj F WF val) (r := F.excludeCode a b none)
        (Out.setCode (exSeqDefault_yields L) (addressExclude_out L S a b (get i _ e1) (get j _ e2)) none)
        (f := fun s => .exs s.2) (fun s hs => ⟨hs.1.held L, hs.2.held L⟩) Iff.rfl
    · exact OutO.none not_false
  | exitMk i j =>
    simp only [Fam.eval, UndefinedAny]
    split
    · next n o e1 e2 =>
      exact (exMk_out L S T n o (get i _ e1) (get j _ e2)).1.obj (fun s hs => hs)
        ⟨fun h' => ⟨n, o, e1, e2, h'⟩, fun ⟨a', b', h1, h2, h4⟩ => by rw [e1] at h1; rw [e2] at h2; cases h1; cases h2; exact h4⟩
    · next h => exact OutO.none fun ⟨a, b, h1, h2, _⟩ => h a b h1 h2
  | exsMk i j =>
    simp only [Fam.eval, UndefinedAny]
    split
    · next n o e1 e2 =>
      exact (exSeqMk_out L S T n o (get i _ e1) (get j _ e2)).obj (fun s hs => hs)
        ⟨fun h' => ⟨n, o, e1, e2, h'⟩, fun ⟨a', b', h1, h2, h4⟩ => by rw [e1] at h1; rw [e2] at h2; cases h1; cases h2; exact h4⟩
    · next h => exact OutO.none fun ⟨a, b, h1, h2, _⟩ => h a b h1 h2
  | aitMk i c =>
    simp only [Fam.eval, UndefinedAny, Undefined]
    split
    · next a e1 => exact (aiMk_yields L a (get i _ e1) _ (carry01 _)).obj fun x hx => hx
    · exact OutO.none not_false
  | nitMk i step p c =>
    simp only [Fam.eval, UndefinedAny]
    split
    · next a e1 =>
      exact (niMk_out L a (get i _ e1) step p _ (carry01 _)).obj (fun s hs => hs)
        ⟨fun h => ⟨a, e1, h⟩, fun ⟨a', h1, h⟩ => by rw [e1] at h1; cases h1; exact h⟩
    · next h => exact OutO.none fun ⟨a, h1, _⟩ => h a h1
  | first i =>
    simp only [Fam.eval, UndefinedAny, Undefined]
    split
    · next s e1 => exact OutO.value (get i _ e1).1
    · next s e1 => exact OutO.value (get i _ e1).1
    · next s e1 => exact OutO.value (get i _ e1).1
    · exact OutO.none not_false
  | last i =>
    simp only [Fam.eval, UndefinedAny, Undefined]
    split
    · next s e1 => exact OutO.value (get i _ e1).2
    · next s e1 => exact OutO.value (get i _ e1).2
    · next s e1 => exact OutO.value (get i _ e1).2
    · exact OutO.none not_false
  | reverse i =>
    simp only [Fam.eval, UndefinedAny]
    split
    · next x e1 =>
      obtain ⟨y, y1, y2⟩ := aiReverse_yields L x (get i _ e1)
      exact (Yields.out (P := fun r : RIter (AIter A U) => ItOk F WF val r.it)
        ⟨⟨y⟩, by show (F.aiReverse x >>= _) = _; rw [y1]; rfl, y2⟩).obj (fun r hr => hr)
        ⟨False.elim, fun ⟨x, h1, _⟩ => by rw [e1] at h1; cases h1⟩
    · next x e1 =>
      have h := Out.map (f := fun y => (⟨y⟩ : RIter (NIter A U))) (Q := fun r : RIter (NIter A U) => NitHeld F WF val r.it)
        (niReverse_out L x (get i _ e1)) fun y hy => hy
      exact Out.obj (P := fun r : RIter (NIter A U) => NitHeld F WF val r.it) (f := .rnit) h (fun r hr => hr) ((misfit_one x).symm.trans
        ⟨fun h => ⟨_, e1, h⟩, fun ⟨x', h1, h⟩ => by rw [e1] at h1; cases h1; exact h⟩)
    · next h => exact OutO.none fun ⟨x, h1, _⟩ => h x h1
  | base i =>
    simp only [Fam.eval, UndefinedAny]
    split
    · next r e1 =>
      exact (aiBase_yields L r.it (get i _ e1)).out.obj (fun x hx => hx) ⟨False.elim, fun ⟨x, h1, _⟩ => by rw [e1] at h1; cases h1⟩
    · next r e1 =>
      exact (niBase_out L r.it (get i _ e1)).obj (fun x hx => hx) ((misfit_one r.it).symm.trans
        ⟨fun h => ⟨_, e1, h⟩, fun ⟨x', h1, h⟩ => by rw [e1] at h1; cases h1; exact h⟩)
    · next h => exact OutO.none fun ⟨x, h1, _⟩ => h x h1
  | move i m =>
    simp only [Fam.eval, UndefinedAny]
    split
    · next x e1 =>
      refine (aiMove_yields L m x (get i _ e1)).out.obj (fun y hy => hy) ⟨False.elim, ?_⟩
      rintro (⟨x, h1, -⟩ | ⟨x, h1, -⟩ | ⟨x, h1, -⟩) <;> · rw [e1] at h1; cases h1
    · next x e1 =>
      refine (niMove_out L m x (get i _ e1)).obj (fun y hy => hy) ⟨fun h => .inl ⟨x, e1, h⟩, ?_⟩
      rintro (⟨x, h1, h⟩ | ⟨x, h1, -⟩ | ⟨x, h1, -⟩) <;> · rw [e1] at h1; cases h1 <;> exact h
    · next r e1 =>
      refine (aiMove_yields L m.opposite r.it (get i _ e1)).out.obj (f := fun y => .rait ⟨y⟩) (fun y hy => hy) ⟨False.elim, ?_⟩
      rintro (⟨x, h1, -⟩ | ⟨x, h1, -⟩ | ⟨x, h1, -⟩) <;> · rw [e1] at h1; cases h1
    · next r e1 =>
      refine (niMove_out L m.opposite r.it (get i _ e1)).obj (f := fun y => .rnit ⟨y⟩) (fun y hy => hy) ?_
      rw [moveCount_opposite]
      refine ⟨fun h => .inr (.inl ⟨r, e1, h⟩), ?_⟩
      rintro (⟨x, h1, -⟩ | ⟨x, h1, h⟩ | ⟨x, h1, -⟩) <;> · rw [e1] at h1; cases h1 <;> exact h
    · next x e1 =>
      refine (exInc_out L S T x (get i _ e1)).obj (fun y hy => hy) ⟨fun h => .inr (.inr ⟨x, e1, h⟩), ?_⟩
      rintro (⟨x, h1, -⟩ | ⟨x, h1, -⟩ | ⟨x, h1, h⟩) <;> · rw [e1] at h1; cases h1 <;> exact h
    · next h1 h2 h3 h4 h5 =>
      refine OutO.none ?_
      rintro (⟨x, h, -⟩ | ⟨x, h, -⟩ | ⟨x, h, -⟩)
      · exact h2 x h
      · exact h4 x h
      · exact h5 x h
  | deref i =>
    simp only [Fam.eval, UndefinedAny, Undefined]
    split
    · next x e1 => exact OutO.value (get i _ e1 : ItOk F WF val x).wf
    · next x e1 => exact OutO.value (get i _ e1 : NitHeld F WF val x).net
    · next r e1 => exact OutO.value (get i _ e1 : ItOk F WF val r.it).wf
    · next r e1 => exact OutO.value (get i _ e1 : NitHeld F WF val r.it).net
    · next x e1 =>
      exact OutO.value (get i _ e1 : ExHeld F WF x).cur
    · exact OutO.none not_false
  | index i n =>
    simp only [Fam.eval, UndefinedAny]
    split
    · next x e1 =>
      refine (fromUint_yields L _).out.obj (fun a ha => ha.1) ⟨False.elim, ?_⟩
      rintro (⟨x, h1, -⟩ | ⟨x, h1, -⟩) <;> · rw [e1] at h1; cases h1
    · next x e1 =>
      refine (niAt_out L x (get i _ e1) n).obj (fun m hm => hm) ((misfit_iff x _).symm.trans ⟨fun h => .inl ⟨x, e1, h⟩, ?_⟩)
      rintro (⟨x, h1, h⟩ | ⟨x, h1, -⟩) <;> · rw [e1] at h1; cases h1 <;> exact h
    · next r e1 =>
      obtain ⟨y, y1, y2, -⟩ := aiSub_yields L r.it (get i _ e1) n
      refine (Yields.out (P := WF) ⟨y.cur, by show (F.aiSub r.it n >>= _) = _; rw [y1]; rfl, y2.wf⟩).obj (fun a ha => ha) ⟨False.elim, ?_⟩
      rintro (⟨x, h1, -⟩ | ⟨x, h1, -⟩) <;> · rw [e1] at h1; cases h1
    · next r e1 =>
      refine (Out.map (f := fun y : NIter A U => y.cur) (Q := NetOk F WF) (niSub_out L r.it (get i _ e1) n) fun y hy => hy.net).obj
        (fun m hm => hm) ((misfit_iff r.it _).symm.trans ⟨fun h => .inr ⟨r, e1, h⟩, ?_⟩)
      rintro (⟨x, h1, -⟩ | ⟨x, h1, h⟩) <;> · rw [e1] at h1; cases h1 <;> exact h
    · next h1 h2 h3 h4 =>
      refine OutO.none ?_
      rintro (⟨x, h, -⟩ | ⟨x, h, -⟩)
      · exact h2 x h
      · exact h4 x h
  | front i =>
    simp only [Fam.eval, UndefinedAny, Undefined]
    split
    · next s e1 => exact OutO.value (get i _ e1).1.wf
    · next s e1 => exact OutO.value (get i _ e1).1.net
    · exact OutO.none not_false
  | back i =>
    simp only [Fam.eval, UndefinedAny]
    split
    · next s e1 =>
      obtain ⟨y, y1, y2, -⟩ := aiSub_yields L s.last (get i _ e1).2 (F.ops.ofI64 1#64)
      exact (Yields.out (P := WF) ⟨y.cur, by rw [Fam.hostsBack, y1]; rfl, y2.wf⟩).obj (fun a ha => ha)
        ⟨False.elim, fun ⟨x, h1, _⟩ => by rw [e1] at h1; cases h1⟩
    · next s e1 =>
      have h := niSub_out L s.last (get i _ e1).2 (F.ops.ofI64 1#64)
      rw [val_one L] at h
      exact (Out.map (f := fun y : NIter A U => y.cur) (Q := NetOk F WF) h fun y hy => hy.net).obj (fun m hm => hm)
        ((misfit_one s.last).symm.trans ⟨fun h => ⟨_, e1, h⟩, fun ⟨x', h1, h⟩ => by rw [e1] at h1; cases h1; exact h⟩)
    · next h1 h => exact OutO.none fun ⟨x, h1, _⟩ => h x h1
  | elem i n =>
    simp only [Fam.eval, UndefinedAny]
    split
    · next s e1 =>
      obtain ⟨y, y1, y2, -⟩ := aiAdd_yields L s.first (get i _ e1).1 n
      exact (Yields.out (P := WF) ⟨y.cur, by rw [Fam.hostsAt, y1]; rfl, y2.wf⟩).obj (fun a ha => ha)
        ⟨False.elim, fun ⟨x, h1, _⟩ => by rw [e1] at h1; cases h1⟩
    · next s e1 =>
      exact (Out.map (f := fun y : NIter A U => y.cur) (Q := NetOk F WF) (niAdd_out L s.first (get i _ e1).1 n) fun y hy => hy.net).obj
        (fun m hm => hm) ((misfit_iff s.first _).symm.trans ⟨fun h => ⟨_, e1, h⟩, fun ⟨x', h1, h⟩ => by rw [e1] at h1; cases h1; exact h⟩)
    · next h1 h => exact OutO.none fun ⟨x, h1, _⟩ => h x h1

theorem exec_any (L : F.Law WF val) (G : ProgLaw F WF) (S : SafeLaw F WF val) (T : TameLaw F WF val) (st : List (Obj A U))
    (hst : ∀ o ∈ st, HeldObj F WF val o) (s : Stmt U) (hs : sizeStmt s) :
    (UndefinedAnyStmt F.maxPrefix F.isV6 val F.v st s → F.exec st s = .ub) ∧
    (¬ UndefinedAnyStmt F.maxPrefix F.isV6 val F.v st s → Yields (fun st' => ∀ o ∈ st', HeldObj F WF val o) (F.exec st s)) := by
  cases s with
  | new e =>
    refine after_out (eval_any L G S T st hst e hs) hst fun o ho x hx => ?_
    rcases List.mem_append.1 hx with hx | hx
    · exact hst x hx
    · rw [List.mem_singleton.1 hx]; exact ho
  | put i e =>
    refine after_out (eval_any L G S T st hst e hs) hst fun o ho x hx => ?_
    rcases mem_set_of hx with hx | hx
    · exact hst x hx
    · rw [hx]; exact ho
  | swap i j =>
    refine ⟨fun h => h.elim, fun _ => ?_⟩
    have get : ∀ i o, st[i]? = some o → HeldObj F WF val o := fun i o h => hst o (List.mem_of_getElem? h)
    simp only [Fam.exec]
    split
    · next n m e1 e2 =>
      obtain ⟨r, h1⟩ := S.swap n m (get i _ e1) (get j _ e2)
      have k := G.swap n m (get i _ e1) (get j _ e2) r h1
      refine ⟨_, by rw [h1, Res.ok_bind], ?_⟩
      intro o ho
      rcases mem_set_of ho with ho | rfl
      · rcases mem_set_of ho with ho | rfl
        · exact hst o ho
        · exact k.1
      · exact k.2
    · next a b _ e1 e2 =>
      refine ⟨_, rfl, ?_⟩
      intro o ho
      rcases mem_set_of ho with ho | rfl
      · rcases mem_set_of ho with ho | rfl
        · exact hst o ho
        · exact get j _ e2
      · exact get i _ e1
    · exact ⟨st, rfl, hst⟩

/-- A program ends without a store exactly when it comes to an undefined statement. -/
theorem run_any (L : F.Law WF val) (G : ProgLaw F WF) (S : SafeLaw F WF val) (T : TameLaw F WF val) : ∀ (prog : List (Stmt U)) (st : List (Obj A U)),
    (∀ o ∈ st, HeldObj F WF val o) → (∀ s ∈ prog, sizeStmt s) →
    (F.run prog st = .ub ∧ ∃ before s rest st', prog = before ++ s :: rest ∧ F.run before st = .ok st' ∧
      UndefinedAnyStmt F.maxPrefix F.isV6 val F.v st' s) ∨
    (Yields (fun st' => ∀ o ∈ st', HeldObj F WF val o) (F.run prog st) ∧
      ∀ before s rest st', prog = before ++ s :: rest → F.run before st = .ok st' → ¬ UndefinedAnyStmt F.maxPrefix F.isV6 val F.v st' s)
  | [], st, hst, _ => .inr ⟨⟨st, rfl, hst⟩, fun before s rest st' h => (by cases before <;> cases h)⟩
  | s :: rest, st, hst, hp => by
    obtain ⟨h1, h2⟩ := exec_any L G S T st hst s (hp s (List.mem_cons_self ..))
    by_cases hu : UndefinedAnyStmt F.maxPrefix F.isV6 val F.v st s
    · exact .inl ⟨by show (F.exec st s >>= _) = _; rw [h1 hu]; rfl, [], s, rest, st, rfl, rfl, hu⟩
    · obtain ⟨st1, k1, k2⟩ := h2 hu
      have e : ∀ p, F.run (s :: p) st = F.run p st1 := fun p => by
        show (F.exec st s >>= fun st => F.run p st) = _
        rw [k1]; rfl
      rcases run_any L G S T rest st1 k2 (fun s hs => hp s (List.mem_cons_of_mem _ hs)) with ⟨r1, b, t, q, st', r2, r3, r4⟩ | ⟨r1, r2⟩
      · exact .inl ⟨by rw [e, r1], s :: b, t, q, st', by rw [r2]; rfl, by rw [e, r3], r4⟩
      · refine .inr ⟨by rw [e]; exact r1, ?_⟩
        intro b t q st' hb hr
        cases b with
        | nil => cases hb; cases hr; exact hu
        | cons x b =>
          cases hb
          rw [e] at hr
          exact r2 b t q st' rfl hr

end
end Ip
