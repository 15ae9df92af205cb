import Verif.Spec.Undefined
import Verif.Lemmas.Program
import Verif.Lemmas.Exclude
/-
Which expressions of a program have no defined value, for any address family.
-/
set_option autoImplicit false

namespace Ip
open Spec

section
variable {A U : Type}

/-- A network iterator whose step and place fit its prefix length. -/
structure NitSafe (F : Fam A U) (WF : A → Prop) (val : U → Nat) (x : NIter A U) : Prop where
  it : ItOk F WF val x.it
  net : NetOk F WF x.cur
  le : x.plen ≤ F.maxPrefix
  off : val x.it.off % 2 ^ (F.maxPrefix - x.plen) = 0
  step : val x.step % 2 ^ (F.maxPrefix - x.plen) = 0

/-- The network `u/q` is a part of `v/p`. -/
def Part (w q u p v : Nat) : Prop := v ≤ u ∧ u + 2 ^ (w - q) ≤ v + 2 ^ (w - p)

/-- An excluding iterator that still has to do with the excluded network. -/
structure ExSafe (F : Fam A U) (x : ExIter A) (q u p v p' v' : Nat) : Prop where
  other : IsNet F q u x.other
  s1 : IsNet F p v x.s1
  s2 : IsNet F p' v' x.s2
  cur : ∃ pc vc, IsNet F pc vc x.cur
  part : Part F.maxPrefix q u p v ∨ Part F.maxPrefix q u p' v'

/-- The numbers do not matter. -/
def ExAny (F : Fam A U) (x : ExIter A) : Prop := ∃ q u p v p' v', ExSafe F x q u p v p' v'

/-- The invariant of all objects. -/
def SafeObj (F : Fam A U) (WF : A → Prop) (val : U → Nat) : Obj A U → Prop
  | .addr a => WF a
  | .net n => NetOk F WF n
  | .ait x => ItOk F WF val x
  | .rait r => ItOk F WF val r.it
  | .nit x => NitSafe F WF val x
  | .rnit r => NitSafe F WF val r.it
  | .hosts s => ItOk F WF val s.first ∧ ItOk F WF val s.last
  | .subs s => NitSafe F WF val s.first ∧ NitSafe F WF val s.last
  | .exit x => ExAny F x
  | .exs s => ExAny F s.first ∧ ExAny F s.last

/-- A result is undefined exactly if `bad`, and a value satisfies `P`. -/
def Out {α : Type} (bad : Prop) (P : α → Prop) (r : Res α) : Prop := (r = .ub ↔ bad) ∧ ∀ a, r = .ok a → P a

/-- A result is a value that satisfies `P`. -/
def Yields {α : Type} (P : α → Prop) (r : Res α) : Prop := ∃ a, r = .ok a ∧ P a

theorem Yields.out {α : Type} {P : α → Prop} {r : Res α} (h : Yields P r) : Out False P r := by
  obtain ⟨a, rfl, ha⟩ := h
  exact ⟨⟨fun h => (by cases h), fun h => h.elim⟩, fun b hb => by cases hb; exact ha⟩

theorem Yields.imp {α : Type} {P Q : α → Prop} {r : Res α} (h : Yields P r) (hf : ∀ a, (r = .ok a ∧ P a) → r = .ok a ∧ Q a) : Yields Q r := by
  obtain ⟨a, e, ha⟩ := h
  exact ⟨a, hf a ⟨e, ha⟩⟩

theorem Yields.noexcept {α : Type} {P : α → Prop} {r : Res α} (h : Yields P r) : Yields P (Fam.noexcept r) := by
  obtain ⟨a, rfl, ha⟩ := h
  exact ⟨a, rfl, ha⟩

theorem Yields.bind {α β : Type} {P : α → Prop} {Q : β → Prop} {r : Res α} {f : α → Res β} (h : Yields P r)
    (hf : ∀ a, P a → Yields Q (f a)) : Yields Q (r >>= f) := by
  obtain ⟨a, rfl, ha⟩ := h
  exact hf a ha

theorem Out.congr {α : Type} {bad bad' : Prop} {P : α → Prop} {r : Res α} (h : Out bad P r) (e : bad ↔ bad') : Out bad' P r :=
  ⟨h.1.trans e, h.2⟩

theorem Out.bind {α β : Type} {bad : Prop} {P : α → Prop} {Q : β → Prop} {r : Res α} {f : α → β} (h : Out bad P r)
    (hf : ∀ a, P a → Q (f a)) : Out bad Q (r >>= fun a => Res.ok (f a)) := by
  cases r with
  | ok a =>
    refine ⟨⟨fun h => (by cases h), fun hb => ?_⟩, fun b hb => ?_⟩
    · have := h.1.2 hb; cases this
    · cases hb; exact hf a (h.2 a rfl)
  | err e v =>
    refine ⟨⟨fun h => (by cases h), fun hb => ?_⟩, fun b hb => (by cases hb)⟩
    have := h.1.2 hb; cases this
  | ub => exact ⟨⟨fun _ => h.1.1 rfl, fun _ => rfl⟩, fun b hb => (by cases hb)⟩

theorem Out.setCode {α : Type} {bad : Prop} {P : α → Prop} {d r : Res α} (hd : Yields P d) (h : Out bad P r) (code : Code) :
    Out bad (fun y => P y.2) (setCode d r code) := by
  cases r with
  | ok a =>
    refine ⟨⟨fun h => (by cases h), fun hb => ?_⟩, fun b hb => ?_⟩
    · have := h.1.2 hb; cases this
    · cases hb; exact h.2 a rfl
  | err e v =>
    obtain ⟨a, rfl, ha⟩ := hd
    refine ⟨⟨fun h => (by cases h), fun hb => ?_⟩, fun b hb => ?_⟩
    · have := h.1.2 hb; cases this
    · cases hb; exact ha
  | ub => exact ⟨⟨fun _ => h.1.1 rfl, fun _ => rfl⟩, fun b hb => (by cases hb)⟩

/-- The same for `eval`. -/
def OutO (bad : Prop) (P : Obj A U → Prop) (r : Option (Res (Obj A U))) : Prop :=
  (r = some .ub ↔ bad) ∧ ∀ o, r = some (.ok o) → P o

theorem Out.some {bad bad' : Prop} {P : Obj A U → Prop} {r : Res (Obj A U)} (h : Out bad P r) (e : bad ↔ bad') :
    OutO bad' P (some r) :=
  ⟨⟨fun h' => e.1 (h.1.1 (Option.some.inj h')), fun h' => congrArg _ (h.1.2 (e.2 h'))⟩, fun o ho => h.2 o (Option.some.inj ho)⟩

theorem OutO.none {bad : Prop} {P : Obj A U → Prop} (h : ¬ bad) : OutO bad P none :=
  ⟨⟨fun h => (by cases h), fun h' => (h h').elim⟩, fun o ho => (by cases ho)⟩

theorem OutO.value {P : Obj A U → Prop} {o : Obj A U} (h : P o) : OutO False P (some (.ok o)) :=
  Out.some (Yields.out ⟨o, rfl, h⟩) Iff.rfl

theorem Out.obj {α : Type} {bad bad' : Prop} {P : α → Prop} {Q : Obj A U → Prop} {r : Res α} {f : α → Obj A U} (h : Out bad P r)
    (hf : ∀ a, P a → Q (f a)) (e : bad ↔ bad') : OutO bad' Q (Option.some (r >>= fun a => Res.ok (f a))) :=
  (h.bind hf).some e

theorem Yields.obj {α : Type} {P : α → Prop} {Q : Obj A U → Prop} {r : Res α} {f : α → Obj A U} (h : Yields P r)
    (hf : ∀ a, P a → Q (f a)) : OutO False Q (some (r >>= fun a => Res.ok (f a))) :=
  (h.out.bind hf).some Iff.rfl

variable {F : Fam A U} {WF : A → Prop} {val : U → Nat}

/-- What is used of a family beyond `Fam.Law` and `ProgLaw`. -/
structure SafeLaw (F : Fam A U) (WF : A → Prop) (val : U → Nat) : Prop where
  size : F.maxPrefix < 2 ^ 64
  plain : F.isV6 = false → ∀ a : A, ∃ x, a = F.ofBytes x
  parse : ∀ evs strict, F.parseNet evs strict = .ub ↔ F.isV6 = false ∧
    ∃ a, evs = readChars (a ++ '/' :: ['0', '.', '0', '.', '0', '.', '0']) ∧ '/' ∉ a ∧ a.length ≤ 15
  swap : ∀ a b, NetOk F WF a → NetOk F WF b → ∃ r, F.netSwap a b = .ok r
  div : ∀ a b, val b = 0 → (F.ops.div a b = .ub ↔ F.isV6 = false) ∧ ∀ e v, F.ops.div a b ≠ .err e v

theorem fromUint_yields (L : F.Law WF val) (u : U) : Yields (fun a => WF a ∧ F.v a = val u) (F.fromUint u) := by
  obtain ⟨a, h1, h2⟩ := fromUint_isAddr L u
  exact ⟨a, h1, h2.wf L, h2.v_eq L⟩

theorem fromAddress_out (L : F.Law WF val) (a : A) (ha : WF a) (p : Nat) (s : Bool) :
    Out (F.maxPrefix < p) (NetOk F WF) (F.fromAddress a p s) := by
  refine ⟨?_, fun n hn => (fromAddress_ok L a ha p s n hn).1⟩
  by_cases hp : p ≤ F.maxPrefix
  · obtain ⟨m, b, -, -, -, -, e⟩ := fromAddress_eq L a ha p hp s
    refine ⟨fun h => ?_, fun h => by omega⟩
    rw [e] at h
    split at h
    · cases h
    · split at h <;> cases h
  · refine ⟨fun _ => by omega, fun _ => ?_⟩
    rw [Fam.fromAddress, L.fromPrefix_ub p (by omega)]
    rfl

theorem fromAddress_aligned (L : F.Law WF val) (a : A) (ha : WF a) (p : Nat) (hp : p ≤ F.maxPrefix)
    (h : F.v a % 2 ^ (F.maxPrefix - p) = 0) : Yields (NetOk F WF) (F.fromAddress a p true) := by
  obtain ⟨m, b, -, -, -, -, e⟩ := fromAddress_eq L a ha p hp true
  rw [if_pos h] at e
  exact ⟨_, e, (fromAddress_ok L a ha p true _ e).1⟩

theorem aiAdd_yields (L : F.Law WF val) (x : AIter A U) (hx : ItOk F WF val x) (n : U) :
    Yields (fun y => ItOk F WF val y ∧ val y.off = (val x.off + val n) % 2 ^ F.maxPrefix) (F.aiAdd x n) := by
  unfold Fam.aiAdd
  by_cases h : val n = 0
  · rw [L.ops.eq, val_zero L, h]
    have := L.ops.val_lt x.off
    exact ⟨x, rfl, hx, by rw [Nat.add_zero, Nat.mod_eq_of_lt this]⟩
  · rw [L.ops.eq, val_zero L, decide_eq_false h]
    obtain ⟨a, h1, h2, h3⟩ := fromUint_yields L (F.ops.add x.off n)
    refine ⟨_, by simp only [Bool.not_false, if_true, h1, Res.ok_bind]; rfl, ⟨h2, h3.symm, flip_carry _ _ hx.carry⟩, L.ops.add _ _⟩

theorem aiSub_yields (L : F.Law WF val) (x : AIter A U) (hx : ItOk F WF val x) (n : U) :
    Yields (fun y => ItOk F WF val y ∧ val y.off = (val x.off + (2 ^ F.maxPrefix - val n)) % 2 ^ F.maxPrefix) (F.aiSub x n) := by
  unfold Fam.aiSub
  by_cases h : val n = 0
  · rw [L.ops.eq, val_zero L, h]
    have := L.ops.val_lt x.off
    exact ⟨x, rfl, hx, by rw [Nat.sub_zero, Nat.add_mod_right, Nat.mod_eq_of_lt this]⟩
  · rw [L.ops.eq, val_zero L, decide_eq_false h]
    obtain ⟨a, h1, h2, h3⟩ := fromUint_yields L (F.ops.sub x.off n)
    refine ⟨_, by simp only [Bool.not_false, if_true, h1, Res.ok_bind]; rfl, ⟨h2, h3.symm, flip_carry _ _ hx.carry⟩, L.ops.sub _ _⟩

theorem aiMove_yields (L : F.Law WF val) (m : Move U) (x : AIter A U) (hx : ItOk F WF val x) :
    Yields (ItOk F WF val) (F.aiMove m x) := by
  have ha := fun n => aiAdd_yields L x hx n
  have hs := fun n => aiSub_yields L x hx n
  cases m with
  | inc => obtain ⟨y, h1, h2, -⟩ := ha (F.ops.ofI64 1#64); exact ⟨y, h1, h2⟩
  | dec => obtain ⟨y, h1, h2, -⟩ := hs (F.ops.ofI64 1#64); exact ⟨y, h1, h2⟩
  | add n => obtain ⟨y, h1, h2, -⟩ := ha n; exact ⟨y, h1, h2⟩
  | sub n => obtain ⟨y, h1, h2, -⟩ := hs n; exact ⟨y, h1, h2⟩
  | addI n => obtain ⟨y, h1, h2, -⟩ := ha (F.ops.ofI64 n); exact ⟨y, h1, h2⟩
  | subI n => obtain ⟨y, h1, h2, -⟩ := hs (F.ops.ofI64 n); exact ⟨y, h1, h2⟩

theorem aiBase_yields (L : F.Law WF val) (x : AIter A U) (hx : ItOk F WF val x) : Yields (ItOk F WF val) (F.aiBase x) := by
  obtain ⟨a, h1, h2, h3⟩ := fromUint_yields L (F.ops.add x.off (F.ops.ofI64 1#64))
  exact ⟨_, by simp only [Fam.aiBase, h1, Res.ok_bind]; rfl, ⟨h2, h3.symm, flip_carry _ _ hx.carry⟩⟩

theorem aiReverse_yields (L : F.Law WF val) (x : AIter A U) (hx : ItOk F WF val x) : Yields (ItOk F WF val) (F.aiReverse x) := by
  obtain ⟨a, h1, h2, h3⟩ := fromUint_yields L (F.ops.sub x.off (F.ops.ofI64 1#64))
  exact ⟨_, by simp only [Fam.aiReverse, h1, Res.ok_bind]; rfl, ⟨h2, h3.symm, flip_carry _ _ hx.carry⟩⟩

theorem aligned_add (w k a b : Nat) (hk : k ≤ w) (ha : a % 2 ^ k = 0) (hb : b % 2 ^ k = 0) : (a + b) % 2 ^ w % 2 ^ k = 0 := by
  rw [Nat.mod_mod_of_dvd _ (Nat.pow_dvd_pow 2 hk), Nat.add_mod, ha, hb]; rfl

theorem aligned_mul (w k a b : Nat) (hk : k ≤ w) (ha : a % 2 ^ k = 0) : a * b % 2 ^ w % 2 ^ k = 0 := by
  rw [Nat.mod_mod_of_dvd _ (Nat.pow_dvd_pow 2 hk), Nat.mul_mod, ha, Nat.zero_mul]; rfl

theorem aligned_neg (w k b : Nat) (hk : k ≤ w) (hb : b % 2 ^ k = 0) : (2 ^ w - b) % 2 ^ k = 0 :=
  Nat.mod_eq_zero_of_dvd (Nat.dvd_sub (Nat.pow_dvd_pow 2 hk) (Nat.dvd_of_mod_eq_zero hb))

theorem niter_yields (L : F.Law WF val) (x : NIter A U) (hx : NitSafe F WF val x) (y : AIter A U) (hy : ItOk F WF val y)
    (ho : val y.off % 2 ^ (F.maxPrefix - x.plen) = 0) :
    ∃ n, F.fromAddress y.cur x.plen true = .ok n ∧ NitSafe F WF val ⟨n, y, x.step, x.plen⟩ := by
  obtain ⟨n, h1, h2⟩ := fromAddress_aligned L y.cur hy.wf x.plen hx.le (by rw [← hy.off]; exact ho)
  exact ⟨n, h1, hy, h2, hx.le, ho, hx.step⟩

theorem niAdd_yields (L : F.Law WF val) (x : NIter A U) (hx : NitSafe F WF val x) (n : U) :
    Yields (NitSafe F WF val) (F.niAdd x n) := by
  obtain ⟨y, h1, h2, h3⟩ := aiAdd_yields L x.it hx.it (F.ops.mul x.step n)
  have hk := Nat.sub_le F.maxPrefix x.plen
  obtain ⟨m, h4, h5⟩ := niter_yields L x hx y h2 (by
    rw [h3, L.ops.mul]; exact aligned_add _ _ _ _ hk hx.off (aligned_mul _ _ _ _ hk hx.step))
  exact ⟨_, by simp only [Fam.niAdd, h1, h4, Res.ok_bind], h5⟩

theorem niSub_yields (L : F.Law WF val) (x : NIter A U) (hx : NitSafe F WF val x) (n : U) :
    Yields (NitSafe F WF val) (F.niSub x n) := by
  obtain ⟨y, h1, h2, h3⟩ := aiSub_yields L x.it hx.it (F.ops.mul x.step n)
  have hk := Nat.sub_le F.maxPrefix x.plen
  obtain ⟨m, h4, h5⟩ := niter_yields L x hx y h2 (by
    rw [h3, L.ops.mul]
    exact aligned_add _ _ _ _ hk hx.off (aligned_neg _ _ _ hk (aligned_mul _ _ _ _ hk hx.step)))
  exact ⟨_, by simp only [Fam.niSub, h1, h4, Res.ok_bind], h5⟩

theorem niMove_yields (L : F.Law WF val) (m : Move U) (x : NIter A U) (hx : NitSafe F WF val x) :
    Yields (NitSafe F WF val) (F.niMove m x) := by
  apply Yields.noexcept
  cases m with
  | inc => exact niAdd_yields L x hx _
  | dec => exact niSub_yields L x hx _
  | add n => exact niAdd_yields L x hx _
  | sub n => exact niSub_yields L x hx _
  | addI n => exact niAdd_yields L x hx _
  | subI n => exact niSub_yields L x hx _

theorem niBase_yields (L : F.Law WF val) (x : NIter A U) (hx : NitSafe F WF val x) : Yields (NitSafe F WF val) (F.niBase x) := by
  obtain ⟨a, h1, h2, h3⟩ := fromUint_yields L (F.ops.add x.it.off x.step)
  have hk := Nat.sub_le F.maxPrefix x.plen
  obtain ⟨m, h4, h5⟩ := niter_yields L x hx ⟨a, F.ops.add x.it.off x.step,
      if F.ops.lt (F.ops.add x.it.off x.step) x.it.off then 1 - x.it.carry else x.it.carry⟩
    ⟨h2, h3.symm, flip_carry _ _ hx.it.carry⟩ (by
      show val (F.ops.add _ _) % _ = 0
      rw [L.ops.add]; exact aligned_add _ _ _ _ hk hx.off hx.step)
  exact ⟨_, by simp only [Fam.niBase, h1, h4, Res.ok_bind], h5⟩

theorem niReverse_yields (L : F.Law WF val) (x : NIter A U) (hx : NitSafe F WF val x) :
    Yields (NitSafe F WF val) (F.niReverse x) := by
  obtain ⟨a, h1, h2, h3⟩ := fromUint_yields L (F.ops.sub x.it.off x.step)
  have hk := Nat.sub_le F.maxPrefix x.plen
  obtain ⟨m, h4, h5⟩ := niter_yields L x hx ⟨a, F.ops.sub x.it.off x.step,
      if F.ops.lt x.it.off (F.ops.sub x.it.off x.step) then 1 - x.it.carry else x.it.carry⟩
    ⟨h2, h3.symm, flip_carry _ _ hx.it.carry⟩ (by
      show val (F.ops.sub _ _) % _ = 0
      rw [L.ops.sub]; exact aligned_add _ _ _ _ hk hx.off (aligned_neg _ _ _ hk hx.step))
  exact ⟨_, by simp only [Fam.niReverse, h1, h4, Res.ok_bind], h5⟩

theorem niAt_yields (L : F.Law WF val) (x : NIter A U) (hx : NitSafe F WF val x) (n : U) :
    Yields (NetOk F WF) (F.niAt x n) := by
  obtain ⟨y, h1, h2, h3⟩ := aiAdd_yields L x.it hx.it (F.ops.mul x.step n)
  have hk := Nat.sub_le F.maxPrefix x.plen
  obtain ⟨m, h4, h5⟩ := fromAddress_aligned L y.cur h2.wf x.plen hx.le (by
    rw [← h2.off, h3, L.ops.mul]; exact aligned_add _ _ _ _ hk hx.off (aligned_mul _ _ _ _ hk hx.step))
  exact ⟨_, by simp only [Fam.niAt, h1, h4, Res.ok_bind], h5⟩

theorem defaultNet_yields (L : F.Law WF val) : Yields (fun n => NetOk F WF n ∧ IsNet F F.maxPrefix 0 n) F.defaultNet := by
  obtain ⟨d, d1, d2⟩ := default_isNet L
  exact ⟨d, d1, d2.netOk L, d2⟩

theorem niDefault_yields (L : F.Law WF val) : Yields (NitSafe F WF val) F.niDefault := by
  obtain ⟨d, d1, d2, -⟩ := defaultNet_yields L
  refine ⟨⟨d, ⟨F.zero, F.ops.ofI64 0#64, 0⟩, F.ops.ofI64 0#64, 0⟩, by simp only [Fam.niDefault, d1, Res.ok_bind],
    zero_it L, d2, Nat.zero_le _, ?_, ?_⟩
  · show val (F.ops.ofI64 0#64) % _ = 0
    rw [val_zero L, Nat.zero_mod]
  · show val (F.ops.ofI64 0#64) % _ = 0
    rw [val_zero L, Nat.zero_mod]

theorem subnetsDefault_yields (L : F.Law WF val) :
    Yields (fun s => NitSafe F WF val s.first ∧ NitSafe F WF val s.last) F.subnetsDefault := by
  obtain ⟨d, d1, d2⟩ := niDefault_yields L
  exact ⟨⟨d, d, F.ops.ofI64 0#64⟩, by simp only [Fam.subnetsDefault, d1, Res.ok_bind], d2, d2⟩

theorem exDefault_yields (L : F.Law WF val) : Yields (ExAny F) F.exDefault := by
  obtain ⟨d, d1, -, d2⟩ := defaultNet_yields L
  exact ⟨⟨d, d, d, d⟩, by simp only [Fam.exDefault, d1, Res.ok_bind],
    _, _, _, _, _, _, d2, d2, d2, ⟨_, _, d2⟩, .inl ⟨Nat.le_refl _, Nat.le_refl _⟩⟩

theorem exSeqDefault_yields (L : F.Law WF val) : Yields (fun s => ExAny F s.first ∧ ExAny F s.last) F.exSeqDefault := by
  obtain ⟨d, d1, d2⟩ := exDefault_yields L
  exact ⟨⟨d, d⟩, by simp only [Fam.exSeqDefault, d1, Res.ok_bind], d2, d2⟩

theorem aiMk_yields (L : F.Law WF val) (a : A) (ha : WF a) (c : Int) (hc : c = 0 ∨ c = 1) : Yields (ItOk F WF val) (F.aiMk a c) := by
  obtain ⟨u, h1, h2⟩ := L.toUint a ha
  exact ⟨⟨a, u, c⟩, by simp only [Fam.aiMk, h1, Res.ok_bind], ha, h2, hc⟩

theorem hostsMk_yields (L : F.Law WF val) (a b : A) (ha : WF a) (hb : WF b) (p m : Nat) :
    Yields (fun s => ItOk F WF val s.first ∧ ItOk F WF val s.last) (F.hostsMk a b p m) := by
  obtain ⟨n, n1, n2⟩ := L.toUint a ha
  obtain ⟨u, u1, u2⟩ := L.toUint b hb
  unfold Fam.hostsMk
  split
  · obtain ⟨f, f1, f2⟩ := fromUint_isAddr L n
    obtain ⟨l, l1, l2⟩ := fromUint_isAddr L (F.ops.add u (F.ops.ofI64 1#64))
    obtain ⟨x, x1, x2⟩ := aiMk_yields L f (f2.wf L) 0 (.inl rfl)
    obtain ⟨y, y1, y2⟩ := aiMk_yields L l (l2.wf L) 0 (.inl rfl)
    exact ⟨⟨x, y⟩, by simp only [n1, u1, f1, l1, x1, y1, Res.ok_bind], x2, y2⟩
  · split
    · obtain ⟨f, f1, f2⟩ := fromUint_isAddr L n
      obtain ⟨l, l1, l2⟩ := fromUint_isAddr L (F.ops.add n (F.ops.ofI64 1#64))
      obtain ⟨x, x1, x2⟩ := aiMk_yields L f (f2.wf L) 0 (.inl rfl)
      have hl := l2.lt L f2
      obtain ⟨y, y1, y2⟩ := aiMk_yields L l (l2.wf L)
        (if decide ((val (F.ops.add n (F.ops.ofI64 1#64))) < val n) = true then 1 else 0) (carry01 _)
      exact ⟨⟨x, y⟩, by simp only [n1, f1, l1, x1, hl, y1, Res.ok_bind], x2, y2⟩
    · obtain ⟨f, f1, f2⟩ := fromUint_isAddr L (F.ops.add n (F.ops.ofI64 1#64))
      obtain ⟨l, l1, l2⟩ := fromUint_isAddr L (F.ops.add u (F.ops.ofI64 (if F.isV6 then 1#64 else 0#64)))
      obtain ⟨x, x1, x2⟩ := aiMk_yields L f (f2.wf L) 0 (.inl rfl)
      obtain ⟨y, y1, y2⟩ := aiMk_yields L l (l2.wf L) 0 (.inl rfl)
      exact ⟨⟨x, y⟩, by simp only [n1, u1, f1, l1, x1, y1, Res.ok_bind], x2, y2⟩

theorem hosts_yields (L : F.Law WF val) (n : Net A) (hn : NetOk F WF n) :
    Yields (fun s => ItOk F WF val s.first ∧ ItOk F WF val s.last) (F.hosts n) := by
  obtain ⟨b, b1, b2, -⟩ := broadcast_eq L n hn
  obtain ⟨s, s1, s2⟩ := hostsMk_yields L n.addr (F.ofBytes b) hn.wf (L.wf_ofBytes b b2) n.plen F.maxPrefix
  exact ⟨s, by simp only [Fam.hosts, b1, s1, Res.ok_bind], s2⟩

theorem supernet_out (L : F.Law WF val) (n : Net A) (hn : NetOk F WF n) (d : Nat) (newp : Option Nat) :
    Out (n.plen = F.maxPrefix ∧ ((newp = none ∧ d = F.maxPrefix) ∨ (newp = some 0 ∧ d = 1))) (NetOk F WF) (F.supernet n d newp) := by
  refine ⟨?_, fun r hr => supernet_netOk L n hn d newp r hr⟩
  have hpos := L.pos
  have hpl := hn.plen
  by_cases h0 : n.plen = 0
  · refine ⟨fun h => ?_, fun h => by omega⟩
    rw [Fam.supernet, if_pos h0] at h
    cases h
  · have hsub := supernet_ub L n hn
    cases newp with
    | none =>
      by_cases h : d > n.plen
      · refine ⟨fun e => ?_, fun e => ?_⟩
        · simp only [Fam.supernet, if_neg h0, if_pos h] at e
          cases e
        · rcases e with ⟨e, ⟨-, e'⟩ | ⟨e', -⟩⟩
          · omega
          · cases e'
      · by_cases hd : d = F.maxPrefix
        · have hp : n.plen = F.maxPrefix := by omega
          subst hd
          exact ⟨fun _ => ⟨hp, .inl ⟨rfl, rfl⟩⟩, fun _ => (hsub hp).1⟩
        · obtain ⟨r, r1, -⟩ := supernet_spec L n hn h0 d (by omega) (by omega)
          refine ⟨fun e => ?_, fun e => ?_⟩
          · rw [r1] at e; cases e
          · rcases e with ⟨e, ⟨-, e'⟩ | ⟨e', -⟩⟩
            · omega
            · cases e'
    | some p =>
      by_cases h : p > n.plen
      · refine ⟨fun e => ?_, fun e => ?_⟩
        · simp only [Fam.supernet, if_neg h0, if_pos h] at e
          cases e
        · rcases e with ⟨e, ⟨e', -⟩ | ⟨e', -⟩⟩
          · cases e'
          · cases e'; omega
      · by_cases hd : d = 1
        · subst hd
          have same : F.supernet n 1 (some p) = F.supernet n (n.plen - p) none := by
            simp only [Fam.supernet, if_neg h0, if_neg h, ne_eq, not_true_eq_false, if_false]
          by_cases hp : n.plen - p = F.maxPrefix
          · have hp0 : p = 0 := by omega
            subst hp0
            have hp : n.plen = F.maxPrefix := by omega
            exact ⟨fun _ => ⟨hp, .inr ⟨rfl, rfl⟩⟩, fun _ => (hsub hp).2⟩
          · obtain ⟨r, r1, -⟩ := supernet_spec L n hn h0 (n.plen - p) (by omega) (by omega)
            refine ⟨fun e => ?_, fun e => ?_⟩
            · rw [same, r1] at e; cases e
            · rcases e with ⟨e, ⟨e', -⟩ | ⟨e', -⟩⟩
              · cases e'
              · cases e'; omega
        · refine ⟨fun e => ?_, fun e => ?_⟩
          · simp only [Fam.supernet, if_neg h0, if_neg h, ne_eq, hd, not_false_eq_true, if_true] at e
            cases e
          · rcases e with ⟨e, ⟨e', -⟩ | ⟨-, e'⟩⟩
            · cases e'
            · omega

theorem NIter.Ok.safe (L : F.Law WF val) {step : U} {p : Nat} {x : NIter A U} (h : x.Ok F val step p)
    (hs : val step % 2 ^ (F.maxPrefix - p) = 0) : NitSafe F WF val x := by
  refine ⟨⟨h.it.cur.wf L, (h.it.cur.v_eq L).symm, h.it.carry⟩, h.cur.netOk L, ?_, ?_, ?_⟩
  · rw [h.plen]; exact h.cur.le
  · rw [h.plen]; exact h.cur.aligned
  · rw [h.plen, h.step]; exact hs

/-- `subnets(d)` for one difference. -/
theorem subnets_none_out (L : F.Law WF val) (S : SafeLaw F WF val) (n : Net A) (hn : NetOk F WF n) (hp : n.plen < F.maxPrefix)
    (k : Nat) (hk : k < 2 ^ 64) :
    Out (2 ^ 64 ≤ n.plen + k ∨ (n.plen = 0 ∧ k = F.maxPrefix) ∨ (F.isV6 = false ∧ n.plen = 0 ∧ k = 0))
      (fun s => NitSafe F WF val s.first ∧ NitSafe F WF val s.last) (F.subnets n k none) := by
  have hw := S.size
  by_cases h1 : 2 ^ 64 ≤ n.plen + k
  · rw [subnets_sizet_wrap L n hn k hp hw hk h1]
    exact ⟨⟨fun _ => .inl h1, fun _ => rfl⟩, fun a ha => (by cases ha)⟩
  · by_cases h2 : n.plen + k > F.maxPrefix
    · rw [((subnets_errors L n hn k).2.1 hp (by omega)).1 h2]
      exact ⟨⟨fun h => (by cases h), fun h => by omega⟩, fun a ha => (by cases ha)⟩
    · by_cases h3 : k = F.maxPrefix
      · have h0 : n.plen = 0 := by omega
        rw [h3, (subnets_wide_ub L n hn hw h0).1]
        exact ⟨⟨fun _ => .inr (.inl ⟨h0, rfl⟩), fun _ => rfl⟩, fun a ha => (by cases ha)⟩
      · by_cases h4 : n.plen + k = 0
        · have h0 : n.plen = 0 := by omega
          have hk0 : k = 0 := by omega
          subst hk0
          obtain ⟨x, y, step, num, s1, s2, s3, -, -, s6⟩ := subnets_zero_step L n hn h0
          have hs : val step % 2 ^ (F.maxPrefix - 0) = 0 := by rw [s1, Nat.zero_mod]
          obtain ⟨d1, d2⟩ := S.div num step s1
          rw [s6]
          cases e : F.ops.div num step with
          | err c v => exact absurd e (d2 c v)
          | ub => exact ⟨⟨fun _ => .inr (.inr ⟨d1.1 e, h0, rfl⟩), fun _ => rfl⟩, fun a ha => (by cases ha)⟩
          | ok q =>
            refine ⟨⟨fun h => (by cases h), fun h => ?_⟩, fun a ha => ?_⟩
            · have : F.isV6 = false := by
                rcases h with h | h | h
                · omega
                · omega
                · exact h.1
              have := d1.2 this
              rw [e] at this; cases this
            · cases ha
              exact ⟨s2.safe L hs, s3.safe L hs⟩
        · obtain ⟨b, a, s, step, g1, g2, g3, g4, g5, g6, -⟩ := subnetsMk_eq L n hn k hp (by omega) (by omega) h4
          obtain ⟨e, -⟩ := subnets_go n k hp hw (by omega) a b s g1 g2 g3
          have hs : val step % 2 ^ (F.maxPrefix - (n.plen + k)) = 0 := by rw [g4, Nat.mod_self]
          rw [e]
          refine ⟨⟨fun h => (by cases h), fun h => by omega⟩, fun t ht => ?_⟩
          cases ht
          exact ⟨g5.safe L hs, g6.safe L hs⟩

theorem subnets_out (L : F.Law WF val) (S : SafeLaw F WF val) (n : Net A) (hn : NetOk F WF n) (d : Nat) (newp : Option Nat)
    (hd : d < 2 ^ 64) (hnp : ∀ p, newp = some p → p < 2 ^ 64) :
    Out (n.plen < F.maxPrefix ∧ ∃ k, Extends n.plen d newp k ∧
        (2 ^ 64 ≤ n.plen + k ∨ (n.plen = 0 ∧ k = F.maxPrefix) ∨ (F.isV6 = false ∧ n.plen = 0 ∧ k = 0)))
      (fun s => NitSafe F WF val s.first ∧ NitSafe F WF val s.last) (F.subnets n d newp) := by
  have hpl := hn.plen
  have hw := S.size
  by_cases hp : n.plen = F.maxPrefix
  · obtain ⟨a, s, step, h1, h2, h3, h4, h5, -⟩ := subnetsMk1_eq L n hn hp
    rw [subnets_go1 n hp d newp a s h1 h2]
    have hs : val step % 2 ^ (F.maxPrefix - n.plen) = 0 := by rw [hp, Nat.sub_self, Nat.pow_zero, Nat.mod_one]
    refine ⟨⟨fun h => (by cases h), fun h => by omega⟩, fun t ht => ?_⟩
    cases ht
    exact ⟨h4.safe L hs, h5.safe L hs⟩
  · cases newp with
    | none =>
      refine (subnets_none_out L S n hn (by omega) d hd).congr ?_
      constructor
      · intro h; exact ⟨by omega, d, .inl ⟨rfl, rfl⟩, h⟩
      · rintro ⟨-, k, ⟨-, rfl⟩ | ⟨p, h, -⟩, h'⟩
        · exact h'
        · cases h
    | some p =>
      have hlt := hnp p rfl
      obtain ⟨er1, er2, -⟩ := (subnets_errors L n hn d).2.2.1 p (by omega) hlt
      by_cases h1 : p < n.plen
      · rw [er1.1 h1]
        refine ⟨⟨fun h => (by cases h), ?_⟩, fun a ha => (by cases ha)⟩
        rintro ⟨-, k, ⟨h, -⟩ | ⟨p', h, -, h', -⟩, -⟩
        · cases h
        · cases h; omega
      · by_cases h2 : d = 1
        · subst h2
          have same : F.subnets n 1 (some p) = F.subnets n (p - n.plen) none := by
            simp only [Fam.subnets, if_neg hp, if_neg h1, ne_eq, not_true_eq_false, if_false]
          rw [same]
          refine (subnets_none_out L S n hn (by omega) (p - n.plen) (by omega)).congr ?_
          constructor
          · intro h; exact ⟨by omega, p - n.plen, .inr ⟨p, rfl, rfl, by omega, rfl⟩, h⟩
          · rintro ⟨-, k, ⟨h, -⟩ | ⟨p', h, -, -, rfl⟩, h'⟩
            · cases h
            · cases h; exact h'
        · rw [er2.1 ⟨by omega, h2⟩]
          refine ⟨⟨fun h => (by cases h), ?_⟩, fun a ha => (by cases ha)⟩
          rintro ⟨-, k, ⟨h, -⟩ | ⟨p', h, h', -⟩, -⟩
          · cases h
          · omega

/-- A proper part is smaller. -/
theorem Part.lt {w q u p v : Nat} (hq : q ≤ w) (hp : p ≤ w) (h : Part w q u p v) (hne : ¬ (v = u ∧ p = q)) : p < q := by
  obtain ⟨h1, h2⟩ := h
  by_contra hlt
  have hqp : 2 ^ (w - p) ≤ 2 ^ (w - q) := Nat.pow_le_pow_right (by decide) (by omega)
  have e : 2 ^ (w - p) = 2 ^ (w - q) := by omega
  have e' : w - p = w - q := Nat.pow_right_injective (Nat.le_refl 2) e
  exact hne ⟨by omega, by omega⟩

/-- The excluded network is in one of the halves. -/
theorem halves_part (L : F.Law WF val) (S : SafeLaw F WF val) {n o : Net A} {p v q u : Nat} (hn : IsNet F p v n)
    (ho : IsNet F q u o) (h : Part F.maxPrefix q u p v) (hlt : p < q) (c : Net A) (hc : ∃ pc vc, IsNet F pc vc c) :
    ∃ r, F.halves n = .ok r ∧ ExAny F ⟨o, r.1, r.2, c⟩ := by
  have hq := ho.le
  obtain ⟨a, b, h1, h2, h3⟩ := halves_eq L S.size hn (by omega)
  have hsplit := half_or (F.maxPrefix - (p + 1)) (F.maxPrefix - q) v u (by omega) ho.aligned
    (by rw [show F.maxPrefix - (p + 1) + 1 = F.maxPrefix - p by omega]; exact hn.aligned)
    (by rw [show F.maxPrefix - (p + 1) + 1 = F.maxPrefix - p by omega]; exact h)
  refine ⟨(a, b), h1, q, u, _, _, _, _, ho, h2, h3, hc, ?_⟩
  obtain ⟨g1, g2⟩ := h
  rcases hsplit with h | h
  · exact .inl ⟨g1, h⟩
  · refine .inr ⟨h, ?_⟩
    have hhalf : 2 ^ (F.maxPrefix - p) = 2 * 2 ^ (F.maxPrefix - (p + 1)) := by
      rw [← Nat.pow_succ']; congr 1; omega
    omega

theorem exInc_yields (L : F.Law WF val) (S : SafeLaw F WF val) (x : ExIter A) (hx : ExAny F x) : Yields (ExAny F) (F.exInc x) := by
  obtain ⟨q, u, p, v, p', v', ho, h1, h2, ⟨pc, vc, hc⟩, hpart⟩ := hx
  have e1 := netEq_isNet L h1 ho
  have e2 := netEq_isNet L h2 ho
  have ec1 := netEq_isNet L hc h1
  have ec2 := netEq_isNet L hc h2
  have d1 := subnetOf_isNet L ho h1
  have d2 := subnetOf_isNet L ho h2
  have dflt := exDefault_yields L
  unfold Fam.exInc
  simp only [e1, e2, Res.ok_bind]
  by_cases c1 : v = u ∧ p = q
  · rw [decide_eq_true c1]
    simp only [Bool.not_true, Bool.false_and, Bool.false_eq_true, if_false, if_true, ec2, Res.ok_bind]
    split
    · exact ⟨_, rfl, q, u, p, v, p', v', ho, h1, h2, ⟨_, _, h2⟩, hpart⟩
    · exact dflt
  · rw [decide_eq_false c1]
    by_cases c2 : v' = u ∧ p' = q
    · rw [decide_eq_true c2]
      simp only [Bool.not_true, Bool.not_false, Bool.and_false, Bool.false_eq_true, if_false, if_true, ec1, Res.ok_bind]
      split
      · exact ⟨_, rfl, q, u, p, v, p', v', ho, h1, h2, ⟨_, _, h1⟩, hpart⟩
      · exact dflt
    · rw [decide_eq_false c2]
      simp only [Bool.not_false, Bool.and_self, if_true, d1, d2, Res.ok_bind, ec1, ec2]
      by_cases a1 : Part F.maxPrefix q u p v
      · rw [if_pos (decide_eq_true (show _ ∧ _ from a1))]
        split
        · obtain ⟨r, r1, r2⟩ := halves_part L S h1 ho a1 (a1.lt ho.le h1.le c1) x.s2 ⟨_, _, h2⟩
          exact ⟨_, by rw [r1, Res.ok_bind], r2⟩
        · exact dflt
      · have a2 := hpart.resolve_left a1
        rw [if_neg (by rw [decide_eq_true_eq]; exact a1), if_pos (decide_eq_true (show _ ∧ _ from a2))]
        split
        · obtain ⟨r, r1, r2⟩ := halves_part L S h2 ho a2 (a2.lt ho.le h2.le c2) x.s1 ⟨_, _, h1⟩
          exact ⟨_, by rw [r1, Res.ok_bind], r2⟩
        · exact dflt

theorem addressExclude_out (L : F.Law WF val) (S : SafeLaw F WF val) (n o : Net A) (hn : NetOk F WF n) (ho : NetOk F WF o) :
    Out False (fun s => ExAny F s.first ∧ ExAny F s.last) (F.addressExclude n o) := by
  obtain ⟨l, l1, l2⟩ := removeScopeNet_eq L S.plain n hn
  obtain ⟨r, r1, r2⟩ := removeScopeNet_eq L S.plain o ho
  have d := subnetOf_isNet L r2 l2
  have e := netEq_isNet L l2 r2
  unfold Fam.addressExclude
  simp only [l1, r1, Fam.noexcept, Res.ok_bind, d, e]
  by_cases a : Part F.maxPrefix o.plen (F.v o.addr) n.plen (F.v n.addr)
  · rw [decide_eq_true (show _ ∧ _ from a)]
    simp only [Bool.not_true, Bool.false_eq_true, if_false]
    by_cases b : F.v n.addr = F.v o.addr ∧ n.plen = o.plen
    · rw [if_pos (decide_eq_true b)]
      exact (exSeqDefault_yields L).out
    · rw [if_neg (by rw [decide_eq_true_eq]; exact b)]
      obtain ⟨t, t1, t2⟩ := halves_part L S l2 r2 a (a.lt r2.le l2.le b) l ⟨_, _, l2⟩
      obtain ⟨y, y1, y2⟩ := exInc_yields L S _ t2
      obtain ⟨z, z1, z2⟩ := exDefault_yields L
      refine Yields.out ⟨⟨y, z⟩, ?_, y2, z2⟩
      simp only [Fam.exSeqMk, Fam.exMk, t1, y1, z1, Res.ok_bind]
  · rw [decide_eq_false (show ¬ (_ ∧ _) from a)]
    exact ⟨⟨fun h => (by cases h), fun h => h.elim⟩, fun b hb => (by cases hb)⟩

set_option maxHeartbeats 1000000 in
theorem eval_out (L : F.Law WF val) (G : ProgLaw F WF) (S : SafeLaw F WF val) (st : List (Obj A U))
    (hst : ∀ o ∈ st, SafeObj F WF val o) (e : Expr U) (he : Usual e) :
    OutO (Undefined F.maxPrefix F.isV6 st e) (SafeObj F WF val) (F.eval st e) := by
  have get : ∀ i o, st[i]? = some o → SafeObj F WF val o := fun i o h => hst o (List.mem_of_getElem? h)
  obtain ⟨hdir, hsize⟩ := he
  cases e with
  | defNet => exact (defaultNet_yields L).obj fun n hn => hn.1
  | defAit => exact OutO.value (zero_it L)
  | defNit => exact (niDefault_yields L).obj fun n hn => hn
  | defSubs => exact (subnetsDefault_yields L).obj fun n hn => hn
  | defExit => exact (exDefault_yields L).obj fun n hn => hn
  | defExs => exact (exSeqDefault_yields L).obj fun n hn => hn
  | fromUint u => exact (fromUint_yields L u).obj fun a ha => ha.1
  | fromAddress i p s =>
    simp only [Fam.eval, Undefined]
    split
    · next a e1 =>
      exact (fromAddress_out L a (get i _ e1) p s).obj (fun n hn => hn) ⟨fun h => ⟨⟨a, e1⟩, h⟩, fun h => h.2⟩
    · next h => exact OutO.none fun ⟨⟨a, h1⟩, _⟩ => h a h1
  | fromAddressCode i p s =>
    simp only [Fam.eval, Undefined]
    split
    · next a e1 =>
      exact Out.obj (Q := SafeObj F WF val) (r := F.fromAddressCode a p s none)
        (Out.setCode ((defaultNet_yields L).imp fun _ h => ⟨h.1, h.2.1⟩) (fromAddress_out L a (get i _ e1) p s) none)
        (f := fun n => .net n.2) (fun n hn => hn) ⟨fun h => ⟨⟨a, e1⟩, h⟩, fun h => h.2⟩
    · next h => exact OutO.none fun ⟨⟨a, h1⟩, _⟩ => h a h1
  | parse evs s =>
    exact Out.obj (P := NetOk F WF) ⟨S.parse evs s, fun n hn => G.parse _ _ n hn⟩ (fun n hn => hn) Iff.rfl
  | network i =>
    simp only [Fam.eval, Undefined]
    split
    · next n e1 => exact OutO.value (get i _ e1 : NetOk F WF n).wf
    · exact OutO.none not_false
  | netmask i =>
    simp only [Fam.eval, Undefined]
    split
    · next n e1 => exact OutO.value ((get i _ e1 : NetOk F WF n).mask_wf L)
    · exact OutO.none not_false
  | hostmask i =>
    simp only [Fam.eval, Undefined]
    split
    · next n e1 => exact OutO.value ((get i _ e1 : NetOk F WF n).hostmask_wf L)
    · exact OutO.none not_false
  | broadcast i =>
    simp only [Fam.eval, Undefined]
    split
    · next n e1 =>
      obtain ⟨b, b1, b2, -⟩ := broadcast_eq L n (get i _ e1)
      exact Yields.obj (P := WF) ⟨_, b1, L.wf_ofBytes b b2⟩ fun a ha => ha
    · exact OutO.none not_false
  | supernet i k newp =>
    simp only [Fam.eval, Undefined]
    split
    · next n e1 => exact (supernet_out L n (get i _ e1) k newp).obj (fun r hr => hr) ⟨fun h => ⟨n, e1, h⟩, fun ⟨m, h1, h2⟩ => by rw [e1] at h1; cases h1; exact h2⟩
    · next h => exact OutO.none fun ⟨n, h1, _⟩ => h n h1
  | supernetCode i k newp =>
    simp only [Fam.eval, Undefined]
    split
    · next n e1 =>
      exact Out.obj (Q := SafeObj F WF val) (r := F.supernetCode n k newp none)
        (Out.setCode ((defaultNet_yields L).imp fun _ h => ⟨h.1, h.2.1⟩) (supernet_out L n (get i _ e1) k newp) none)
        (f := fun r => .net r.2) (fun r hr => hr) ⟨fun h => ⟨n, e1, h⟩, fun ⟨m, h1, h2⟩ => by rw [e1] at h1; cases h1; exact h2⟩
    · next h => exact OutO.none fun ⟨n, h1, _⟩ => h n h1
  | hosts i =>
    simp only [Fam.eval, Undefined]
    split
    · next n e1 => exact (hosts_yields L n (get i _ e1)).obj fun s hs => hs
    · exact OutO.none not_false
  | hostsMk i j p m =>
    simp only [Fam.eval, Undefined]
    split
    · next a b e1 e2 => exact (hostsMk_yields L a b (get i _ e1) (get j _ e2) p m).obj fun s hs => hs
    · exact OutO.none not_false
  | subnets i k newp =>
    simp only [Fam.eval, Undefined]
    split
    · next n e1 => exact (subnets_out L S n (get i _ e1) k newp hsize.1 hsize.2).obj (fun s hs => hs) ⟨fun h => ⟨n, e1, h⟩, fun ⟨m, h1, h2⟩ => by rw [e1] at h1; cases h1; exact h2⟩
    · next h => exact OutO.none fun ⟨n, h1, _⟩ => h n h1
  | subnetsCode i k newp =>
    simp only [Fam.eval, Undefined]
    split
    · next n e1 =>
      exact Out.obj (Q := SafeObj F WF val) (r := F.subnetsCode n k newp none)
        (Out.setCode (subnetsDefault_yields L) (subnets_out L S n (get i _ e1) k newp hsize.1 hsize.2) none)
        (f := fun s => .subs s.2) (fun s hs => hs) ⟨fun h => ⟨n, e1, h⟩, fun ⟨m, h1, h2⟩ => by rw [e1] at h1; cases h1; exact h2⟩
    · next h => exact OutO.none fun ⟨n, h1, _⟩ => h n h1
  | subnetsMk1 i p => cases hdir
  | subnetsMk i j k e p => cases hdir
  | exclude i j =>
    simp only [Fam.eval, Undefined]
    split
    · next a b e1 e2 => exact (addressExclude_out L S a b (get i _ e1) (get j _ e2)).obj (fun s hs => hs) Iff.rfl
    · exact OutO.none not_false
  | excludeCode i j =>
    simp only [Fam.eval, Undefined]
    split
    · next a b e1 e2 =>
      exact Out.obj (Q := SafeObj F WF val) (r := F.excludeCode a b none)
        (Out.setCode (exSeqDefault_yields L) (addressExclude_out L S a b (get i _ e1) (get j _ e2)) none)
        (f := fun s => .exs s.2) (fun s hs => hs) Iff.rfl
    · exact OutO.none not_false
  | exitMk i j => cases hdir
  | exsMk i j => cases hdir
  | aitMk i c =>
    simp only [Fam.eval, Undefined]
    split
    · next a e1 => exact (aiMk_yields L a (get i _ e1) _ (carry01 _)).obj fun x hx => hx
    · exact OutO.none not_false
  | nitMk i step p c => cases hdir
  | first i =>
    simp only [Fam.eval, Undefined]
    split
    · next s e1 => exact OutO.value (get i _ e1).1
    · next s e1 => exact OutO.value (get i _ e1).1
    · next s e1 => exact OutO.value (get i _ e1).1
    · exact OutO.none not_false
  | last i =>
    simp only [Fam.eval, Undefined]
    split
    · next s e1 => exact OutO.value (get i _ e1).2
    · next s e1 => exact OutO.value (get i _ e1).2
    · next s e1 => exact OutO.value (get i _ e1).2
    · exact OutO.none not_false
  | reverse i =>
    simp only [Fam.eval, Undefined]
    split
    · next x e1 =>
      obtain ⟨y, y1, y2⟩ := aiReverse_yields L x (get i _ e1)
      exact Yields.obj (P := fun r : RIter (AIter A U) => ItOk F WF val r.it) ⟨⟨y⟩, by show (F.aiReverse x >>= _) = _; rw [y1]; rfl, y2⟩ fun r hr => hr
    · next x e1 =>
      obtain ⟨y, y1, y2⟩ := niReverse_yields L x (get i _ e1)
      exact Yields.obj (P := fun r : RIter (NIter A U) => NitSafe F WF val r.it)
        (Yields.noexcept ⟨⟨y⟩, by show (F.niReverse x >>= _) = _; rw [y1]; rfl, y2⟩) fun r hr => hr
    · exact OutO.none not_false
  | base i =>
    simp only [Fam.eval, Undefined]
    split
    · next r e1 => exact (aiBase_yields L r.it (get i _ e1)).obj fun x hx => hx
    · next r e1 => exact (niBase_yields L r.it (get i _ e1)).noexcept.obj fun x hx => hx
    · exact OutO.none not_false
  | move i m =>
    simp only [Fam.eval, Undefined]
    split
    · next x e1 => exact (aiMove_yields L m x (get i _ e1)).obj fun y hy => hy
    · next x e1 => exact (niMove_yields L m x (get i _ e1)).obj fun y hy => hy
    · next r e1 => exact (aiMove_yields L m.opposite r.it (get i _ e1)).obj (f := fun y => .rait ⟨y⟩) fun y hy => hy
    · next r e1 => exact (niMove_yields L m.opposite r.it (get i _ e1)).obj (f := fun y => .rnit ⟨y⟩) fun y hy => hy
    · next x e1 => exact (exInc_yields L S x (get i _ e1)).obj fun y hy => hy
    · exact OutO.none not_false
  | deref i =>
    simp only [Fam.eval, Undefined]
    split
    · next x e1 => exact OutO.value (get i _ e1 : ItOk F WF val x).wf
    · next x e1 => exact OutO.value (get i _ e1 : NitSafe F WF val x).net
    · next r e1 => exact OutO.value (get i _ e1 : ItOk F WF val r.it).wf
    · next r e1 => exact OutO.value (get i _ e1 : NitSafe F WF val r.it).net
    · next x e1 =>
      obtain ⟨_, _, _, _, _, _, h⟩ := (get i _ e1 : ExAny F x)
      obtain ⟨_, _, h⟩ := h.cur
      exact OutO.value (h.netOk L)
    · exact OutO.none not_false
  | index i n =>
    simp only [Fam.eval, Undefined]
    split
    · next x e1 => exact (fromUint_yields L _).obj fun a ha => ha.1
    · next x e1 => exact (niAt_yields L x (get i _ e1) n).noexcept.obj fun m hm => hm
    · next r e1 =>
      obtain ⟨y, y1, y2, -⟩ := aiSub_yields L r.it (get i _ e1) n
      exact Yields.obj (P := WF) ⟨y.cur, by show (F.aiSub r.it n >>= _) = _; rw [y1]; rfl, y2.wf⟩ fun a ha => ha
    · next r e1 =>
      obtain ⟨y, y1, y2⟩ := niSub_yields L r.it (get i _ e1) n
      exact Yields.obj (P := NetOk F WF)
        (Yields.noexcept ⟨y.cur, by show (F.niSub r.it n >>= _) = _; rw [y1]; rfl, y2.net⟩) fun a ha => ha
    · exact OutO.none not_false
  | front i =>
    simp only [Fam.eval, Undefined]
    split
    · next s e1 => exact OutO.value (get i _ e1).1.wf
    · next s e1 => exact OutO.value (get i _ e1).1.net
    · exact OutO.none not_false
  | back i =>
    simp only [Fam.eval, Undefined]
    split
    · next s e1 =>
      obtain ⟨y, y1, y2, -⟩ := aiSub_yields L s.last (get i _ e1).2 (F.ops.ofI64 1#64)
      exact Yields.obj (P := WF) ⟨y.cur, by rw [Fam.hostsBack, y1]; rfl, y2.wf⟩ fun a ha => ha
    · next s e1 =>
      obtain ⟨y, y1, y2⟩ := niSub_yields L s.last (get i _ e1).2 (F.ops.ofI64 1#64)
      exact Yields.obj (P := NetOk F WF) (Yields.noexcept ⟨y.cur, by rw [Fam.subnetsBack, y1]; rfl, y2.net⟩) fun a ha => ha
    · exact OutO.none not_false
  | elem i n =>
    simp only [Fam.eval, Undefined]
    split
    · next s e1 =>
      obtain ⟨y, y1, y2, -⟩ := aiAdd_yields L s.first (get i _ e1).1 n
      exact Yields.obj (P := WF) ⟨y.cur, by rw [Fam.hostsAt, y1]; rfl, y2.wf⟩ fun a ha => ha
    · next s e1 =>
      obtain ⟨y, y1, y2⟩ := niAdd_yields L s.first (get i _ e1).1 n
      exact Yields.obj (P := NetOk F WF) (Yields.noexcept ⟨y.cur, by rw [Fam.subnetsAt, y1]; rfl, y2.net⟩) fun a ha => ha
    · exact OutO.none not_false

theorem after_out {bad : Prop} {P : Obj A U → Prop} {r : Option (Res (Obj A U))} {st : List (Obj A U)}
    {f : Obj A U → List (Obj A U)} (h : OutO bad P r) (hst : ∀ o ∈ st, P o) (hf : ∀ o, P o → ∀ x ∈ f o, P x) :
    (bad → Fam.after st r f = .ub) ∧ (¬ bad → Yields (fun st' => ∀ o ∈ st', P o) (Fam.after st r f)) := by
  constructor
  · intro hb
    rw [h.1.2 hb]
    rfl
  · intro hb
    rcases r with _ | o | ⟨e, v⟩ | _
    · exact ⟨st, rfl, hst⟩
    · exact ⟨_, rfl, hf o (h.2 o rfl)⟩
    · exact ⟨st, rfl, hst⟩
    · exact (hb (h.1.1 rfl)).elim

theorem exec_out (L : F.Law WF val) (G : ProgLaw F WF) (S : SafeLaw F WF val) (st : List (Obj A U))
    (hst : ∀ o ∈ st, SafeObj F WF val o) (s : Stmt U) (hs : UsualStmt s) :
    (UndefinedStmt F.maxPrefix F.isV6 st s → F.exec st s = .ub) ∧
    (¬ UndefinedStmt F.maxPrefix F.isV6 st s → Yields (fun st' => ∀ o ∈ st', SafeObj F WF val o) (F.exec st s)) := by
  cases s with
  | new e =>
    refine after_out (eval_out L G S st hst e hs) hst fun o ho x hx => ?_
    rcases List.mem_append.1 hx with hx | hx
    · exact hst x hx
    · rw [List.mem_singleton.1 hx]; exact ho
  | put i e =>
    refine after_out (eval_out L G S st hst e hs) hst fun o ho x hx => ?_
    rcases mem_set_of hx with hx | hx
    · exact hst x hx
    · rw [hx]; exact ho
  | swap i j =>
    refine ⟨fun h => h.elim, fun _ => ?_⟩
    have get : ∀ i o, st[i]? = some o → SafeObj F WF val o := fun i o h => hst o (List.mem_of_getElem? h)
    simp only [Fam.exec]
    split
    · next n m e1 e2 =>
      obtain ⟨r, h1⟩ := S.swap n m (get i _ e1) (get j _ e2)
      have k := G.swap n m (get i _ e1) (get j _ e2) r h1
      refine ⟨_, by rw [h1, Res.ok_bind], ?_⟩
      intro o ho
      rcases mem_set_of ho with ho | rfl
      · rcases mem_set_of ho with ho | rfl
        · exact hst o ho
        · exact k.1
      · exact k.2
    · next a b _ e1 e2 =>
      refine ⟨_, rfl, ?_⟩
      intro o ho
      rcases mem_set_of ho with ho | rfl
      · rcases mem_set_of ho with ho | rfl
        · exact hst o ho
        · exact get j _ e2
      · exact get i _ e1
    · exact ⟨st, rfl, hst⟩

/-- A program ends without a store exactly when it comes to an undefined statement. -/
theorem run_out (L : F.Law WF val) (G : ProgLaw F WF) (S : SafeLaw F WF val) : ∀ (prog : List (Stmt U)) (st : List (Obj A U)),
    (∀ o ∈ st, SafeObj F WF val o) → (∀ s ∈ prog, UsualStmt s) →
    (F.run prog st = .ub ∧ ∃ before s rest st', prog = before ++ s :: rest ∧ F.run before st = .ok st' ∧
      UndefinedStmt F.maxPrefix F.isV6 st' s) ∨
    (Yields (fun st' => ∀ o ∈ st', SafeObj F WF val o) (F.run prog st) ∧
      ∀ before s rest st', prog = before ++ s :: rest → F.run before st = .ok st' → ¬ UndefinedStmt F.maxPrefix F.isV6 st' s)
  | [], st, hst, _ => .inr ⟨⟨st, rfl, hst⟩, fun before s rest st' h => (by cases before <;> cases h)⟩
  | s :: rest, st, hst, hp => by
    obtain ⟨h1, h2⟩ := exec_out L G S st hst s (hp s (List.mem_cons_self ..))
    by_cases hu : UndefinedStmt F.maxPrefix F.isV6 st s
    · exact .inl ⟨by show (F.exec st s >>= _) = _; rw [h1 hu]; rfl, [], s, rest, st, rfl, rfl, hu⟩
    · obtain ⟨st1, k1, k2⟩ := h2 hu
      have e : ∀ p, F.run (s :: p) st = F.run p st1 := fun p => by
        show (F.exec st s >>= fun st => F.run p st) = _
        rw [k1]; rfl
      rcases run_out L G S rest st1 k2 (fun s hs => hp s (List.mem_cons_of_mem _ hs)) with ⟨r1, b, t, q, st', r2, r3, r4⟩ | ⟨r1, r2⟩
      · exact .inl ⟨by rw [e, r1], s :: b, t, q, st', by rw [r2]; rfl, by rw [e, r3], r4⟩
      · refine .inr ⟨by rw [e]; exact r1, ?_⟩
        intro b t q st' hb hr
        cases b with
        | nil => cases hb; cases hr; exact hu
        | cons x b =>
          cases hb
          rw [e] at hr
          exact r2 b t q st' rfl hr

end
end Ip
