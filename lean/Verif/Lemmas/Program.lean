import Verif.Spec.Program
import Verif.Lemmas.NIter
/-
Every object that a program makes through the interface satisfies its invariant, for any address family.
-/
set_option autoImplicit false

namespace Ip
open Spec

section
variable {A U : Type}

/-- An address iterator: the number from which it computes is the one of the address it shows. -/
structure ItOk (F : Fam A U) (WF : A → Prop) (val : U → Nat) (x : AIter A U) : Prop where
  wf : WF x.cur
  off : val x.off = F.v x.cur
  carry : x.carry = 0 ∨ x.carry = 1

/-- A network iterator: it shows a network at the address of its address iterator, and unless default constructed
objects are allowed (`d`) the prefix length is its own. -/
structure NitOk (F : Fam A U) (WF : A → Prop) (val : U → Nat) (d : Bool) (x : NIter A U) : Prop where
  it : ItOk F WF val x.it
  net : NetOk F WF x.cur
  same : F.v x.cur.addr = val x.it.off
  plen : d = false → x.cur.plen = x.plen

/-- The four networks of an excluding iterator. -/
structure ExOk (F : Fam A U) (WF : A → Prop) (x : ExIter A) : Prop where
  other : NetOk F WF x.other
  s1 : NetOk F WF x.s1
  s2 : NetOk F WF x.s2
  cur : NetOk F WF x.cur

/-- The invariant of all objects. -/
def HeldOk (F : Fam A U) (WF : A → Prop) (val : U → Nat) (d : Bool) : Obj A U → Prop
  | .addr a => WF a
  | .net n => NetOk F WF n
  | .ait x => ItOk F WF val x
  | .rait r => ItOk F WF val r.it
  | .nit x => NitOk F WF val d x
  | .rnit r => NitOk F WF val d r.it
  | .hosts s => ItOk F WF val s.first ∧ ItOk F WF val s.last
  | .subs s => NitOk F WF val d s.first ∧ NitOk F WF val d s.last
  | .exit x => ExOk F WF x
  | .exs s => ExOk F WF s.first ∧ ExOk F WF s.last

variable {F : Fam A U} {WF : A → Prop} {val : U → Nat}

theorem noexcept_ok {α : Type} {r : Res α} {a : α} (h : Fam.noexcept r = .ok a) : r = .ok a := by
  cases r with
  | ok b => exact h
  | err e v => cases h
  | ub => cases h

theorem fromUint_ok (L : F.Law WF val) (u : U) (a : A) (h : F.fromUint u = .ok a) : WF a ∧ F.v a = val u := by
  obtain ⟨b, h1, h2⟩ := fromUint_isAddr L u
  rw [h1] at h
  cases h
  exact ⟨h2.wf L, h2.v_eq L⟩

theorem toUint_ok (L : F.Law WF val) (a : A) (ha : WF a) (u : U) (h : F.toUint a = .ok u) : val u = F.v a := by
  obtain ⟨u', h1, h2⟩ := L.toUint a ha
  rw [h1] at h
  cases h
  exact h2

theorem flip_carry (b : Bool) (c : Int) (h : c = 0 ∨ c = 1) : (if b then 1 - c else c) = 0 ∨ (if b then 1 - c else c) = 1 := by
  cases b
  · exact h
  · simp only [if_true]; omega

theorem aiMk_it (L : F.Law WF val) (a : A) (ha : WF a) (c : Int) (hc : c = 0 ∨ c = 1) (x : AIter A U) (h : F.aiMk a c = .ok x) :
    ItOk F WF val x ∧ x.cur = a := by
  obtain ⟨u, h1, h2⟩ := Res.bind_eq_ok.1 h
  cases h2
  exact ⟨⟨ha, toUint_ok L a ha u h1, hc⟩, rfl⟩

theorem aiAdd_it (L : F.Law WF val) (x : AIter A U) (hx : ItOk F WF val x) (n : U) (y : AIter A U) (h : F.aiAdd x n = .ok y) :
    ItOk F WF val y := by
  unfold Fam.aiAdd at h
  split at h
  · obtain ⟨a, h1, h2⟩ := Res.bind_eq_ok.1 h
    cases h2
    have := fromUint_ok L _ _ h1
    exact ⟨this.1, this.2.symm, flip_carry _ _ hx.carry⟩
  · cases h; exact hx

theorem aiSub_it (L : F.Law WF val) (x : AIter A U) (hx : ItOk F WF val x) (n : U) (y : AIter A U) (h : F.aiSub x n = .ok y) :
    ItOk F WF val y := by
  unfold Fam.aiSub at h
  split at h
  · obtain ⟨a, h1, h2⟩ := Res.bind_eq_ok.1 h
    cases h2
    have := fromUint_ok L _ _ h1
    exact ⟨this.1, this.2.symm, flip_carry _ _ hx.carry⟩
  · cases h; exact hx

theorem aiMove_it (L : F.Law WF val) (m : Move U) (x : AIter A U) (hx : ItOk F WF val x) (y : AIter A U)
    (h : F.aiMove m x = .ok y) : ItOk F WF val y := by
  cases m with
  | inc => exact aiAdd_it L x hx _ y h
  | dec => exact aiSub_it L x hx _ y h
  | add n => exact aiAdd_it L x hx _ y h
  | sub n => exact aiSub_it L x hx _ y h
  | addI n => exact aiAdd_it L x hx _ y h
  | subI n => exact aiSub_it L x hx _ y h

theorem aiBase_it (L : F.Law WF val) (x : AIter A U) (hx : ItOk F WF val x) (y : AIter A U) (h : F.aiBase x = .ok y) :
    ItOk F WF val y := by
  obtain ⟨a, h1, h2⟩ := Res.bind_eq_ok.1 h
  cases h2
  have := fromUint_ok L _ _ h1
  exact ⟨this.1, this.2.symm, flip_carry _ _ hx.carry⟩

theorem aiReverse_it (L : F.Law WF val) (x : AIter A U) (hx : ItOk F WF val x) (y : AIter A U) (h : F.aiReverse x = .ok y) :
    ItOk F WF val y := by
  obtain ⟨a, h1, h2⟩ := Res.bind_eq_ok.1 h
  cases h2
  have := fromUint_ok L _ _ h1
  exact ⟨this.1, this.2.symm, flip_carry _ _ hx.carry⟩

/-- A strict network is at the address from which it is made. -/
theorem fromAddress_strict (L : F.Law WF val) (a : A) (ha : WF a) (p : Nat) (n : Net A) (h : F.fromAddress a p true = .ok n) :
    NetOk F WF n ∧ n.plen = p ∧ F.v n.addr = F.v a := by
  obtain ⟨h1, h2, h3, -⟩ := fromAddress_ok L a ha p true n h
  refine ⟨h1, h2, ?_⟩
  by_cases hp : p ≤ F.maxPrefix
  · obtain ⟨m, b, k1, k2, k3, k4, k5⟩ := fromAddress_eq L a ha p hp true
    rw [k5] at h
    by_cases e : F.v a % 2 ^ (F.maxPrefix - p) = 0
    · rw [h3]
      exact Nat.div_mul_cancel (Nat.dvd_of_mod_eq_zero e)
    · rw [if_neg e] at h
      cases h
  · rw [Fam.fromAddress, L.fromPrefix_ub p (by omega)] at h
    cases h

theorem niMk_it (L : F.Law WF val) (d : Bool) (a : A) (ha : WF a) (step : U) (p : Nat) (c : Int) (hc : c = 0 ∨ c = 1)
    (x : NIter A U) (h : F.niMk a step p c = .ok x) : NitOk F WF val d x := by
  obtain ⟨n, h1, h2⟩ := Res.bind_eq_ok.1 h
  obtain ⟨y, h3, h4⟩ := Res.bind_eq_ok.1 h2
  cases h4
  obtain ⟨k1, k2, k3⟩ := fromAddress_strict L a ha p n h1
  obtain ⟨m1, m2⟩ := aiMk_it L a ha c hc y h3
  refine ⟨m1, k1, ?_, fun _ => k2⟩
  show F.v n.addr = val y.off
  rw [k3, m1.off, m2]

/-- What all operators of network iterators do: a new address iterator, and the network at its address. -/
theorem niter_at (L : F.Law WF val) (d : Bool) (x : NIter A U) (y : AIter A U) (hy : ItOk F WF val y) (n : Net A)
    (h : F.fromAddress y.cur x.plen true = .ok n) : NitOk F WF val d ⟨n, y, x.step, x.plen⟩ := by
  obtain ⟨k1, k2, k3⟩ := fromAddress_strict L _ hy.wf _ n h
  refine ⟨hy, k1, ?_, fun _ => k2⟩
  show F.v n.addr = val y.off
  rw [k3, hy.off]

theorem niAdd_it (L : F.Law WF val) (d : Bool) (x : NIter A U) (hx : NitOk F WF val d x) (n : U) (y : NIter A U)
    (h : F.niAdd x n = .ok y) : NitOk F WF val d y ∧ y.plen = x.plen := by
  obtain ⟨i, h1, h2⟩ := Res.bind_eq_ok.1 h
  obtain ⟨m, h3, h4⟩ := Res.bind_eq_ok.1 h2
  cases h4
  exact ⟨niter_at L d x i (aiAdd_it L _ hx.it _ i h1) m h3, rfl⟩

theorem niSub_it (L : F.Law WF val) (d : Bool) (x : NIter A U) (hx : NitOk F WF val d x) (n : U) (y : NIter A U)
    (h : F.niSub x n = .ok y) : NitOk F WF val d y ∧ y.plen = x.plen := by
  obtain ⟨i, h1, h2⟩ := Res.bind_eq_ok.1 h
  obtain ⟨m, h3, h4⟩ := Res.bind_eq_ok.1 h2
  cases h4
  exact ⟨niter_at L d x i (aiSub_it L _ hx.it _ i h1) m h3, rfl⟩

theorem niMove_it (L : F.Law WF val) (d : Bool) (m : Move U) (x : NIter A U) (hx : NitOk F WF val d x) (y : NIter A U)
    (h : F.niMove m x = .ok y) : NitOk F WF val d y ∧ y.plen = x.plen := by
  have h := noexcept_ok h
  cases m with
  | inc => exact niAdd_it L d x hx _ y h
  | dec => exact niSub_it L d x hx _ y h
  | add n => exact niAdd_it L d x hx _ y h
  | sub n => exact niSub_it L d x hx _ y h
  | addI n => exact niAdd_it L d x hx _ y h
  | subI n => exact niSub_it L d x hx _ y h

theorem niBase_it (L : F.Law WF val) (d : Bool) (x : NIter A U) (hx : NitOk F WF val d x) (y : NIter A U)
    (h : F.niBase x = .ok y) : NitOk F WF val d y := by
  obtain ⟨a, h1, h2⟩ := Res.bind_eq_ok.1 h
  obtain ⟨n, h3, h4⟩ := Res.bind_eq_ok.1 h2
  cases h4
  have k := fromUint_ok L _ _ h1
  exact niter_at L d x ⟨a, _, _⟩ ⟨k.1, k.2.symm, flip_carry _ _ hx.it.carry⟩ n h3

theorem niReverse_it (L : F.Law WF val) (d : Bool) (x : NIter A U) (hx : NitOk F WF val d x) (y : NIter A U)
    (h : F.niReverse x = .ok y) : NitOk F WF val d y := by
  obtain ⟨a, h1, h2⟩ := Res.bind_eq_ok.1 h
  obtain ⟨n, h3, h4⟩ := Res.bind_eq_ok.1 h2
  cases h4
  have k := fromUint_ok L _ _ h1
  exact niter_at L d x ⟨a, _, _⟩ ⟨k.1, k.2.symm, flip_carry _ _ hx.it.carry⟩ n h3

theorem defaultNet_ok (L : F.Law WF val) (n : Net A) (h : F.defaultNet = .ok n) : NetOk F WF n ∧ F.v n.addr = 0 := by
  obtain ⟨m, h1, h2⟩ := Res.bind_eq_ok.1 h
  cases h2
  obtain ⟨b, b1, b2, b3⟩ := L.fromPrefix F.maxPrefix (Nat.le_refl _)
  obtain ⟨z, z1, z2, z3⟩ := L.zero
  rw [b1] at h1
  cases h1
  refine ⟨⟨?_, Nat.le_refl _, ⟨b, rfl, b2, b3⟩, ?_⟩, ?_⟩
  · show WF F.zero; rw [z1]; exact L.wf_ofBytes z z2
  · show beValue (F.bytes F.zero) % _ = 0
    rw [z1, L.bytes_ofBytes, z3, Nat.zero_mod]
  · show F.v F.zero = 0
    rw [z1, L.v_ofBytes, z3]

theorem zero_it (L : F.Law WF val) : ItOk F WF val ⟨F.zero, F.ops.ofI64 0#64, 0⟩ := by
  obtain ⟨z, z1, z2, z3⟩ := L.zero
  refine ⟨?_, ?_, .inl rfl⟩
  · show WF F.zero; rw [z1]; exact L.wf_ofBytes z z2
  · show val _ = F.v F.zero
    rw [z1, L.v_ofBytes, z3, val_zero L]

theorem niDefault_it (L : F.Law WF val) (x : NIter A U) (h : F.niDefault = .ok x) : NitOk F WF val true x := by
  obtain ⟨n, h1, h2⟩ := Res.bind_eq_ok.1 h
  cases h2
  obtain ⟨k1, k2⟩ := defaultNet_ok L n h1
  refine ⟨zero_it L, k1, ?_, fun h => by cases h⟩
  show F.v n.addr = val (F.ops.ofI64 0#64)
  rw [k2, val_zero L]

theorem subnetsDefault_it (L : F.Law WF val) (s : SubnetsSeq A U) (h : F.subnetsDefault = .ok s) :
    NitOk F WF val true s.first ∧ NitOk F WF val true s.last := by
  obtain ⟨x, h1, h2⟩ := Res.bind_eq_ok.1 h
  cases h2
  exact ⟨niDefault_it L x h1, niDefault_it L x h1⟩

theorem NetOk.mask_wf (L : F.Law WF val) {n : Net A} (h : NetOk F WF n) : WF n.mask := by
  obtain ⟨m, h1, h2, -⟩ := h.mask
  rw [h1]; exact L.wf_ofBytes m h2

theorem NetOk.hostmask_wf (L : F.Law WF val) {n : Net A} (h : NetOk F WF n) : WF (F.hostmask n) := by
  obtain ⟨m, h1, h2, -⟩ := hostmask_eq L n h
  rw [h1]; exact L.wf_ofBytes m h2

theorem NetOk.broadcast_wf (L : F.Law WF val) {n : Net A} (h : NetOk F WF n) (b : A) (hb : F.broadcast n = .ok b) : WF b := by
  obtain ⟨m, h1, h2, -⟩ := broadcast_eq L n h
  rw [h1] at hb
  cases hb
  exact L.wf_ofBytes m h2

theorem supernet_netOk (L : F.Law WF val) (n : Net A) (hn : NetOk F WF n) (d : Nat) (newp : Option Nat) (r : Net A)
    (h : F.supernet n d newp = .ok r) : NetOk F WF r := by
  have go : ∀ d, (if d > n.plen then Res.err ErrorCode.invalid_prefixlen_diff 0 else do
        let a ← F.toUint n.addr
        let m ← F.toUint n.mask
        let s ← F.ops.shl m d
        let address ← F.fromUint (F.ops.and a s)
        Fam.noexcept (F.fromAddress address (n.plen - d) true)) = .ok r → NetOk F WF r := by
    intro d h
    split at h
    · cases h
    · obtain ⟨a, -, h⟩ := Res.bind_eq_ok.1 h
      obtain ⟨m, -, h⟩ := Res.bind_eq_ok.1 h
      obtain ⟨s, -, h⟩ := Res.bind_eq_ok.1 h
      obtain ⟨u, h1, h⟩ := Res.bind_eq_ok.1 h
      exact (fromAddress_ok L u (fromUint_ok L _ _ h1).1 _ _ r (noexcept_ok h)).1
  unfold Fam.supernet at h
  split at h
  · cases h; exact hn
  · cases newp with
    | none => exact go _ h
    | some p =>
      simp only at h
      split at h
      · cases h
      · split at h
        · cases h
        · exact go _ h

theorem carry01 (b : Prop) [Decidable b] : (if b then (1 : Int) else 0) = 0 ∨ (if b then (1 : Int) else 0) = 1 := by
  split <;> simp

theorem hostsMk_it (L : F.Law WF val) (a b : A) (p m : Nat) (s : HostsSeq A U) (h : F.hostsMk a b p m = .ok s) :
    ItOk F WF val s.first ∧ ItOk F WF val s.last := by
  unfold Fam.hostsMk at h
  split at h
  · obtain ⟨n, -, h⟩ := Res.bind_eq_ok.1 h
    obtain ⟨f, h1, h⟩ := Res.bind_eq_ok.1 h
    obtain ⟨b, -, h⟩ := Res.bind_eq_ok.1 h
    obtain ⟨l, h2, h⟩ := Res.bind_eq_ok.1 h
    obtain ⟨x, h3, h⟩ := Res.bind_eq_ok.1 h
    obtain ⟨y, h4, h⟩ := Res.bind_eq_ok.1 h
    cases h
    exact ⟨(aiMk_it L f (fromUint_ok L _ _ h1).1 _ (.inl rfl) x h3).1, (aiMk_it L l (fromUint_ok L _ _ h2).1 _ (.inl rfl) y h4).1⟩
  · split at h
    · obtain ⟨n, -, h⟩ := Res.bind_eq_ok.1 h
      obtain ⟨f, h1, h⟩ := Res.bind_eq_ok.1 h
      obtain ⟨l, h2, h⟩ := Res.bind_eq_ok.1 h
      obtain ⟨x, h3, h⟩ := Res.bind_eq_ok.1 h
      obtain ⟨w, -, h⟩ := Res.bind_eq_ok.1 h
      obtain ⟨y, h4, h⟩ := Res.bind_eq_ok.1 h
      cases h
      exact ⟨(aiMk_it L f (fromUint_ok L _ _ h1).1 _ (.inl rfl) x h3).1,
        (aiMk_it L l (fromUint_ok L _ _ h2).1 _ (carry01 _) y h4).1⟩
    · obtain ⟨n, -, h⟩ := Res.bind_eq_ok.1 h
      obtain ⟨f, h1, h⟩ := Res.bind_eq_ok.1 h
      obtain ⟨b, -, h⟩ := Res.bind_eq_ok.1 h
      obtain ⟨l, h2, h⟩ := Res.bind_eq_ok.1 h
      obtain ⟨x, h3, h⟩ := Res.bind_eq_ok.1 h
      obtain ⟨y, h4, h⟩ := Res.bind_eq_ok.1 h
      cases h
      exact ⟨(aiMk_it L f (fromUint_ok L _ _ h1).1 _ (.inl rfl) x h3).1, (aiMk_it L l (fromUint_ok L _ _ h2).1 _ (.inl rfl) y h4).1⟩

theorem hosts_it (L : F.Law WF val) (n : Net A) (s : HostsSeq A U) (h : F.hosts n = .ok s) :
    ItOk F WF val s.first ∧ ItOk F WF val s.last := by
  obtain ⟨b, -, h⟩ := Res.bind_eq_ok.1 h
  exact hostsMk_it L _ _ _ _ s h

theorem subnetsMk1_it (L : F.Law WF val) (d : Bool) (a : A) (ha : WF a) (p : Nat) (s : SubnetsSeq A U)
    (h : F.subnetsMk1 a p = .ok s) : NitOk F WF val d s.first ∧ NitOk F WF val d s.last := by
  unfold Fam.subnetsMk1 at h
  obtain ⟨n, -, h⟩ := Res.bind_eq_ok.1 h
  obtain ⟨l, h2, h⟩ := Res.bind_eq_ok.1 h
  obtain ⟨x, h3, h⟩ := Res.bind_eq_ok.1 h
  obtain ⟨w, -, h⟩ := Res.bind_eq_ok.1 h
  obtain ⟨y, h4, h⟩ := Res.bind_eq_ok.1 h
  cases h
  exact ⟨niMk_it L d _ (L.wf_ofBytes _ (L.len a ha)) _ _ _ (.inl rfl) x h3,
    niMk_it L d l (fromUint_ok L _ _ h2).1 _ _ _ (carry01 _) y h4⟩

theorem subnetsMk_it (L : F.Law WF val) (d : Bool) (a b hm : A) (k p : Nat) (s : SubnetsSeq A U)
    (h : F.subnetsMk a b hm k p = .ok s) : NitOk F WF val d s.first ∧ NitOk F WF val d s.last := by
  unfold Fam.subnetsMk at h
  obtain ⟨n, -, h⟩ := Res.bind_eq_ok.1 h
  obtain ⟨b, -, h⟩ := Res.bind_eq_ok.1 h
  obtain ⟨f, h1, h⟩ := Res.bind_eq_ok.1 h
  obtain ⟨l, h2, h⟩ := Res.bind_eq_ok.1 h
  obtain ⟨g, -, h⟩ := Res.bind_eq_ok.1 h
  obtain ⟨t, -, h⟩ := Res.bind_eq_ok.1 h
  obtain ⟨x, h3, h⟩ := Res.bind_eq_ok.1 h
  obtain ⟨w, -, h⟩ := Res.bind_eq_ok.1 h
  obtain ⟨y, h4, h⟩ := Res.bind_eq_ok.1 h
  obtain ⟨q, -, h⟩ := Res.bind_eq_ok.1 h
  cases h
  exact ⟨niMk_it L d f (fromUint_ok L _ _ h1).1 _ _ _ (.inl rfl) x h3,
    niMk_it L d l (fromUint_ok L _ _ h2).1 _ _ _ (carry01 _) y h4⟩

theorem subnets_it (L : F.Law WF val) (d : Bool) (n : Net A) (hn : NetOk F WF n) (k : Nat) (newp : Option Nat) (s : SubnetsSeq A U)
    (h : F.subnets n k newp = .ok s) : NitOk F WF val d s.first ∧ NitOk F WF val d s.last := by
  unfold Fam.subnets at h
  obtain ⟨a, ha, h⟩ := Res.bind_eq_ok.1 h
  have ha := noexcept_ok ha
  rw [L.removeScope _ hn.wf] at ha
  cases ha
  split at h
  · exact subnetsMk1_it L d _ (L.wf_ofBytes _ (L.len _ hn.wf)) _ s (noexcept_ok h)
  · have go : ∀ k, (if (n.plen + k) % 2 ^ 64 > F.maxPrefix then Res.err ErrorCode.invalid_prefixlen_diff 0
        else Fam.noexcept (do
          let b ← F.broadcast n
          F.subnetsMk (F.ofBytes (F.bytes n.addr)) b (F.hostmask n) k ((n.plen + k) % 2 ^ 64))) = .ok s →
        NitOk F WF val d s.first ∧ NitOk F WF val d s.last := by
      intro k h
      split at h
      · cases h
      · obtain ⟨b, -, h⟩ := Res.bind_eq_ok.1 (noexcept_ok h)
        exact subnetsMk_it L d _ _ _ _ _ s h
    cases newp with
    | none => exact go _ h
    | some p =>
      simp only at h
      split at h
      · cases h
      · split at h
        · cases h
        · exact go _ h

theorem subnetsAt_netOk (L : F.Law WF val) (d : Bool) (s : SubnetsSeq A U) (hs : NitOk F WF val d s.first) (n : U) (r : Net A)
    (h : F.subnetsAt s n = .ok r) : NetOk F WF r := by
  obtain ⟨x, h1, h2⟩ := Res.bind_eq_ok.1 h
  cases h2
  exact (niAdd_it L d _ hs n x h1).1.net

theorem halves_netOk (L : F.Law WF val) (n : Net A) (hn : NetOk F WF n) (r : Net A × Net A) (h : F.halves n = .ok r) :
    NetOk F WF r.1 ∧ NetOk F WF r.2 := by
  obtain ⟨s, h1, h⟩ := Res.bind_eq_ok.1 h
  obtain ⟨a, h2, h⟩ := Res.bind_eq_ok.1 h
  obtain ⟨b, h3, h⟩ := Res.bind_eq_ok.1 h
  cases h
  have k := subnets_it L true n hn 1 none s h1
  exact ⟨subnetsAt_netOk L true s k.1 _ a h2, subnetsAt_netOk L true s k.1 _ b h3⟩

theorem exDefault_ok (L : F.Law WF val) (x : ExIter A) (h : F.exDefault = .ok x) : ExOk F WF x := by
  obtain ⟨n, h1, h2⟩ := Res.bind_eq_ok.1 h
  cases h2
  have k := (defaultNet_ok L n h1).1
  exact ⟨k, k, k, k⟩

theorem exInc_ok (L : F.Law WF val) (x : ExIter A) (hx : ExOk F WF x) (y : ExIter A) (h : F.exInc x = .ok y) : ExOk F WF y := by
  have dflt : F.exDefault = .ok y → ExOk F WF y := exDefault_ok L y
  have half : ∀ n o, NetOk F WF n → NetOk F WF o → (do
      let h ← F.halves n
      Res.ok (ExIter.mk x.other h.1 h.2 o)) = .ok y → ExOk F WF y := by
    intro n o hn ho h
    obtain ⟨r, h1, h2⟩ := Res.bind_eq_ok.1 h
    cases h2
    have k := halves_netOk L n hn r h1
    exact ⟨hx.other, k.1, k.2, ho⟩
  unfold Fam.exInc at h
  obtain ⟨b1, -, h⟩ := Res.bind_eq_ok.1 h
  obtain ⟨b2, -, h⟩ := Res.bind_eq_ok.1 h
  split at h
  · obtain ⟨b3, -, h⟩ := Res.bind_eq_ok.1 h
    split at h
    · obtain ⟨b4, -, h⟩ := Res.bind_eq_ok.1 h
      split at h
      · exact half _ _ hx.s1 hx.s2 h
      · exact dflt h
    · obtain ⟨b4, -, h⟩ := Res.bind_eq_ok.1 h
      split at h
      · obtain ⟨b5, -, h⟩ := Res.bind_eq_ok.1 h
        split at h
        · exact half _ _ hx.s2 hx.s1 h
        · exact dflt h
      · cases h
  · obtain ⟨b3, -, h⟩ := Res.bind_eq_ok.1 h
    split at h
    · obtain ⟨b4, -, h⟩ := Res.bind_eq_ok.1 h
      split at h
      · cases h; exact ⟨hx.other, hx.s1, hx.s2, hx.s2⟩
      · exact dflt h
    · obtain ⟨b4, -, h⟩ := Res.bind_eq_ok.1 h
      split at h
      · obtain ⟨b5, -, h⟩ := Res.bind_eq_ok.1 h
        split at h
        · cases h; exact ⟨hx.other, hx.s1, hx.s2, hx.s1⟩
        · exact dflt h
      · cases h

theorem exMk_ok (L : F.Law WF val) (n o : Net A) (hn : NetOk F WF n) (ho : NetOk F WF o) (x : ExIter A)
    (h : F.exMk n o = .ok x) : ExOk F WF x := by
  obtain ⟨r, h1, h⟩ := Res.bind_eq_ok.1 h
  have k := halves_netOk L n hn r h1
  exact exInc_ok L ⟨o, r.1, r.2, n⟩ ⟨ho, k.1, k.2, hn⟩ x h

theorem exSeqDefault_ok (L : F.Law WF val) (s : ExSeq A) (h : F.exSeqDefault = .ok s) : ExOk F WF s.first ∧ ExOk F WF s.last := by
  obtain ⟨x, h1, h⟩ := Res.bind_eq_ok.1 h
  cases h
  exact ⟨exDefault_ok L x h1, exDefault_ok L x h1⟩

theorem exSeqMk_ok (L : F.Law WF val) (n o : Net A) (hn : NetOk F WF n) (ho : NetOk F WF o) (s : ExSeq A)
    (h : F.exSeqMk n o = .ok s) : ExOk F WF s.first ∧ ExOk F WF s.last := by
  obtain ⟨x, h1, h⟩ := Res.bind_eq_ok.1 h
  obtain ⟨d, h2, h⟩ := Res.bind_eq_ok.1 h
  cases h
  exact ⟨exMk_ok L n o hn ho x h1, exDefault_ok L d h2⟩

theorem removeScopeNet_ok (L : F.Law WF val) (n : Net A) (hn : NetOk F WF n) (r : Net A) (h : F.removeScopeNet n = .ok r) :
    NetOk F WF r := by
  unfold Fam.removeScopeNet at h
  split at h
  · obtain ⟨a, h1, h⟩ := Res.bind_eq_ok.1 h
    rw [L.removeScope _ hn.wf] at h1
    cases h1
    exact (fromAddress_ok L _ (L.wf_ofBytes _ (L.len _ hn.wf)) _ _ r h).1
  · cases h; exact hn

theorem addressExclude_ok (L : F.Law WF val) (n o : Net A) (hn : NetOk F WF n) (ho : NetOk F WF o) (s : ExSeq A)
    (h : F.addressExclude n o = .ok s) : ExOk F WF s.first ∧ ExOk F WF s.last := by
  obtain ⟨l, h1, h⟩ := Res.bind_eq_ok.1 h
  obtain ⟨r, h2, h⟩ := Res.bind_eq_ok.1 h
  obtain ⟨b, -, h⟩ := Res.bind_eq_ok.1 h
  have k1 := removeScopeNet_ok L n hn l (noexcept_ok h1)
  have k2 := removeScopeNet_ok L o ho r (noexcept_ok h2)
  split at h
  · cases h
  · obtain ⟨b', -, h⟩ := Res.bind_eq_ok.1 h
    split at h
    · exact exSeqDefault_ok L s h
    · exact exSeqMk_ok L l r k1 k2 s (noexcept_ok h)

theorem setCode_ok {α : Type} (P : α → Prop) (dflt r : Res α) (code : Code) (hd : ∀ x, dflt = .ok x → P x) (hr : ∀ x, r = .ok x → P x)
    (y : Code × α) (h : setCode dflt r code = .ok y) : P y.2 := by
  cases r with
  | ok a => cases h; exact hr a rfl
  | err e v =>
    obtain ⟨x, h1, h2⟩ := Res.bind_eq_ok.1 h
    cases h2
    exact hd x h1
  | ub => cases h

/-- What is used of a family beyond `Fam.Law`: what the parser yields, and `swap`. -/
structure ProgLaw (F : Fam A U) (WF : A → Prop) : Prop where
  parse : ∀ evs strict n, F.parseNet evs strict = .ok n → NetOk F WF n
  swap : ∀ a b, NetOk F WF a → NetOk F WF b → ∀ r, F.netSwap a b = .ok r → NetOk F WF r.1 ∧ NetOk F WF r.2

theorem bind_obj {α : Type} {P : Obj A U → Prop} {r : Res α} {f : α → Obj A U} (hP : ∀ a, r = .ok a → P (f a)) (o : Obj A U)
    (h : (do let a ← r; Res.ok (f a)) = .ok o) : P o := by
  obtain ⟨a, h1, h2⟩ := Res.bind_eq_ok.1 h
  cases h2
  exact hP a h1

set_option maxHeartbeats 1000000 in
theorem eval_ok (L : F.Law WF val) (G : ProgLaw F WF) (d : Bool) (st : List (Obj A U)) (hst : ∀ o ∈ st, HeldOk F WF val d o)
    (e : Expr U) (he : makesDefault e = true → d = true) (o : Obj A U) (h : F.eval st e = some (.ok o)) : HeldOk F WF val d o := by
  have get : ∀ i o, st[i]? = some o → HeldOk F WF val d o := fun i o h => hst o (List.mem_of_getElem? h)
  cases e with
  | defNet => exact bind_obj (fun n hn => (defaultNet_ok L n hn).1) o (Option.some.inj h)
  | defAit => cases h; exact zero_it L
  | defNit =>
    cases he rfl
    exact bind_obj (fun n hn => niDefault_it L n hn) o (Option.some.inj h)
  | defSubs =>
    cases he rfl
    exact bind_obj (fun n hn => subnetsDefault_it L n hn) o (Option.some.inj h)
  | defExit => exact bind_obj (fun n hn => exDefault_ok L n hn) o (Option.some.inj h)
  | defExs => exact bind_obj (fun n hn => exSeqDefault_ok L n hn) o (Option.some.inj h)
  | fromUint u => exact bind_obj (fun n hn => (fromUint_ok L _ n hn).1) o (Option.some.inj h)
  | fromAddress i p s =>
    simp only [Fam.eval] at h
    split at h
    · next a e1 => exact bind_obj (fun n hn => (fromAddress_ok L a (get i _ e1) p s n hn).1) o (Option.some.inj h)
    · cases h
  | fromAddressCode i p s =>
    simp only [Fam.eval] at h
    split at h
    · next a e1 =>
      exact bind_obj (r := F.fromAddressCode a p s none) (f := fun n => .net n.2) (fun n hn => setCode_ok (NetOk F WF) _ _ _ (fun x hx => (defaultNet_ok L x hx).1)
        (fun x hx => (fromAddress_ok L a (get i _ e1) p s x hx).1) n hn) o (Option.some.inj h)
    · cases h
  | parse evs s => exact bind_obj (fun n hn => G.parse _ _ n hn) o (Option.some.inj h)
  | network i =>
    simp only [Fam.eval] at h
    split at h
    · next n e1 => cases h; exact (get i _ e1 : NetOk F WF n).wf
    · cases h
  | netmask i =>
    simp only [Fam.eval] at h
    split at h
    · next n e1 => cases h; exact (get i _ e1 : NetOk F WF n).mask_wf L
    · cases h
  | hostmask i =>
    simp only [Fam.eval] at h
    split at h
    · next n e1 => cases h; exact (get i _ e1 : NetOk F WF n).hostmask_wf L
    · cases h
  | broadcast i =>
    simp only [Fam.eval] at h
    split at h
    · next n e1 => exact bind_obj (fun b hb => (get i _ e1 : NetOk F WF n).broadcast_wf L b hb) o (Option.some.inj h)
    · cases h
  | supernet i k newp =>
    simp only [Fam.eval] at h
    split at h
    · next n e1 => exact bind_obj (fun b hb => supernet_netOk L n (get i _ e1) k newp b hb) o (Option.some.inj h)
    · cases h
  | supernetCode i k newp =>
    simp only [Fam.eval] at h
    split at h
    · next n e1 =>
      exact bind_obj (r := F.supernetCode n k newp none) (f := fun n => .net n.2) (fun b hb => setCode_ok (NetOk F WF) _ _ _ (fun x hx => (defaultNet_ok L x hx).1)
        (fun x hx => supernet_netOk L n (get i _ e1) k newp x hx) b hb) o (Option.some.inj h)
    · cases h
  | hosts i =>
    simp only [Fam.eval] at h
    split at h
    · next n e1 => exact bind_obj (fun s hs => hosts_it L n s hs) o (Option.some.inj h)
    · cases h
  | hostsMk i j p m =>
    simp only [Fam.eval] at h
    split at h
    · next a b e1 e2 => exact bind_obj (fun s hs => hostsMk_it L a b p m s hs) o (Option.some.inj h)
    · cases h
  | subnets i k newp =>
    simp only [Fam.eval] at h
    split at h
    · next n e1 => exact bind_obj (fun s hs => subnets_it L d n (get i _ e1) k newp s hs) o (Option.some.inj h)
    · cases h
  | subnetsCode i k newp =>
    cases he rfl
    simp only [Fam.eval] at h
    split at h
    · next n e1 =>
      exact bind_obj (r := F.subnetsCode n k newp none) (f := fun n => .subs n.2) (fun s hs => setCode_ok (fun s => NitOk F WF val true s.first ∧ NitOk F WF val true s.last)
        _ _ _ (fun x hx => subnetsDefault_it L x hx) (fun x hx => subnets_it L true n (get i _ e1) k newp x hx) s hs) o
        (Option.some.inj h)
    · cases h
  | subnetsMk1 i p =>
    simp only [Fam.eval] at h
    split at h
    · next a e1 => exact bind_obj (fun s hs => subnetsMk1_it L d a (get i _ e1) p s (noexcept_ok hs)) o (Option.some.inj h)
    · cases h
  | subnetsMk i j k e p =>
    simp only [Fam.eval] at h
    split at h
    · next a b m e1 e2 e3 => exact bind_obj (fun s hs => subnetsMk_it L d a b m e p s (noexcept_ok hs)) o (Option.some.inj h)
    · cases h
  | exclude i j =>
    simp only [Fam.eval] at h
    split at h
    · next a b e1 e2 => exact bind_obj (fun s hs => addressExclude_ok L a b (get i _ e1) (get j _ e2) s hs) o (Option.some.inj h)
    · cases h
  | excludeCode i j =>
    simp only [Fam.eval] at h
    split at h
    · next a b e1 e2 =>
      exact bind_obj (r := F.excludeCode a b none) (f := fun n => .exs n.2) (fun s hs => setCode_ok (fun s => ExOk F WF s.first ∧ ExOk F WF s.last) _ _ _
        (fun x hx => exSeqDefault_ok L x hx) (fun x hx => addressExclude_ok L a b (get i _ e1) (get j _ e2) x hx) s hs) o
        (Option.some.inj h)
    · cases h
  | exitMk i j =>
    simp only [Fam.eval] at h
    split at h
    · next a b e1 e2 => exact bind_obj (fun s hs => exMk_ok L a b (get i _ e1) (get j _ e2) s hs) o (Option.some.inj h)
    · cases h
  | exsMk i j =>
    simp only [Fam.eval] at h
    split at h
    · next a b e1 e2 => exact bind_obj (fun s hs => exSeqMk_ok L a b (get i _ e1) (get j _ e2) s hs) o (Option.some.inj h)
    · cases h
  | aitMk i c =>
    simp only [Fam.eval] at h
    split at h
    · next a e1 => exact bind_obj (fun x hx => (aiMk_it L a (get i _ e1) _ (carry01 _) x hx).1) o (Option.some.inj h)
    · cases h
  | nitMk i step p c =>
    simp only [Fam.eval] at h
    split at h
    · next a e1 => exact bind_obj (fun x hx => niMk_it L d a (get i _ e1) step p _ (carry01 _) x (noexcept_ok hx)) o (Option.some.inj h)
    · cases h
  | first i =>
    simp only [Fam.eval] at h
    split at h
    · next s e1 => cases h; exact (get i _ e1).1
    · next s e1 => cases h; exact (get i _ e1).1
    · next s e1 => cases h; exact (get i _ e1).1
    · cases h
  | last i =>
    simp only [Fam.eval] at h
    split at h
    · next s e1 => cases h; exact (get i _ e1).2
    · next s e1 => cases h; exact (get i _ e1).2
    · next s e1 => cases h; exact (get i _ e1).2
    · cases h
  | reverse i =>
    simp only [Fam.eval] at h
    split at h
    · next x e1 =>
      refine bind_obj (fun r hr => ?_) o (Option.some.inj h)
      obtain ⟨y, h1, h2⟩ := Res.bind_eq_ok.1 hr
      cases h2
      exact aiReverse_it L x (get i _ e1) y h1
    · next x e1 =>
      refine bind_obj (fun r hr => ?_) o (Option.some.inj h)
      obtain ⟨y, h1, h2⟩ := Res.bind_eq_ok.1 (noexcept_ok hr)
      cases h2
      exact niReverse_it L d x (get i _ e1) y h1
    · cases h
  | base i =>
    simp only [Fam.eval] at h
    split at h
    · next r e1 => exact bind_obj (fun x hx => aiBase_it L r.it (get i _ e1) x hx) o (Option.some.inj h)
    · next r e1 => exact bind_obj (fun x hx => niBase_it L d r.it (get i _ e1) x (noexcept_ok hx)) o (Option.some.inj h)
    · cases h
  | move i m =>
    simp only [Fam.eval] at h
    split at h
    · next x e1 => exact bind_obj (fun y hy => aiMove_it L m x (get i _ e1) y hy) o (Option.some.inj h)
    · next x e1 => exact bind_obj (fun y hy => (niMove_it L d m x (get i _ e1) y hy).1) o (Option.some.inj h)
    · next r e1 =>
      exact bind_obj (f := fun y => .rait ⟨y⟩) (fun y hy => aiMove_it L _ r.it (get i _ e1) y hy) o (Option.some.inj h)
    · next r e1 =>
      exact bind_obj (f := fun y => .rnit ⟨y⟩) (fun y hy => (niMove_it L d _ r.it (get i _ e1) y hy).1) o (Option.some.inj h)
    · next x e1 => exact bind_obj (fun y hy => exInc_ok L x (get i _ e1) y hy) o (Option.some.inj h)
    · cases h
  | deref i =>
    simp only [Fam.eval] at h
    split at h
    · next x e1 => cases h; exact (get i _ e1 : ItOk F WF val x).wf
    · next x e1 => cases h; exact (get i _ e1 : NitOk F WF val d x).net
    · next r e1 => cases h; exact (get i _ e1 : ItOk F WF val r.it).wf
    · next r e1 => cases h; exact (get i _ e1 : NitOk F WF val d r.it).net
    · next x e1 => cases h; exact (get i _ e1 : ExOk F WF x).cur
    · cases h
  | index i n =>
    simp only [Fam.eval] at h
    split at h
    · next x e1 => exact bind_obj (fun a ha => (fromUint_ok L _ a ha).1) o (Option.some.inj h)
    · next x e1 =>
      refine bind_obj (fun m hm => ?_) o (Option.some.inj h)
      obtain ⟨a, h1, h2⟩ := Res.bind_eq_ok.1 (noexcept_ok hm)
      exact (fromAddress_ok L _ (aiAdd_it L _ (get i _ e1 : NitOk F WF val d x).it _ a h1).wf _ _ m h2).1
    · next r e1 =>
      refine bind_obj (fun a ha => ?_) o (Option.some.inj h)
      obtain ⟨y, h1, h2⟩ := Res.bind_eq_ok.1 ha
      cases h2
      exact (aiSub_it L _ (get i _ e1 : ItOk F WF val r.it) _ y h1).wf
    · next r e1 =>
      refine bind_obj (fun a ha => ?_) o (Option.some.inj h)
      obtain ⟨y, h1, h2⟩ := Res.bind_eq_ok.1 (noexcept_ok ha)
      cases h2
      exact (niSub_it L d _ (get i _ e1 : NitOk F WF val d r.it) _ y h1).1.net
    · cases h
  | front i =>
    simp only [Fam.eval] at h
    split at h
    · next s e1 => cases h; exact (get i _ e1).1.wf
    · next s e1 => cases h; exact (get i _ e1).1.net
    · cases h
  | back i =>
    simp only [Fam.eval] at h
    split at h
    · next s e1 =>
      refine bind_obj (fun a ha => ?_) o (Option.some.inj h)
      obtain ⟨y, h1, h2⟩ := Res.bind_eq_ok.1 ha
      cases h2
      exact (aiSub_it L _ (get i _ e1).2 _ y h1).wf
    · next s e1 =>
      refine bind_obj (fun a ha => ?_) o (Option.some.inj h)
      obtain ⟨y, h1, h2⟩ := Res.bind_eq_ok.1 (noexcept_ok ha)
      cases h2
      exact (niSub_it L d _ (get i _ e1).2 _ y h1).1.net
    · cases h
  | elem i n =>
    simp only [Fam.eval] at h
    split at h
    · next s e1 =>
      refine bind_obj (fun a ha => ?_) o (Option.some.inj h)
      obtain ⟨y, h1, h2⟩ := Res.bind_eq_ok.1 ha
      cases h2
      exact (aiAdd_it L _ (get i _ e1).1 _ y h1).wf
    · next s e1 => exact bind_obj (fun a ha => subnetsAt_netOk L d s (get i _ e1).1 n a (noexcept_ok ha)) o (Option.some.inj h)
    · cases h

theorem mem_set_of {α : Type} {l : List α} {i : Nat} {a x : α} (h : x ∈ l.set i a) : x ∈ l ∨ x = a :=
  List.mem_or_eq_of_mem_set h

theorem exec_ok (L : F.Law WF val) (G : ProgLaw F WF) (d : Bool) (st : List (Obj A U)) (hst : ∀ o ∈ st, HeldOk F WF val d o)
    (s : Stmt U) (hs : stmtMakesDefault s = true → d = true) (st' : List (Obj A U)) (h : F.exec st s = .ok st') :
    ∀ o ∈ st', HeldOk F WF val d o := by
  have key : ∀ (e : Expr U) (f : Obj A U → List (Obj A U)), (makesDefault e = true → d = true) →
      (∀ o, HeldOk F WF val d o → ∀ x ∈ f o, HeldOk F WF val d x) → Fam.after st (F.eval st e) f = .ok st' →
      ∀ o ∈ st', HeldOk F WF val d o := by
    intro e f he hf h
    cases hev : F.eval st e with
    | none => rw [hev] at h; cases h; exact hst
    | some r =>
      rw [hev] at h
      cases r with
      | ok o => cases h; exact hf o (eval_ok L G d st hst e he o hev)
      | err c v => cases h; exact hst
      | ub => cases h
  cases s with
  | new e =>
    refine key e _ hs (fun o ho x hx => ?_) h
    rcases List.mem_append.1 hx with hx | hx
    · exact hst x hx
    · rw [List.mem_singleton.1 hx]; exact ho
  | put i e =>
    refine key e _ hs (fun o ho x hx => ?_) h
    rcases mem_set_of hx with hx | hx
    · exact hst x hx
    · rw [hx]; exact ho
  | swap i j =>
    have get : ∀ i o, st[i]? = some o → HeldOk F WF val d o := fun i o h => hst o (List.mem_of_getElem? h)
    simp only [Fam.exec] at h
    split at h
    · next n m e1 e2 =>
      obtain ⟨r, h1, h2⟩ := Res.bind_eq_ok.1 h
      cases h2
      have k := G.swap n m (get i _ e1) (get j _ e2) r h1
      intro o ho
      rcases mem_set_of ho with ho | rfl
      · rcases mem_set_of ho with ho | rfl
        · exact hst o ho
        · exact k.1
      · exact k.2
    · next a b _ e1 e2 =>
      cases h
      intro o ho
      rcases mem_set_of ho with ho | rfl
      · rcases mem_set_of ho with ho | rfl
        · exact hst o ho
        · exact get j _ e2
      · exact get i _ e1
    · cases h; exact hst

theorem run_ok (L : F.Law WF val) (G : ProgLaw F WF) (d : Bool) : ∀ (prog : List (Stmt U)) (st : List (Obj A U)),
    (∀ o ∈ st, HeldOk F WF val d o) → (∀ s ∈ prog, stmtMakesDefault s = true → d = true) → ∀ st', F.run prog st = .ok st' →
    ∀ o ∈ st', HeldOk F WF val d o
  | [], st, hst, _, st', h => by cases h; exact hst
  | s :: rest, st, hst, hp, st', h => by
    obtain ⟨st1, h1, h2⟩ := Res.bind_eq_ok.1 h
    exact run_ok L G d rest st1 (exec_ok L G d st hst s (hp s (List.mem_cons_self ..)) st1 h1)
      (fun s hs => hp s (List.mem_cons_of_mem _ hs)) st' h2

end
/-! ### Where the operators move an iterator -/

theorem law_zero {A U : Type} {F : Fam A U} {WF : A → Prop} {val : U → Nat} (L : F.Law WF val) : val (F.ops.ofI64 0#64) = 0 := by
  have h0 := L.ops.ofI64 0#64
  simp only [BitVec.toInt_zero, Int.zero_emod] at h0
  omega

theorem aiAdd_forward {A U : Type} {F : Fam A U} {WF : A → Prop} {val : U → Nat} (L : F.Law WF val) (x : AIter A U) (n : U) (y : AIter A U)
    (h : F.aiAdd x n = .ok y) : (val y.off : Int) = (val x.off + val n) % (2 ^ F.maxPrefix : Nat) := by
  have hlt := L.ops.val_lt x.off
  unfold Fam.aiAdd at h
  rw [L.ops.eq, law_zero L] at h
  split at h
  · obtain ⟨a, h1, h2⟩ := Res.bind_eq_ok.1 h
    cases h2
    show ((val (F.ops.add x.off n) : Nat) : Int) = _
    rw [L.ops.add, Int.natCast_mod, Int.natCast_add]
  · next hn =>
    cases h
    have : val n = 0 := by simpa using hn
    rw [this, ← Int.natCast_add, ← Int.natCast_mod, Nat.add_zero, Nat.mod_eq_of_lt hlt]

theorem aiSub_forward {A U : Type} {F : Fam A U} {WF : A → Prop} {val : U → Nat} (L : F.Law WF val) (x : AIter A U) (n : U) (y : AIter A U)
    (h : F.aiSub x n = .ok y) : (val y.off : Int) = (val x.off - val n) % (2 ^ F.maxPrefix : Nat) := by
  have hlt := L.ops.val_lt x.off
  have hln := L.ops.val_lt n
  unfold Fam.aiSub at h
  rw [L.ops.eq, law_zero L] at h
  split at h
  · obtain ⟨a, h1, h2⟩ := Res.bind_eq_ok.1 h
    cases h2
    show ((val (F.ops.sub x.off n) : Nat) : Int) = _
    rw [L.ops.sub]
    generalize 2 ^ F.maxPrefix = m at *
    rw [Int.natCast_mod, show ((val x.off + (m - val n) : Nat) : Int) = val x.off - val n + m by omega, Int.add_emod_right]
  · next hn =>
    cases h
    have : val n = 0 := by simpa using hn
    rw [this, Int.natCast_zero, Int.sub_zero, ← Int.natCast_mod, Nat.mod_eq_of_lt hlt]

theorem law_ofI64 {A U : Type} {F : Fam A U} {WF : A → Prop} {val : U → Nat} (L : F.Law WF val) (n : BitVec 64) :
    (val (F.ops.ofI64 n) : Int) = n.toInt % (2 ^ F.maxPrefix : Nat) := by
  rw [L.ops.ofI64]; norm_cast

theorem add_mod_step (a s k j m : Int) (h : j = k % m) : (a + (s * j) % m) % m = (a + s * k) % m := by
  subst h
  simp [Int.mul_emod, Int.add_emod]

theorem sub_mod_step (a s k j m : Int) (h : j = k % m) : (a - (s * j) % m) % m = (a - s * k) % m := by
  subst h
  simp [Int.mul_emod, Int.sub_emod]

theorem aiMove_forward {A U : Type} {F : Fam A U} {WF : A → Prop} {val : U → Nat} (L : F.Law WF val) (m : Move U) (x y : AIter A U)
    (h : F.aiMove m x = .ok y) : (val y.off : Int) = (val x.off + forward val m) % (2 ^ F.maxPrefix : Nat) := by
  have one : (1#64 : BitVec 64).toInt = 1 := by decide
  cases m with
  | inc => rw [aiAdd_forward L x _ y h, law_ofI64 L, Int.add_emod_emod, one]; rfl
  | dec => rw [aiSub_forward L x _ y h, law_ofI64 L, Int.sub_emod_emod, one]; rfl
  | add n => exact aiAdd_forward L x n y h
  | sub n => exact aiSub_forward L x n y h
  | addI n => rw [aiAdd_forward L x _ y h, law_ofI64 L, Int.add_emod_emod]; rfl
  | subI n => rw [aiSub_forward L x _ y h, law_ofI64 L, Int.sub_emod_emod]; rfl

theorem niAdd_forward {A U : Type} {F : Fam A U} {WF : A → Prop} {val : U → Nat} (L : F.Law WF val) (x : NIter A U) (n : U) (k : Int)
    (hk : (val n : Int) = k % (2 ^ F.maxPrefix : Nat)) (y : NIter A U) (h : F.niAdd x n = .ok y) :
    (val y.it.off : Int) = (val x.it.off + val x.step * k) % (2 ^ F.maxPrefix : Nat) ∧ y.step = x.step := by
  obtain ⟨i, h1, h2⟩ := Res.bind_eq_ok.1 h
  obtain ⟨m, h3, h4⟩ := Res.bind_eq_ok.1 h2
  cases h4
  refine ⟨?_, rfl⟩
  show (val i.off : Int) = _
  rw [aiAdd_forward L _ _ i h1, L.ops.mul, Int.natCast_mod, Int.natCast_mul]
  exact add_mod_step _ _ _ _ _ hk

theorem niSub_forward {A U : Type} {F : Fam A U} {WF : A → Prop} {val : U → Nat} (L : F.Law WF val) (x : NIter A U) (n : U) (k : Int)
    (hk : (val n : Int) = k % (2 ^ F.maxPrefix : Nat)) (y : NIter A U) (h : F.niSub x n = .ok y) :
    (val y.it.off : Int) = (val x.it.off + val x.step * -k) % (2 ^ F.maxPrefix : Nat) ∧ y.step = x.step := by
  obtain ⟨i, h1, h2⟩ := Res.bind_eq_ok.1 h
  obtain ⟨m, h3, h4⟩ := Res.bind_eq_ok.1 h2
  cases h4
  refine ⟨?_, rfl⟩
  show (val i.off : Int) = _
  rw [aiSub_forward L _ _ i h1, L.ops.mul, Int.natCast_mod, Int.natCast_mul, Int.mul_neg, ← Int.sub_eq_add_neg]
  exact sub_mod_step _ _ _ _ _ hk

theorem niMove_forward {A U : Type} {F : Fam A U} {WF : A → Prop} {val : U → Nat} (L : F.Law WF val) (m : Move U) (x y : NIter A U)
    (h : F.niMove m x = .ok y) :
    (val y.it.off : Int) = (val x.it.off + val x.step * forward val m) % (2 ^ F.maxPrefix : Nat) ∧ y.step = x.step := by
  have h := noexcept_ok h
  have self (n : U) : (val n : Int) = val n % (2 ^ F.maxPrefix : Nat) := by
    rw [← Int.natCast_mod, Nat.mod_eq_of_lt (L.ops.val_lt n)]
  cases m with
  | inc => exact niAdd_forward L x _ 1 (law_ofI64 L _) y h
  | dec => exact niSub_forward L x _ 1 (law_ofI64 L _) y h
  | add n => exact niAdd_forward L x n _ (self n) y h
  | sub n => exact niSub_forward L x n _ (self n) y h
  | addI n => exact niAdd_forward L x _ n.toInt (law_ofI64 L _) y h
  | subI n => exact niSub_forward L x _ n.toInt (law_ofI64 L _) y h

theorem forward_opposite {U : Type} (val : U → Nat) (m : Move U) : forward val m.opposite = -forward val m := by
  cases m <;> simp [Move.opposite, forward]

end Ip
