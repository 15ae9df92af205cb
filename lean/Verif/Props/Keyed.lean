import Verif.Lemmas.Keyed
import Verif.Props.LooseLess
import Verif.Props.Hash32
/-
C97: sets and maps keyed by addresses, networks and numbers.
-/
set_option autoImplicit false

namespace Ip
open Spec

theorem lessOf_eq {K : Type} {ops : K → K → Res CmpOps} {a b : K} {r : CmpOps} (h : ops a b = .ok r) :
    lessOf ops a b = .ok r.lt := by
  unfold lessOf
  rw [h]
  rfl

theorem equalOf_eq {K : Type} {ops : K → K → Res CmpOps} {a b : K} {r : CmpOps} (h : ops a b = .ok r) :
    equalOf ops a b = .ok r.eq := by
  unfold equalOf
  rw [h]
  rfl

theorem nat_oneOf (x y : Nat) : OneOf (x < y) (x = y) (y < x) := by unfold OneOf; omega

/-- The order of networks is total if that of the addresses is. -/
theorem netBefore_oneOf {K : Type} {R : K → K → Prop} (h : ∀ x y, OneOf (R x y) (x = y) (R y x)) (x y : K × Nat) :
    OneOf (NetBefore R x.1 x.2 y.1 y.2) (x = y) (NetBefore R y.1 y.2 x.1 x.2) := by
  obtain ⟨a, p⟩ := x
  obtain ⟨b, q⟩ := y
  obtain ⟨h1, h2, h3, h4⟩ := h a b
  unfold OneOf NetBefore
  simp only [Prod.mk.injEq]
  refine ⟨?_, ?_, ?_, ?_⟩
  · rcases h1 with g | g | g
    · exact .inl (.inl g)
    · rcases Nat.lt_trichotomy p q with k | k | k
      · exact .inl (.inr ⟨g, k⟩)
      · exact .inr (.inl ⟨g, k⟩)
      · exact .inr (.inr (.inr ⟨g.symm, k⟩))
    · exact .inr (.inr (.inl g))
  · rintro ⟨g | g, k⟩
    · exact h2 ⟨g, k.1⟩
    · omega
  · rintro ⟨g | g, k | k⟩
    · exact h3 ⟨g, k⟩
    · exact h2 ⟨g, k.1.symm⟩
    · exact h4 ⟨g.1, k⟩
    · omega
  · rintro ⟨g, k | k⟩
    · exact h4 ⟨g.1, k⟩
    · omega

theorem netBefore_trans {K : Type} {R : K → K → Prop} (h : ∀ x y z, R x y → R y z → R x z) (x y z : K × Nat) :
    NetBefore R x.1 x.2 y.1 y.2 → NetBefore R y.1 y.2 z.1 z.2 → NetBefore R x.1 x.2 z.1 z.2 := by
  rintro (a | ⟨a, p⟩) (b | ⟨b, q⟩)
  · exact .inl (h _ _ _ a b)
  · exact .inl (b ▸ a)
  · exact .inl (a ▸ b)
  · exact .inr ⟨a.trans b, by omega⟩

/-- Networks whose addresses are not crossed are compared as the order says. -/
theorem netLoose_iff (val : Char → Int) (hv : ∀ x y, val x = val y → x = y) (x y : (Bool × Nat × List Char) × Nat)
    (h : ¬ Crossed val x.1 y.1) :
    NetLoose (AnyLoose val) x.1 x.2 y.1 y.2 ↔ NetBefore (AnyLt val) x.1 x.2 y.1 y.2 := by
  have t := (C54_order_total val hv x.1 y.1 y.1).1
  unfold NetLoose NetBefore
  rw [anyLoose_iff val hv _ _ h]
  constructor
  · rintro (g | g)
    · exact .inl g.2
    · exact .inr g
  · rintro (g | g)
    · exact .inl ⟨fun e => t.2.1 ⟨g, e⟩, g⟩
    · exact .inr g

section
variable (c : Cfg) (hv : ∀ x y, c.val x = c.val y → x = y)
include hv

/-- `operator<` of `ip_address`. -/
theorem any_lessOf (a b : AnyAddr) (ha : AddrOkAny c a) (hb : AddrOkAny c b)
    (hx : c.spaceship = true ∨ ¬ Crossed c.val (anyMeaning a) (anyMeaning b)) :
    ∃ r, lessOf (anyCmpOps c) a b = .ok r ∧ (r = true ↔ AnyLt c.val (anyMeaning a) (anyMeaning b)) := by
  obtain ⟨r, r1, r2, _⟩ := C54_order_iff c hv a b ha hb
  exact ⟨_, lessOf_eq r1, (r2.2 hx).lt⟩

theorem any_lessOf_crossed (hs : c.spaceship = false) (a b : AnyAddr) (ha : AddrOkAny c a) (hb : AddrOkAny c b)
    (hx : Crossed c.val (anyMeaning a) (anyMeaning b)) : lessOf (anyCmpOps c) a b = .ok true := by
  obtain ⟨r, r1, _, r3⟩ := C54_order_iff c hv a b ha hb
  rw [lessOf_eq r1, r3 hs hx]

/-- `operator==` of `ip_address`. -/
theorem any_equalOf (a b : AnyAddr) (ha : AddrOkAny c a) (hb : AddrOkAny c b) :
    ∃ r, equalOf (anyCmpOps c) a b = .ok r ∧ (r = true ↔ anyMeaning a = anyMeaning b) := by
  cases hs : c.spaceship with
  | true =>
    obtain ⟨r, r1, r2⟩ := C54_order_partial c hv a b ha hb (.inl hs)
    exact ⟨_, equalOf_eq r1, r2.eq⟩
  | false =>
    obtain ⟨r, r1, r2⟩ := C54_order_exact c hs hv a b ha hb
    exact ⟨_, equalOf_eq r1, r2.eq⟩

/-- `operator<` of `ip_network`. -/
theorem anyNet_lessOf (hc : c.le = true) (a b : AnyNet) (ha : NetOkAny c a) (hb : NetOkAny c b)
    (hx : c.spaceship = true ∨ ¬ Crossed c.val (anyNetMeaning a).1 (anyNetMeaning b).1) :
    ∃ r, lessOf (anyNetCmpOps c) a b = .ok r ∧ (r = true ↔
      NetBefore (AnyLt c.val) (anyNetMeaning a).1 (anyNetMeaning a).2 (anyNetMeaning b).1 (anyNetMeaning b).2) := by
  cases hs : c.spaceship with
  | true =>
    obtain ⟨r, r1, r2⟩ := C55_any_network_partial c hc hv a b ha hb (.inl hs)
    exact ⟨_, lessOf_eq r1, r2.lt⟩
  | false =>
    obtain ⟨r, r1, r2⟩ := C55_any_network_exact c hc hs hv a b ha hb
    refine ⟨_, lessOf_eq r1, ?_⟩
    rw [r2.lt]
    exact netLoose_iff c.val hv _ _ (hx.resolve_left (by simp [hs]))

theorem anyNet_lessOf_crossed (hc : c.le = true) (hs : c.spaceship = false) (a b : AnyNet) (ha : NetOkAny c a) (hb : NetOkAny c b)
    (hx : Crossed c.val (anyNetMeaning a).1 (anyNetMeaning b).1) : lessOf (anyNetCmpOps c) a b = .ok true := by
  obtain ⟨r, r1, r2⟩ := C55_any_network_exact c hc hs hv a b ha hb
  obtain ⟨k1, _, k3⟩ := crossed_both c.val _ _ hx
  rw [lessOf_eq r1, r2.lt.2 (.inl ⟨k3, k1⟩)]

/-- `operator==` of `ip_network`. -/
theorem anyNet_equalOf (hc : c.le = true) (a b : AnyNet) (ha : NetOkAny c a) (hb : NetOkAny c b) :
    ∃ r, equalOf (anyNetCmpOps c) a b = .ok r ∧ (r = true ↔ anyNetMeaning a = anyNetMeaning b) := by
  cases hs : c.spaceship with
  | true =>
    obtain ⟨r, r1, r2⟩ := C55_any_network_partial c hc hv a b ha hb (.inl hs)
    exact ⟨_, equalOf_eq r1, r2.eq⟩
  | false =>
    obtain ⟨r, r1, r2⟩ := C55_any_network_exact c hc hs hv a b ha hb
    exact ⟨_, equalOf_eq r1, r2.eq⟩

/-- Sets of keys that are, or contain, addresses of either version: they work exactly if no two keys are crossed. -/
theorem sets_iff {K : Type} (emb : K → AnyAddr) (lt : K → K → Res Bool)
    (he : ∀ a b, lt a b = lessOf (anyCmpOps c) (emb a) (emb b)) (good : K → Prop) (hg : ∀ a, good a → AddrOkAny c (emb a)) :
    SetsWork lt (fun a b => anyMeaning (emb a) = anyMeaning (emb b)) good ↔
      c.spaceship = true ∨ ∀ a b, good a → good b → ¬ Crossed c.val (anyMeaning (emb a)) (anyMeaning (emb b)) := by
  constructor
  · intro h
    cases hs : c.spaceship with
    | true => exact .inl rfl
    | false =>
      refine .inr fun a b ha hb hx => ?_
      refine sets_fail (same := fun a b => anyMeaning (emb a) = anyMeaning (emb b)) (fun _ _ => rfl) a b ha hb ?_ ?_ h
      · rw [he]; exact any_lessOf_crossed c hv hs _ _ (hg a ha) (hg b hb) hx
      · rw [he]; exact any_lessOf_crossed c hv hs _ _ (hg b hb) (hg a ha) ((crossed_comm _ _ _).1 hx)
  · intro h
    refine sets_work (key := fun a => anyMeaning (emb a)) (R := AnyLt c.val) ?_
      (fun x y z => (C54_order_total c.val hv x y z).2) (fun x y => (C54_order_total c.val hv x y y).1)
    intro a b ha hb
    rw [he]
    exact any_lessOf c hv _ _ (hg a ha) (hg b hb) (h.imp id (fun g => g a b ha hb))

theorem net_sets_iff (hc : c.le = true) {K : Type} (emb : K → AnyNet) (lt : K → K → Res Bool)
    (he : ∀ a b, lt a b = lessOf (anyNetCmpOps c) (emb a) (emb b)) (good : K → Prop) (hg : ∀ a, good a → NetOkAny c (emb a)) :
    SetsWork lt (fun a b => anyNetMeaning (emb a) = anyNetMeaning (emb b)) good ↔
      c.spaceship = true ∨ ∀ a b, good a → good b → ¬ Crossed c.val (anyNetMeaning (emb a)).1 (anyNetMeaning (emb b)).1 := by
  constructor
  · intro h
    cases hs : c.spaceship with
    | true => exact .inl rfl
    | false =>
      refine .inr fun a b ha hb hx => ?_
      refine sets_fail (same := fun a b => anyNetMeaning (emb a) = anyNetMeaning (emb b)) (fun _ _ => rfl) a b ha hb ?_ ?_ h
      · rw [he]; exact anyNet_lessOf_crossed c hv hc hs _ _ (hg a ha) (hg b hb) hx
      · rw [he]; exact anyNet_lessOf_crossed c hv hc hs _ _ (hg b hb) (hg a ha) ((crossed_comm _ _ _).1 hx)
  · intro h
    refine sets_work (key := fun a => anyNetMeaning (emb a)) (R := fun x y => NetBefore (AnyLt c.val) x.1 x.2 y.1 y.2) ?_
      (netBefore_trans (fun x y z => (C54_order_total c.val hv x y z).2))
      (netBefore_oneOf (fun x y => (C54_order_total c.val hv x y y).1))
    intro a b ha hb
    rw [he]
    exact anyNet_lessOf c hv hc _ _ (hg a ha) (hg b hb) (h.imp id (fun g => g a b ha hb))

end

/-! ### Ordered sets and maps -/

/-- C97, `std::set` and `std::map` of `ipv4_address`, `ipv4_network` and `uint128_t`, with or without `<=>`: whatever the
history, every call gives the right answer. -/
theorem C97_sets (ss : Bool) :
    SetsWork (lessOf (bytesCmpOps ss)) (fun a b => beValue a = beValue b) (fun a => a.length = 4) ∧
    SetsWork (lessOf (netCmpOps (fam4 true) ss)) (fun a b => (beValue a.addr, a.plen) = (beValue b.addr, b.plen)) NetOk4 ∧
    SetsWork (lessOf (u128CmpOps ss)) (fun a b => a.val = b.val) (fun _ => True) := by
  refine ⟨?_, ?_, ?_⟩
  · refine sets_work (R := fun x y : Nat => x < y) ?_ (fun x y z => Nat.lt_trans) nat_oneOf
    intro a b ha hb
    obtain ⟨r, r1, r2⟩ := C55_bytes ss a b (Eq.trans ha (Eq.symm hb))
    exact ⟨_, lessOf_eq r1, r2.lt⟩
  · refine sets_work (key := fun n : Net (List (BitVec 8)) => (beValue n.addr, n.plen))
      (R := fun x y : Nat × Nat => NetBefore (· < ·) x.1 x.2 y.1 y.2) ?_
      (netBefore_trans (R := fun x y : Nat => x < y) fun x y z => Nat.lt_trans) (netBefore_oneOf nat_oneOf)
    intro a b ha hb
    obtain ⟨r, r1, r2⟩ := C55_net_v4 ss a b ha hb
    exact ⟨_, lessOf_eq r1, r2.lt⟩
  · refine sets_work (R := fun x y : Nat => x < y) ?_ (fun x y z => Nat.lt_trans) nat_oneOf
    intro a b _ _
    obtain ⟨r, r1, r2⟩ := C55_uint128 ss a b
    exact ⟨_, lessOf_eq r1, r2.lt⟩

/-- A history: 10.0.0.2 and 10.0.0.1 are inserted, one is erased; it is gone, the other one is found. -/
example : ∃ t, SetAfter (lessOf (bytesCmpOps false)) (fun a => a.length = 4)
      [.erase [10, 0, 0, 2], .insert [10, 0, 0, 1], .insert [10, 0, 0, 2]] t ∧
    t.call (lessOf (bytesCmpOps false)) (.find [10, 0, 0, 1]) = .ok ([[10, 0, 0, 1]], true) ∧
    t.call (lessOf (bytesCmpOps false)) (.find [10, 0, 0, 2]) = .ok ([[10, 0, 0, 1]], false) :=
  ⟨.node .leaf [10, 0, 0, 1] .leaf,
    .call (c := .erase [10, 0, 0, 2]) (t := .node (.node .leaf [10, 0, 0, 1] .leaf) [10, 0, 0, 2] .leaf)
      (l := [[10, 0, 0, 1]]) (b := true)
      (.call (c := .insert [10, 0, 0, 1]) (t := .node .leaf [10, 0, 0, 2] .leaf) (l := [[10, 0, 0, 1], [10, 0, 0, 2]]) (b := true)
        (.call (c := .insert [10, 0, 0, 2]) (l := [[10, 0, 0, 2]]) (b := true) .empty rfl (by decide) rfl) rfl (by decide) rfl)
      rfl (by decide) rfl,
    by decide, by decide⟩

/-- C97 (exact), sets and maps of `ipv6_address` and of `ip_address`: with `<=>` all histories are right; without it, exactly
those with keys of which no two are crossed, that is, ordered one way by value and the other way by scope id. -/
theorem C97_sets_exact (c : Cfg) (hv : ∀ x y, c.val x = c.val y → x = y) :
    (∀ good : V6 → Prop, (∀ a, good a → a.WF c.M) →
      (SetsWork (lessOf (v6CmpOps c)) (fun a b => anyMeaning (.v6 a) = anyMeaning (.v6 b)) good ↔
        c.spaceship = true ∨ ∀ a b, good a → good b → ¬ Crossed c.val (anyMeaning (.v6 a)) (anyMeaning (.v6 b)))) ∧
    (∀ good : AnyAddr → Prop, (∀ a, good a → AddrOkAny c a) →
      (SetsWork (lessOf (anyCmpOps c)) (fun a b => anyMeaning a = anyMeaning b) good ↔
        c.spaceship = true ∨ ∀ a b, good a → good b → ¬ Crossed c.val (anyMeaning a) (anyMeaning b))) :=
  ⟨fun good hg => sets_iff c hv AnyAddr.v6 _ (fun _ _ => rfl) good hg,
    fun good hg => sets_iff c hv id _ (fun _ _ => rfl) good hg⟩

/-- C97 (exact), sets and maps of `ipv6_network` and of `ip_network`. -/
theorem C97_sets_networks_exact (c : Cfg) (hc : c.le = true) (hv : ∀ x y, c.val x = c.val y → x = y) :
    (∀ good : Net V6 → Prop, (∀ a, good a → NetOk6 c a) →
      (SetsWork (lessOf (netCmpOps (fam6 c) c.spaceship)) (fun a b => anyNetMeaning (.v6 a) = anyNetMeaning (.v6 b)) good ↔
        c.spaceship = true ∨ ∀ a b, good a → good b → ¬ Crossed c.val (anyNetMeaning (.v6 a)).1 (anyNetMeaning (.v6 b)).1)) ∧
    (∀ good : AnyNet → Prop, (∀ a, good a → NetOkAny c a) →
      (SetsWork (lessOf (anyNetCmpOps c)) (fun a b => anyNetMeaning a = anyNetMeaning b) good ↔
        c.spaceship = true ∨ ∀ a b, good a → good b → ¬ Crossed c.val (anyNetMeaning a).1 (anyNetMeaning b).1)) :=
  ⟨fun good hg => net_sets_iff c hv hc AnyNet.v6 _ (fun _ _ => rfl) good hg,
    fun good hg => net_sets_iff c hv hc id _ (fun _ _ => rfl) good hg⟩

example := (C97_sets_exact exCfg exCfg_val).2 (AddrOkAny exCfg) fun _ h => h
example := (C97_sets_networks_exact exCfg rfl exCfg_val).2 (NetOkAny exCfg) fun _ h => h

/-- Keys with one scope id are not crossed. -/
theorem not_crossed (val : Char → Int) (hv : ∀ x y, val x = val y → x = y) (p q : Bool × Nat × List Char) (h : p.2.2 = q.2.2) :
    ¬ Crossed val p q := by
  have t := scopeLt_cases val hv q.2.2 q.2.2
  rintro ⟨_, ⟨_, g⟩ | ⟨_, g⟩⟩
  · rw [h] at g; exact t.2.1 ⟨g, rfl⟩
  · rw [h] at g; exact t.2.1 ⟨g, rfl⟩

/-- C97 (partial), `ipv6_address`, `ip_address`, `ipv6_network`, `ip_network`: sets and maps work in builds with `<=>`, and in
builds without it for keys without scope ids, or with one scope id `s` throughout (for mixed versions: without).
Missing: other sets of keys without `<=>`, see `C97_sets_exact`. -/
theorem C97_sets_partial (c : Cfg) (hc : c.le = true) (hv : ∀ x y, c.val x = c.val y → x = y) (s : List Char) :
    SetsWork (lessOf (v6CmpOps c)) (fun a b => anyMeaning (.v6 a) = anyMeaning (.v6 b))
      (fun a => a.WF c.M ∧ (c.spaceship = true ∨ a.scope.contents = s)) ∧
    SetsWork (lessOf (anyCmpOps c)) (fun a b => anyMeaning a = anyMeaning b)
      (fun a => AddrOkAny c a ∧ (c.spaceship = true ∨ (anyMeaning a).2.2 = [])) ∧
    SetsWork (lessOf (netCmpOps (fam6 c) c.spaceship)) (fun a b => anyNetMeaning (.v6 a) = anyNetMeaning (.v6 b))
      (fun n => NetOk6 c n ∧ (c.spaceship = true ∨ n.addr.scope.contents = s)) ∧
    SetsWork (lessOf (anyNetCmpOps c)) (fun a b => anyNetMeaning a = anyNetMeaning b)
      (fun n => NetOkAny c n ∧ (c.spaceship = true ∨ (anyNetMeaning n).1.2.2 = [])) := by
  refine ⟨((C97_sets_exact c hv).1 _ (fun a h => h.1)).2 ?_, ((C97_sets_exact c hv).2 _ (fun a h => h.1)).2 ?_,
    ((C97_sets_networks_exact c hc hv).1 _ (fun a h => h.1)).2 ?_, ((C97_sets_networks_exact c hc hv).2 _ (fun a h => h.1)).2 ?_⟩
  all_goals
    cases hs : c.spaceship with
    | true => exact .inl rfl
    | false =>
      refine .inr fun a b ha hb => not_crossed c.val hv _ _ ?_
      have h1 := ha.2.resolve_left (by simp)
      have h2 := hb.2.resolve_left (by simp)
      exact Eq.trans h1 (Eq.symm h2)

example := C97_sets_partial { exCfg with spaceship := false } rfl exCfg_val ['a']
example : exScoped.WF 16 ∧ exScoped.scope.contents = ['a'] := ⟨exScoped_ok, by decide⟩

/-- C97, the claim is false in builds without `<=>`: fe80::2%a is inserted, then fe80::1%b, which is not found afterwards
although it is in the set. -/
theorem C97_sets_violated :
    let c := { exCfg with spaceship := false }
    let a : V6 := ⟨[0xfe, 0x80, 0, 0, 0, 0, 0, 0, 0, 0, 0, 0, 0, 0, 0, 2], ⟨'a' :: List.replicate 15 '\x00', 1⟩⟩
    let b : V6 := ⟨[0xfe, 0x80, 0, 0, 0, 0, 0, 0, 0, 0, 0, 0, 0, 0, 0, 1], ⟨'b' :: List.replicate 15 '\x00', 1⟩⟩
    ∃ t, SetAfter (lessOf (v6CmpOps c)) (fun x => x.WF c.M) [.insert b, .insert a] t ∧ t.keys = [b, a] ∧
      t.call (lessOf (v6CmpOps c)) (.find b) = .ok ([b, a], false) := by
  refine ⟨.node (.node .leaf _ .leaf) _ .leaf, ?_, rfl, by decide +kernel⟩
  refine .call (c := .insert _) (t := .node .leaf _ .leaf) (l := [_, _]) (b := true)
    (.call (c := .insert _) (l := [_]) (b := true) .empty ?_ rfl rfl) ?_ (by decide +kernel) rfl
  · exact ⟨rfl, by simp [FStr.WF, KeyCall.key], by simp [exCfg, KeyCall.key]⟩
  · exact ⟨rfl, by simp [FStr.WF, KeyCall.key], by simp [exCfg, KeyCall.key]⟩

/-! ### Hash tables -/

theorem anyNetEq_of (c : Cfg) (hc : c.le = true) (hv : ∀ x y, c.val x = c.val y → x = y) (a b : AnyNet) (ha : NetOkAny c a)
    (hb : NetOkAny c b) (h : anyNetMeaning a = anyNetMeaning b) : anyNetEq c a b = .ok true := by
  obtain ⟨r, r1, r2⟩ := anyNet_equalOf c hv hc a b ha hb
  have hr := r2.2 h
  subst hr
  unfold equalOf anyNetCmpOps cmpOps opsCmp opsLess at r1
  cases he : anyNetEq c a b with
  | ok e =>
    rw [he] at r1
    congr 1
    cases hs : c.spaceship with
    | true =>
      rw [if_pos hs] at r1
      cases ho : anyNetCmp c a b <;> rw [ho] at r1 <;> simp_all [bind, Res.bind]
    | false =>
      rw [if_neg (by simp [hs])] at r1
      cases ho : anyNetLt c a b <;> cases hg : anyNetLt c b a <;> rw [ho, hg] at r1 <;> simp_all [bind, Res.bind]
  | err _ _ => rw [he] at r1; cases hs : c.spaceship <;> simp [hs, bind, Res.bind] at r1
  | ub => rw [he] at r1; cases hs : c.spaceship <;> simp [hs, bind, Res.bind] at r1

theorem anyEquals_of (c : Cfg) (hv : ∀ x y, c.val x = c.val y → x = y) (a b : AnyAddr) (ha : AddrOkAny c a) (hb : AddrOkAny c b)
    (h : anyMeaning a = anyMeaning b) : anyEquals c.val a b = .ok true := by
  obtain ⟨e, o, e1, _, h1, _⟩ := any_eq_cmp c hv a b ha hb
  rw [e1, h1.2 h]

theorem tables_gen {K : Type} {w : Nat} {ops : K → K → Res CmpOps} {hash : K → Res (BitVec w)} {M : Type} {key : K → M}
    {good : K → Prop} (h1 : ∀ a b, good a → good b → ∃ r, equalOf ops a b = .ok r ∧ (r = true ↔ key a = key b))
    (h2 : ∀ a b, good a → good b → key a = key b → ∃ h, hash a = .ok h ∧ hash b = .ok h) :
    TablesWork (equalOf ops) hash (fun a b => key a = key b) good := by
  refine tables_work h1 (fun a ha => ?_) (fun a b ha hb e => ?_)
  · obtain ⟨h, g, _⟩ := h2 a a ha ha rfl
    exact ⟨h, g⟩
  · obtain ⟨h, g1, g2⟩ := h2 a b ha hb e
    rw [g1, g2]

/-- C97, `std::unordered_set` and `std::unordered_map` of all classes, with or without `<=>`, with a `size_t` of 64 or 32 bits:
whatever the history and however the table is rehashed, every call gives the right answer. -/
theorem C97_tables (c : Cfg) (hc : c.le = true) (hv : ∀ x y, c.val x = c.val y → x = y) (conv : Char → BitVec 32) :
    TablesWork (equalOf (anyCmpOps c)) (anyHash c.conv) (fun a b => anyMeaning a = anyMeaning b) (AddrOkAny c) ∧
    TablesWork (equalOf (anyNetCmpOps c)) (anyNetHash c) (fun a b => anyNetMeaning a = anyNetMeaning b) (NetOkAny c) ∧
    TablesWork (equalOf (anyCmpOps c)) (anyHash32 conv) (fun a b => anyMeaning a = anyMeaning b) (AddrOkAny c) ∧
    TablesWork (equalOf (anyNetCmpOps c)) (anyNetHash32 conv) (fun a b => anyNetMeaning a = anyNetMeaning b) (NetOkAny c) ∧
    TablesWork (equalOf (u128CmpOps c.spaceship)) (fun x => .ok x.hash) (fun a b => a.val = b.val) (fun _ => True) ∧
    TablesWork (equalOf (u128CmpOps c.spaceship)) (fun x => .ok x.hash32) (fun a b => a.val = b.val) (fun _ => True) := by
  refine ⟨tables_gen (any_equalOf c hv) ?_, tables_gen (anyNet_equalOf c hv hc) ?_, tables_gen (any_equalOf c hv) ?_, tables_gen (anyNet_equalOf c hv hc) ?_,
    tables_gen ?_ ?_, tables_gen ?_ ?_⟩
  · exact fun a b ha hb h => C19_any_address_hash c hv a b ha hb (anyEquals_of c hv a b ha hb h)
  · exact fun a b ha hb h => C19_any_network_hash c hc hv a b ha hb (anyNetEq_of c hc hv a b ha hb h)
  · exact fun a b ha hb h => (C19_hash_32 c hc hv conv).1 a b ha hb (anyEquals_of c hv a b ha hb h)
  · exact fun a b ha hb h => (C19_hash_32 c hc hv conv).2 a b ha hb (anyNetEq_of c hc hv a b ha hb h)
  · intro a b _ _
    obtain ⟨r, r1, r2⟩ := C55_uint128 c.spaceship a b
    exact ⟨_, equalOf_eq r1, r2.eq⟩
  · intro a b _ _ h
    rw [U128.val_inj h]
    exact ⟨_, rfl, rfl⟩
  · intro a b _ _
    obtain ⟨r, r1, r2⟩ := C55_uint128 c.spaceship a b
    exact ⟨_, equalOf_eq r1, r2.eq⟩
  · intro a b _ _ h
    rw [U128.val_inj h]
    exact ⟨_, rfl, rfl⟩

example := C97_tables exCfg rfl exCfg_val fun _ => 0

/-- C97, hash tables of the classes of one version. -/
theorem C97_tables_versions (c : Cfg) (hc : c.le = true) (hv : ∀ x y, c.val x = c.val y → x = y) :
    TablesWork (equalOf (bytesCmpOps c.spaceship)) (fun a => .ok (v4Hash a)) (fun a b => beValue a = beValue b)
      (fun a => a.length = 4) ∧
    TablesWork (equalOf (v6CmpOps c)) (v6Hash c.conv) (fun a b => anyMeaning (.v6 a) = anyMeaning (.v6 b)) (fun a => a.WF c.M) ∧
    TablesWork (equalOf (netCmpOps (fam4 true) c.spaceship)) (fam4 true).netHash
      (fun a b => (beValue a.addr, a.plen) = (beValue b.addr, b.plen)) NetOk4 ∧
    TablesWork (equalOf (netCmpOps (fam6 c) c.spaceship)) (fam6 c).netHash
      (fun a b => anyNetMeaning (.v6 a) = anyNetMeaning (.v6 b)) (NetOk6 c) := by
  refine ⟨tables_gen (key := beValue) ?_ ?_, tables_gen (key := fun a => anyMeaning (.v6 a)) ?_ ?_,
    tables_gen (key := fun n : Net (List (BitVec 8)) => (beValue n.addr, n.plen)) ?_ ?_,
    tables_gen (key := fun n => anyNetMeaning (.v6 n)) ?_ ?_⟩
  · intro a b ha hb
    obtain ⟨r, r1, r2⟩ := C55_bytes c.spaceship a b (Eq.trans ha (Eq.symm hb))
    exact ⟨_, equalOf_eq r1, r2.eq⟩
  · intro a b ha hb h
    rw [beValue_inj a b (Eq.trans ha (Eq.symm hb)) h]
    exact ⟨_, rfl, rfl⟩
  · exact fun a b ha hb => any_equalOf c hv (.v6 a) (.v6 b) ha hb
  · exact fun a b ha hb h => C19_any_address_hash c hv (.v6 a) (.v6 b) ha hb (anyEquals_of c hv (.v6 a) (.v6 b) ha hb h)
  · intro a b ha hb
    obtain ⟨r, r1, r2⟩ := C55_net_v4 c.spaceship a b ha hb
    exact ⟨_, equalOf_eq r1, by rw [r2.eq, Prod.mk.injEq]⟩
  · intro a b ha hb h
    refine (C19_network_hash c hc hv).1 a b ha hb ?_
    obtain ⟨e, _, _, e1, _, _, e2, _⟩ := C38_order_v4 a b ha hb
    rw [e1, e2.2 (by simpa using h)]
  · exact fun a b ha hb => anyNet_equalOf c hv hc (.v6 a) (.v6 b) ha hb
  · exact fun a b ha hb h => C19_any_network_hash c hc hv (.v6 a) (.v6 b) ha hb (anyNetEq_of c hc hv (.v6 a) (.v6 b) ha hb h)

example := C97_tables_versions exCfg rfl exCfg_val

/-- The two addresses of `C97_sets_violated` are found in a hash table. -/
example :
    let c := { exCfg with spaceship := false }
    let a : AnyAddr := .v6 ⟨[0xfe, 0x80, 0, 0, 0, 0, 0, 0, 0, 0, 0, 0, 0, 0, 0, 2], ⟨'a' :: List.replicate 15 '\x00', 1⟩⟩
    let b : AnyAddr := .v6 ⟨[0xfe, 0x80, 0, 0, 0, 0, 0, 0, 0, 0, 0, 0, 0, 0, 0, 1], ⟨'b' :: List.replicate 15 '\x00', 1⟩⟩
    bucketCall (equalOf (anyCmpOps c)) (anyHash c.conv) 11 [a, b] (.find b) = .ok ([a, b], true) := by decide +kernel

end Ip
