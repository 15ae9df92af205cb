import Verif.Lemmas.Pools
/-
C94: programs that hand out networks from a pool and take them back.
-/
set_option autoImplicit false

namespace Ip
open Spec

/-- The library functions that the program calls, for one version. -/
abbrev Fam.poolRun {A U : Type} (F : Fam A U) (p : Pool (Net A)) (ops : List (PoolOp (Net A))) : Res (Pool (Net A)) :=
  p.run F.subnetOf F.netEq (fun n => F.supernet n 1 none) F.excluded ops

section
variable {A U : Type} {F : Fam A U} {WF : A → Prop} {val : U → Nat}

theorem splits_nets (L : F.Law WF val) {n : Net A} (hn : Plain F WF n) {l : List (Net A)}
    (s : Splits (Plain F WF) (fun n => F.v n.addr) F.top n l) :
    (∀ m ∈ l, Plain F WF m) ∧ l.Pairwise (fun m k => F.overlaps m k = .ok false) ∧
      ∀ a, WF a → ((∃ m ∈ l, F.contains m a = .ok true) ↔ F.contains n a = .ok true) := by
  refine ⟨s.ok, s.apart.imp_of_mem fun {m k} hm hk h => ?_, fun a ha => ?_⟩
  · obtain ⟨r, r1, r2⟩ := overlaps_eq L m k (s.ok m hm).ok (s.ok k hk).ok
    cases r with
    | false => exact r1
    | true =>
      obtain ⟨x, h1, h2⟩ := r2.mp rfl
      simp only [Fam.top] at h
      omega
  · have key : ∀ m, Plain F WF m → (F.contains m a = .ok true ↔ F.v m.addr ≤ F.v a ∧ F.v a < F.top m) := by
      intro m hm
      rw [contains_iff L m hm.ok a ha, ok_true]
      rfl
    rw [key n hn, ← s.cover]
    constructor
    · rintro ⟨m, hm, h⟩
      exact ⟨m, hm, (key m (s.ok m hm)).mp h⟩
    · rintro ⟨m, hm, h⟩
      exact ⟨m, hm, (key m (s.ok m hm)).mpr h⟩

theorem splits_single (n : Net A) (hn : Plain F WF n) : Splits (Plain F WF) (fun n => F.v n.addr) F.top n ([n] ++ []) where
  ok m hm := by rw [List.mem_singleton.mp hm]; exact hn
  apart := List.pairwise_singleton _ _
  cover x := by simp

end

/-! ### IPv4 -/

theorem pool4 : PoolLaw NetOk4 (fun f o => o.plen = 32 ∧ beValue o.addr = 1 ∧ beValue f.addr = 0) (fam4 true).subnetOf (fam4 true).netEq
    (fun n => (fam4 true).supernet n 1 none) (fam4 true).excluded (fun n => beValue n.addr) (fam4 true).top := by
  have e : Plain (fam4 true) WF4 = NetOk4 := funext fun n => propext (plain4_iff n)
  have := poolLaw fam4Law (by decide) (fun _ a => ⟨a, rfl⟩) (fun a b ha hb => netEq4_plain a b (e ▸ ha) (e ▸ hb))
  rw [e] at this
  exact this

/-- C94, IPv4 (partial): whatever a program takes, gives back and merges, the free and the taken networks never overlap and
together contain the addresses of the network at the beginning, and the program never fails.  Missing: taking 0.0.0.1/32 out
of a pool that begins at 0.0.0.0 (`C94_lost_v4`). -/
theorem C94_pool_v4_partial (n : Net (List (BitVec 8))) (hn : NetOk4 n) (ops : List (PoolOp (Net (List (BitVec 8)))))
    (ho : ∀ op ∈ ops, ∀ m ∈ op.names, NetOk4 m)
    (hx : ∀ o, PoolOp.take o ∈ ops → ¬ (o.plen = 32 ∧ beValue o.addr = 1 ∧ beValue n.addr = 0)) :
    ∃ p, (fam4 true).poolRun ⟨[n], []⟩ ops = .ok p ∧ (∀ m ∈ p.free ++ p.taken, NetOk4 m) ∧
      (p.free ++ p.taken).Pairwise (fun m k => (fam4 true).overlaps m k = .ok false) ∧
      ∀ a : List (BitVec 8), a.length = 4 →
        ((∃ m ∈ p.free ++ p.taken, (fam4 true).contains m a = .ok true) ↔ (fam4 true).contains n a = .ok true) := by
  have e : Plain (fam4 true) WF4 = NetOk4 := funext fun n => propext (plain4_iff n)
  have s0 := splits_single (F := fam4 true) (WF := WF4) n ((plain4_iff n).mpr hn)
  rw [e] at s0
  obtain ⟨p, p1, p2⟩ := pool_run_spec pool4 ops ⟨[n], []⟩ s0 ho (fun o h f _ hl g => hx o h ⟨g.1, g.2.1, by omega⟩)
  rw [← e] at p2
  obtain ⟨q1, q2, q3⟩ := splits_nets fam4Law ((plain4_iff n).mpr hn) p2
  exact ⟨p, p1, fun m hm => (plain4_iff m).mp (q1 m hm), q2, q3⟩

/-- C94, IPv4 (partial): taking fails exactly when no free network has room, giving back exactly when the network was not
taken.  Missing: see `C94_pool_v4_partial`. -/
theorem C94_steps_v4_partial (n : Net (List (BitVec 8))) (hn : NetOk4 n) (ops : List (PoolOp (Net (List (BitVec 8)))))
    (ho : ∀ op ∈ ops, ∀ m ∈ op.names, NetOk4 m)
    (hx : ∀ o, PoolOp.take o ∈ ops → ¬ (o.plen = 32 ∧ beValue o.addr = 1 ∧ beValue n.addr = 0)) (p : Pool (Net (List (BitVec 8))))
    (hp : (fam4 true).poolRun ⟨[n], []⟩ ops = .ok p) (o : Net (List (BitVec 8))) (oo : NetOk4 o) :
    (¬ (o.plen = 32 ∧ beValue o.addr = 1 ∧ beValue n.addr = 0) →
      ∃ q, (fam4 true).poolRun ⟨[n], []⟩ (ops ++ [.take o]) = .ok q ∧
        ((q = p ∧ ∀ f ∈ p.free, (fam4 true).subnetOf o f = .ok false) ∨ q.taken = o :: p.taken)) ∧
    (∃ q, (fam4 true).poolRun ⟨[n], []⟩ (ops ++ [.give o]) = .ok q ∧
        ((q = p ∧ ¬ o ∈ p.taken) ∨ (q.free = o :: p.free ∧ p.taken.Perm (o :: q.taken)))) := by
  have e : Plain (fam4 true) WF4 = NetOk4 := funext fun n => propext (plain4_iff n)
  have s0 := splits_single (F := fam4 true) (WF := WF4) n ((plain4_iff n).mpr hn)
  rw [e] at s0
  obtain ⟨p', p1, p2⟩ := pool_run_spec pool4 ops ⟨[n], []⟩ s0 ho (fun o h f _ hl g => hx o h ⟨g.1, g.2.1, by omega⟩)
  have := p1.symm.trans hp
  cases this
  constructor
  · intro hb
    obtain ⟨q, q1, q2, q3, -⟩ := pool_step_spec pool4 p2 (.take o) (fun m hm => by rw [List.mem_singleton.mp hm]; exact oo)
      (fun o' h f _ hl g => by cases h; exact hb ⟨g.1, g.2.1, by omega⟩)
    exact ⟨q, by rw [Fam.poolRun, pool_run_append, p1, Res.ok_bind, Pool.run, q1]; rfl, q3 o rfl⟩
  · obtain ⟨q, q1, q2, -, q3, -⟩ := pool_step_spec pool4 p2 (.give o) (fun m hm => by rw [List.mem_singleton.mp hm]; exact oo)
      (fun o' h => by cases h)
    exact ⟨q, by rw [Fam.poolRun, pool_run_append, p1, Res.ok_bind, Pool.run, q1]; rfl, q3 o rfl⟩

/-- C94, IPv4 (partial): when all is given back, merging as long as two free networks have the same supernet leads back to the
network at the beginning: a state without such networks is that one, and there are merges that lead to it.  Missing: see
`C94_pool_v4_partial`. -/
theorem C94_merge_v4_partial (n : Net (List (BitVec 8))) (hn : NetOk4 n) (ops : List (PoolOp (Net (List (BitVec 8)))))
    (ho : ∀ op ∈ ops, ∀ m ∈ op.names, NetOk4 m)
    (hx : ∀ o, PoolOp.take o ∈ ops → ¬ (o.plen = 32 ∧ beValue o.addr = 1 ∧ beValue n.addr = 0)) (p : Pool (Net (List (BitVec 8))))
    (hp : (fam4 true).poolRun ⟨[n], []⟩ ops = .ok p) (ht : p.taken = []) :
    (p.free = [n] ∨ ∃ a b s, a ∈ p.free ∧ b ∈ p.free ∧ a ≠ b ∧ (fam4 true).supernet a 1 none = .ok s ∧ (fam4 true).supernet b 1 none = .ok s) ∧
    ∃ more : List (PoolOp (Net (List (BitVec 8)))), (∀ op ∈ more, ∃ a b, op = .merge a b) ∧
      (fam4 true).poolRun ⟨[n], []⟩ (ops ++ more) = .ok ⟨[n], []⟩ := by
  have e : Plain (fam4 true) WF4 = NetOk4 := funext fun n => propext (plain4_iff n)
  have s0 := splits_single (F := fam4 true) (WF := WF4) n ((plain4_iff n).mpr hn)
  rw [e] at s0
  obtain ⟨p', p1, p2⟩ := pool_run_spec pool4 ops ⟨[n], []⟩ s0 ho (fun o h f _ hl g => hx o h ⟨g.1, g.2.1, by omega⟩)
  have := p1.symm.trans hp
  cases this
  have p3 := p2
  rw [ht, List.append_nil] at p3
  obtain ⟨more, m1, m2⟩ := merge_all pool4 hn _ p rfl ht p2
  exact ⟨exists_siblings pool4 hn p3, more, fun op h => by
    obtain ⟨a, b, h, _⟩ := m1 op h
    exact ⟨a, b, h⟩, by rw [Fam.poolRun, pool_run_append, p1, Res.ok_bind]; exact m2⟩

/-- Networks of length 30 to 32 for the examples: 10.0.0.x/30, /31 and /32. -/
def exSmall (x : BitVec 8) (p : Nat) (m : BitVec 8) : Net (List (BitVec 8)) := ⟨[10, 0, 0, x], [255, 255, 255, m], p⟩

theorem exSmall_ok : NetOk4 (exSmall 0 30 252) ∧ NetOk4 (exSmall 1 32 255) ∧ NetOk4 (exSmall 0 32 255) ∧ NetOk4 (exSmall 0 31 254) ∧
    NetOk4 (exSmall 2 31 254) :=
  ⟨⟨rfl, by decide, ⟨_, rfl, rfl, by decide⟩, by decide⟩, ⟨rfl, by decide, ⟨_, rfl, rfl, by decide⟩, by decide⟩,
    ⟨rfl, by decide, ⟨_, rfl, rfl, by decide⟩, by decide⟩, ⟨rfl, by decide, ⟨_, rfl, rfl, by decide⟩, by decide⟩,
    ⟨rfl, by decide, ⟨_, rfl, rfl, by decide⟩, by decide⟩⟩

/-- 10.0.0.1 is taken out of 10.0.0.0/30, given back, and the networks are merged. -/
def exPoolOps : List (PoolOp (Net (List (BitVec 8)))) :=
  [.take (exSmall 1 32 255), .give (exSmall 1 32 255), .merge (exSmall 1 32 255) (exSmall 0 32 255), .merge (exSmall 2 31 254) (exSmall 0 31 254)]

theorem exPoolOps_ok : (∀ op ∈ exPoolOps, ∀ m ∈ op.names, NetOk4 m) ∧
    ∀ o, PoolOp.take o ∈ exPoolOps → ¬ (o.plen = 32 ∧ beValue o.addr = 1 ∧ beValue (exSmall 0 30 252).addr = 0) := by
  obtain ⟨h0, h1, h2, h3, h4⟩ := exSmall_ok
  refine ⟨fun op hop m hm => ?_, fun o _ h => absurd h.2.2 (by decide)⟩
  simp only [exPoolOps, List.mem_cons, List.not_mem_nil, or_false] at hop
  rcases hop with rfl | rfl | rfl | rfl <;> simp only [PoolOp.names, List.mem_cons, List.not_mem_nil, or_false] at hm
  · rw [hm]; exact h1
  · rw [hm]; exact h1
  · rcases hm with rfl | rfl
    · exact h1
    · exact h2
  · rcases hm with rfl | rfl
    · exact h4
    · exact h3

example : (fam4 true).poolRun ⟨[exSmall 0 30 252], []⟩ (exPoolOps.take 1) =
    .ok ⟨[exSmall 2 31 254, exSmall 0 32 255], [exSmall 1 32 255]⟩ := by decide +kernel
example : (fam4 true).poolRun ⟨[exSmall 0 30 252], []⟩ exPoolOps = .ok ⟨[exSmall 0 30 252], []⟩ := by decide +kernel
example := C94_pool_v4_partial _ exSmall_ok.1 exPoolOps exPoolOps_ok.1 exPoolOps_ok.2
example := C94_steps_v4_partial _ exSmall_ok.1 exPoolOps exPoolOps_ok.1 exPoolOps_ok.2 ⟨[exSmall 0 30 252], []⟩ (by decide +kernel) _ exSmall_ok.2.1
example := C94_merge_v4_partial _ exSmall_ok.1 exPoolOps exPoolOps_ok.1 exPoolOps_ok.2 ⟨[exSmall 0 30 252], []⟩ (by decide +kernel) rfl

/-- C94, negation: taking 0.0.0.1/32 out of 0.0.0.0/30 loses the address 0.0.0.0, and after it is given back nothing can be
merged. -/
theorem C94_lost_v4 : ∃ n o : Net (List (BitVec 8)), NetOk4 n ∧ NetOk4 o ∧ (fam4 true).contains n [0, 0, 0, 0] = .ok true ∧
    ∃ p, (fam4 true).poolRun ⟨[n], []⟩ [.take o, .give o] = .ok p ∧ p.taken = [] ∧
      (∀ m ∈ p.free, (fam4 true).contains m [0, 0, 0, 0] = .ok false) ∧
      ∀ a ∈ p.free, ∀ b ∈ p.free, (fam4 true).poolRun ⟨[n], []⟩ [.take o, .give o, .merge a b] = .ok p := by
  refine ⟨⟨[0, 0, 0, 0], [255, 255, 255, 252], 30⟩, ⟨[0, 0, 0, 1], [255, 255, 255, 255], 32⟩,
    ⟨rfl, by decide, ⟨_, rfl, rfl, by decide⟩, by decide⟩, ⟨rfl, by decide, ⟨_, rfl, rfl, by decide⟩, by decide⟩, by decide +kernel,
    ⟨[⟨[0, 0, 0, 1], [255, 255, 255, 255], 32⟩, ⟨[0, 0, 0, 2], [255, 255, 255, 254], 31⟩], []⟩, by decide +kernel, rfl, by decide +kernel,
    by decide +kernel⟩

/-! ### IPv6 -/

theorem pool6 (c : Cfg) (hc : c.le = true) (hv : ∀ x y, c.val x = c.val y → x = y) :
    PoolLaw (Plain6 c) (fun f o => o.plen = 128 ∧ beValue o.addr.bytes = 1 ∧ beValue f.addr.bytes = 0) (fam6 c).subnetOf (fam6 c).netEq
    (fun n => (fam6 c).supernet n 1 none) (fam6 c).excluded (fun n => beValue n.addr.bytes) (fam6 c).top := by
  have e : Plain (fam6 c) (V6.WF c.M) = Plain6 c := funext fun n => propext (plain6_iff c n)
  have := poolLaw (fam6Law c hc) (by show 128 < 2 ^ 64; decide) (fun h => Bool.noConfusion h)
    (fun a b ha hb => netEq6_plain c hc hv a b (e ▸ ha) (e ▸ hb))
  rw [e] at this
  exact this

/-- C94, IPv6 (partial): missing are networks with scope ids and taking ::1/128 out of a pool that begins at `::`. -/
theorem C94_pool_v6_partial (c : Cfg) (hc : c.le = true) (hv : ∀ x y, c.val x = c.val y → x = y) (n : Net V6)
    (hn : NetOk6 c n ∧ n.addr.scope = emptyScope c.M) (ops : List (PoolOp (Net V6)))
    (ho : ∀ op ∈ ops, ∀ m ∈ op.names, NetOk6 c m ∧ m.addr.scope = emptyScope c.M)
    (hx : ∀ o, PoolOp.take o ∈ ops → ¬ (o.plen = 128 ∧ beValue o.addr.bytes = 1 ∧ beValue n.addr.bytes = 0)) :
    ∃ p, (fam6 c).poolRun ⟨[n], []⟩ ops = .ok p ∧ (∀ m ∈ p.free ++ p.taken, NetOk6 c m ∧ m.addr.scope = emptyScope c.M) ∧
      (p.free ++ p.taken).Pairwise (fun m k => (fam6 c).overlaps m k = .ok false) ∧
      (∀ a : V6, a.WF c.M →
        ((∃ m ∈ p.free ++ p.taken, (fam6 c).contains m a = .ok true) ↔ (fam6 c).contains n a = .ok true)) ∧
      (p.taken = [] →
        (p.free = [n] ∨ ∃ a b s, a ∈ p.free ∧ b ∈ p.free ∧ a ≠ b ∧ (fam6 c).supernet a 1 none = .ok s ∧ (fam6 c).supernet b 1 none = .ok s) ∧
        ∃ more : List (PoolOp (Net V6)), (∀ op ∈ more, ∃ a b, op = .merge a b) ∧
          (fam6 c).poolRun ⟨[n], []⟩ (ops ++ more) = .ok ⟨[n], []⟩) := by
  have T := pool6 c hc hv
  have e : Plain (fam6 c) (V6.WF c.M) = Plain6 c := funext fun n => propext (plain6_iff c n)
  have s0 := splits_single (F := fam6 c) (WF := V6.WF c.M) n ((plain6_iff c n).mpr hn)
  rw [e] at s0
  obtain ⟨p, p1, p2⟩ := pool_run_spec T ops ⟨[n], []⟩ s0 ho (fun o h f _ hl g => hx o h ⟨g.1, g.2.1, by omega⟩)
  have p3 := p2
  rw [← e] at p3
  obtain ⟨q1, q2, q3⟩ := splits_nets (fam6Law c hc) ((plain6_iff c n).mpr hn) p3
  refine ⟨p, p1, fun m hm => (plain6_iff c m).mp (q1 m hm), q2, q3, fun ht => ?_⟩
  have p4 := p2
  rw [ht, List.append_nil] at p4
  obtain ⟨more, m1, m2⟩ := merge_all T hn _ p rfl ht p2
  exact ⟨exists_siblings T hn p4, more, fun op h => by
    obtain ⟨a, b, h, _⟩ := m1 op h
    exact ⟨a, b, h⟩, by rw [Fam.poolRun, pool_run_append, p1, Res.ok_bind]; exact m2⟩

example := C94_pool_v6_partial exCfg rfl exCfg_val exAll6 ⟨exAll6_ok, rfl⟩ [.take exPlain64, .give exPlain64]
  (by
    intro op hop m hm
    simp only [List.mem_cons, List.not_mem_nil, or_false] at hop
    rcases hop with rfl | rfl <;> (rw [List.mem_singleton.mp hm]; exact ⟨exScope10_ok.2, rfl⟩))
  (by
    intro o ho h
    simp only [List.mem_cons, List.not_mem_nil, or_false, PoolOp.take.injEq, reduceCtorEq] at ho
    subst ho
    exact absurd h.1 (by decide))

/-- The networks `::/126` and `::1/128`. -/
def exPoolFour6 : Net V6 := ⟨⟨List.replicate 16 0, emptyScope 16⟩, ⟨List.replicate 15 255 ++ [252], emptyScope 16⟩, 126⟩

/-- See `exPoolFour6`. -/
def exPoolOne6 : Net V6 := ⟨⟨List.replicate 15 0 ++ [1], emptyScope 16⟩, ⟨List.replicate 16 255, emptyScope 16⟩, 128⟩

/-- C94, negation, IPv6: taking `::1/128` out of `::/126` loses the address `::`; and `fe80::/64` cannot be taken out of
`fe80::%1/10`, although all its addresses are free. -/
theorem C94_violated_v6 :
    (NetOk6 exCfg exPoolFour6 ∧ NetOk6 exCfg exPoolOne6 ∧ (fam6 exCfg).contains exPoolFour6 exPoolFour6.addr = .ok true ∧
      ∃ p, (fam6 exCfg).poolRun ⟨[exPoolFour6], []⟩ [.take exPoolOne6] = .ok p ∧
        ∀ m ∈ p.free ++ p.taken, (fam6 exCfg).contains m exPoolFour6.addr = .ok false) ∧
    (∃ b, (fam6 exCfg).broadcast exPlain64 = .ok b ∧ (fam6 exCfg).contains exScope10 exPlain64.addr = .ok true ∧
      (fam6 exCfg).contains exScope10 b = .ok true) ∧
    (fam6 exCfg).poolRun ⟨[exScope10], []⟩ [.take exPlain64] = .ok ⟨[exScope10], []⟩ := by
  refine ⟨⟨⟨⟨rfl, Nat.zero_le _, by simp [exPoolFour6, emptyScope, exCfg]⟩, by decide, ⟨_, rfl, rfl, by decide⟩, by decide⟩,
    ⟨⟨rfl, Nat.zero_le _, by simp [exPoolOne6, emptyScope, exCfg]⟩, by decide, ⟨_, rfl, rfl, by decide⟩, by decide⟩, by decide +kernel,
    ⟨[⟨⟨List.replicate 15 0 ++ [2], emptyScope 16⟩, ⟨List.replicate 15 255 ++ [254], emptyScope 16⟩, 127⟩], [exPoolOne6]⟩, by decide +kernel,
    by decide +kernel⟩,
    ⟨⟨[0xfe, 0x80, 0, 0, 0, 0, 0, 0, 255, 255, 255, 255, 255, 255, 255, 255], emptyScope 16⟩, by decide +kernel, by decide +kernel,
      by decide +kernel⟩, by decide +kernel⟩

end Ip
