import Verif.Spec.Pools
import Verif.Lemmas.TablesLaw
/-
Pools of networks: the free and the taken networks are a partition.
-/
set_option autoImplicit false

namespace Ip
open Spec

variable {N : Type}

/-- Networks as intervals `[lo, hi)`, with what `subnet_of`, `==`, `supernet` and `address_exclude` do to them. -/
structure PoolLaw (ok : N → Prop) (bad : N → N → Prop) (sub eq : N → N → Res Bool) (sup : N → Res N) (exc : N → N → Res (List N)) (lo hi : N → Nat) : Prop where
  sub_eq : ∀ a b, ok a → ok b → sub a b = .ok (decide (lo b ≤ lo a ∧ hi a ≤ hi b))
  eq_iff : ∀ a b, ok a → ok b → ∃ e, eq a b = .ok e ∧ (e = true ↔ a = b)
  pos : ∀ n, ok n → lo n < hi n
  nested : ∀ a b, ok a → ok b → lo a < hi b → lo b < hi a → (lo b ≤ lo a ∧ hi a ≤ hi b) ∨ (lo a ≤ lo b ∧ hi b ≤ hi a)
  ext : ∀ a b, ok a → ok b → lo a = lo b → hi a = hi b → a = b
  sup_spec : ∀ n, ok n → ∃ s, sup n = .ok s ∧ ok s ∧
    ((s = n ∧ ∀ k, ok k → lo n ≤ lo k ∧ hi k ≤ hi n) ∨
      (lo s ≤ lo n ∧ hi n ≤ hi s ∧ hi s - lo s = 2 * (hi n - lo n) ∧
        ∀ k, ok k → lo k ≤ lo n → hi n ≤ hi k → k ≠ n → lo k ≤ lo s ∧ hi s ≤ hi k))
  exc_spec : ∀ f o, ok f → ok o → lo f ≤ lo o → hi o ≤ hi f → ¬ bad f o → ∃ parts, exc f o = .ok parts ∧ (∀ m ∈ parts, ok m) ∧
    parts.Pairwise (fun m n => ¬ (lo m < hi n ∧ lo n < hi m)) ∧
    ∀ x, (∃ m ∈ parts, lo m ≤ x ∧ x < hi m) ↔ (lo f ≤ x ∧ x < hi f) ∧ ¬ (lo o ≤ x ∧ x < hi o)

section
variable {ok : N → Prop} {bad : N → N → Prop} {sub eq : N → N → Res Bool} {sup : N → Res N} {exc : N → N → Res (List N)} {lo hi : N → Nat}

/-- The networks in the list are disjoint and cover the interval of `n`. -/
structure Splits (ok : N → Prop) (lo hi : N → Nat) (n : N) (l : List N) : Prop where
  ok : ∀ m ∈ l, ok m
  apart : l.Pairwise (fun m k => ¬ (lo m < hi k ∧ lo k < hi m))
  cover : ∀ x, (∃ m ∈ l, lo m ≤ x ∧ x < hi m) ↔ lo n ≤ x ∧ x < hi n

theorem Splits.perm {n : N} {l k : List N} (h : l.Perm k) (s : Splits ok lo hi n l) : Splits ok lo hi n k where
  ok m hm := s.ok m (h.mem_iff.mpr hm)
  apart := (h.pairwise_iff (fun {a b} g => fun k => g ⟨k.2, k.1⟩)).mp s.apart
  cover x := by
    rw [← s.cover x]
    constructor <;> rintro ⟨m, hm, hx⟩
    · exact ⟨m, h.mem_iff.mpr hm, hx⟩
    · exact ⟨m, h.mem_iff.mp hm, hx⟩

/-- Replace a part by its parts. -/
theorem Splits.refine {n : N} {f : N} {l ps : List N} (s : Splits ok lo hi n (f :: l)) (hp : ∀ m ∈ ps, ok m)
    (ha : ps.Pairwise (fun m k => ¬ (lo m < hi k ∧ lo k < hi m))) (hpos : ∀ m, ok m → lo m < hi m)
    (hc : ∀ x, (∃ m ∈ ps, lo m ≤ x ∧ x < hi m) ↔ lo f ≤ x ∧ x < hi f) : Splits ok lo hi n (ps ++ l) where
  ok m hm := by
    rcases List.mem_append.mp hm with h | h
    · exact hp m h
    · exact s.ok m (List.mem_cons_of_mem _ h)
  apart := by
    have s1 := List.pairwise_cons.mp s.apart
    refine List.pairwise_append.mpr ⟨ha, s1.2, fun a h1 b h2 h3 => ?_⟩
    have pa := hpos a (hp a h1)
    have pb := hpos b (s.ok b (List.mem_cons_of_mem _ h2))
    have := (hc (max (lo a) (lo b))).mp ⟨a, h1, by omega, by omega⟩
    exact s1.1 b h2 (by omega)
  cover x := by
    rw [← s.cover x]
    constructor
    · rintro ⟨m, hm, hx⟩
      rcases List.mem_append.mp hm with h | h
      · exact ⟨f, List.mem_cons_self, (hc x).mp ⟨m, h, hx⟩⟩
      · exact ⟨m, List.mem_cons_of_mem _ h, hx⟩
    · rintro ⟨m, hm, hx⟩
      rcases List.mem_cons.mp hm with rfl | h
      · obtain ⟨k, hk, hkx⟩ := (hc x).mpr hx
        exact ⟨k, List.mem_append.mpr (.inl hk), hkx⟩
      · exact ⟨m, List.mem_append.mpr (.inr h), hx⟩

/-- Replace two parts by the interval that they fill. -/
theorem Splits.join {n a b c : N} {l : List N} (s : Splits ok lo hi n (a :: b :: l)) (hc : ok c) (hpos : ∀ m, ok m → lo m < hi m)
    (h : ∀ x, (lo c ≤ x ∧ x < hi c) ↔ (lo a ≤ x ∧ x < hi a) ∨ (lo b ≤ x ∧ x < hi b)) : Splits ok lo hi n (c :: l) where
  ok m hm := by
    rcases List.mem_cons.mp hm with rfl | h
    · exact hc
    · exact s.ok m (List.mem_cons_of_mem _ (List.mem_cons_of_mem _ h))
  apart := by
    have s1 := List.pairwise_cons.mp s.apart
    have s2 := List.pairwise_cons.mp s1.2
    refine List.pairwise_cons.mpr ⟨fun k hk hx => ?_, s2.2⟩
    have pc := hpos c hc
    have pk := hpos k (s.ok k (List.mem_cons_of_mem _ (List.mem_cons_of_mem _ hk)))
    have := s1.1 k (List.mem_cons_of_mem _ hk)
    have := s2.1 k hk
    have := (h (max (lo c) (lo k))).mp (by omega)
    omega
  cover x := by
    rw [← s.cover x]
    constructor
    · rintro ⟨m, hm, hx⟩
      rcases List.mem_cons.mp hm with rfl | hm
      · rcases (h x).mp hx with g | g
        · exact ⟨a, List.mem_cons_self, g⟩
        · exact ⟨b, List.mem_cons_of_mem _ List.mem_cons_self, g⟩
      · exact ⟨m, List.mem_cons_of_mem _ (List.mem_cons_of_mem _ hm), hx⟩
    · rintro ⟨m, hm, hx⟩
      rcases List.mem_cons.mp hm with rfl | hm
      · exact ⟨c, List.mem_cons_self, (h x).mpr (.inl hx)⟩
      · rcases List.mem_cons.mp hm with rfl | hm
        · exact ⟨c, List.mem_cons_self, (h x).mpr (.inr hx)⟩
        · exact ⟨m, List.mem_cons_of_mem _ hm, hx⟩

theorem without_spec (he : ∀ a b, ok a → ok b → ∃ e, eq a b = .ok e ∧ (e = true ↔ a = b)) (n : N) (hn : ok n) :
    ∀ t : List N, (∀ m ∈ t, ok m) → n ∈ t → ∃ l, without eq n t = .ok l ∧ t.Perm (n :: l)
  | [], _, h => by cases h
  | m :: t, ht, h => by
    obtain ⟨e, e1, e2⟩ := he m n (ht m List.mem_cons_self) hn
    cases e with
    | true =>
      cases e2.mp rfl
      exact ⟨t, by rw [without, e1, Res.ok_bind]; rfl, List.Perm.refl _⟩
    | false =>
      have hm : n ∈ t := by
        rcases List.mem_cons.mp h with rfl | h
        · exact absurd (e2.mpr rfl) (by decide)
        · exact h
      obtain ⟨l, l1, l2⟩ := without_spec he n hn t (fun k hk => ht k (List.mem_cons_of_mem _ hk)) hm
      refine ⟨m :: l, by rw [without, e1, Res.ok_bind]; simp only [Bool.false_eq_true, if_false]; rw [l1]; rfl, ?_⟩
      exact (List.Perm.cons m l2).trans (List.Perm.swap n m l)

theorem firstSup_spec (T : PoolLaw ok bad sub eq sup exc lo hi) (o : N) (ho : ok o) : ∀ t : List N, (∀ m ∈ t, ok m) →
    ∃ r, firstWith (fun f o => sub o f) o t = .ok r ∧ (r = none ↔ ∀ f ∈ t, sub o f = .ok false) ∧
      ∀ f, r = some f → f ∈ t ∧ lo f ≤ lo o ∧ hi o ≤ hi f
  | [], _ => ⟨none, rfl, by simp, by simp⟩
  | m :: t, ht => by
    have hm := ht m List.mem_cons_self
    by_cases h : lo m ≤ lo o ∧ hi o ≤ hi m
    · have e : sub o m = .ok true := by rw [T.sub_eq o m ho hm, ok_true]; exact h
      refine ⟨some m, by rw [firstWith, e]; rfl, ⟨(fun h => by cases h), fun g => ?_⟩, ?_⟩
      · rw [g m List.mem_cons_self] at e; cases e
      · rintro _ ⟨rfl⟩
        exact ⟨List.mem_cons_self, h⟩
    · have e : sub o m = .ok false := by rw [T.sub_eq o m ho hm, ok_false]; exact h
      obtain ⟨r, r1, r2, r3⟩ := firstSup_spec T o ho t (fun k hk => ht k (List.mem_cons_of_mem _ hk))
      refine ⟨r, by rw [firstWith, e]; exact r1, r2.trans ?_, fun f hf => ?_⟩
      · rw [List.forall_mem_cons]
        exact ⟨fun g => ⟨e, g⟩, fun g => g.2⟩
      · exact ⟨List.mem_cons_of_mem _ (r3 f hf).1, (r3 f hf).2⟩

/-- Two disjoint networks with the same supernet fill it. -/
theorem siblings (T : PoolLaw ok bad sub eq sup exc lo hi) {m n s : N} (hm : ok m) (hn : ok n) (sm : sup m = .ok s) (sn : sup n = .ok s)
    (hd : ¬ (lo m < hi n ∧ lo n < hi m)) : ok s ∧ ∀ x, (lo s ≤ x ∧ x < hi s) ↔ (lo m ≤ x ∧ x < hi m) ∨ (lo n ≤ x ∧ x < hi n) := by
  obtain ⟨s', q1, q2, q3⟩ := T.sup_spec m hm
  rw [sm] at q1
  cases q1
  obtain ⟨s', r1, r2, r3⟩ := T.sup_spec n hn
  rw [sn] at r1
  cases r1
  have pm := T.pos m hm
  have pn := T.pos n hn
  refine ⟨q2, fun x => ?_⟩
  rcases q3 with ⟨_, g⟩ | ⟨a1, a2, a3, _⟩
  · have := g n hn
    omega
  rcases r3 with ⟨_, g⟩ | ⟨b1, b2, b3, _⟩
  · have := g m hm
    omega
  omega

theorem pool_step_spec (T : PoolLaw ok bad sub eq sup exc lo hi) {n0 : N} {p : Pool N} (hp : Splits ok lo hi n0 (p.free ++ p.taken)) (op : PoolOp N)
    (ho : ∀ n ∈ op.names, ok n) (hb : ∀ o, op = .take o → ∀ f, ok f → lo n0 ≤ lo f → ¬ bad f o) :
    ∃ q, p.step sub eq sup exc op = .ok q ∧ Splits ok lo hi n0 (q.free ++ q.taken) ∧
      (∀ o, op = .take o → (q = p ∧ ∀ f ∈ p.free, sub o f = .ok false) ∨ q.taken = o :: p.taken) ∧
      (∀ o, op = .give o → (q = p ∧ ¬ o ∈ p.taken) ∨ (q.free = o :: p.free ∧ p.taken.Perm (o :: q.taken))) ∧
      (∀ m n, op = .merge m n → q.taken = p.taken ∧ (q = p ∨ q.free.length + 1 = p.free.length)) ∧
      (∀ m n, op = .merge m n → m ∈ p.free → n ∈ p.free → m ≠ n → (∃ s, sup m = .ok s ∧ sup n = .ok s) → q.free.length + 1 = p.free.length) := by
  have hf : ∀ n ∈ p.free, ok n := fun n hn => hp.ok n (List.mem_append.mpr (.inl hn))
  have ht : ∀ n ∈ p.taken, ok n := fun n hn => hp.ok n (List.mem_append.mpr (.inr hn))
  cases op with
  | take o =>
    have oo : ok o := ho o (List.mem_singleton.mpr rfl)
    obtain ⟨r, r1, r2, r3⟩ := firstSup_spec T o oo p.free hf
    cases r with
    | none =>
      refine ⟨p, by rw [Pool.step, r1]; rfl, hp, ?_, (fun _ h => by cases h), (fun _ _ h => by cases h), (fun _ _ h => by cases h)⟩
      rintro _ ⟨rfl⟩
      exact .inl ⟨rfl, r2.mp rfl⟩
    | some f =>
      obtain ⟨f1, f2, f3⟩ := r3 f rfl
      obtain ⟨parts, e1, e2, e3, e4⟩ := T.exc_spec f o (hf f f1) oo f2 f3
        (hb o rfl f (hf f f1) ((hp.cover (lo f)).mp ⟨f, List.mem_append.mpr (.inl f1), Nat.le_refl _, T.pos f (hf f f1)⟩).1)
      obtain ⟨rest, w1, w2⟩ := without_spec T.eq_iff f (hf f f1) p.free hf f1
      refine ⟨⟨parts ++ rest, o :: p.taken⟩, by rw [Pool.step, r1, Res.ok_bind]; simp only; rw [e1, Res.ok_bind, w1]; rfl, ?_, ?_,
        (fun _ h => by cases h), (fun _ _ h => by cases h), (fun _ _ h => by cases h)⟩
      · have h1 : Splits ok lo hi n0 (f :: (rest ++ p.taken)) := hp.perm (w2.append_right _)
        have po := T.pos o oo
        have h2 : Splits ok lo hi n0 ((o :: parts) ++ (rest ++ p.taken)) := by
          refine h1.refine (fun m hm => ?_) (List.pairwise_cons.mpr ⟨fun m hm hx => ?_, e3⟩) T.pos (fun x => ⟨?_, fun hx => ?_⟩)
          · rcases List.mem_cons.mp hm with rfl | hm
            · exact oo
            · exact e2 m hm
          · have pm := T.pos m (e2 m hm)
            have := (e4 (max (lo o) (lo m))).mp ⟨m, hm, by omega, by omega⟩
            omega
          · rintro ⟨m, hm, hx⟩
            rcases List.mem_cons.mp hm with rfl | hm
            · omega
            · exact ((e4 x).mp ⟨m, hm, hx⟩).1
          · by_cases g : lo o ≤ x ∧ x < hi o
            · exact ⟨o, List.mem_cons_self, g⟩
            · obtain ⟨m, hm, hmx⟩ := (e4 x).mpr ⟨hx, g⟩
              exact ⟨m, List.mem_cons_of_mem _ hm, hmx⟩
        refine h2.perm ?_
        show (o :: (parts ++ (rest ++ p.taken))).Perm ((parts ++ rest) ++ (o :: p.taken))
        rw [← List.append_assoc]
        exact List.perm_middle.symm
      · rintro _ ⟨rfl⟩
        exact .inr rfl
  | give o =>
    have oo : ok o := ho o (List.mem_singleton.mpr rfl)
    obtain ⟨b, b1, b2⟩ := found_spec T.eq_iff o oo p.taken ht
    cases b with
    | false =>
      refine ⟨p, by rw [Pool.step, b1]; rfl, hp, (fun _ h => by cases h), ?_, (fun _ _ h => by cases h), (fun _ _ h => by cases h)⟩
      rintro _ ⟨rfl⟩
      exact .inl ⟨rfl, fun h => absurd (b2.mpr h) (by decide)⟩
    | true =>
      obtain ⟨rest, w1, w2⟩ := without_spec T.eq_iff o oo p.taken ht (b2.mp rfl)
      refine ⟨⟨o :: p.free, rest⟩, by rw [Pool.step, b1, Res.ok_bind, if_pos rfl, w1]; rfl, hp.perm ?_, (fun _ h => by cases h), ?_,
        (fun _ _ h => by cases h), (fun _ _ h => by cases h)⟩
      · exact (w2.append_left _).trans List.perm_middle
      · rintro _ ⟨rfl⟩
        exact .inr ⟨rfl, w2⟩
  | merge m n =>
    have om : ok m := ho m List.mem_cons_self
    have on : ok n := ho n (List.mem_cons_of_mem _ List.mem_cons_self)
    obtain ⟨b, b1, b2⟩ := found_spec T.eq_iff m om p.free hf
    obtain ⟨c, c1, c2⟩ := found_spec T.eq_iff n on p.free hf
    obtain ⟨d, d1, d2⟩ := T.eq_iff m n om on
    cases b with
    | false =>
      refine ⟨p, by rw [Pool.step, b1]; rfl, hp, (fun _ h => by cases h), (fun _ h => by cases h), ?_, ?_⟩
      · rintro _ _ ⟨⟩
        exact ⟨rfl, .inl rfl⟩
      · rintro _ _ ⟨⟩ h
        exact absurd (b2.mpr h) (by decide)
    | true =>
      cases c with
      | false =>
        refine ⟨p, by rw [Pool.step, b1, Res.ok_bind, if_pos rfl, c1]; rfl, hp, (fun _ h => by cases h), (fun _ h => by cases h), ?_, ?_⟩
        · rintro _ _ ⟨⟩
          exact ⟨rfl, .inl rfl⟩
        · rintro _ _ ⟨⟩ _ h
          exact absurd (c2.mpr h) (by decide)
      | true =>
        cases d with
        | true =>
          refine ⟨p, by rw [Pool.step, b1, Res.ok_bind, if_pos rfl, c1, Res.ok_bind, if_pos rfl, d1]; rfl, hp, (fun _ h => by cases h),
            (fun _ h => by cases h), ?_, ?_⟩
          · rintro _ _ ⟨⟩
            exact ⟨rfl, .inl rfl⟩
          · rintro _ _ ⟨⟩ _ _ h
            exact absurd (d2.mp rfl) h
        | false =>
          have hne : m ≠ n := fun h => absurd (d2.mpr h) (by decide)
          obtain ⟨s, s1, s2, -⟩ := T.sup_spec m om
          obtain ⟨t, t1, t2, -⟩ := T.sup_spec n on
          obtain ⟨e, e1, e2⟩ := T.eq_iff s t s2 t2
          cases e with
          | false =>
            refine ⟨p, by
              rw [Pool.step, b1, Res.ok_bind, if_pos rfl, c1, Res.ok_bind, if_pos rfl, d1, Res.ok_bind]
              simp only [Bool.false_eq_true, if_false]
              rw [s1, Res.ok_bind, t1, Res.ok_bind, e1]; rfl, hp, (fun _ h => by cases h), (fun _ h => by cases h), ?_, ?_⟩
            · rintro _ _ ⟨⟩
              exact ⟨rfl, .inl rfl⟩
            · rintro _ _ ⟨⟩ _ _ _ ⟨u, u1, u2⟩
              rw [s1] at u1
              rw [t1] at u2
              cases u1
              cases u2
              exact absurd (e2.mpr rfl) (by decide)
          | true =>
            cases e2.mp rfl
            obtain ⟨l, l1, l2⟩ := without_spec T.eq_iff m om p.free hf (b2.mp rfl)
            have hl : ∀ k ∈ l, ok k := fun k hk => hf k (l2.mem_iff.mpr (List.mem_cons_of_mem _ hk))
            have nl : n ∈ l := by
              rcases List.mem_cons.mp (l2.mem_iff.mp (c2.mp rfl)) with h | h
              · exact absurd h.symm hne
              · exact h
            obtain ⟨k, k1, k2⟩ := without_spec T.eq_iff n on l hl nl
            have hp' : Splits ok lo hi n0 (m :: n :: (k ++ p.taken)) :=
              hp.perm ((l2.append_right _).trans (List.Perm.cons m (k2.append_right _)))
            have hd := (List.pairwise_cons.mp hp'.apart).1 n List.mem_cons_self
            have hj := siblings T om on s1 t1 hd
            have hlen : k.length + 2 = p.free.length := by
              rw [l2.length_eq, List.length_cons, k2.length_eq, List.length_cons]
            refine ⟨⟨s :: k, p.taken⟩, by
              rw [Pool.step, b1, Res.ok_bind, if_pos rfl, c1, Res.ok_bind, if_pos rfl, d1, Res.ok_bind]
              simp only [Bool.false_eq_true, if_false]
              rw [s1, Res.ok_bind, t1, Res.ok_bind, e1, Res.ok_bind, if_pos rfl, l1, Res.ok_bind, k1]; rfl,
              hp'.join hj.1 T.pos hj.2, (fun _ h => by cases h), (fun _ h => by cases h), ?_, ?_⟩
            · rintro _ _ ⟨⟩
              exact ⟨rfl, .inr (by rw [List.length_cons]; omega)⟩
            · rintro _ _ ⟨⟩ _ _ _ _
              rw [List.length_cons]
              omega

theorem pool_run_spec (T : PoolLaw ok bad sub eq sup exc lo hi) {n0 : N} : ∀ (ops : List (PoolOp N)) (p : Pool N),
    Splits ok lo hi n0 (p.free ++ p.taken) → (∀ op ∈ ops, ∀ n ∈ op.names, ok n) → (∀ o, PoolOp.take o ∈ ops → ∀ f, ok f → lo n0 ≤ lo f → ¬ bad f o) →
    ∃ q, p.run sub eq sup exc ops = .ok q ∧ Splits ok lo hi n0 (q.free ++ q.taken)
  | [], p, hp, _, _ => ⟨p, rfl, hp⟩
  | op :: ops, p, hp, ho, hb => by
    obtain ⟨q, q1, q2, -⟩ := pool_step_spec T hp op (ho op List.mem_cons_self) (fun o h => hb o (h ▸ List.mem_cons_self))
    obtain ⟨r, r1, r2⟩ := pool_run_spec T ops q q2 (fun op h => ho op (List.mem_cons_of_mem _ h)) (fun o h => hb o (List.mem_cons_of_mem _ h))
    exact ⟨r, by rw [Pool.run, q1]; exact r1, r2⟩

theorem pool_run_append (p : Pool N) (a b : List (PoolOp N)) :
    p.run sub eq sup exc (a ++ b) = (p.run sub eq sup exc a >>= fun q => q.run sub eq sup exc b) := by
  induction a generalizing p with
  | nil => rfl
  | cons op a ih =>
    simp only [List.cons_append, Pool.run]
    cases p.step sub eq sup exc op with
    | ok q => simp only [Res.ok_bind]; exact ih q
    | err e v => rfl
    | ub => rfl

theorem exists_smallest (size : N → Nat) : ∀ l : List N, l ≠ [] → ∃ m ∈ l, ∀ k ∈ l, size m ≤ size k
  | [], h => absurd rfl h
  | [m], _ => ⟨m, List.mem_singleton.mpr rfl, fun k hk => by rw [List.mem_singleton.mp hk]⟩
  | m :: n :: l, _ => by
    obtain ⟨k, k1, k2⟩ := exists_smallest size (n :: l) (by simp)
    rcases Nat.le_total (size m) (size k) with h | h
    · exact ⟨m, List.mem_cons_self, fun j hj => by
        rcases List.mem_cons.mp hj with rfl | hj
        · exact Nat.le_refl _
        · exact Nat.le_trans h (k2 j hj)⟩
    · exact ⟨k, List.mem_cons_of_mem _ k1, fun j hj => by
        rcases List.mem_cons.mp hj with rfl | hj
        · exact h
        · exact k2 j hj⟩

theorem pairwise_both {R : N → N → Prop} (hR : ∀ x y, R x y → R y x) {l : List N} (h : l.Pairwise R) : ∀ a ∈ l, ∀ b ∈ l, a ≠ b → R a b := by
  induction l with
  | nil => intro a ha; cases ha
  | cons x l ih =>
    have h1 := List.pairwise_cons.mp h
    intro a ha b hb hab
    rcases List.mem_cons.mp ha with rfl | ha'
    · rcases List.mem_cons.mp hb with rfl | hb'
      · exact absurd rfl hab
      · exact h1.1 b hb'
    · rcases List.mem_cons.mp hb with rfl | hb'
      · exact hR _ _ (h1.1 a ha')
      · exact ih h1.2 a ha' b hb' hab

/-- A partition into more than one network has two networks with the same supernet. -/
theorem exists_siblings (T : PoolLaw ok bad sub eq sup exc lo hi) {n0 : N} (h0 : ok n0) {l : List N} (hl : Splits ok lo hi n0 l) :
    l = [n0] ∨ ∃ m n s, m ∈ l ∧ n ∈ l ∧ m ≠ n ∧ sup m = .ok s ∧ sup n = .ok s := by
  have p0 := T.pos n0 h0
  have ne : l ≠ [] := by
    rintro rfl
    obtain ⟨m, hm, _⟩ := (hl.cover (lo n0)).mpr ⟨Nat.le_refl _, p0⟩
    cases hm
  obtain ⟨m, m1, m2⟩ := exists_smallest (fun n => hi n - lo n) l ne
  have om := hl.ok m m1
  have pm := T.pos m om
  -- all parts are inside
  have inside : ∀ k ∈ l, lo n0 ≤ lo k ∧ hi k ≤ hi n0 := by
    intro k hk
    have pk := T.pos k (hl.ok k hk)
    have a := (hl.cover (lo k)).mp ⟨k, hk, Nat.le_refl _, pk⟩
    have b := (hl.cover (hi k - 1)).mp ⟨k, hk, by omega, by omega⟩
    omega
  have disj : ∀ a ∈ l, ∀ b ∈ l, a ≠ b → ¬ (lo a < hi b ∧ lo b < hi a) := fun a ha b hb hab =>
    pairwise_both (fun x y g h => g ⟨h.2, h.1⟩) hl.apart a ha b hb hab
  by_cases e : m = n0
  · left
    subst e
    cases l with
    | nil => cases m1
    | cons x l =>
      have only : ∀ k ∈ x :: l, k = m := by
        intro k hk
        by_cases hkm : k = m
        · exact hkm
        · have := inside k hk
          have := T.pos k (hl.ok k hk)
          exact absurd (by omega) (disj k hk m m1 hkm)
      cases l with
      | nil => rw [only x List.mem_cons_self]
      | cons y l =>
        have hx := only x List.mem_cons_self
        have hy := only y (List.mem_cons_of_mem _ List.mem_cons_self)
        have := (List.pairwise_cons.mp hl.apart).1 y List.mem_cons_self
        rw [hx, hy] at this
        exact absurd ⟨pm, pm⟩ this
  · right
    obtain ⟨s, s1, s2, s3⟩ := T.sup_spec m om
    have im := inside m m1
    rcases s3 with ⟨_, g⟩ | ⟨a1, a2, a3, a4⟩
    · have := g n0 h0
      exact absurd (T.ext m n0 om h0 (by omega) (by omega)) e
    have sn := a4 n0 h0 im.1 im.2 (fun h => e h.symm)
    have ps := T.pos s s2
    -- a point of the supernet outside of the network
    obtain ⟨x, x1, x2, x3⟩ : ∃ x, lo s ≤ x ∧ x < hi s ∧ ¬ (lo m ≤ x ∧ x < hi m) := by
      by_cases g : lo s < lo m
      · exact ⟨lo s, by omega, by omega, by omega⟩
      · exact ⟨hi m, by omega, by omega, by omega⟩
    obtain ⟨k, k1, k2⟩ := (hl.cover x).mpr (by omega)
    have ok' := hl.ok k k1
    have pk := T.pos k ok'
    have km : k ≠ m := fun h => x3 (h ▸ k2)
    have dk := disj k k1 m m1 km
    have size := m2 k k1
    have ks : lo s ≤ lo k ∧ hi k ≤ hi s := by
      rcases T.nested k s ok' s2 (by omega) (by omega) with g | g
      · exact g
      · omega
    have kns : s ≠ k := by rintro rfl; omega
    obtain ⟨t, t1, t2, t3⟩ := T.sup_spec k ok'
    rcases t3 with ⟨_, g⟩ | ⟨b1, b2, b3, b4⟩
    · have := g m om
      omega
    have ts := b4 s s2 ks.1 ks.2 kns
    have : t = s := T.ext t s t2 s2 (by omega) (by omega)
    exact ⟨m, k, s, m1, k1, fun h => km h.symm, s1, this ▸ t1⟩

/-- Once all is given back, merging leads to the pool of the beginning. -/
theorem merge_all (T : PoolLaw ok bad sub eq sup exc lo hi) {n0 : N} (h0 : ok n0) : ∀ (w : Nat) (p : Pool N), p.free.length = w → p.taken = [] →
    Splits ok lo hi n0 (p.free ++ p.taken) →
    ∃ ops : List (PoolOp N), (∀ op ∈ ops, ∃ m n, op = .merge m n ∧ ok m ∧ ok n) ∧ p.run sub eq sup exc ops = .ok ⟨[n0], []⟩
  | 0, p, hw, ht, hp => by
    rw [ht, List.append_nil] at hp
    rcases exists_siblings T h0 hp with h | ⟨m, n, s, h, _⟩
    · rw [h] at hw; cases hw
    · rw [List.length_eq_zero_iff.mp hw] at h; cases h
  | w + 1, p, hw, ht, hp => by
    have hp' := hp
    rw [ht, List.append_nil] at hp'
    rcases exists_siblings T h0 hp' with h | ⟨m, n, s, m1, n1, hne, e1, e2⟩
    · refine ⟨[], by simp, ?_⟩
      obtain ⟨f, t⟩ := p
      cases h
      cases ht
      rfl
    · have om := hp'.ok m m1
      have on := hp'.ok n n1
      obtain ⟨q, q1, q2, -, -, q3, q4⟩ := pool_step_spec T hp (.merge m n) (fun k hk => by
        rcases List.mem_cons.mp hk with rfl | hk
        · exact om
        · rw [List.mem_singleton.mp hk]; exact on) (fun _ h => by cases h)
      have len := q4 m n rfl m1 n1 hne ⟨s, e1, e2⟩
      obtain ⟨ops, o1, o2⟩ := merge_all T h0 w q (by omega) (by rw [(q3 m n rfl).1, ht]) q2
      refine ⟨.merge m n :: ops, fun op hop => ?_, by rw [Pool.run, q1]; exact o2⟩
      rcases List.mem_cons.mp hop with rfl | hop
      · exact ⟨m, n, rfl, om, on⟩
      · exact o1 op hop

end

/-! ### Networks of one version -/

section
variable {A U : Type} {F : Fam A U} {WF : A → Prop} {val : U → Nat}

/-- What a loop over `f.address_exclude(o)` visits. -/
def Fam.excluded (F : Fam A U) (f o : Net A) : Res (List (Net A)) := do
  let s ← F.addressExclude f o
  F.exVisit (F.maxPrefix + 1) s.first s.last

theorem excluded_eq (L : F.Law WF val) (hw : F.maxPrefix < 2 ^ 64) (h4 : F.isV6 = false → ∀ a : A, ∃ x, a = F.ofBytes x)
    (f o : Net A) (hf : Plain F WF f) (ho : Plain F WF o) (h1 : F.v f.addr ≤ F.v o.addr) (h2 : F.top o ≤ F.top f) :
    ∃ all, F.excluded f o = .ok (if o.plen = F.maxPrefix ∧ F.v o.addr = 1 ∧ F.v f.addr = 0 then all.dropLast else all) ∧
      (∀ m ∈ all, Plain F WF m) ∧
      all.Pairwise (fun m n => ¬ (F.v m.addr < F.top n ∧ F.v n.addr < F.top m)) ∧
      ∀ x, (∃ m ∈ all, F.v m.addr ≤ x ∧ x < F.top m) ↔ (F.v f.addr ≤ x ∧ x < F.top f) ∧ ¬ (F.v o.addr ≤ x ∧ x < F.top o) := by
  have fi := inNet_interval L f hf.ok
  have oi := inNet_interval L o ho.ok
  obtain ⟨s, all, s1, l1, l2, l3, l4⟩ := addressExclude_spec L hw h4 f o hf.ok ho.ok (by
    intro t
    rw [fi, oi]
    simp only [Fam.top] at h2
    omega)
  refine ⟨all, by rw [Fam.excluded, s1, Res.ok_bind, l4 _ (by have := ho.ok.plen; omega)], fun m hm => ⟨(l2 m hm).1, (l2 m hm).2⟩, ?_, ?_⟩
  · have := List.pairwise_map.mp l3.1
    refine this.imp_of_mem fun {a b} ha hb h g => ?_
    refine h (max (F.v a.addr) (F.v b.addr)) ⟨(inNet_interval L a (l2 a ha).1 _).mpr ?_, (inNet_interval L b (l2 b hb).1 _).mpr ?_⟩
    · have := Nat.two_pow_pos (F.maxPrefix - a.plen)
      simp only [Fam.top] at g
      omega
    · have := Nat.two_pow_pos (F.maxPrefix - b.plen)
      simp only [Fam.top] at g
      omega
  · intro x
    have := l3.2 x
    simp only [fi, oi] at this
    simp only [Fam.top]
    rw [← this]
    constructor
    · rintro ⟨m, hm, hx⟩
      exact ⟨_, List.mem_map.mpr ⟨m, hm, rfl⟩, (inNet_interval L m (l2 m hm).1 x).mpr hx⟩
    · rintro ⟨_, hv, hx⟩
      obtain ⟨m, hm, rfl⟩ := List.mem_map.mp hv
      exact ⟨m, hm, (inNet_interval L m (l2 m hm).1 x).mp hx⟩

theorem Plain.top_lt (L : F.Law WF val) {n : Net A} (hn : Plain F WF n) : F.top n ≤ 2 ^ F.maxPrefix :=
  aligned_room F.maxPrefix _ _ (Nat.sub_le ..) (L.v_lt _ hn.ok.wf) hn.ok.aligned

theorem poolLaw (L : F.Law WF val) (hw : F.maxPrefix < 2 ^ 64) (h4 : F.isV6 = false → ∀ a : A, ∃ x, a = F.ofBytes x)
    (he : ∀ a b, Plain F WF a → Plain F WF b → ∃ e, F.netEq a b = .ok e ∧ (e = true ↔ a = b)) :
    PoolLaw (Plain F WF) (fun f o => o.plen = F.maxPrefix ∧ F.v o.addr = 1 ∧ F.v f.addr = 0) F.subnetOf F.netEq (fun n => F.supernet n 1 none)
      F.excluded (fun n => F.v n.addr) F.top where
  sub_eq a b ha hb := isSubnetOf_eq L a b ha.ok hb.ok ha.addr hb.addr
  eq_iff := he
  pos n hn := by
    have := Nat.two_pow_pos (F.maxPrefix - n.plen)
    simp only [Fam.top]
    omega
  nested a b ha hb h1 h2 := by
    have p1 := Nat.two_pow_pos (F.maxPrefix - a.plen)
    have p2 := Nat.two_pow_pos (F.maxPrefix - b.plen)
    simp only [Fam.top] at *
    have hx : (F.v a.addr ≤ max (F.v a.addr) (F.v b.addr) ∧ max (F.v a.addr) (F.v b.addr) < F.v a.addr + 2 ^ (F.maxPrefix - a.plen)) ∧
      (F.v b.addr ≤ max (F.v a.addr) (F.v b.addr) ∧ max (F.v a.addr) (F.v b.addr) < F.v b.addr + 2 ^ (F.maxPrefix - b.plen)) := by omega
    rcases Nat.le_total (F.maxPrefix - a.plen) (F.maxPrefix - b.plen) with h | h
    · exact .inl (blocks_nested _ _ _ _ h ha.ok.aligned hb.ok.aligned ⟨_, hx⟩)
    · exact .inr (blocks_nested _ _ _ _ h hb.ok.aligned ha.ok.aligned ⟨_, hx.2, hx.1⟩)
  ext a b ha hb h1 h2 := by
    simp only [Fam.top] at h2
    have : 2 ^ (F.maxPrefix - a.plen) = 2 ^ (F.maxPrefix - b.plen) := by omega
    have := Nat.pow_right_injective (Nat.le_refl 2) this
    have := ha.ok.plen
    have := hb.ok.plen
    exact Plain.ext L ha hb h1 (by omega)
  sup_spec n hn := by
    by_cases h0 : n.plen = 0
    · refine ⟨n, (supernet_errors L n hn.ok 1 none).1 h0, hn, .inl ⟨rfl, fun k hk => ?_⟩⟩
      have h1 := Plain.top_lt L hn
      have h2 := Plain.top_lt L hk
      simp only [Fam.top, h0, Nat.sub_zero] at h1 h2 ⊢
      omega
    · obtain ⟨r, r1, r2, r3, r4⟩ := supernet_plain L n hn.ok h0 1 (by omega) L.pos
      have hpl := hn.ok.plen
      have e : F.maxPrefix - r.plen = F.maxPrefix - n.plen + 1 := by omega
      have hP := Nat.two_pow_pos (F.maxPrefix - n.plen)
      have a := (inNet_interval L r r2.ok _).mp (r4 (F.v n.addr) ((inNet_interval L n hn.ok _).mpr ⟨by omega, by omega⟩))
      have b := (inNet_interval L r r2.ok _).mp (r4 (F.v n.addr + 2 ^ (F.maxPrefix - n.plen) - 1)
        ((inNet_interval L n hn.ok _).mpr ⟨by omega, by omega⟩))
      rw [e, Nat.pow_succ] at a b
      refine ⟨r, r1, r2, .inr ⟨a.1, ?_, ?_, fun k hk k1 k2 k3 => ?_⟩⟩
      · simp only [Fam.top, e, Nat.pow_succ]; omega
      · simp only [Fam.top, e, Nat.pow_succ]; omega
      · simp only [Fam.top] at k2 ⊢
        have kp := hk.ok.plen
        have le : 2 ^ (F.maxPrefix - n.plen) ≤ 2 ^ (F.maxPrefix - k.plen) := by omega
        have := (Nat.pow_le_pow_iff_right (by decide : 1 < 2)).mp le
        have hne : n.plen ≠ k.plen := by
          intro g
          rw [← g] at k2
          exact k3 (Plain.ext L hk hn (by omega) g.symm)
        exact blocks_nested _ _ _ _ (by omega) r2.ok.aligned hk.ok.aligned ⟨F.v n.addr, by rw [e, Nat.pow_succ]; omega, by omega⟩
  exc_spec f o hf ho h1 h2 hb := by
    obtain ⟨all, e1, e2, e3, e4⟩ := excluded_eq L hw h4 f o hf ho h1 h2
    rw [if_neg hb] at e1
    exact ⟨all, e1, e2, e3, e4⟩

end

end Ip
