import Verif.Spec.Tables
import Verif.Props.AnyNet
import Verif.Props.NetLaws
/-
Tables of networks: networks as intervals of numbers that are nested or disjoint.
-/
set_option autoImplicit false

namespace Ip
open Spec

variable {N A : Type}

/-- The functions of networks in terms of the intervals `[lo, hi)` of their addresses. -/
structure TableLaw (ok : N → Prop) (okA : A → Prop) (lt sub ov : N → N → Res Bool) (con : N → A → Res Bool) (lo hi : N → Nat)
    (num : A → Nat) : Prop where
  lt_eq : ∀ a b, ok a → ok b → lt a b = .ok (decide (lo a < lo b ∨ lo a = lo b ∧ hi b < hi a))
  sub_eq : ∀ a b, ok a → ok b → sub a b = .ok (decide (lo b ≤ lo a ∧ hi a ≤ hi b))
  ov_eq : ∀ a b, ok a → ok b → ov a b = .ok (decide (lo a < hi b ∧ lo b < hi a))
  con_eq : ∀ n a, ok n → okA a → con n a = .ok (decide (lo n ≤ num a ∧ num a < hi n))
  pos : ∀ n, ok n → lo n < hi n
  nested : ∀ a b, ok a → ok b → lo a < hi b → lo b < hi a → (lo b ≤ lo a ∧ hi a ≤ hi b) ∨ (lo a ≤ lo b ∧ hi b ≤ hi a)

section
variable {ok : N → Prop} {okA : A → Prop} {lt sub ov : N → N → Res Bool} {con : N → A → Res Bool} {lo hi : N → Nat} {num : A → Nat}

theorem ok_true {p : Prop} [Decidable p] : (Res.ok (decide p) = Res.ok true) ↔ p := by
  rw [Res.ok.injEq, decide_eq_true_iff]

theorem ok_false {p : Prop} [Decidable p] : (Res.ok (decide p) = Res.ok false) ↔ ¬ p := by
  rw [Res.ok.injEq, decide_eq_false_iff_not]

/-- Not less means: at least as far to the right, and when at the same place not larger. -/
theorem TableLaw.not_lt (T : TableLaw ok okA lt sub ov con lo hi num) {a b : N} (ha : ok a) (hb : ok b) (h : lt b a = .ok false) :
    lo a ≤ lo b ∧ (lo a = lo b → hi b ≤ hi a) := by
  rw [T.lt_eq b a hb ha, ok_false] at h
  omega

theorem collapseFrom_spec (T : TableLaw ok okA lt sub ov con lo hi num) : ∀ (t : List N) (last : N), ok last → (∀ n ∈ t, ok n) →
    TableSorted lt (last :: t) →
    ∃ out, collapseFrom sub last t = .ok out ∧ out.Sublist t ∧ (last :: out).Pairwise (fun m n => ov m n = .ok false) ∧
      ∀ a, okA a → ((∃ n ∈ last :: t, con n a = .ok true) ↔ ∃ n ∈ last :: out, con n a = .ok true)
  | [], last, _, _, _ => ⟨[], rfl, List.Sublist.refl _, List.pairwise_singleton _ _, fun _ _ => Iff.rfl⟩
  | n :: t, last, hl, ht, ho => by
    have hn := ht n List.mem_cons_self
    have ht' : ∀ m ∈ t, ok m := fun m hm => ht m (List.mem_cons_of_mem _ hm)
    have o1 := List.pairwise_cons.mp ho
    have o2 := List.pairwise_cons.mp o1.2
    have ln := T.not_lt hl hn (o1.1 n List.mem_cons_self)
    by_cases h : lo last ≤ lo n ∧ hi n ≤ hi last
    · have hs : sub n last = .ok true := by rw [T.sub_eq n last hn hl, ok_true]; exact h
      obtain ⟨out, e1, e2, e3, e4⟩ := collapseFrom_spec T t last hl ht'
        (List.pairwise_cons.mpr ⟨fun m hm => o1.1 m (List.mem_cons_of_mem _ hm), o2.2⟩)
      refine ⟨out, by rw [collapseFrom, hs]; exact e1, List.Sublist.cons _ e2, e3, fun a ha => ?_⟩
      rw [← e4 a ha]
      constructor
      · rintro ⟨m, hm, hc⟩
        rcases List.mem_cons.mp hm with rfl | hm
        · exact ⟨m, List.mem_cons_self, hc⟩
        · rcases List.mem_cons.mp hm with rfl | hm
          · refine ⟨last, List.mem_cons_self, ?_⟩
            rw [T.con_eq m a hn ha, ok_true] at hc
            rw [T.con_eq last a hl ha, ok_true]
            omega
          · exact ⟨m, List.mem_cons_of_mem _ hm, hc⟩
      · rintro ⟨m, hm, hc⟩
        rcases List.mem_cons.mp hm with rfl | hm
        · exact ⟨m, List.mem_cons_self, hc⟩
        · exact ⟨m, List.mem_cons_of_mem _ (List.mem_cons_of_mem _ hm), hc⟩
    · have hs : sub n last = .ok false := by rw [T.sub_eq n last hn hl, ok_false]; exact h
      obtain ⟨out, e1, e2, e3, e4⟩ := collapseFrom_spec T t n hn ht' o1.2
      have gap : hi last ≤ lo n := by
        rcases Nat.lt_or_ge (lo n) (hi last) with g | g
        · have := T.pos n hn
          rcases T.nested n last hn hl g (by omega) with k | k
          · exact absurd k h
          · omega
        · exact g
      refine ⟨n :: out, by rw [collapseFrom, hs, Res.ok_bind]; simp only [Bool.false_eq_true, if_false]; rw [e1]; rfl,
        List.Sublist.cons_cons _ e2, List.pairwise_cons.mpr ⟨fun m hm => ?_, e3⟩, fun a ha => ?_⟩
      · have hm' : m ∈ n :: t := by
          rcases List.mem_cons.mp hm with rfl | hm
          · exact List.mem_cons_self
          · exact List.mem_cons_of_mem _ (e2.subset hm)
        have hmo := ht m hm'
        have : lo n ≤ lo m := by
          rcases List.mem_cons.mp hm' with rfl | hm''
          · exact Nat.le_refl _
          · exact (T.not_lt hn hmo (o2.1 m hm'')).1
        rw [T.ov_eq last m hl hmo, ok_false]
        omega
      · have := e4 a ha
        constructor
        · rintro ⟨m, hm, hc⟩
          rcases List.mem_cons.mp hm with rfl | hm
          · exact ⟨m, List.mem_cons_self, hc⟩
          · obtain ⟨k, hk, hkc⟩ := this.mp ⟨m, hm, hc⟩
            exact ⟨k, List.mem_cons_of_mem _ hk, hkc⟩
        · rintro ⟨m, hm, hc⟩
          rcases List.mem_cons.mp hm with rfl | hm
          · exact ⟨m, List.mem_cons_self, hc⟩
          · obtain ⟨k, hk, hkc⟩ := this.mpr ⟨m, hm, hc⟩
            exact ⟨k, List.mem_cons_of_mem _ hk, hkc⟩

theorem collapse_spec (T : TableLaw ok okA lt sub ov con lo hi num) (t : List N) (ht : ∀ n ∈ t, ok n) (ho : TableSorted lt t) :
    ∃ out, collapse sub t = .ok out ∧ out.Sublist t ∧ out.Pairwise (fun m n => ov m n = .ok false) ∧
      ∀ a, okA a → ((∃ n ∈ t, con n a = .ok true) ↔ ∃ n ∈ out, con n a = .ok true) := by
  cases t with
  | nil => exact ⟨[], rfl, List.Sublist.refl _, List.Pairwise.nil, fun _ _ => Iff.rfl⟩
  | cons n t =>
    obtain ⟨out, e1, e2, e3, e4⟩ := collapseFrom_spec T t n (ht n List.mem_cons_self) (fun m hm => ht m (List.mem_cons_of_mem _ hm)) ho
    exact ⟨n :: out, by rw [collapse, e1]; rfl, List.Sublist.cons_cons _ e2, e3, e4⟩

/-- From a place in the table on where nothing is less than `n`, the elements under `n` come first. -/
theorem walkUnder_spec (T : TableLaw ok okA lt sub ov con lo hi num) (n : N) (hn : ok n) : ∀ (t : List N), (∀ m ∈ t, ok m) →
    TableSorted lt t → (∀ m ∈ t, lt m n = .ok false) →
    ∃ out r, walkUnder sub n t = .ok out ∧ t = out ++ r ∧ (∀ m ∈ out, sub m n = .ok true) ∧ ∀ m ∈ r, sub m n = .ok false
  | [], _, _, _ => ⟨[], [], rfl, rfl, by simp, by simp⟩
  | m :: t, ht, ho, hg => by
    have hm := ht m List.mem_cons_self
    have o1 := List.pairwise_cons.mp ho
    by_cases h : lo n ≤ lo m ∧ hi m ≤ hi n
    · have hs : sub m n = .ok true := by rw [T.sub_eq m n hm hn, ok_true]; exact h
      obtain ⟨out, r, e1, e2, e3, e4⟩ := walkUnder_spec T n hn t (fun k hk => ht k (List.mem_cons_of_mem _ hk)) o1.2
        (fun k hk => hg k (List.mem_cons_of_mem _ hk))
      refine ⟨m :: out, r, by rw [walkUnder, hs, Res.ok_bind]; simp only [if_true]; rw [e1]; rfl, by rw [e2]; rfl, ?_, e4⟩
      intro k hk
      rcases List.mem_cons.mp hk with rfl | hk
      · exact hs
      · exact e3 k hk
    · have hs : sub m n = .ok false := by rw [T.sub_eq m n hm hn, ok_false]; exact h
      refine ⟨[], m :: t, by rw [walkUnder, hs, Res.ok_bind]; rfl, rfl, by simp, fun k hk => ?_⟩
      have hko := ht k hk
      have g1 := T.not_lt hn hm (hg m List.mem_cons_self)
      have g2 := T.pos m hm
      have g3 : hi n ≤ lo m := by
        rcases Nat.lt_or_ge (lo m) (hi n) with g | g
        · rcases T.nested m n hm hn g (by omega) with k | k
          · exact absurd k h
          · omega
        · exact g
      have g4 : lo m ≤ lo k := by
        rcases List.mem_cons.mp hk with rfl | hk
        · exact Nat.le_refl _
        · exact (T.not_lt hm hko (o1.1 k hk)).1
      have g5 := T.pos k hko
      rw [T.sub_eq k n hko hn, ok_false]
      omega

theorem under_spec (T : TableLaw ok okA lt sub ov con lo hi num) (n : N) (hn : ok n) : ∀ (t : List N), (∀ m ∈ t, ok m) →
    TableSorted lt t →
    ∃ l out r, under lt sub n t = .ok out ∧ t = l ++ out ++ r ∧ (∀ m ∈ l, sub m n = .ok false) ∧ (∀ m ∈ out, sub m n = .ok true) ∧
      ∀ m ∈ r, sub m n = .ok false
  | [], _, _ => ⟨[], [], [], rfl, rfl, by simp, by simp, by simp⟩
  | m :: t, ht, ho => by
    have hm := ht m List.mem_cons_self
    have o1 := List.pairwise_cons.mp ho
    by_cases h : lo m < lo n ∨ lo m = lo n ∧ hi n < hi m
    · have hl : lt m n = .ok true := by rw [T.lt_eq m n hm hn, ok_true]; exact h
      obtain ⟨l, out, r, e1, e2, e3, e4, e5⟩ := under_spec T n hn t (fun k hk => ht k (List.mem_cons_of_mem _ hk)) o1.2
      refine ⟨m :: l, out, r, by rw [under, hl, Res.ok_bind]; exact e1, by rw [e2]; rfl, ?_, e4, e5⟩
      intro k hk
      rcases List.mem_cons.mp hk with rfl | hk
      · rw [T.sub_eq k n hm hn, ok_false]
        omega
      · exact e3 k hk
    · have hl : lt m n = .ok false := by rw [T.lt_eq m n hm hn, ok_false]; exact h
      obtain ⟨out, r, e1, e2, e3, e4⟩ := walkUnder_spec T n hn (m :: t) ht ho (fun k hk => by
        have hko := ht k hk
        rw [T.lt_eq k n hko hn, ok_false]
        rcases List.mem_cons.mp hk with rfl | hk
        · exact h
        · have := T.not_lt hm hko (o1.1 k hk)
          omega)
      exact ⟨[], out, r, by rw [under, hl, Res.ok_bind]; exact e1, by rw [e2]; rfl, by simp, e3, e4⟩

/-- Of two networks around an address the later one is the smaller one. -/
theorem later_smaller (T : TableLaw ok okA lt sub ov con lo hi num) {m n : N} (hm : ok m) (hn : ok n) {a : A} (ha : okA a)
    (cm : con m a = .ok true) (cn : con n a = .ok true) (h : lt n m = .ok false) : sub n m = .ok true := by
  rw [T.con_eq m a hm ha, ok_true] at cm
  rw [T.con_eq n a hn ha, ok_true] at cn
  have := T.not_lt hm hn h
  rw [T.sub_eq n m hn hm, ok_true]
  rcases T.nested m n hm hn (by omega) (by omega) with k | k <;> omega

theorem firstWith_spec (T : TableLaw ok okA lt sub ov con lo hi num) (a : A) (ha : okA a) : ∀ (t : List N), (∀ n ∈ t, ok n) →
    t.Pairwise (fun m n => lt m n = .ok false) →
    ∃ r, firstWith con a t = .ok r ∧ (r = none ↔ ∀ n ∈ t, con n a = .ok false) ∧
      ∀ n, r = some n → n ∈ t ∧ con n a = .ok true ∧ ∀ m ∈ t, con m a = .ok true → sub n m = .ok true
  | [], _, _ => ⟨none, rfl, by simp, by simp⟩
  | n :: t, ht, ho => by
    have hn := ht n List.mem_cons_self
    have o1 := List.pairwise_cons.mp ho
    by_cases h : lo n ≤ num a ∧ num a < hi n
    · have hc : con n a = .ok true := by rw [T.con_eq n a hn ha, ok_true]; exact h
      refine ⟨some n, by rw [firstWith, hc, Res.ok_bind]; rfl, ⟨(fun h => by cases h), fun h => ?_⟩, ?_⟩
      · rw [h n List.mem_cons_self] at hc
        cases hc
      · rintro _ ⟨rfl⟩
        refine ⟨List.mem_cons_self, hc, fun m hm hmc => ?_⟩
        rcases List.mem_cons.mp hm with rfl | hm'
        · rw [T.sub_eq m m hn hn, ok_true]
          omega
        · exact later_smaller T (ht m hm) hn ha hmc hc (o1.1 m hm')
    · have hc : con n a = .ok false := by rw [T.con_eq n a hn ha, ok_false]; exact h
      obtain ⟨r, e1, e2, e3⟩ := firstWith_spec T a ha t (fun k hk => ht k (List.mem_cons_of_mem _ hk)) o1.2
      refine ⟨r, by rw [firstWith, hc, Res.ok_bind]; exact e1, ?_, ?_⟩
      · rw [e2]
        constructor
        · intro h k hk
          rcases List.mem_cons.mp hk with rfl | hk
          · exact hc
          · exact h k hk
        · exact fun h k hk => h k (List.mem_cons_of_mem _ hk)
      · intro k hk
        obtain ⟨k1, k2, k3⟩ := e3 k hk
        refine ⟨List.mem_cons_of_mem _ k1, k2, fun m hm hmc => ?_⟩
        rcases List.mem_cons.mp hm with rfl | hm
        · rw [hc] at hmc
          cases hmc
        · exact k3 m hm hmc

/-- The last element around the address, in a table in order, is the smallest around it. -/
theorem lastWith_spec (T : TableLaw ok okA lt sub ov con lo hi num) (a : A) (ha : okA a) (t : List N) (ht : ∀ n ∈ t, ok n)
    (ho : TableSorted lt t) :
    ∃ r, firstWith con a t.reverse = .ok r ∧ (r = none ↔ ∀ n ∈ t, con n a = .ok false) ∧
      ∀ n, r = some n → n ∈ t ∧ con n a = .ok true ∧ ∀ m ∈ t, con m a = .ok true → sub n m = .ok true := by
  have := firstWith_spec T a ha t.reverse (fun n hn => ht n (List.mem_reverse.mp hn)) (List.pairwise_reverse.mpr ho)
  simpa only [List.mem_reverse] using this

theorem found_spec {eq : N → N → Res Bool} (he : ∀ a b, ok a → ok b → ∃ e, eq a b = .ok e ∧ (e = true ↔ a = b)) (n : N) (hn : ok n) :
    ∀ t : List N, (∀ m ∈ t, ok m) → ∃ r, found eq n t = .ok r ∧ (r = true ↔ n ∈ t)
  | [], _ => ⟨false, rfl, by simp⟩
  | m :: t, ht => by
    obtain ⟨e, e1, e2⟩ := he m n (ht m List.mem_cons_self) hn
    cases e with
    | true => exact ⟨true, by rw [found, e1, Res.ok_bind]; rfl, ⟨fun _ => by rw [e2.mp rfl]; exact List.mem_cons_self, fun _ => rfl⟩⟩
    | false =>
      obtain ⟨r, r1, r2⟩ := found_spec he n hn t (fun k hk => ht k (List.mem_cons_of_mem _ hk))
      refine ⟨r, by rw [found, e1, Res.ok_bind]; exact r1, r2.trans ⟨List.mem_cons_of_mem _, fun h => ?_⟩⟩
      rcases List.mem_cons.mp h with rfl | h
      · exact absurd (e2.mpr rfl) (by decide)
      · exact h

/-- `lookup` from the length `w` on: `frm p` is the only network of length `p` around the address. -/
theorem lookup_spec {eq : N → N → Res Bool} {len : N → Nat} {frm : Nat → Res N} (around : N → Prop)
    (he : ∀ a b, ok a → ok b → ∃ e, eq a b = .ok e ∧ (e = true ↔ a = b)) (t : List N) (ht : ∀ m ∈ t, ok m) : ∀ w,
    (∀ p, p < w → ∃ m, frm p = .ok m ∧ ok m ∧ ∀ n, ok n → (around n ∧ len n = p ↔ n = m)) →
    ∃ r, lookup frm eq t w = .ok r ∧ (r = none ↔ ∀ n ∈ t, len n < w → ¬ around n) ∧
      ∀ n, r = some n → n ∈ t ∧ around n ∧ len n < w ∧ ∀ m ∈ t, around m → len m < w → len m ≤ len n
  | 0, _ => ⟨none, rfl, by simp, by simp⟩
  | w + 1, hf => by
    obtain ⟨m, m1, m2, m3⟩ := hf w (Nat.lt_succ_self _)
    obtain ⟨b, b1, b2⟩ := found_spec he m m2 t ht
    have me := (m3 m m2).mpr rfl
    cases b with
    | true =>
      have hm := b2.mp rfl
      refine ⟨some m, by rw [lookup, m1, Res.ok_bind, b1, Res.ok_bind]; rfl, ⟨(fun h => by cases h), fun h => ?_⟩, ?_⟩
      · exact absurd me.1 (h m hm (by omega))
      · rintro _ ⟨rfl⟩
        exact ⟨hm, me.1, by omega, fun k _ _ _ => by omega⟩
    | false =>
      have hm : ¬ m ∈ t := fun h => absurd (b2.mpr h) (by decide)
      obtain ⟨r, r1, r2, r3⟩ := lookup_spec around he t ht w (fun p hp => hf p (by omega))
      have key : ∀ n ∈ t, around n → len n < w + 1 → len n < w := by
        intro n hn ha hl
        rcases Nat.lt_or_ge (len n) w with h | h
        · exact h
        · have : len n = w := by omega
          exact absurd ((m3 n (ht n hn)).mp ⟨ha, this⟩ ▸ hn) hm
      refine ⟨r, by rw [lookup, m1, Res.ok_bind, b1, Res.ok_bind]; exact r1, r2.trans ⟨fun h n hn hl ha => ?_, fun h n hn hl => ?_⟩, ?_⟩
      · exact h n hn (key n hn ha hl) ha
      · exact h n hn (by omega)
      · intro n hn
        obtain ⟨k1, k2, k3, k4⟩ := r3 n hn
        exact ⟨k1, k2, by omega, fun m hm ha hl => k4 m hm ha (key m hm ha hl)⟩

end

end Ip
