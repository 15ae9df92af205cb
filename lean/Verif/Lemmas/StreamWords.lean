import Verif.Spec.StreamWords
import Mathlib.Algebra.Order.BigOperators.Group.List
import Mathlib.Algebra.Order.Ring.Nat
/-
Streams keep what the specification says (C100).
-/
set_option autoImplicit false

namespace Ip

open Spec

/-- The word for a pending format. -/
def wordOf : Option Format → Nat
  | none => 0
  | some .full => 1
  | some .compact => 2
  | some .compressed => 3

theorem formatOfWord_wordOf (f : Option Format) : formatOfWord (wordOf f) = .ok (f.getD .compressed) := by
  cases f with
  | none => rfl
  | some f => cases f <;> rfl

/-- The memory keeps what the streams are to remember. -/
structure Keeps (m : IoMem) (n : Nat) (k : Nat → Kept) : Prop where
  count : m.others.length = n
  nodup : m.others.Nodup
  below : ∀ j ∈ m.others, j < m.next
  fbelow : ∀ i, m.format = .set i → i < m.next ∧ i ∉ m.others ∧ m.strict ≠ .set i
  sbelow : ∀ i, m.strict = .set i → i < m.next ∧ i ∉ m.others
  zero : ∀ s j, m.next ≤ j → m.words s j = 0
  fset : ∀ i, m.format = .set i → ∀ s, m.words s i = wordOf (k s).format
  funset : (∀ i, m.format ≠ .set i) → ∀ s, (k s).format = none
  sset : ∀ i, m.strict = .set i → ∀ s, m.words s i = if (k s).strict then 0 else 1
  sunset : (∀ i, m.strict ≠ .set i) → ∀ s, (k s).strict = true
  own : ∀ j i, m.others[j]? = some i → ∀ s, m.words s i = (k s).own j
  ownz : ∀ j, n ≤ j → ∀ s, (k s).own j = 0

theorem keeps_start (n : Nat) : Keeps (IoMem.start n) 0 (fun _ => Kept.fresh) := by
  constructor <;> simp [IoMem.start, Kept.fresh]

/-- What one operation is to show and to leave. -/
def told1 (op : IoOp) (n : Nat) (k : Nat → Kept) : Option IoEvent × Nat × (Nat → Kept) :=
  match op with
  | .format s f => (none, n, fun x => if x = s then { k s with format := some f } else k x)
  | .strict s b => (none, n, fun x => if x = s then { k s with strict := b } else k x)
  | .write s => (some (.formatted s ((k s).format.getD .compressed)), n, fun x => if x = s then { k s with format := none } else k x)
  | .readNet s => (some (.parsed s (k s).strict), n, fun x => if x = s then { k s with strict := true } else k x)
  | .readAddr _ => (none, n, k)
  | .xalloc => (none, n + 1, k)
  | .put s j v => (none, n, fun x => if x = s ∧ j < n then { k s with own := fun i => if i = j then v else (k s).own i } else k x)
  | .look s j => (if j < n then some (.saw ((k s).own j)) else none, n, k)
  | .copyfmt s t => (none, n, fun x => if x = s then k t else k x)
  | .swap s t => (none, n, fun x => if x = s then k t else if x = t then k s else k x)

theorem told_cons (op : IoOp) (ops : List IoOp) (n : Nat) (k : Nat → Kept) :
    told (op :: ops) n k = (told1 op n k).1 :: told ops (told1 op n k).2.1 (told1 op n k).2.2 := by
  cases op <;> rfl

/-- The word of the format changes. -/
theorem keeps_format (m : IoMem) (n : Nat) (k : Nat → Kept) (h : Keeps m n k) (i s : Nat) (hi : m.format = .set i) (f : Option Format) :
    Keeps { m with words := setWord m.words s i (wordOf f) } n (fun x => if x = s then { k s with format := f } else k x) := by
  obtain ⟨b1, b2, b3⟩ := h.fbelow i hi
  refine ⟨h.count, h.nodup, h.below, h.fbelow, h.sbelow, ?_, ?_, ?_, ?_, ?_, ?_, ?_⟩
  · intro x j hj
    have := h.zero x j hj
    have : j ≠ i := fun e => by subst e; exact absurd b1 (Nat.not_lt.2 hj)
    simp only [setWord]
    rw [if_neg (fun e => this e.2)]
    exact h.zero x j hj
  · intro j hj x
    have e : j = i := by rw [hi] at hj; cases hj; rfl
    subst e
    by_cases hx : x = s
    · simp [setWord, hx]
    · simp only [setWord, hx, false_and, if_false]
      exact h.fset j hi x
  · intro hu
    exact absurd hi (hu i)
  · intro j hj x
    have ne : j ≠ i := fun e => b3 (e ▸ hj)
    have := h.sset j hj x
    simp only [setWord]
    rw [if_neg (fun e => ne e.2), this]
    by_cases hx : x = s
    · simp [hx]
    · simp [hx]
  · intro hu x
    have := h.sunset hu
    by_cases hx : x = s
    · simp [hx, this s]
    · simp [hx, this x]
  · intro j q hq x
    have ne : q ≠ i := fun e => b2 (e ▸ List.mem_of_getElem? hq)
    simp only [setWord]
    rw [if_neg (fun e => ne e.2), h.own j q hq x]
    by_cases hx : x = s
    · simp [hx]
    · simp [hx]
  · intro j hj x
    have := h.ownz j hj
    by_cases hx : x = s
    · simp [hx, this s]
    · simp [hx, this x]

/-- The word of the strictness changes. -/
theorem keeps_strict (m : IoMem) (n : Nat) (k : Nat → Kept) (h : Keeps m n k) (i s : Nat) (hi : m.strict = .set i) (b : Bool) :
    Keeps { m with words := setWord m.words s i (if b then 0 else 1) } n (fun x => if x = s then { k s with strict := b } else k x) := by
  obtain ⟨b1, b2⟩ := h.sbelow i hi
  refine ⟨h.count, h.nodup, h.below, h.fbelow, h.sbelow, ?_, ?_, ?_, ?_, ?_, ?_, ?_⟩
  · intro x j hj
    have : j ≠ i := fun e => by subst e; exact absurd b1 (Nat.not_lt.2 hj)
    simp only [setWord]
    rw [if_neg (fun e => this e.2)]
    exact h.zero x j hj
  · intro j hj x
    have ne : j ≠ i := fun e => (h.fbelow j hj).2.2 (e ▸ hi)
    have := h.fset j hj x
    simp only [setWord]
    rw [if_neg (fun e => ne e.2), this]
    by_cases hx : x = s
    · simp [hx]
    · simp [hx]
  · intro hu x
    have := h.funset hu
    by_cases hx : x = s
    · simp [hx, this s]
    · simp [hx, this x]
  · intro j hj x
    have e : j = i := by rw [hi] at hj; cases hj; rfl
    subst e
    by_cases hx : x = s
    · simp [setWord, hx]
    · simp only [setWord, hx, false_and, if_false]
      exact h.sset j hi x
  · intro hu
    exact absurd hi (hu i)
  · intro j q hq x
    have ne : q ≠ i := fun e => b2 (e ▸ List.mem_of_getElem? hq)
    simp only [setWord]
    rw [if_neg (fun e => ne e.2), h.own j q hq x]
    by_cases hx : x = s
    · simp [hx]
    · simp [hx]
  · intro j hj x
    have := h.ownz j hj
    by_cases hx : x = s
    · simp [hx, this s]
    · simp [hx, this x]

/-- A word of other code changes. -/
theorem keeps_put (m : IoMem) (n : Nat) (k : Nat → Kept) (h : Keeps m n k) (s j i v : Nat) (hj : m.others[j]? = some i) :
    Keeps { m with words := setWord m.words s i v } n
      (fun x => if x = s ∧ j < n then { k s with own := fun q => if q = j then v else (k s).own q } else k x) := by
  have mem := List.mem_of_getElem? hj
  have lt : j < n := by
    have := (List.getElem?_eq_some_iff.1 hj).1
    rw [← h.count]
    exact this
  refine ⟨h.count, h.nodup, h.below, h.fbelow, h.sbelow, ?_, ?_, ?_, ?_, ?_, ?_, ?_⟩
  · intro x q hq
    have : q ≠ i := fun e => by subst e; exact absurd (h.below _ mem) (Nat.not_lt.2 hq)
    simp only [setWord]
    rw [if_neg (fun e => this e.2)]
    exact h.zero x q hq
  · intro q hq x
    have ne : q ≠ i := fun e => (h.fbelow q hq).2.1 (e ▸ mem)
    simp only [setWord]
    rw [if_neg (fun e => ne e.2), h.fset q hq x]
    by_cases hx : x = s
    · simp [hx, lt]
    · simp [hx]
  · intro hu x
    have := h.funset hu
    by_cases hx : x = s
    · simp [hx, lt, this s]
    · simp [hx, this x]
  · intro q hq x
    have ne : q ≠ i := fun e => (h.sbelow q hq).2 (e ▸ mem)
    simp only [setWord]
    rw [if_neg (fun e => ne e.2), h.sset q hq x]
    by_cases hx : x = s
    · simp [hx, lt]
    · simp [hx]
  · intro hu x
    have := h.sunset hu
    by_cases hx : x = s
    · simp [hx, lt, this s]
    · simp [hx, this x]
  · intro q i' hq x
    by_cases e : q = j
    · subst e
      have hq' : m.others[q]? = some i' := hq
      rw [hj] at hq'
      cases hq'
      by_cases hx : x = s
      · simp [setWord, hx, lt]
      · simp only [setWord, hx, false_and, if_false]
        exact h.own q i hj x
    · have ne : i' ≠ i := by
        intro e'
        subst e'
        obtain ⟨l1, g1⟩ := List.getElem?_eq_some_iff.1 hj
        obtain ⟨l2, g2⟩ := List.getElem?_eq_some_iff.1 hq
        exact e ((List.getElem_inj h.nodup).1 (g2.trans g1.symm))
      simp only [setWord]
      rw [if_neg (fun c => ne c.2), h.own q i' hq x]
      by_cases hx : x = s
      · simp [hx, lt, e]
      · simp [hx]
  · intro q hq x
    have ne : q ≠ j := by omega
    have := h.ownz q hq
    by_cases hx : x = s
    · simp [hx, lt, ne, this s]
    · simp [hx, this x]

/-- The words of a stream become those of another. -/
theorem keeps_map (m : IoMem) (n : Nat) (k : Nat → Kept) (h : Keeps m n k) (g : Nat → Nat) :
    Keeps { m with words := fun x => m.words (g x) } n (fun x => k (g x)) :=
  ⟨h.count, h.nodup, h.below, h.fbelow, h.sbelow, fun s j hj => h.zero (g s) j hj, fun i hi s => h.fset i hi (g s),
    fun hu s => h.funset hu (g s), fun i hi s => h.sset i hi (g s), fun hu s => h.sunset hu (g s),
    fun j i hj s => h.own j i hj (g s), fun j hj s => h.ownz j hj (g s)⟩

/-- Another number is given out. -/
theorem keeps_xalloc (m : IoMem) (n : Nat) (k : Nat → Kept) (h : Keeps m n k) :
    Keeps { m with next := m.next + 1, others := m.others ++ [m.next] } (n + 1) k := by
  have fresh : m.next ∉ m.others := fun e => absurd (h.below _ e) (Nat.lt_irrefl _)
  refine ⟨by simp [h.count], ?_, ?_, ?_, ?_, ?_, h.fset, h.funset, h.sset, h.sunset, ?_, ?_⟩
  · rw [List.nodup_append]
    refine ⟨h.nodup, by simp, ?_⟩
    intro a ha b hb e
    rw [List.mem_singleton.1 hb] at e
    exact fresh (e ▸ ha)
  · intro j hj
    rcases List.mem_append.1 hj with hj | hj
    · exact Nat.lt_succ_of_lt (h.below j hj)
    · rw [List.mem_singleton.1 hj]
      exact Nat.lt_succ_self _
  · intro i hi
    obtain ⟨a, b, c⟩ := h.fbelow i hi
    refine ⟨Nat.lt_succ_of_lt a, fun e => ?_, c⟩
    rcases List.mem_append.1 e with e | e
    · exact b e
    · rw [List.mem_singleton.1 e] at a
      exact Nat.lt_irrefl _ a
  · intro i hi
    obtain ⟨a, b⟩ := h.sbelow i hi
    refine ⟨Nat.lt_succ_of_lt a, fun e => ?_⟩
    rcases List.mem_append.1 e with e | e
    · exact b e
    · rw [List.mem_singleton.1 e] at a
      exact Nat.lt_irrefl _ a
  · intro s j hj
    exact h.zero s j (by simp only at hj; omega)
  · intro j i hj s
    have hj : (m.others ++ [m.next])[j]? = some i := hj
    rw [List.getElem?_append] at hj
    split at hj
    · exact h.own j i hj s
    · next hl =>
      have : i = m.next ∧ j = n := by
        have hc := h.count
        rcases e : j - m.others.length with _ | d
        · rw [e] at hj
          simp at hj
          exact ⟨hj.symm, by omega⟩
        · rw [e] at hj
          simp at hj
      rw [this.1, this.2, h.zero s _ (Nat.le_refl _), h.ownz n (Nat.le_refl _) s]
  · intro j hj s
    exact h.ownz j (by omega) s

/-- An operation does what it is to do, once it knows the number of its word. -/
theorem access_keeps (m : IoMem) (n : Nat) (k : Nat → Kept) (h : Keeps m n k) (op : IoOp) (i : Nat)
    (hi : ∀ b, ioNeeds op = some b → m.guard b = .set i) :
    ∃ m', ioAccess m i op = .ok ((told1 op n k).1, m') ∧ Keeps m' (told1 op n k).2.1 (told1 op n k).2.2 ∧
      m'.format = m.format ∧ m'.strict = m.strict := by
  cases op with
  | format s f =>
    have hf : m.format = .set i := hi true rfl
    refine ⟨_, rfl, ?_, rfl, rfl⟩
    have := keeps_format m n k h i s hf (some f)
    cases f <;> exact this
  | strict s b =>
    have hf : m.strict = .set i := hi false rfl
    refine ⟨_, rfl, ?_, rfl, rfl⟩
    have := keeps_strict m n k h i s hf b
    cases b <;> exact this
  | write s =>
    have hf : m.format = .set i := hi true rfl
    refine ⟨{ m with words := setWord m.words s i 0 }, ?_, keeps_format m n k h i s hf none, rfl, rfl⟩
    simp only [ioAccess]
    rw [h.fset i hf s, formatOfWord_wordOf]
    rfl
  | readNet s =>
    have hf : m.strict = .set i := hi false rfl
    refine ⟨{ m with words := setWord m.words s i 0 }, ?_, keeps_strict m n k h i s hf true, rfl, rfl⟩
    simp only [ioAccess, told1]
    rw [h.sset i hf s]
    cases (k s).strict <;> rfl
  | readAddr s => exact ⟨m, rfl, h, rfl, rfl⟩
  | xalloc => exact ⟨_, rfl, keeps_xalloc m n k h, rfl, rfl⟩
  | put s j v =>
    rcases hj : m.others[j]? with _ | q
    · refine ⟨m, by simp [ioAccess, hj, told1], ?_, rfl, rfl⟩
      have : ¬ j < n := by
        rw [← h.count]
        exact Nat.not_lt.2 (List.getElem?_eq_none_iff.1 hj)
      have e : (told1 (.put s j v) n k).2.2 = k := by
        funext x
        simp [told1, this]
      rw [e]
      exact h
    · exact ⟨{ m with words := setWord m.words s q v }, by simp [ioAccess, hj, told1], keeps_put m n k h s j q v hj, rfl, rfl⟩
  | look s j =>
    rcases hj : m.others[j]? with _ | q
    · have : ¬ j < n := by
        rw [← h.count]
        exact Nat.not_lt.2 (List.getElem?_eq_none_iff.1 hj)
      exact ⟨m, by simp [ioAccess, hj, told1, this], h, rfl, rfl⟩
    · have : j < n := by
        rw [← h.count]
        exact (List.getElem?_eq_some_iff.1 hj).1
      exact ⟨m, by simp [ioAccess, hj, told1, this, h.own j q hj s], h, rfl, rfl⟩
  | copyfmt s t =>
    refine ⟨_, rfl, ?_, rfl, rfl⟩
    have := keeps_map m n k h (fun x => if x = s then t else x)
    have e1 : (fun x => if x = s then m.words t else m.words x) = fun x => m.words (if x = s then t else x) := by
      funext x; split <;> rfl
    have e2 : (fun x => if x = s then k t else k x) = fun x => k (if x = s then t else x) := by
      funext x; split <;> rfl
    show Keeps { m with words := _ } n _
    rw [e1]
    show Keeps _ n (fun x => if x = s then k t else k x)
    rw [e2]
    exact this
  | swap s t =>
    refine ⟨_, rfl, ?_, rfl, rfl⟩
    have := keeps_map m n k h (fun x => if x = s then t else if x = t then s else x)
    have e1 : (fun x => if x = s then m.words t else if x = t then m.words s else m.words x) =
        fun x => m.words (if x = s then t else if x = t then s else x) := by
      funext x; split
      · rfl
      · split <;> rfl
    have e2 : (fun x => if x = s then k t else if x = t then k s else k x) = fun x => k (if x = s then t else if x = t then s else x) := by
      funext x; split
      · rfl
      · split <;> rfl
    show Keeps { m with words := _ } n _
    rw [e1]
    show Keeps _ n (fun x => if x = s then k t else if x = t then k s else k x)
    rw [e2]
    exact this

/-- Starting to initialise a variable changes nothing that matters. -/
theorem keeps_busy (m : IoMem) (n : Nat) (k : Nat → Kept) (h : Keeps m n k) (b : Bool) (t : Nat) (hu : m.guard b = .unset) :
    Keeps (m.setGuard b (.busy t)) n k := by
  cases b with
  | true =>
    have hu : m.format = .unset := hu
    exact ⟨h.count, h.nodup, h.below, fun i hi => (by cases hi), h.sbelow, h.zero, fun i hi => (by cases hi),
      fun _ => h.funset (fun i e => by rw [hu] at e; cases e), h.sset, h.sunset, h.own, h.ownz⟩
  | false =>
    have hu : m.strict = .unset := hu
    exact ⟨h.count, h.nodup, h.below, fun i hi => ⟨(h.fbelow i hi).1, (h.fbelow i hi).2.1, fun e => (by cases e)⟩, fun i hi => (by cases hi), h.zero,
      h.fset, h.funset, fun i hi => (by cases hi), fun _ => h.sunset (fun i e => by rw [hu] at e; cases e), h.own, h.ownz⟩

/-- Nor does initialising it. -/
theorem keeps_set (m : IoMem) (n : Nat) (k : Nat → Kept) (h : Keeps m n k) (b : Bool) (t : Nat) (hu : m.guard b = .busy t) :
    Keeps ({ m with next := m.next + 1 }.setGuard b (.set m.next)) n k := by
  have fresh : m.next ∉ m.others := fun e => absurd (h.below _ e) (Nat.lt_irrefl _)
  have below : ∀ j ∈ m.others, j < m.next + 1 := fun j hj => Nat.lt_succ_of_lt (h.below j hj)
  have zero : ∀ s j, m.next + 1 ≤ j → m.words s j = 0 := fun s j hj => h.zero s j (by omega)
  cases b with
  | true =>
    have hu : m.format = .busy t := hu
    refine ⟨h.count, h.nodup, below, fun i hi => ?_, fun i hi => ⟨Nat.lt_succ_of_lt (h.sbelow i hi).1, (h.sbelow i hi).2⟩, zero, fun i hi s => ?_,
      fun hn => absurd rfl (hn m.next), h.sset, h.sunset, h.own, h.ownz⟩
    · cases hi
      exact ⟨Nat.lt_succ_self _, fresh, fun e => absurd (h.sbelow _ e).1 (Nat.lt_irrefl _)⟩
    · cases hi
      show m.words s m.next = _
      rw [h.zero s _ (Nat.le_refl _), h.funset (fun i e => by rw [hu] at e; cases e) s]
      rfl
  | false =>
    have hu : m.strict = .busy t := hu
    refine ⟨h.count, h.nodup, below, fun i hi => ⟨Nat.lt_succ_of_lt (h.fbelow i hi).1, (h.fbelow i hi).2.1, fun e => ?_⟩, fun i hi => ?_, zero, h.fset, h.funset,
      fun i hi s => ?_, fun hn => absurd rfl (hn m.next), h.own, h.ownz⟩
    · cases e
      exact Nat.lt_irrefl _ (h.fbelow _ hi).1
    · cases hi
      exact ⟨Nat.lt_succ_self _, fresh⟩
    · cases hi
      show m.words s m.next = _
      rw [h.zero s _ (Nat.le_refl _), h.sunset (fun i e => by rw [hu] at e; cases e) s]
      rfl

/-- One step. -/
theorem ioStep_keeps (m : IoMem) (n : Nat) (k : Nat → Kept) (h : Keeps m n k) (t : Nat) (op : IoOp) :
    (∃ m', ioStep m t op = .ok (none, m') ∧ Keeps m' n k) ∨
    (∃ m', ioStep m t op = .ok (some (told1 op n k).1, m') ∧ Keeps m' (told1 op n k).2.1 (told1 op n k).2.2) := by
  unfold ioStep
  rcases hb : ioNeeds op with _ | b
  · obtain ⟨m', e, k', _⟩ := access_keeps m n k h op 0 (fun b e => by rw [hb] at e; cases e)
    exact .inr ⟨m', by simp only [e, Res.ok_bind], k'⟩
  · simp only
    rcases hg : m.guard b with _ | u | i
    · exact .inl ⟨_, rfl, keeps_busy m n k h b t hg⟩
    · by_cases e : u = t
      · simp only [e, if_true]
        exact .inl ⟨_, rfl, keeps_set m n k h b t (e ▸ hg)⟩
      · simp only [e, if_false]
        exact .inl ⟨_, rfl, h⟩
    · obtain ⟨m', e, k', _⟩ := access_keeps m n k h op i (fun b' e => by rw [hb] at e; cases e; exact hg)
      exact .inr ⟨m', by simp only [e, Res.ok_bind], k'⟩

theorem ioRun_keeps : ∀ (ts : List Nat) (ps : Nat → List IoOp) (m : IoMem) (n : Nat) (k : Nat → Kept), Keeps m n k →
    ∃ log ps' m', ioRun ts ps m = .ok (log, ps', m') ∧
      log.map (·.2.2) = told (log.map (·.2.1)) n k ∧
      (∀ t, ps t = (log.filter (·.1 == t)).map (·.2.1) ++ ps' t)
  | [], ps, m, n, k, _ => ⟨[], ps, m, rfl, rfl, fun _ => rfl⟩
  | t :: ts, ps, m, n, k, h => by
    rcases hp : ps t with _ | ⟨op, rest⟩
    · obtain ⟨log, ps', m', h1, h2, h3⟩ := ioRun_keeps ts ps m n k h
      exact ⟨log, ps', m', by simp only [ioRun, hp]; exact h1, h2, h3⟩
    · rcases ioStep_keeps m n k h t op with ⟨m1, e, k1⟩ | ⟨m1, e, k1⟩
      · obtain ⟨log, ps', m', h1, h2, h3⟩ := ioRun_keeps ts ps m1 n k k1
        exact ⟨log, ps', m', by simp only [ioRun, hp, e, Res.ok_bind]; exact h1, h2, h3⟩
      · obtain ⟨log, ps', m', h1, h2, h3⟩ := ioRun_keeps ts (fun u => if u = t then rest else ps u) m1 _ _ k1
        refine ⟨(t, op, (told1 op n k).1) :: log, ps', m', by simp only [ioRun, hp, e, Res.ok_bind, h1], ?_, ?_⟩
        · rw [List.map_cons, List.map_cons, told_cons, h2]
        · intro u
          have := h3 u
          by_cases hu : u = t
          · subst hu
            simp only [if_true] at this
            rw [hp, this]
            simp
          · rw [if_neg hu] at this
            rw [this, List.filter_cons_of_neg (by simp; exact fun e => hu e.symm)]

/-! ### Threads do not wait for ever -/

/-- A thread that initialises a variable is about to do an operation that needs it. -/
def Live (m : IoMem) (ps : Nat → List IoOp) : Prop :=
  ∀ b u, m.guard b = .busy u → ∃ op rest, ps u = op :: rest ∧ ioNeeds op = some b

theorem guard_setGuard (m : IoMem) (b : Bool) (g : Guard) : (m.setGuard b g).guard b = g ∧ (m.setGuard b g).guard (!b) = m.guard (!b) := by
  cases b <;> exact ⟨rfl, rfl⟩

/-- One step of a thread, with what it leaves to do. -/
theorem ioStep_live (m : IoMem) (n : Nat) (k : Nat → Kept) (h : Keeps m n k) (ps : Nat → List IoOp) (l : Live m ps) (t : Nat) (op : IoOp)
    (rest : List IoOp) (hp : ps t = op :: rest) :
    (∃ m', ioStep m t op = .ok (none, m') ∧ Keeps m' n k ∧ Live m' ps) ∨
    (∃ ev m', ioStep m t op = .ok (some ev, m') ∧ (∃ n' k', Keeps m' n' k') ∧ Live m' (fun u => if u = t then rest else ps u)) := by
  unfold ioStep
  rcases hb : ioNeeds op with _ | b
  · obtain ⟨m', e, k', f, s⟩ := access_keeps m n k h op 0 (fun b e => by rw [hb] at e; cases e)
    refine .inr ⟨(told1 op n k).1, m', by simp only [e, Res.ok_bind], ⟨_, _, k'⟩, fun b u hg => ?_⟩
    have hg : m.guard b = .busy u := by
      cases b
      · exact s.symm.trans hg
      · exact f.symm.trans hg
    obtain ⟨o, r, w1, w2⟩ := l b u hg
    have : u ≠ t := by
      rintro rfl
      rw [hp] at w1
      cases w1
      rw [hb] at w2
      cases w2
    exact ⟨o, r, (if_neg this).trans w1, w2⟩
  · simp only
    rcases hg : m.guard b with _ | u | i
    · refine .inl ⟨_, rfl, keeps_busy m n k h b t hg, fun b' u hu => ?_⟩
      by_cases e : b' = b
      · subst e
        rw [(guard_setGuard m b' _).1] at hu
        cases hu
        exact ⟨op, rest, hp, hb⟩
      · have : b' = !b := by cases b <;> cases b' <;> simp_all
        subst this
        rw [(guard_setGuard m b _).2] at hu
        exact l _ u hu
    · by_cases e : u = t
      · simp only [e, if_true]
        refine .inl ⟨_, rfl, keeps_set m n k h b t (e ▸ hg), fun b' v hv => ?_⟩
        by_cases e : b' = b
        · subst e
          rw [(guard_setGuard _ b' _).1] at hv
          cases hv
        · have : b' = !b := by cases b <;> cases b' <;> simp_all
          subst this
          rw [(guard_setGuard _ b _).2] at hv
          refine l (!b) v ?_
          cases b <;> exact hv
      · simp only [e, if_false]
        exact .inl ⟨_, rfl, h, l⟩
    · obtain ⟨m', e, k', f, s⟩ := access_keeps m n k h op i (fun b' e => by rw [hb] at e; cases e; exact hg)
      refine .inr ⟨(told1 op n k).1, m', by simp only [e, Res.ok_bind], ⟨_, _, k'⟩, fun b' u hg' => ?_⟩
      have hg' : m.guard b' = .busy u := by
        cases b'
        · exact s.symm.trans hg'
        · exact f.symm.trans hg'
      obtain ⟨o, r, w1, w2⟩ := l b' u hg'
      have : u ≠ t := by
        rintro rfl
        rw [hp] at w1
        cases w1
        rw [hb] at w2
        cases w2
        rw [hg] at hg'
        cases hg'
      exact ⟨o, r, (if_neg this).trans w1, w2⟩

theorem ioRun_live : ∀ (ts : List Nat) (ps : Nat → List IoOp) (m : IoMem) (n : Nat) (k : Nat → Kept), Keeps m n k → Live m ps →
    ∃ log ps' m' n' k', ioRun ts ps m = .ok (log, ps', m') ∧ Keeps m' n' k' ∧ Live m' ps' ∧ (∀ t, ps t = [] → ps' t = [])
  | [], ps, m, n, k, h, l => ⟨[], ps, m, n, k, rfl, h, l, fun _ h => h⟩
  | t :: ts, ps, m, n, k, h, l => by
    rcases hp : ps t with _ | ⟨op, rest⟩
    · obtain ⟨log, ps', m', n', k', h1, h2⟩ := ioRun_live ts ps m n k h l
      exact ⟨log, ps', m', n', k', by simp only [ioRun, hp]; exact h1, h2⟩
    · rcases ioStep_live m n k h ps l t op rest hp with ⟨m1, e, k1, l1⟩ | ⟨ev, m1, e, ⟨n1, k1, k2⟩, l1⟩
      · obtain ⟨log, ps', m', n', k', h1, h2⟩ := ioRun_live ts ps m1 n k k1 l1
        exact ⟨log, ps', m', n', k', by simp only [ioRun, hp, e, Res.ok_bind]; exact h1, h2⟩
      · obtain ⟨log, ps', m', n', k', h1, h2, h3, h4⟩ := ioRun_live ts (fun u => if u = t then rest else ps u) m1 n1 k1 k2 l1
        refine ⟨(t, op, ev) :: log, ps', m', n', k', by simp only [ioRun, hp, e, Res.ok_bind, h1], h2, h3, fun u hu => h4 u ?_⟩
        have : u ≠ t := by
          rintro rfl
          rw [hp] at hu
          cases hu
        rw [if_neg this]
        exact hu

theorem ioRun_append : ∀ (ts us : List Nat) (ps : Nat → List IoOp) (m : IoMem) (log : List (Nat × IoOp × Option IoEvent))
    (ps' : Nat → List IoOp) (m' : IoMem), ioRun ts ps m = .ok (log, ps', m') → ∀ log' ps'' m'', ioRun us ps' m' = .ok (log', ps'', m'') →
    ioRun (ts ++ us) ps m = .ok (log ++ log', ps'', m'')
  | [], us, ps, m, log, ps', m', h, log', ps'', m'', h' => by
    cases h
    exact h'
  | t :: ts, us, ps, m, log, ps', m', h, log', ps'', m'', h' => by
    rw [List.cons_append]
    rcases hp : ps t with _ | ⟨op, rest⟩
    · simp only [ioRun, hp] at h ⊢
      exact ioRun_append ts us ps m log ps' m' h log' ps'' m'' h'
    · simp only [ioRun, hp] at h ⊢
      obtain ⟨r, r1, r2⟩ := Res.bind_eq_ok.1 h
      rw [r1, Res.ok_bind]
      rcases hr : r.1 with _ | ev
      · simp only [hr] at r2 ⊢
        exact ioRun_append ts us ps r.2 log ps' m' r2 log' ps'' m'' h'
      · simp only [hr] at r2 ⊢
        obtain ⟨⟨q1, q2, q3⟩, q4, q5⟩ := Res.bind_eq_ok.1 r2
        cases q5
        rw [ioRun_append ts us _ r.2 _ _ _ q4 log' ps'' m'' h', Res.ok_bind]
        rfl

/-- A thread that has something to do gets it done in a few steps. -/
theorem ioOne_done (ps : Nat → List IoOp) (m : IoMem) (n : Nat) (k : Nat → Kept) (h : Keeps m n k) (l : Live m ps) (t : Nat) (op : IoOp)
    (rest : List IoOp) (hp : ps t = op :: rest) :
    ∃ ts log m', ioRun ts ps m = .ok (log, (fun u => if u = t then rest else ps u), m') ∧ (∃ n' k', Keeps m' n' k') ∧
      Live m' (fun u => if u = t then rest else ps u) := by
  -- with the variable set
  have last : ∀ (m : IoMem) (n : Nat) (k : Nat → Kept), Keeps m n k → Live m ps → (∀ b, ioNeeds op = some b → ∃ i, m.guard b = .set i) →
      ∃ ts log m', ioRun ts ps m = .ok (log, (fun u => if u = t then rest else ps u), m') ∧ (∃ n' k', Keeps m' n' k') ∧
        Live m' (fun u => if u = t then rest else ps u) := by
    intro m n k h l hs
    rcases ioStep_live m n k h ps l t op rest hp with ⟨m1, e, _⟩ | ⟨ev, m1, e, k1, l1⟩
    · exfalso
      unfold ioStep at e
      rcases hb : ioNeeds op with _ | b
      · rw [hb] at e
        obtain ⟨r, _, r2⟩ := Res.bind_eq_ok.1 e
        cases r2
      · obtain ⟨i, hi⟩ := hs b hb
        simp only [hb, hi] at e
        obtain ⟨r, _, r2⟩ := Res.bind_eq_ok.1 e
        cases r2
    · exact ⟨[t], [(t, op, ev)], m1, by simp only [ioRun, hp, e, Res.ok_bind], k1, l1⟩
  -- after steps that end without an operation
  have more : ∀ (m m1 : IoMem) (u : Nat) (o : IoOp) (r : List IoOp), ps u = o :: r → ioStep m u o = .ok (none, m1) →
      (∃ ts log m', ioRun ts ps m1 = .ok (log, (fun u => if u = t then rest else ps u), m') ∧ (∃ n' k', Keeps m' n' k') ∧
        Live m' (fun u => if u = t then rest else ps u)) →
      ∃ ts log m', ioRun ts ps m = .ok (log, (fun u => if u = t then rest else ps u), m') ∧ (∃ n' k', Keeps m' n' k') ∧
        Live m' (fun u => if u = t then rest else ps u) := by
    rintro m m1 u o r hu e ⟨ts, log, m', e1, e2⟩
    exact ⟨u :: ts, log, m', by simp only [ioRun, hu, e, Res.ok_bind]; exact e1, e2⟩
  -- with the variable being initialised
  have mid : ∀ (m : IoMem) (n : Nat) (k : Nat → Kept), Keeps m n k → Live m ps → ∀ b, ioNeeds op = some b → ∀ v, m.guard b = .busy v →
      ∃ ts log m', ioRun ts ps m = .ok (log, (fun u => if u = t then rest else ps u), m') ∧ (∃ n' k', Keeps m' n' k') ∧
        Live m' (fun u => if u = t then rest else ps u) := by
    intro m n k h l b hb v hv
    obtain ⟨o, r, w1, w2⟩ := l b v hv
    have e : ioStep m v o = .ok (none, { m with next := m.next + 1 }.setGuard b (.set m.next)) := by
      unfold ioStep
      simp only [w2, hv, if_true]
    rcases ioStep_live m n k h ps l v o r w1 with ⟨m1, e1, k1, l1⟩ | ⟨ev, m1, e1, _⟩
    · rw [e] at e1
      cases e1
      refine more m _ v o r w1 e (last _ n k k1 l1 fun b' hb' => ?_)
      rw [hb] at hb'
      cases hb'
      exact ⟨_, (guard_setGuard _ b _).1⟩
    · rw [e] at e1
      cases e1
  rcases hb : ioNeeds op with _ | b
  · exact last m n k h l (fun b e => by rw [hb] at e; cases e)
  · rcases hg : m.guard b with _ | v | i
    · have e : ioStep m t op = .ok (none, m.setGuard b (.busy t)) := by
        unfold ioStep
        simp only [hb, hg]
      rcases ioStep_live m n k h ps l t op rest hp with ⟨m1, e1, k1, l1⟩ | ⟨ev, m1, e1, _⟩
      · rw [e] at e1
        cases e1
        exact more m _ t op rest hp e (mid _ n k k1 l1 b hb t (guard_setGuard m b _).1)
      · rw [e] at e1
        cases e1
    · exact mid m n k h l b hb v hg
    · exact last m n k h l (fun b' e => by rw [hb] at e; cases e; exact ⟨i, hg⟩)

theorem ioFinish (N : Nat) : ∀ (c : Nat) (ps : Nat → List IoOp) (m : IoMem) (n : Nat) (k : Nat → Kept), Keeps m n k → Live m ps →
    (∀ t, N ≤ t → ps t = []) → ((List.range N).map fun t => (ps t).length).sum = c →
    ∃ ts log m', ioRun ts ps m = .ok (log, (fun _ => []), m')
  | c, ps, m, n, k, h, l, hN, hc => by
    by_cases all : ∀ t, ps t = []
    · refine ⟨[], [], m, ?_⟩
      have : ps = fun _ => [] := funext all
      rw [this]
      rfl
    · obtain ⟨t, ht⟩ := Classical.not_forall.1 all
      have tl : t < N := by
        by_contra hh
        exact ht (hN t (Nat.not_lt.1 hh))
      obtain ⟨op, rest, hp⟩ := List.exists_cons_of_ne_nil ht
      obtain ⟨ts, log, m1, e1, ⟨n1, k1, k2⟩, l1⟩ := ioOne_done ps m n k h l t op rest hp
      have less : ((List.range N).map fun u => (if u = t then rest else ps u).length).sum < c := by
        rw [← hc]
        refine List.sum_lt_sum _ _ (fun i _ => ?_) ⟨t, List.mem_range.2 tl, ?_⟩
        · split
          · next e => rw [e, hp]; simp
          · exact Nat.le_refl _
        · simp [hp]
      obtain ⟨us, log', m2, e2⟩ := ioFinish N _ _ m1 n1 k1 k2 l1 (fun u hu => by
        have : u ≠ t := by omega
        rw [if_neg this]
        exact hN u hu) rfl
      exact ⟨ts ++ us, log ++ log', m2, ioRun_append ts us ps m _ _ _ e1 _ _ _ e2⟩
  termination_by c => c

end Ip
