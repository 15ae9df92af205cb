import Verif.Spec.Keyed
import Verif.Spec.Compare
/-
Containers over a total order, and over an equivalence with a hash that respects it.
-/
set_option autoImplicit false

namespace Ip
open Spec

variable {K M : Type} {lt : K → K → Res Bool} {good : K → Prop} {key : K → M} {R : M → M → Prop}

/-- Elements before a position are less, the others are not. -/
theorem KTree.lower_eq (hl : ∀ a b, good a → good b → ∃ r, lt a b = .ok r ∧ (r = true ↔ R (key a) (key b)))
    (ht : ∀ x y z, R x y → R y z → R x z) (hi : ∀ x y, R x y → R y x → False) (k : K) (hk : good k) :
    ∀ t : KTree K, (∀ x ∈ t.keys, good x) → t.keys.Pairwise (fun a b => R (key a) (key b)) →
      ∃ a b, t.lower lt k = .ok a.length ∧ t.keys = a ++ b ∧ (∀ x ∈ a, R (key x) (key k)) ∧ ∀ x ∈ b, ¬ R (key x) (key k)
  | .leaf, _, _ => ⟨[], [], rfl, rfl, by simp, by simp⟩
  | .node l x r, hg, hs => by
    simp only [KTree.keys] at hg hs
    rw [List.pairwise_append] at hs
    obtain ⟨s1, s2, s3⟩ := hs
    rw [List.pairwise_cons] at s2
    obtain ⟨v, v1, v2⟩ := hl x k (hg x (by simp)) hk
    unfold KTree.lower
    rw [v1]
    cases v with
    | true =>
      obtain ⟨a, b, h1, h2, h3, h4⟩ := KTree.lower_eq hl ht hi k hk r (fun y hy => hg y (by simp [hy])) s2.2
      refine ⟨l.keys ++ x :: a, b, ?_, by simp [KTree.keys, h2], ?_, h4⟩
      · show (r.lower lt k >>= fun i => Res.ok (l.keys.length + 1 + i)) = _
        rw [h1]
        show Res.ok _ = Res.ok _
        congr 1
        simp only [List.length_append, List.length_cons]; omega
      · intro y hy
        have hx := v2.1 rfl
        rw [List.mem_append, List.mem_cons] at hy
        rcases hy with hy | rfl | hy
        · exact ht _ _ _ (s3 y hy x (by simp)) hx
        · exact hx
        · exact h3 y hy
    | false =>
      obtain ⟨a, b, h1, h2, h3, h4⟩ := KTree.lower_eq hl ht hi k hk l (fun y hy => hg y (by simp [hy])) s1
      refine ⟨a, b ++ x :: r.keys, h1, by simp [KTree.keys, h2], h3, ?_⟩
      have hx : ¬ R (key x) (key k) := fun h => by simpa using v2.2 h
      intro y hy
      rw [List.mem_append, List.mem_cons] at hy
      rcases hy with hy | rfl | hy
      · exact h4 y hy
      · exact hx
      · exact fun h => hx (ht _ _ _ (s2.1 y hy) h)

/-- Elements before the place of insertion are not greater, the others are. -/
theorem KTree.upper_eq (hl : ∀ a b, good a → good b → ∃ r, lt a b = .ok r ∧ (r = true ↔ R (key a) (key b)))
    (ht : ∀ x y z, R x y → R y z → R x z) (k : K) (hk : good k) :
    ∀ t : KTree K, (∀ x ∈ t.keys, good x) → t.keys.Pairwise (fun a b => R (key a) (key b)) →
      ∃ a b, t.upper lt k = .ok a.length ∧ t.keys = a ++ b ∧ (∀ x ∈ a, ¬ R (key k) (key x)) ∧ ∀ x ∈ b, R (key k) (key x)
  | .leaf, _, _ => ⟨[], [], rfl, rfl, by simp, by simp⟩
  | .node l x r, hg, hs => by
    simp only [KTree.keys] at hg hs
    rw [List.pairwise_append] at hs
    obtain ⟨s1, s2, s3⟩ := hs
    rw [List.pairwise_cons] at s2
    obtain ⟨v, v1, v2⟩ := hl k x hk (hg x (by simp))
    unfold KTree.upper
    rw [v1]
    cases v with
    | true =>
      obtain ⟨a, b, h1, h2, h3, h4⟩ := KTree.upper_eq hl ht k hk l (fun y hy => hg y (by simp [hy])) s1
      refine ⟨a, b ++ x :: r.keys, h1, by simp [KTree.keys, h2], h3, ?_⟩
      have hx := v2.1 rfl
      intro y hy
      rw [List.mem_append, List.mem_cons] at hy
      rcases hy with hy | rfl | hy
      · exact h4 y hy
      · exact hx
      · exact ht _ _ _ hx (s2.1 y hy)
    | false =>
      obtain ⟨a, b, h1, h2, h3, h4⟩ := KTree.upper_eq hl ht k hk r (fun y hy => hg y (by simp [hy])) s2.2
      refine ⟨l.keys ++ x :: a, b, ?_, by simp [KTree.keys, h2], ?_, h4⟩
      · show (r.upper lt k >>= fun i => Res.ok (l.keys.length + 1 + i)) = _
        rw [h1]
        show Res.ok _ = Res.ok _
        congr 1
        simp only [List.length_append, List.length_cons]; omega
      · intro y hy
        have hx : ¬ R (key k) (key x) := fun h => by simpa using v2.2 h
        rw [List.mem_append, List.mem_cons] at hy
        rcases hy with hy | rfl | hy
        · exact fun h => hx (ht _ _ _ h (s3 y hy x (by simp)))
        · exact hx
        · exact h3 y hy

/-- What a set looks like after a history. -/
structure SetInv (good : K → Prop) (key : K → M) (R : M → M → Prop) (history : List (KeyCall K)) (l : List K) : Prop where
  good : ∀ x ∈ l, good x
  sorted : l.Pairwise fun a b => R (key a) (key b)
  mem : ∀ k, (∃ x ∈ l, key k = key x) ↔ Held (fun a b => key a = key b) k history

/-- One call. -/
theorem set_call (hl : ∀ a b, good a → good b → ∃ r, lt a b = .ok r ∧ (r = true ↔ R (key a) (key b)))
    (ht : ∀ x y z, R x y → R y z → R x z) (hi : ∀ x y, OneOf (R x y) (x = y) (R y x))
    (history : List (KeyCall K)) (t : KTree K) (h : SetInv good key R history t.keys) (c : KeyCall K) (hc : good c.key) :
    ∃ l b, t.call lt c = .ok (l, b) ∧ Answered (fun a b => key a = key b) history c b ∧ SetInv good key R (c :: history) l := by
  have hasym : ∀ x y, R x y → R y x → False := fun x y a b => (hi x y).2.2.1 ⟨a, b⟩
  have hirr : ∀ x y, R x y → x ≠ y := fun x y a b => (hi x y).2.1 ⟨a, b⟩
  have htri : ∀ x y, ¬ R x y → ¬ R y x → x = y := fun x y a b => by
    rcases (hi x y).1 with h | h | h
    · exact absurd h a
    · exact h
    · exact absurd h b
  -- the position of a key
  have pos : ∀ k, good k → (∃ a x b, t.position lt k = .ok (some a.length) ∧ t.keys = a ++ x :: b ∧ key k = key x) ∨
      (t.position lt k = .ok none ∧ ∀ x ∈ t.keys, key k ≠ key x) := by
    intro k hk
    obtain ⟨a, b, h1, h2, h3, h4⟩ := KTree.lower_eq hl ht hasym k hk t h.good h.sorted
    unfold KTree.position
    rw [h1]
    show (∃ a' x b', (match t.keys[a.length]? with
        | none => Res.ok none
        | some x => do
          if ← lt k x then .ok none else .ok (some a.length)) = .ok (some (List.length a')) ∧ _ = a' ++ x :: b' ∧ _) ∨ _
    cases b with
    | nil =>
      right
      have : t.keys[a.length]? = none := by rw [h2]; simp
      constructor
      · show (match t.keys[a.length]? with
          | none => Res.ok none
          | some x => do
            if ← lt k x then .ok none else .ok (some a.length)) = _
        rw [this]
      · intro x hx e
        rw [h2] at hx
        exact hirr _ _ (h3 x (by simpa using hx)) e.symm
    | cons x b =>
      have e : t.keys[a.length]? = some x := by rw [h2]; simp
      obtain ⟨v, v1, v2⟩ := hl k x hk (h.good x (by rw [h2]; simp))
      have hs := h.sorted
      rw [h2, List.pairwise_append] at hs
      have hs2 := List.pairwise_cons.1 hs.2.1
      cases v with
      | true =>
        right
        constructor
        · show (match t.keys[a.length]? with
            | none => Res.ok none
            | some x => do
              if ← lt k x then .ok none else .ok (some a.length)) = _
          rw [e]
          show (lt k x >>= _) = _
          rw [v1]
          rfl
        · intro y hy
          rw [h2, List.mem_append, List.mem_cons] at hy
          have hkx := v2.1 rfl
          rcases hy with hy | rfl | hy
          · exact fun e => hirr _ _ (h3 y hy) e.symm
          · exact hirr _ _ hkx
          · exact hirr _ _ (ht _ _ _ hkx (hs2.1 y hy))
      | false =>
        left
        refine ⟨a, x, b, ?_, h2, htri _ _ (fun g => by simpa using v2.2 g) (h4 x (by simp))⟩
        rw [e]
        show (lt k x >>= _) = _
        rw [v1]
        rfl
  cases c with
  | insert k =>
    have hk : good k := hc
    obtain ⟨a, b, h1, h2, h3, h4⟩ := KTree.upper_eq hl ht k hk t h.good h.sorted
    -- the new key fits in between
    have fits : (∀ x ∈ a, R (key x) (key k)) → SetInv good key R (.insert k :: history) (a ++ k :: b) ∧
        ¬ Held (fun a b => key a = key b) k history := by
      intro ha
      have hs := h.sorted
      rw [h2, List.pairwise_append] at hs
      refine ⟨⟨?_, ?_, ?_⟩, ?_⟩
      · intro x hx
        rw [List.mem_append, List.mem_cons] at hx
        rcases hx with hx | rfl | hx
        · exact h.good x (by rw [h2]; simp [hx])
        · exact hk
        · exact h.good x (by rw [h2]; simp [hx])
      · rw [List.pairwise_append, List.pairwise_cons]
        refine ⟨hs.1, ⟨h4, hs.2.1⟩, ?_⟩
        intro x hx y hy
        rw [List.mem_cons] at hy
        rcases hy with rfl | hy
        · exact ha x hx
        · exact hs.2.2 x hx y hy
      · intro j
        show _ ↔ key j = key k ∨ Held _ j history
        rw [← h.mem j, h2]
        constructor
        · rintro ⟨x, hx, e⟩
          rw [List.mem_append, List.mem_cons] at hx
          rcases hx with hx | rfl | hx
          · exact .inr ⟨x, by simp [hx], e⟩
          · exact .inl e
          · exact .inr ⟨x, by simp [hx], e⟩
        · rintro (e | ⟨x, hx, e⟩)
          · exact ⟨k, by simp, e⟩
          · rw [List.mem_append] at hx
            exact ⟨x, by rcases hx with hx | hx <;> simp [hx], e⟩
      · rw [← h.mem k, h2]
        rintro ⟨x, hx, e⟩
        rw [List.mem_append] at hx
        rcases hx with hx | hx
        · exact hirr _ _ (ha x hx) e.symm
        · exact hirr _ _ (h4 x hx) e
    show ∃ l b, (t.upper lt k >>= _) = _ ∧ _
    rw [h1]
    rcases List.eq_nil_or_concat a with rfl | ⟨a', p, rfl⟩
    · obtain ⟨f1, f2⟩ := fits (by simp)
      refine ⟨k :: t.keys, true, rfl, by simp only [Answered, true_iff]; exact f2, ?_⟩
      rw [h2]
      exact f1
    · have e : t.keys[a'.length]? = some p := by rw [h2]; simp
      obtain ⟨v, v1, v2⟩ := hl p k (h.good p (by rw [h2]; simp)) hk
      have hlen : (a'.concat p).length = a'.length + 1 := by simp
      rw [hlen]
      show ∃ l b, (match t.keys[a'.length]? with
        | none => Res.ub
        | some p => do
          if ← lt p k then .ok (t.keys.take (a'.length + 1) ++ k :: t.keys.drop (a'.length + 1), true) else .ok (t.keys, false)) = _ ∧ _
      rw [e]
      show ∃ l b, (lt p k >>= _) = _ ∧ _
      rw [v1]
      cases v with
      | true =>
        have hp := v2.1 rfl
        have hs := h.sorted
        rw [h2, List.concat_eq_append, List.append_assoc, List.pairwise_append] at hs
        obtain ⟨f1, f2⟩ := fits (by
          intro x hx
          rw [List.concat_eq_append, List.mem_append, List.mem_singleton] at hx
          rcases hx with hx | rfl
          · exact ht _ _ _ (hs.2.2 x hx p (by simp)) hp
          · exact hp)
        refine ⟨_, true, rfl, by simp only [Answered, true_iff]; exact f2, ?_⟩
        have ht1 : t.keys.take (a'.length + 1) = a'.concat p := by rw [h2, ← hlen, List.take_left]
        have ht2 : t.keys.drop (a'.length + 1) = b := by rw [h2, ← hlen, List.drop_left]
        rw [ht1, ht2]
        exact f1
      | false =>
        have hp : key p = key k := htri _ _ (fun g => by simpa using v2.2 g) (h3 p (by simp))
        have hheld : Held (fun a b => key a = key b) k history := (h.mem k).1 ⟨p, by rw [h2]; simp, hp.symm⟩
        refine ⟨t.keys, false, rfl, by simp [Answered, hheld], h.good, h.sorted, fun j => ?_⟩
        show _ ↔ key j = key k ∨ Held _ j history
        rw [h.mem j]
        refine ⟨.inr, ?_⟩
        rintro (e | e)
        · exact (h.mem j).1 ⟨p, by rw [h2]; simp, by rw [e, hp]⟩
        · exact e
  | erase k =>
    have hk : good k := hc
    show ∃ l b, (t.position lt k >>= _) = _ ∧ _
    rcases pos k hk with ⟨a, x, b, p1, p2, p3⟩ | ⟨p1, p2⟩
    · rw [p1]
      have hheld : Held (fun a b => key a = key b) k history := (h.mem k).1 ⟨x, by rw [p2]; simp, p3⟩
      refine ⟨_, true, rfl, by simp [Answered, hheld], ?_⟩
      have e1 : t.keys.take a.length = a := by rw [p2, List.take_left]
      have e2 : t.keys.drop (a.length + 1) = b := by
        rw [p2]
        have : a ++ x :: b = (a ++ [x]) ++ b := by simp
        rw [this]
        exact List.drop_left' (by simp)
      rw [e1, e2]
      have hs := h.sorted
      rw [p2, List.pairwise_append, List.pairwise_cons] at hs
      refine ⟨fun y hy => h.good y ?_, ?_, fun j => ?_⟩
      · rw [p2]; rw [List.mem_append] at hy; rcases hy with hy | hy <;> simp [hy]
      · rw [List.pairwise_append]
        exact ⟨hs.1, hs.2.1.2, fun y hy z hz => hs.2.2 y hy z (by simp [hz])⟩
      · show _ ↔ ¬ key j = key k ∧ Held _ j history
        rw [← h.mem j, p2, p3]
        constructor
        · rintro ⟨y, hy, e⟩
          rw [List.mem_append] at hy
          refine ⟨?_, y, by rcases hy with hy | hy <;> simp [hy], e⟩
          rw [e]
          rcases hy with hy | hy
          · exact hirr _ _ (hs.2.2 y hy x (by simp))
          · exact fun g => hirr _ _ (hs.2.1.1 y hy) g.symm
        · rintro ⟨n, y, hy, e⟩
          rw [List.mem_append, List.mem_cons] at hy
          rcases hy with hy | rfl | hy
          · exact ⟨y, by simp [hy], e⟩
          · exact absurd e n
          · exact ⟨y, by simp [hy], e⟩
    · rw [p1]
      have hheld : ¬ Held (fun a b => key a = key b) k history := fun g => by
        obtain ⟨x, hx, e⟩ := (h.mem k).2 g
        exact p2 x hx e
      refine ⟨t.keys, false, rfl, by simp [Answered, hheld], h.good, h.sorted, fun j => ?_⟩
      show _ ↔ ¬ key j = key k ∧ Held _ j history
      rw [← h.mem j]
      constructor
      · rintro ⟨x, hx, e⟩
        exact ⟨fun g => p2 x hx (by rw [← g, e]), x, hx, e⟩
      · exact fun g => g.2
  | find k =>
    have hk : good k := hc
    show ∃ l b, (t.position lt k >>= _) = _ ∧ _
    rcases pos k hk with ⟨a, x, b, p1, p2, p3⟩ | ⟨p1, p2⟩
    · rw [p1]
      have hheld : Held (fun a b => key a = key b) k history := (h.mem k).1 ⟨x, by rw [p2]; simp, p3⟩
      exact ⟨t.keys, true, rfl, by simp [Answered, hheld], h.good, h.sorted, h.mem⟩
    · rw [p1]
      have hheld : ¬ Held (fun a b => key a = key b) k history := fun g => by
        obtain ⟨x, hx, e⟩ := (h.mem k).2 g
        exact p2 x hx e
      exact ⟨t.keys, false, rfl, by simp [Answered, hheld], h.good, h.sorted, h.mem⟩

/-- Sets work when `lt` is a total order of the keys. -/
theorem sets_work (hl : ∀ a b, good a → good b → ∃ r, lt a b = .ok r ∧ (r = true ↔ R (key a) (key b)))
    (ht : ∀ x y z, R x y → R y z → R x z) (hi : ∀ x y, OneOf (R x y) (x = y) (R y x)) :
    SetsWork lt (fun a b => key a = key b) good := by
  have inv : ∀ history t, SetAfter lt good history t → SetInv good key R history t.keys := by
    intro history t h
    induction h with
    | empty => exact ⟨by simp [KTree.keys], by simp [KTree.keys], by simp [KTree.keys, Held]⟩
    | call _ hg hc hu ih =>
      obtain ⟨l', b', h1, _, h3⟩ := set_call hl ht hi _ _ ih _ hg
      rw [hc] at h1
      cases h1
      rw [hu]
      exact h3
  intro history t h
  have I := inv history t h
  refine ⟨I.mem, ?_, ?_⟩
  · refine I.sorted.imp_of_mem fun {a b} ha hb r => ?_
    obtain ⟨v, v1, v2⟩ := hl a b (I.good a ha) (I.good b hb)
    exact ⟨fun e => (hi _ _).2.1 ⟨r, e⟩, by rw [v1, v2.2 r]⟩
  · intro c hc
    obtain ⟨l, b, h1, h2, _⟩ := set_call hl ht hi history t I c hc
    exact ⟨l, b, h1, h2⟩

/-- Sets do not work when two keys are each less than the other. -/
theorem sets_fail {same : K → K → Prop} (hr : ∀ a, good a → same a a) (a b : K) (ha : good a) (hb : good b)
    (h1 : lt a b = .ok true) (h2 : lt b a = .ok true) : ¬ SetsWork lt same good := by
  intro h
  have s1 : SetAfter lt good [.insert a] (.node .leaf a .leaf) :=
    .call (c := .insert a) (l := [a]) (b := true) .empty ha rfl rfl
  have s2 : SetAfter lt good [.insert b, .insert a] (.node (.node .leaf b .leaf) a .leaf) := by
    refine .call (c := .insert b) (l := [b, a]) (b := true) s1 hb ?_ rfl
    show (((lt b a) >>= _) >>= _) = _
    rw [h2]
    rfl
  obtain ⟨l, x, k1, k2⟩ := (h _ _ s2).2.2 (.find b) hb
  have : (KTree.node (.node .leaf b .leaf) a .leaf).call lt (.find b) = .ok ([b, a], false) := by
    show ((((lt a b) >>= _) >>= _) >>= _) = _
    rw [h1]
    rfl
  rw [this] at k1
  cases k1
  exact absurd (k2.2 (.inl (hr b hb))) (by simp)

/-! ### Hash tables -/

/-- The search finds a key exactly if it is there. -/
theorem bucketFind_eq {w : Nat} {eq : K → K → Res Bool} {hash : K → Res (BitVec w)} {same : K → K → Prop}
    (he : ∀ a b, good a → good b → ∃ r, eq a b = .ok r ∧ (r = true ↔ same a b))
    (hh : ∀ a, good a → ∃ x, hash a = .ok x) (hc : ∀ a b, good a → good b → same a b → hash a = hash b)
    (n : Nat) (k : K) (hk : good k) :
    ∀ s : List K, (∀ x ∈ s, good x) →
      (∃ a x b, bucketFind eq hash n k s = .ok (some a.length) ∧ s = a ++ x :: b ∧ same k x) ∨
      (bucketFind eq hash n k s = .ok none ∧ ∀ x ∈ s, ¬ same k x)
  | [], _ => .inr ⟨rfl, by simp⟩
  | x :: rest, hg => by
    obtain ⟨u, u1⟩ := hh k hk
    obtain ⟨v, v1⟩ := hh x (hg x (by simp))
    obtain ⟨r, r1, r2⟩ := he k x hk (hg x (by simp))
    have ih := bucketFind_eq he hh hc n k hk rest (fun y hy => hg y (by simp [hy]))
    have step : same k x → u = v := fun h => by
      have := hc k x hk (hg x (by simp)) h
      rw [u1, v1] at this
      exact Res.ok.inj this
    have fin : ¬ same k x → (∃ a y b, (bucketFind eq hash n k rest >>= fun i => Res.ok (i.map (· + 1))) = .ok (some (List.length a)) ∧
        x :: rest = a ++ y :: b ∧ same k y) ∨
        ((bucketFind eq hash n k rest >>= fun i => Res.ok (i.map (· + 1))) = .ok none ∧ ∀ y ∈ x :: rest, ¬ same k y) := by
      intro hn
      rcases ih with ⟨a, y, b, i1, i2, i3⟩ | ⟨i1, i2⟩
      · left
        refine ⟨x :: a, y, b, ?_, by rw [i2]; rfl, i3⟩
        rw [i1]
        rfl
      · right
        rw [i1]
        refine ⟨rfl, ?_⟩
        intro y hy
        rw [List.mem_cons] at hy
        rcases hy with rfl | hy
        · exact hn
        · exact i2 y hy
    have red : bucketFind eq hash n k (x :: rest) =
        if u.toNat % n = v.toNat % n then (if r = true then .ok (some 0) else bucketFind eq hash n k rest >>= fun i => Res.ok (i.map (· + 1)))
        else bucketFind eq hash n k rest >>= fun i => Res.ok (i.map (· + 1)) := by
      rw [bucketFind]
      simp only [u1, v1, r1, Res.ok_bind]
    rw [red]
    by_cases hb : u.toNat % n = v.toNat % n
    · rw [if_pos hb]
      by_cases hr : r = true
      · rw [if_pos hr]
        exact .inl ⟨[], x, rest, rfl, rfl, r2.1 hr⟩
      · rw [if_neg hr]
        exact fin (fun h => hr (r2.2 h))
    · rw [if_neg hb]
      exact fin (fun h => hb (by rw [step h]))

/-- What a hash table looks like after a history. -/
structure TableInv (good : K → Prop) (key : K → M) (history : List (KeyCall K)) (l : List K) : Prop where
  good : ∀ x ∈ l, good x
  once : (l.map key).Nodup
  mem : ∀ k, (∃ x ∈ l, key k = key x) ↔ Held (fun a b => key a = key b) k history

/-- Hash tables work when `==` is equality of meanings and equal keys have equal hashes. -/
theorem tables_work {w : Nat} {eq : K → K → Res Bool} {hash : K → Res (BitVec w)}
    (he : ∀ a b, good a → good b → ∃ r, eq a b = .ok r ∧ (r = true ↔ key a = key b))
    (hh : ∀ a, good a → ∃ x, hash a = .ok x) (hc : ∀ a b, good a → good b → key a = key b → hash a = hash b) :
    TablesWork eq hash (fun a b => key a = key b) good := by
  have one : ∀ history n s, TableInv good key history s → ∀ c : KeyCall K, good c.key →
      ∃ l b, bucketCall eq hash n s c = .ok (l, b) ∧ Answered (fun a b => key a = key b) history c b ∧
        TableInv good key (c :: history) l := by
    intro history n s h c hg
    have pos := bucketFind_eq (same := fun a b => key a = key b) he hh hc n c.key hg s h.good
    have yes : ∀ a x b, s = a ++ x :: b → key c.key = key x → Held (fun a b => key a = key b) c.key history :=
      fun a x b e k => (h.mem _).1 ⟨x, by rw [e]; simp, k⟩
    have no : (∀ x ∈ s, ¬ key c.key = key x) → ¬ Held (fun a b => key a = key b) c.key history := fun hn g => by
      obtain ⟨x, hx, e⟩ := (h.mem _).2 g
      exact hn x hx e
    cases c with
    | insert k =>
      show ∃ l b, (bucketFind eq hash n k s >>= _) = _ ∧ _
      rcases pos with ⟨a, x, b, p1, p2, p3⟩ | ⟨p1, p2⟩
      · have p1' : bucketFind eq hash n k s = _ := p1
        rw [p1']
        refine ⟨s, false, rfl, by have := yes a x b p2 p3; simpa [Answered, KeyCall.key] using this, h.good, h.once, fun j => ?_⟩
        show _ ↔ key j = key k ∨ Held _ j history
        rw [h.mem j]
        refine ⟨.inr, ?_⟩
        rintro (e | e)
        · exact (h.mem j).1 ⟨x, by rw [p2]; simp, by rw [e]; exact p3⟩
        · exact e
      · have p1' : bucketFind eq hash n k s = _ := p1
        rw [p1']
        refine ⟨k :: s, true, rfl, by have := no p2; simpa [Answered, KeyCall.key] using this, ?_, ?_, fun j => ?_⟩
        · intro x hx
          rw [List.mem_cons] at hx
          rcases hx with rfl | hx
          · exact hg
          · exact h.good x hx
        · rw [List.map_cons, List.nodup_cons]
          refine ⟨?_, h.once⟩
          rw [List.mem_map]
          rintro ⟨x, hx, e⟩
          exact p2 x hx e.symm
        · show _ ↔ key j = key k ∨ Held _ j history
          rw [← h.mem j]
          simp
    | erase k =>
      show ∃ l b, (bucketFind eq hash n k s >>= _) = _ ∧ _
      rcases pos with ⟨a, x, b, p1, p2, p3⟩ | ⟨p1, p2⟩
      · have p1' : bucketFind eq hash n k s = _ := p1
        rw [p1']
        refine ⟨_, true, rfl, by have := yes a x b p2 p3; simpa [Answered, KeyCall.key] using this, ?_⟩
        have e1 : s.take a.length = a := by rw [p2, List.take_left]
        have e2 : s.drop (a.length + 1) = b := by
          rw [p2]
          have : a ++ x :: b = (a ++ [x]) ++ b := by simp
          rw [this]
          exact List.drop_left' (by simp)
        rw [e1, e2]
        have p3' : key k = key x := p3
        have ho := h.once
        rw [p2, List.map_append, List.map_cons, List.nodup_append, List.nodup_cons] at ho
        obtain ⟨o1, ⟨o2, o3⟩, o4⟩ := ho
        refine ⟨fun y hy => h.good y ?_, ?_, fun j => ?_⟩
        · rw [p2]; rw [List.mem_append] at hy; rcases hy with hy | hy <;> simp [hy]
        · rw [List.map_append, List.nodup_append]
          exact ⟨o1, o3, fun y hy z hz => o4 y hy z (by simp [hz])⟩
        · show _ ↔ ¬ key j = key k ∧ Held _ j history
          rw [← h.mem j, p2, p3']
          constructor
          · rintro ⟨y, hy, e⟩
            rw [List.mem_append] at hy
            refine ⟨?_, y, by rcases hy with hy | hy <;> simp [hy], e⟩
            rw [e]
            rcases hy with hy | hy
            · exact o4 (key y) (List.mem_map_of_mem hy) (key x) (by simp)
            · exact fun g => o2 (by rw [← g]; exact List.mem_map_of_mem hy)
          · rintro ⟨n, y, hy, e⟩
            rw [List.mem_append, List.mem_cons] at hy
            rcases hy with hy | rfl | hy
            · exact ⟨y, by simp [hy], e⟩
            · exact absurd e n
            · exact ⟨y, by simp [hy], e⟩
      · have p1' : bucketFind eq hash n k s = _ := p1
        rw [p1']
        refine ⟨s, false, rfl, by have := no p2; simpa [Answered, KeyCall.key] using this, h.good, h.once, fun j => ?_⟩
        show _ ↔ ¬ key j = key k ∧ Held _ j history
        rw [← h.mem j]
        constructor
        · rintro ⟨x, hx, e⟩
          exact ⟨fun g => p2 x hx (show key k = key x by rw [← g, e]), x, hx, e⟩
        · exact fun g => g.2
    | find k =>
      show ∃ l b, (bucketFind eq hash n k s >>= _) = _ ∧ _
      rcases pos with ⟨a, x, b, p1, p2, p3⟩ | ⟨p1, p2⟩
      · have p1' : bucketFind eq hash n k s = _ := p1
        rw [p1']
        exact ⟨s, true, rfl, by have := yes a x b p2 p3; simpa [Answered, KeyCall.key] using this, h.good, h.once, h.mem⟩
      · have p1' : bucketFind eq hash n k s = _ := p1
        rw [p1']
        exact ⟨s, false, rfl, by have := no p2; simpa [Answered, KeyCall.key] using this, h.good, h.once, h.mem⟩
  have inv : ∀ history n s, TableAfter eq hash good history n s → TableInv good key history s := by
    intro history n s h
    induction h with
    | empty => exact ⟨by simp, by simp, by simp [Held]⟩
    | call _ hg hc hp ih =>
      obtain ⟨l', b', h1, _, h3⟩ := one _ _ _ ih _ hg
      rw [hc] at h1
      cases h1
      exact ⟨fun x hx => h3.good x (hp.mem_iff.1 hx), (hp.map key).nodup_iff.2 h3.once, fun k => by
        rw [← h3.mem k]
        exact ⟨fun ⟨x, hx, e⟩ => ⟨x, hp.mem_iff.1 hx, e⟩, fun ⟨x, hx, e⟩ => ⟨x, hp.mem_iff.2 hx, e⟩⟩⟩
  intro history n s h
  have I := inv history n s h
  refine ⟨I.mem, List.pairwise_map.1 I.once, ?_⟩
  intro c hg
  obtain ⟨l, b, h1, h2, _⟩ := one history n s I c hg
  exact ⟨l, b, h1, h2⟩

end Ip
