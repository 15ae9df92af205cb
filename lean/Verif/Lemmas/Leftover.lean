import Verif.Lemmas.FamHom
/-
The characters that an exchange leaves behind the end of a scope id: no function of the library sees them.
-/
set_option autoImplicit false

namespace Ip
open Spec

/-- The array without what is behind the first `n` characters. -/
def blank (n : Nat) (l : List Char) : List Char := l.mapIdx fun i c => if i < n then c else '\x00'

/-- The string without leftovers. -/
def FStr.norm (f : FStr) : FStr := ⟨blank f.length f.data, f.length⟩

/-- The address without leftovers. -/
def V6.norm (a : V6) : V6 := ⟨a.bytes, a.scope.norm⟩

theorem blank_length (n : Nat) (l : List Char) : (blank n l).length = l.length := by simp [blank]

theorem rd_blank (n i : Nat) (l : List Char) (h : i < n) : rd (blank n l) i = rd l i := by
  simp only [rd, blank, List.getElem?_mapIdx]
  cases l[i]? with
  | none => rfl
  | some x => simp [h]

theorem blank_padded (w : List Char) (k : Nat) : blank w.length (w ++ List.replicate k '\x00') = w ++ List.replicate k '\x00' := by
  apply List.ext_getElem?
  intro i
  simp only [blank, List.getElem?_mapIdx]
  by_cases h : i < w.length
  · cases (w ++ List.replicate k '\x00')[i]? <;> simp [h]
  · rw [List.getElem?_append_right (by omega), List.getElem?_replicate]
    split <;> simp [h]

theorem empty_norm (M : Nat) : (emptyScope M).norm = emptyScope M := by
  have := blank_padded [] M
  simp only [List.nil_append, List.length_nil] at this
  simp only [FStr.norm, emptyScope, this]

theorem ofEventsLoop_padded : ∀ (n : Nat) (evs : List Ev) (w : List Char) (k : Nat) (d : List Char) (len : Nat),
    FStr.ofEventsLoop n evs (w ++ List.replicate k '\x00') w.length = .ok (d, len) →
      ∃ w' k', d = w' ++ List.replicate k' '\x00' ∧ len = w'.length
  | 0, evs, w, k, d, len, h => by
    simp only [FStr.ofEventsLoop, Res.ok.injEq, Prod.mk.injEq] at h
    exact ⟨w, k, h.1.symm, h.2.symm⟩
  | n + 1, [], w, k, d, len, h => by
    simp only [FStr.ofEventsLoop, Res.ok.injEq, Prod.mk.injEq] at h
    exact ⟨w, k, h.1.symm, h.2.symm⟩
  | n + 1, .bad code sym :: rest, w, k, d, len, h => by simp [FStr.ofEventsLoop] at h
  | n + 1, .ch c :: rest, w, 0, d, len, h => by
    simp only [FStr.ofEventsLoop] at h
    obtain ⟨x, hx, -⟩ := Res.bind_eq_ok.1 h
    simp [wr] at hx
  | n + 1, .ch c :: rest, w, k + 1, d, len, h => by
    simp only [FStr.ofEventsLoop] at h
    obtain ⟨x, hx, h⟩ := Res.bind_eq_ok.1 h
    have e : x = w ++ c :: List.replicate k '\x00' := by
      simp only [wr] at hx
      split at hx
      · rw [← Res.ok.inj hx]; simp [List.replicate_succ]
      · cases hx
    split at h
    · next hc =>
      simp only [Res.ok.injEq, Prod.mk.injEq] at h
      exact ⟨w, k + 1, by rw [← h.1, e, hc, List.replicate_succ], h.2.symm⟩
    · rw [e, show w ++ c :: List.replicate k '\x00' = (w ++ [c]) ++ List.replicate k '\x00' by simp,
        show w.length + 1 = (w ++ [c]).length by simp] at h
      exact ofEventsLoop_padded n rest (w ++ [c]) k d len h

theorem mkFixed_norm (arr : List Char) : (mkFixed arr).image FStr.norm = mkFixed arr := by
  rcases hm : mkFixed arr with f | ⟨e, v⟩ | _
  · show Res.ok f.norm = Res.ok f
    unfold mkFixed FStr.ofEvents at hm
    obtain ⟨⟨d, len⟩, h1, h2⟩ := Res.bind_eq_ok.1 hm
    obtain ⟨w, k, hw, hl⟩ := ofEventsLoop_padded _ _ [] _ d len h1
    rw [← Res.ok.inj h2, hw, hl]
    simp only [FStr.norm, blank_padded]
  · rfl
  · rfl

theorem compareLoop_norm (val : Char → Int) (a b : FStr) : ∀ (n i : Nat),
    FStr.compareLoop val a.norm b.norm n i = FStr.compareLoop val a b n i
  | 0, i => rfl
  | n + 1, i => by
    simp only [FStr.compareLoop, compareLoop_norm val a b n (i + 1)]
    by_cases h : i < a.length ∧ i < b.length
    · rw [if_pos h, if_pos (show i < a.norm.length ∧ i < b.norm.length from h)]
      rw [show rd a.norm.data i = rd a.data i from rd_blank _ _ _ h.1, show rd b.norm.data i = rd b.data i from rd_blank _ _ _ h.2]
    · rw [if_neg h, if_neg (show ¬ (i < a.norm.length ∧ i < b.norm.length) from h)]

theorem compare_norm (val : Char → Int) (a b : FStr) : FStr.compare val a.norm b.norm = FStr.compare val a b := by
  show (FStr.compareLoop val a.norm b.norm (a.length + 1) 0 >>= FStr.compareTail a.norm b.norm) = _
  rw [compareLoop_norm]
  have : FStr.compareTail a.norm b.norm = FStr.compareTail a b := by
    funext x; cases x <;> rfl
  rw [this]; rfl

theorem hashLoop_norm (conv : Char → BitVec 64) (s : FStr) : ∀ (n i : Nat) (v : BitVec 64),
    FStr.hashLoop conv s.norm.data s.length n i v = FStr.hashLoop conv s.data s.length n i v
  | 0, i, v => rfl
  | n + 1, i, v => by
    simp only [FStr.hashLoop]
    split
    · next h =>
      rw [show rd s.norm.data i = rd s.data i from rd_blank _ _ _ h]
      simp only [hashLoop_norm conv s n (i + 1)]
    · rfl

theorem hash_norm (conv : Char → BitVec 64) (s : FStr) : FStr.hash conv s.norm = FStr.hash conv s := by
  unfold FStr.hash
  rw [show s.norm.data.length = s.data.length from blank_length _ _, show s.norm.length = s.length from rfl, hashLoop_norm]

theorem appendScope_norm (s : FStr) : ∀ (n i : Nat) (r : List Char) (o : Nat), i + n ≤ s.length →
    appendScope s.norm.data n i r o = appendScope s.data n i r o
  | 0, i, r, o, _ => rfl
  | n + 1, i, r, o, h => by
    simp only [appendScope]
    rw [show rd s.norm.data i = rd s.data i from rd_blank _ _ _ (by omega)]
    simp only [appendScope_norm s n (i + 1) _ _ (by omega)]

theorem emitScope_norm (s : FStr) (r : List Char × Nat) : emitScope s.norm r = emitScope s r := by
  unfold emitScope
  simp only [show s.norm.length = s.length from rfl, appendScope_norm s s.length 0 _ _ (by omega)]

/-! ### Exchange -/

/-- The array while the first `i` characters have been exchanged: those are of a string of length `m`, the others of one
of length `n`. -/
def mixed (i n m : Nat) (l : List Char) : List Char := l.mapIdx fun j c => if j < (if j < i then m else n) then c else '\x00'

theorem rd_mixed (i n m : Nat) (l : List Char) : rd (mixed i n m l) i = (rd l i).image fun c => if i < n then c else '\x00' := by
  simp only [rd, mixed, List.getElem?_mapIdx, Nat.lt_irrefl, if_false]
  cases l[i]? <;> rfl

theorem wr_mixed (i n m : Nat) (l : List Char) (x : Char) :
    wr (mixed i n m l) i (if i < m then x else '\x00') = (wr l i x).image (mixed (i + 1) n m) := by
  simp only [wr]
  rw [show (mixed i n m l).length = l.length by simp [mixed]]
  split
  · refine congrArg Res.ok ?_
    apply List.ext_getElem?
    intro j
    simp only [mixed, List.getElem?_set, List.getElem?_mapIdx, List.length_mapIdx]
    by_cases hj : i = j
    · subst hj
      simp [*]
    · simp only [if_neg hj]
      cases l[j]? with
      | none => rfl
      | some c =>
        simp only [Option.map_some]
        by_cases h : j < i
        · simp [h, Nat.lt_succ_of_lt h]
        · simp [h, show ¬ j < i + 1 by omega]
  · rfl

theorem swapLoop_norm (n m : Nat) : ∀ (k i : Nat) (a b : List Char),
    FStr.swapLoop k i (mixed i n m a) (mixed i m n b) =
      (FStr.swapLoop k i a b).image fun p => (mixed (i + k) n m p.1, mixed (i + k) m n p.2)
  | 0, i, a, b => rfl
  | k + 1, i, a, b => by
    simp only [FStr.swapLoop, rd_mixed, bind_of_image, wr_mixed, image_of_bind, swapLoop_norm n m k (i + 1)]
    simp only [show i + 1 + k = i + (k + 1) by omega]

theorem mixed_zero (n m : Nat) (l : List Char) : mixed 0 n m l = blank n l := by
  simp [mixed, blank]

theorem mixed_all (i n m : Nat) (l : List Char) (h : n ≤ i) (h' : m ≤ i) : mixed i n m l = blank m l := by
  simp only [mixed, blank]
  congr 1
  funext j c
  by_cases hj : j < i
  · simp [hj]
  · simp [hj, show ¬ j < n by omega, show ¬ j < m by omega]

theorem swap_norm (a b : FStr) : FStr.swap a.norm b.norm = (FStr.swap a b).image (Prod.map FStr.norm FStr.norm) := by
  unfold FStr.swap
  have k := swapLoop_norm a.length b.length (if a.length < b.length then b.length else a.length) 0 a.data b.data
  have e : ∀ l, mixed (0 + if a.length < b.length then b.length else a.length) a.length b.length l = blank b.length l :=
    fun l => mixed_all _ _ _ _ (by split <;> omega) (by split <;> omega)
  have e' : ∀ l, mixed (0 + if a.length < b.length then b.length else a.length) b.length a.length l = blank a.length l :=
    fun l => mixed_all _ _ _ _ (by split <;> omega) (by split <;> omega)
  simp only [mixed_zero, e, e'] at k
  show (FStr.swapLoop (if a.length < b.length then b.length else a.length) 0 (blank a.length a.data) (blank b.length b.data) >>= _) = _
  rw [k]
  simp only [FStr.norm, bind_of_image, image_of_bind, image_at_ok, Prod.map]

/-! ### Addresses -/

theorem setScope_norm (spaces : Bool) (M : Nat) (a : V6) (size : Nat) (evs : List Ev) :
    v6SetScope spaces M a.norm size evs = (v6SetScope spaces M a size evs).image fun r => (r.1.norm, r.2) := by
  unfold v6SetScope
  split
  · rfl
  · have k : (scopeChange spaces M size evs).image FStr.norm = scopeChange spaces M size evs := by
      unfold scopeChange
      split
      · rfl
      · simp only [image_of_bind, mkFixed_norm]
    rcases hs : scopeChange spaces M size evs with f | ⟨e, v⟩ | _
    · rw [hs] at k
      have k : f.norm = f := Res.ok.inj k
      simp only [Res.image, V6.norm, k]
    · rfl
    · rfl

theorem fromEvents_norm (spaces : Bool) (M : Nat) (evs : List Ev) : (v6FromEvents spaces M evs).image V6.norm = v6FromEvents spaces M evs := by
  unfold v6FromEvents attachScope
  have e : ∀ b, V6.norm ⟨b, emptyScope M⟩ = ⟨b, emptyScope M⟩ := fun b => by simp only [V6.norm, empty_norm]
  have k : ∀ arr b, (mkFixed arr >>= fun s => Res.ok (V6.norm ⟨b, s⟩)) = mkFixed arr >>= fun s => Res.ok ⟨b, s⟩ := by
    intro arr b
    conv_rhs => rw [← mkFixed_norm, bind_of_image]
    rfl
  simp only [image_at_ite, image_of_bind, image_at_ok, image_at_err, e, k]

/-- No function that the networks, iterators and sequences use sees the leftovers. -/
theorem normHom (c : Cfg) : FamHom (fam6 c) (fam6 c) V6.norm where
  ops := rfl
  maxPrefix := rfl
  maxLen := rfl
  isV6 := rfl
  bytes _ := rfl
  ofBytes b := by simp only [fam6, V6.norm, empty_norm]
  zero := by simp only [fam6, V6.norm, empty_norm]
  toUint _ := rfl
  fromUint u := by simp only [fam6, image_of_bind, image_at_ok, V6.norm, empty_norm]
  fromPrefix p := by simp only [fam6, image_of_bind, image_at_ok, V6.norm, empty_norm]
  strict a m s := by
    simp only [fam6, v6Strict, image_of_bind, image_at_ite, image_at_ok, image_at_err, V6.norm, empty_norm]
  eq a b := by simp only [fam6, v6Equals, V6.norm, compare_norm]
  lt a b := by simp only [fam6, v6Lt, v6Compare, v6Less, V6.norm, compare_norm]
  le a b := by simp only [fam6, v6Le, v6Compare, v6Less, V6.norm, compare_norm]
  cmp a b := by simp only [fam6, v6Compare, V6.norm, compare_norm]
  hash a := by simp only [fam6, v6Hash, V6.norm, hash_norm]
  swap a b := by simp only [fam6, v6Swap, V6.norm, swap_norm, bind_of_image, image_of_bind, image_at_ok, Prod.map]
  removeScope a := by
    simp only [fam6, v6RemoveScope, v6SetScopeArray, image_of_bind, image_at_ok, setScope_norm]
    cases mkFixed ['\x00'] with
    | ok f => simp only [Res.ok_bind, bind_of_image]
    | err e v => rfl
    | ub => rfl
  parseArray s := by simp only [fam6, v6ParseArray, image_of_bind, fromEvents_norm]
  parseNetmask evs := by simp only [fam6, image_of_bind, image_at_ok, V6.norm, empty_norm]
  toText f a := by simp only [fam6, v6ToString, v6ToChars, V6.norm, emitScope_norm]

end Ip
