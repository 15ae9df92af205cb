import Verif.Model.Unicode
import Verif.Model.Bytes
import Verif.Spec.V4
set_option autoImplicit false

namespace Ip
open Spec

theorem bytesEq_iff : ∀ (a b : List (BitVec 8)), a.length = b.length → (bytesEq a b = true ↔ a = b)
  | [], [], _ => by simp [bytesEq]
  | a :: as, b :: bs, h => by
    have := bytesEq_iff as bs (by simpa using h)
    simp only [bytesEq]
    by_cases hab : a = b <;> simp [hab, this]

theorem beValue_lt : ∀ (a : List (BitVec 8)), beValue a < 256 ^ a.length
  | [] => by simp [beValue]
  | b :: bs => by
    have := beValue_lt bs
    have hb := b.isLt
    simp only [beValue, List.length_cons, Nat.pow_succ]
    have h1 : b.toNat * 256 ^ bs.length ≤ 255 * 256 ^ bs.length := Nat.mul_le_mul_right _ (by omega)
    omega

theorem beValue_cons_lt {a b : BitVec 8} {as bs : List (BitVec 8)} (hl : as.length = bs.length)
    (h : a.toNat < b.toNat) : beValue (a :: as) < beValue (b :: bs) := by
  have h1 := beValue_lt as
  have h2 : (a.toNat + 1) * 256 ^ as.length ≤ b.toNat * 256 ^ as.length :=
    Nat.mul_le_mul_right _ h
  rw [Nat.add_mul] at h2
  simp only [beValue]
  rw [← hl]
  omega

theorem bytesLess_iff : ∀ (a b : List (BitVec 8)), a.length = b.length →
    (bytesLess a b = true ↔ beValue a < beValue b)
  | [], [], _ => by simp [bytesLess, beValue]
  | a :: as, b :: bs, h => by
    have hl : as.length = bs.length := by simpa using h
    have ih := bytesLess_iff as bs hl
    simp only [bytesLess]
    by_cases h1 : a.toNat < b.toNat
    · simp [h1, beValue_cons_lt hl h1]
    · by_cases h2 : a = b
      · subst h2
        simp [ih, beValue, hl]
      · have : b.toNat < a.toNat := by
          have : a.toNat ≠ b.toNat := fun hh => h2 (BitVec.eq_of_toNat_eq hh)
          omega
        have := beValue_cons_lt hl.symm this
        simp [h1, h2]; omega

theorem beValue_inj : ∀ (a b : List (BitVec 8)), a.length = b.length → beValue a = beValue b → a = b
  | [], [], _, _ => rfl
  | a :: as, b :: bs, h, he => by
    have hl : as.length = bs.length := by simpa using h
    have hab : a = b := by
      apply BitVec.eq_of_toNat_eq
      rcases Nat.lt_trichotomy a.toNat b.toNat with h1 | h1 | h1
      · have := beValue_cons_lt hl h1; omega
      · exact h1
      · have := beValue_cons_lt hl.symm h1; omega
    subst hab
    have : as = bs := beValue_inj as bs hl (by simp only [beValue, hl] at he; omega)
    rw [this]

theorem bytesCmp_eq : ∀ (a b : List (BitVec 8)), a.length = b.length →
    bytesCmp a b = compare (beValue a) (beValue b)
  | [], [], _ => by simp [bytesCmp, beValue]
  | a :: as, b :: bs, h => by
    have hl : as.length = bs.length := by simpa using h
    have ih := bytesCmp_eq as bs hl
    simp only [bytesCmp]
    rcases Nat.lt_trichotomy a.toNat b.toNat with h1 | h1 | h1
    · have e1 := Nat.compare_eq_lt.2 h1
      have e2 := Nat.compare_eq_lt.2 (beValue_cons_lt hl h1)
      rw [e1, e2]; simp
    · have e1 := Nat.compare_eq_eq.2 h1
      have hab := BitVec.eq_of_toNat_eq h1
      subst hab
      rw [e1, ih]
      simp only [beValue, hl]
      simp only [ne_eq, not_true_eq_false, if_false]
      rcases Nat.lt_trichotomy (beValue as) (beValue bs) with h2 | h2 | h2
      · rw [Nat.compare_eq_lt.2 h2, Nat.compare_eq_lt.2 (by omega)]
      · rw [Nat.compare_eq_eq.2 h2, Nat.compare_eq_eq.2 (by omega)]
      · rw [Nat.compare_eq_gt.2 h2, Nat.compare_eq_gt.2 (by omega)]
    · have e1 := Nat.compare_eq_gt.2 h1
      have e2 := Nat.compare_eq_gt.2 (beValue_cons_lt hl.symm h1)
      rw [e1, e2]; simp

theorem bytesSwap_eq : ∀ (a b : List (BitVec 8)), a.length = b.length → bytesSwap a b = (b, a)
  | [], [], _ => rfl
  | a :: as, b :: bs, h => by
    have := bytesSwap_eq as bs (by simpa using h)
    simp [bytesSwap, this]

theorem bytesUnspecified_iff : ∀ (a : List (BitVec 8)), (bytesUnspecified a = true ↔ beValue a = 0)
  | [] => by simp [bytesUnspecified, beValue]
  | b :: bs => by
    have := bytesUnspecified_iff bs
    simp only [bytesUnspecified, beValue]
    by_cases hb : b = 0#8
    · subst hb; simp [this]
    · have hb' : b.toNat ≠ 0 := fun h => hb (BitVec.eq_of_toNat_eq (by simpa using h))
      simp only [ne_eq, hb, not_false_eq_true, if_true, Bool.false_eq_true, false_iff]
      have := Nat.mul_pos (Nat.pos_of_ne_zero hb') (Nat.pow_pos (n := bs.length) (show 0 < 256 by decide))
      omega

theorem fromBytesLoop_eq (size : Nat) (src : List (BitVec 8)) (count : Nat) (hc : count ≤ src.length) :
    ∀ (n i : Nat) (w : List (BitVec 8)), w = src.take i → i ≤ size → i ≤ count → size < n + i →
    fromBytesLoop size src count n i (w ++ List.replicate (size - i) 0#8) =
      .ok (src.take (min size count) ++ List.replicate (size - min size count) 0#8) := by
  intro n
  induction n with
  | zero => intro i w _ h1 _ h3; omega
  | succ n ih =>
    intro i w hw h1 h2 h3
    simp only [fromBytesLoop]
    split
    · rename_i hlt
      rw [rd_of_lt _ _ (by omega)]
      simp only [Res.ok_bind]
      rw [show size - i = (size - (i + 1)) + 1 by omega, List.replicate_succ]
      have hwl : w.length = i := by rw [hw]; simp; omega
      rw [wr_append _ _ _ _ _ hwl.symm]
      simp only [Res.ok_bind]
      have := ih (i + 1) (w ++ [src[i]]) (by have := List.take_append_getElem (l := src) (i := i) (by omega); rw [← this, ← hw]) (by omega) (by omega) (by omega)
      rw [← this]; simp
    · rename_i hlt
      have : min size count = i := by omega
      rw [this, hw]

theorem fromBytes_eq (size : Nat) (src : List (BitVec 8)) (count : Nat) (hc : count ≤ src.length) :
    fromBytes size src count =
      .ok (src.take (min size count) ++ List.replicate (size - min size count) 0#8) := by
  have := fromBytesLoop_eq size src count hc (size + 1) 0 [] (by simp) (by omega) (by omega) (by omega)
  simpa [fromBytes] using this

namespace FStr

/-- Lexicographic comparison with the sign convention of `compare`. -/
def lexCmp (val : Char → Int) : List Char → List Char → Int
  | [], [] => 0
  | [], _ :: _ => -1
  | _ :: _, [] => 1
  | a :: as, b :: bs => if a ≠ b then val a - val b else lexCmp val as bs

theorem contents_drop (s : FStr) (h : s.WF) (i : Nat) (hi : i < s.length) :
    ∃ c, rd s.data i = .ok c ∧ s.contents.drop i = c :: s.contents.drop (i + 1) := by
  have hi' : i < s.data.length := Nat.lt_of_lt_of_le hi h
  refine ⟨s.data[i], rd_of_lt _ _ hi', ?_⟩
  unfold contents
  rw [List.drop_eq_getElem_cons (by simp; omega)]
  simp

theorem contents_length (s : FStr) (h : s.WF) : s.contents.length = s.length := by
  unfold contents WF at *; simp; omega

theorem compareLoop_eq (val : Char → Int) (a b : FStr) (ha : a.WF) (hb : b.WF) :
    ∀ (fuel i : Nat), i ≤ a.length → i ≤ b.length → a.length < fuel + i →
    (compareLoop val a b fuel i >>= compareTail a b) = .ok (lexCmp val (a.contents.drop i) (b.contents.drop i)) := by
  intro fuel
  induction fuel with
  | zero => intro i h1 h2 h3; omega
  | succ n ih =>
    intro i h1 h2 h3
    simp only [compareLoop]
    split
    · rename_i h
      obtain ⟨c1, hr1, hd1⟩ := contents_drop a ha i h.1
      obtain ⟨c2, hr2, hd2⟩ := contents_drop b hb i h.2
      rw [hr1, hr2, hd1, hd2]
      simp only [Res.ok_bind, lexCmp]
      split
      · simp [compareTail]
      · exact ih (i + 1) (by omega) (by omega) (by omega)
    · rename_i h
      simp only [Res.ok_bind, compareTail]
      have la := contents_length a ha
      have lb := contents_length b hb
      rcases Nat.lt_or_ge i a.length with h4 | h4
      · have h5 : i = b.length := by omega
        have e2 : b.contents.drop i = [] := by apply List.drop_eq_nil_of_le; omega
        obtain ⟨c, _, e1⟩ := contents_drop a ha i h4
        rw [e1, e2, if_neg (by omega), if_neg (by omega)]; rfl
      · have h5 : i = a.length := by omega
        have e1 : a.contents.drop i = [] := by apply List.drop_eq_nil_of_le; omega
        rcases Nat.lt_or_ge i b.length with h6 | h6
        · obtain ⟨c, _, e2⟩ := contents_drop b hb i h6
          rw [e1, e2, if_neg (by omega), if_pos (by omega)]; rfl
        · have e2 : b.contents.drop i = [] := by apply List.drop_eq_nil_of_le; omega
          rw [e1, e2, if_pos (by omega)]; rfl

theorem compare_eq (val : Char → Int) (a b : FStr) (ha : a.WF) (hb : b.WF) :
    compare val a b = .ok (lexCmp val a.contents b.contents) := by
  have := compareLoop_eq val a b ha hb (a.length + 1) 0 (by omega) (by omega) (by omega)
  simpa [compare] using this

theorem lexCmp_zero (val : Char → Int) (hv : ∀ x y, val x = val y → x = y) :
    ∀ a b, lexCmp val a b = 0 ↔ a = b
  | [], [] => by simp [lexCmp]
  | [], _ :: _ => by simp [lexCmp]
  | _ :: _, [] => by simp [lexCmp]
  | a :: as, b :: bs => by
    have ih := lexCmp_zero val hv as bs
    simp only [lexCmp]
    by_cases h : a = b
    · simp [h, ih]
    · simp only [ne_eq, h, not_false_eq_true, if_true, List.cons.injEq, false_and, iff_false]
      intro h0
      exact h (hv _ _ (by omega))

theorem lexCmp_neg (val : Char → Int) :
    ∀ a b, lexCmp val a b < 0 ↔ 0 < lexCmp val b a
  | [], [] => by simp [lexCmp]
  | [], _ :: _ => by simp [lexCmp]
  | _ :: _, [] => by simp [lexCmp]
  | a :: as, b :: bs => by
    have ih := lexCmp_neg val as bs
    simp only [lexCmp]
    by_cases h : a = b
    · simp [h, ih]
    · have h' : b ≠ a := fun hh => h hh.symm
      simp only [ne_eq, h, h', not_false_eq_true, if_true]
      omega

theorem lexCmp_trans (val : Char → Int) (hv : ∀ x y, val x = val y → x = y) :
    ∀ a b c, lexCmp val a b < 0 → lexCmp val b c < 0 → lexCmp val a c < 0
  | [], [], _ => by simp [lexCmp]
  | [], _ :: _, [] => by simp [lexCmp]
  | [], _ :: _, _ :: _ => by simp [lexCmp]
  | _ :: _, [], _ => by simp [lexCmp]
  | _ :: _, _ :: _, [] => by simp [lexCmp]
  | a :: as, b :: bs, c :: cs => by
    have ih := lexCmp_trans val hv as bs cs
    simp only [lexCmp]
    by_cases h : a = b
    · subst h
      by_cases h2 : a = c
      · subst h2; simpa using ih
      · simp [h2]
    · by_cases h2 : b = c
      · subst h2; simp [h]; intros; assumption
      · have h3 : val a ≠ val b := fun hh => h (hv _ _ hh)
        simp only [ne_eq, h, h2, not_false_eq_true, if_true]
        intro h4 h5
        have : a ≠ c := by intro hh; subst hh; omega
        simp only [this, not_false_eq_true, if_true]
        omega

theorem swapLoop_eq : ∀ (n : Nat) (a b pa pb : List Char) (i : Nat), pa.length = i → pb.length = i →
    n ≤ a.length → n ≤ b.length →
    swapLoop n i (pa ++ a) (pb ++ b) =
      .ok (pa ++ b.take n ++ a.drop n, pb ++ a.take n ++ b.drop n)
  | 0, a, b, pa, pb, i, _, _, _, _ => by simp [swapLoop]
  | n + 1, [], _, _, _, _, _, _, h, _ => by simp at h
  | n + 1, _ :: _, [], _, _, _, _, _, _, h => by simp at h
  | n + 1, x :: a, y :: b, pa, pb, i, h1, h2, h3, h4 => by
    simp only [swapLoop]
    rw [rd_append _ _ _ _ h1.symm, rd_append _ _ _ _ h2.symm]
    simp only [Res.ok_bind]
    rw [wr_append _ _ _ _ _ h1.symm]
    simp only [Res.ok_bind]
    rw [wr_append _ _ _ _ _ h2.symm]
    simp only [Res.ok_bind]
    have := swapLoop_eq n a b (pa ++ [y]) (pb ++ [x]) (i + 1) (by simp [h1]) (by simp [h2])
      (by simpa using h3) (by simpa using h4)
    rw [show pa ++ y :: a = pa ++ [y] ++ a by simp, show pb ++ x :: b = pb ++ [x] ++ b by simp, this]
    simp

theorem swap_eq' (a b : FStr) (ha : a.WF) (hb : b.WF) (hn : a.data.length = b.data.length) :
    ∃ x y, swap a b = .ok (x, y) ∧ x.contents = b.contents ∧ y.contents = a.contents ∧ x.WF ∧ y.WF ∧
      x.data.length = a.data.length ∧ y.data.length = b.data.length := by
  unfold WF at ha hb
  unfold swap
  simp only
  have hle : (if a.length < b.length then b.length else a.length) ≤ a.data.length := by split <;> omega
  generalize hc : (if a.length < b.length then b.length else a.length) = n at hle
  have hna : a.length ≤ n := by rw [← hc]; split <;> omega
  have hnb : b.length ≤ n := by rw [← hc]; split <;> omega
  have := swapLoop_eq n a.data b.data [] [] 0 rfl rfl hle (by omega)
  simp only [List.nil_append] at this
  rw [this]
  refine ⟨_, _, rfl, ?_, ?_, ?_, ?_, ?_, ?_⟩
  · simp only [contents]
    rw [List.take_append_of_le_length (by simp; omega), List.take_take, Nat.min_eq_left hnb]
  · simp only [contents]
    rw [List.take_append_of_le_length (by simp; omega), List.take_take, Nat.min_eq_left hna]
  · simp only [WF, List.length_append, List.length_take, List.length_drop]; omega
  · simp only [WF, List.length_append, List.length_take, List.length_drop]; omega
  · simp only [List.length_append, List.length_take, List.length_drop]; omega
  · simp only [List.length_append, List.length_take, List.length_drop]; omega

theorem swap_eq (a b : FStr) (ha : a.WF) (hb : b.WF) (hn : a.data.length = b.data.length) :
    ∃ x y, swap a b = .ok (x, y) ∧ x.contents = b.contents ∧ y.contents = a.contents ∧ x.WF ∧ y.WF := by
  obtain ⟨x, y, h1, h2, h3, h4, h5, _⟩ := swap_eq' a b ha hb hn
  exact ⟨x, y, h1, h2, h3, h4, h5⟩

theorem hashLoop_eq (conv : Char → BitVec 64) (s : FStr) (hs : s.WF) :
    ∀ (fuel i : Nat) (v : BitVec 64), i ≤ s.length → s.length < fuel + i →
    hashLoop conv s.data s.length fuel i v =
      .ok ((s.contents.drop i).foldl (fun v c => (v ^^^ conv c) * 1099511628211#64) v) := by
  intro fuel
  induction fuel with
  | zero => intro i v h1 h2; omega
  | succ n ih =>
    intro i v h1 h2
    simp only [hashLoop]
    split
    · rename_i h
      obtain ⟨c, hr, hd⟩ := contents_drop s hs i h
      rw [hr, hd]
      simp only [Res.ok_bind, List.foldl_cons]
      exact ih _ _ (by omega) (by omega)
    · rw [List.drop_eq_nil_of_le (by rw [contents_length s hs]; omega)]; rfl

theorem hash_eq (conv : Char → BitVec 64) (s : FStr) (hs : s.WF) :
    hash conv s = .ok (if s.data.length = 0 then 0#64 else
      s.contents.foldl (fun v c => (v ^^^ conv c) * 1099511628211#64) 14695981039346656037#64) := by
  have := hashLoop_eq conv s hs (s.length + 1) 0 14695981039346656037#64 (by omega) (by omega)
  unfold hash
  split
  · rfl
  · rw [this]; rfl

theorem ofEventsLoop_eq : ∀ (n : Nat) (cs w : List Char), cs.length ≤ n →
    ∃ rest, ofEventsLoop n (readChars cs) (w ++ List.replicate n '\x00') w.length =
      .ok (w ++ cs.takeWhile (· ≠ '\x00') ++ rest, w.length + (cs.takeWhile (· ≠ '\x00')).length) ∧
      rest.length = n - (cs.takeWhile (· ≠ '\x00')).length
  | 0, cs, w, h => by
    have : cs = [] := by simpa using h
    subst this
    exact ⟨[], by simp [ofEventsLoop], by simp⟩
  | n + 1, [], w, h => ⟨List.replicate (n + 1) '\x00', by simp [ofEventsLoop, readChars], by simp⟩
  | n + 1, c :: cs, w, h => by
    simp only [readChars, List.map_cons, ofEventsLoop, List.replicate_succ]
    rw [wr_append _ _ _ _ _ rfl]
    simp only [Res.ok_bind]
    by_cases hc : c = '\x00'
    · simp [hc]
    · obtain ⟨rest, h1, h2⟩ := ofEventsLoop_eq n cs (w ++ [c]) (by simpa using h)
      refine ⟨rest, ?_, ?_⟩
      · rw [if_neg hc]
        simp only [List.append_assoc, List.length_append, List.length_cons, List.length_nil,
          List.cons_append, List.nil_append] at h1
        rw [readChars] at h1
        rw [h1]
        simp [hc]; omega
      · simp [hc] at h2 ⊢; omega

theorem ofEvents_eq (N : Nat) (cs : List Char) (h : cs.length ≤ N) :
    ∃ s, ofEvents N (readChars cs) = .ok s ∧ s.WF ∧ s.data.length = N ∧
      s.contents = cs.takeWhile (· ≠ '\x00') := by
  obtain ⟨rest, h1, h2⟩ := ofEventsLoop_eq N cs [] h
  have hl : (cs.takeWhile (· ≠ '\x00')).length ≤ cs.length := List.Sublist.length_le (List.takeWhile_sublist _)
  simp only [List.nil_append, List.length_nil, Nat.zero_add] at h1
  refine ⟨_, by unfold ofEvents; rw [h1]; rfl, ?_, ?_, ?_⟩
  · unfold WF; simp only [List.length_append]; omega
  · simp only [List.length_append]; omega
  · unfold contents; simp

end FStr
end Ip
