import Verif.Lemmas.Bytes
import Verif.Lemmas.Samples
/-
Properties C47 (fixed_string) and the fixed_string and byte array part of C53 (swap).
-/
set_option autoImplicit false

namespace Ip

/-- C47.  `compare` never leaves the arrays and is a total preorder whose equivalence is equality
of the visible contents, for strings of any (also different) capacities, whatever stale characters
follow the contents, and for signed and unsigned `char` (`val` is any injective conversion). -/
theorem C47_compare_total_order (val : Char → Int) (hv : ∀ x y, val x = val y → x = y)
    (a b c : FStr) (ha : a.WF) (hb : b.WF) (hc : c.WF) :
    ∃ ab ba bc ac : Int, FStr.compare val a b = .ok ab ∧ FStr.compare val b a = .ok ba ∧
      FStr.compare val b c = .ok bc ∧ FStr.compare val a c = .ok ac ∧
      (ab = 0 ↔ a.contents = b.contents) ∧ (ab < 0 ↔ ba > 0) ∧ (ba < 0 ↔ ab > 0) ∧
      (ab < 0 → bc < 0 → ac < 0) := by
  refine ⟨_, _, _, _, FStr.compare_eq val a b ha hb, FStr.compare_eq val b a hb ha,
    FStr.compare_eq val b c hb hc, FStr.compare_eq val a c ha hc, FStr.lexCmp_zero val hv _ _,
    FStr.lexCmp_neg val _ _, FStr.lexCmp_neg val _ _, FStr.lexCmp_trans val hv _ _ _⟩

example := C47_compare_total_order exCfg.val exCfg_val exScoped.scope exDoc.scope exScoped.scope exScoped_ok.2.1 exDoc_ok.2.1 exScoped_ok.2.1

/-- C47.  A proper prefix is less, and otherwise the first differing character decides. -/
theorem C47_compare_lexicographic (val : Char → Int) (a b : FStr) (ha : a.WF) (hb : b.WF)
    (p : List Char) :
    (∀ x t, a.contents = p → b.contents = p ++ x :: t → FStr.compare val a b = .ok (-1)) ∧
    (∀ x y s t, a.contents = p ++ x :: s → b.contents = p ++ y :: t → x ≠ y →
      FStr.compare val a b = .ok (val x - val y)) := by
  rw [FStr.compare_eq val a b ha hb]
  constructor
  · intro x t h1 h2
    rw [h1, h2]
    clear h1 h2
    induction p with
    | nil => simp [FStr.lexCmp]
    | cons _ _ ih => simpa [FStr.lexCmp] using ih
  · intro x y s t h1 h2 hxy
    rw [h1, h2]
    clear h1 h2
    induction p with
    | nil => simp [FStr.lexCmp, hxy]
    | cons _ _ ih => simpa [FStr.lexCmp] using ih

example : FStr.compare (fun c => c.toNat) ⟨['a', 'b', 'x'], 2⟩ ⟨['a', 'b', 'c', 'd'], 4⟩ = .ok (-1) := by
  decide

/-- C47 and C53.  `swap` exchanges the visible contents of two strings of the same type and leaves
both valid. -/
theorem C53_fixed_string_swap (a b : FStr) (ha : a.WF) (hb : b.WF)
    (hn : a.data.length = b.data.length) :
    ∃ x y, FStr.swap a b = .ok (x, y) ∧ x.contents = b.contents ∧ y.contents = a.contents ∧
      x.WF ∧ y.WF :=
  FStr.swap_eq a b ha hb hn

example : FStr.swap ⟨['a', 'b', 'z'], 2⟩ ⟨['d', '\x00', '\x00'], 1⟩ =
    .ok (⟨['d', '\x00', 'z'], 1⟩, ⟨['a', 'b', '\x00'], 2⟩) := by decide

/-- C47, `front`: on a nonempty string, the first character. -/
theorem C47_front (s : FStr) (h : s.contents ≠ []) :
    ∃ c, FStr.front s = .ok c ∧ s.contents.head? = some c := by
  unfold FStr.front FStr.contents at *
  match hd : s.data with
  | [] => simp [hd] at h
  | c :: cs =>
    refine ⟨c, rfl, ?_⟩
    cases hl : s.length with
    | zero => simp [hd, hl] at h
    | succ n => simp

example := C47_front exScoped.scope (by decide)

/-- C47, `back` (partial: only for strings that fill their capacity).  Missing: shorter strings,
for which `back` is wrong, see `C47_back_wrong`. -/
theorem C47_back_partial (s : FStr) (h : s.contents ≠ []) (hfull : s.length = s.data.length) :
    ∃ c, FStr.back s = .ok c ∧ s.contents.getLast? = some c := by
  have hc : s.contents = s.data := by unfold FStr.contents; rw [hfull]; simp
  rw [hc] at h ⊢
  have hpos : 0 < s.data.length := List.length_pos_iff.2 h
  refine ⟨s.data[s.data.length - 1], rd_of_lt _ _ (by omega), ?_⟩
  rw [List.getLast?_eq_getElem?]
  simp

example := C47_back_partial ⟨['e', 't', 'h', '0'], 4⟩ (by decide) rfl

/-- C47, negation for `back`: a two character string of capacity 3 reports the character behind its
contents. -/
theorem C47_back_wrong : ∃ s : FStr, s.WF ∧ s.contents = ['a', 'b'] ∧ FStr.back s = .ok '\x00' :=
  ⟨⟨['a', 'b', '\x00'], 2⟩, by unfold FStr.WF; decide, by decide, by decide⟩

/-- C47 (partial).  Equal contents hash equally, whatever the stale characters and the capacities, if both
capacities are 0 or neither is.  Missing: a string of capacity 0 and another empty string, see
`C47_hash_capacity_zero`. -/
theorem C47_hash_contents_partial (conv : Char → BitVec 64) (a b : FStr) (ha : a.WF) (hb : b.WF)
    (hc : a.data.length = 0 ↔ b.data.length = 0) (h : a.contents = b.contents) :
    ∃ v, FStr.hash conv a = .ok v ∧ FStr.hash conv b = .ok v := by
  refine ⟨_, FStr.hash_eq conv a ha, ?_⟩
  rw [FStr.hash_eq conv b hb, h]
  by_cases h0 : a.data.length = 0
  · rw [if_pos h0, if_pos (hc.1 h0)]
  · rw [if_neg h0, if_neg (fun e => h0 (hc.2 e))]

example := C47_hash_contents_partial exCfg.conv exScoped.scope ⟨['a', '\x00', 'x'], 1⟩ exScoped_ok.2.1 (by simp [FStr.WF]) (by decide) (by decide)

/-- C47, negation: the empty strings of capacity 0 and 4 are equal but hash differently. -/
theorem C47_hash_capacity_zero (val : Char → Int) (conv : Char → BitVec 64) :
    FStr.compare val ⟨[], 0⟩ ⟨['\x00', '\x00', '\x00', '\x00'], 0⟩ = .ok 0 ∧
    FStr.hash conv ⟨[], 0⟩ = .ok 0 ∧ FStr.hash conv ⟨['\x00', '\x00', '\x00', '\x00'], 0⟩ ≠ .ok 0 :=
  ⟨rfl, rfl, fun h => by cases h⟩

example : (⟨['a', '\x00'], 1⟩ : FStr).contents = (⟨['a', 'b', 'c'], 1⟩ : FStr).contents := by decide

/-- C47.  Building a fixed string from a character array yields the characters before the first
NUL (all of them when there is none), and a valid string. -/
theorem C47_from_array (N : Nat) (cs : List Char) (h : cs.length ≤ N) :
    ∃ s, FStr.ofEvents N (readChars cs) = .ok s ∧ s.WF ∧ s.data.length = N ∧
      s.contents = cs.takeWhile (· ≠ '\x00') :=
  FStr.ofEvents_eq N cs h

example : FStr.ofEvents 4 (readChars ['a', 'b', '\x00', 'c']) = .ok ⟨['a', 'b', '\x00', '\x00'], 2⟩ := by
  decide

/-- C53 for the address bytes: `byte_array::swap` exchanges the arrays. -/
theorem C53_bytes_swap (a b : List (BitVec 8)) (h : a.length = b.length) : bytesSwap a b = (b, a) :=
  bytesSwap_eq a b h

example := C53_bytes_swap [10, 0, 0, 1] [9, 255, 0, 1] rfl

end Ip
