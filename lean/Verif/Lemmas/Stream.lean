import Verif.Model.Stream
import Verif.Spec.Stream
import Verif.Lemmas.Throw
import Verif.Lemmas.NetText
/-
Lemmas about the stream operators.
-/
set_option autoImplicit false

namespace Ip
open Spec

theorem baseOfFlags_radix (hex oct : Bool) : radixOf (baseOfFlags hex oct) = streamRadix hex oct := by
  cases hex <;> cases oct <;> rfl

/-! ### Characters -/

/-- The characters of address texts. -/
def addrChars : List Char := "0123456789abcdefABCDEF:.".toList

theorem addrChars_facts : ∀ c ∈ addrChars, c.toNat < 128 ∧ isSpaceC c = false ∧ c ≠ '%' ∧ c ≠ '/' ∧ c ≠ '\x00' ∧
    c.toUpper ∈ addrChars := by decide

theorem toUpperC_eq (c : Char) (h : c.toNat < 128) : toUpperC c = .ok c.toUpper := by
  have key : ∀ n : Fin 128, toUpperC (Char.ofNat n) = .ok (Char.ofNat n).toUpper := by decide +kernel
  have := key ⟨c.toNat, h⟩
  simpa [Char.ofNat_toNat] using this

theorem HexDigit_mem {c : Char} {d : Nat} (h : HexDigit c d) : c ∈ addrChars ∧ HexDigit c.toUpper d := by
  have hd : d < 16 := by
    rcases h with h | h
    · exact (List.getElem?_eq_some_iff.1 h).1
    · exact (List.getElem?_eq_some_iff.1 h).1
  unfold HexDigit at *
  rcases h with h | h <;> interval_cases d <;> simp [hexLower, hexUpper] at h <;> subst h <;> decide

theorem HexNum_upper {t : List Char} {v : Nat} (h : HexNum t v) :
    (∀ c ∈ t, c ∈ addrChars) ∧ HexNum (t.map Char.toUpper) v := by
  induction h with
  | nil => exact ⟨by simp, .nil⟩
  | snoc t c v d h1 h2 ih =>
    obtain ⟨k1, k2⟩ := HexDigit_mem h2
    refine ⟨?_, ?_⟩
    · intro x hx
      rcases List.mem_append.1 hx with hx | hx
      · exact ih.1 x hx
      · rw [List.mem_singleton.1 hx]; exact k1
    · rw [List.map_append]
      exact .snoc _ _ _ _ ih.2 k2

theorem Group_upper {t : List Char} {v : Nat} (h : Group t v) :
    (∀ c ∈ t, c ∈ addrChars) ∧ Group (t.map Char.toUpper) v := by
  obtain ⟨h1, h2, h3⟩ := h
  exact ⟨(HexNum_upper h3).1, by simpa using h1, by simpa using h2, (HexNum_upper h3).2⟩

theorem Groups_upper {t : List Char} {vs : List Nat} (h : Groups t vs) :
    (∀ c ∈ t, c ∈ addrChars) ∧ Groups (t.map Char.toUpper) vs := by
  induction h with
  | one t v h => exact ⟨(Group_upper h).1, .one _ _ (Group_upper h).2⟩
  | cons t v s vs h1 h2 ih =>
    refine ⟨?_, ?_⟩
    · intro x hx
      simp only [List.mem_append, List.mem_cons] at hx
      rcases hx with hx | rfl | hx
      · exact (Group_upper h1).1 x hx
      · decide
      · exact ih.1 x hx
    · rw [List.map_append, List.map_cons]
      exact .cons _ _ _ _ (Group_upper h1).2 ih.2

theorem dotted_upper (a b c d : BitVec 8) :
    (∀ x ∈ dotted a b c d, x ∈ addrChars) ∧ (dotted a b c d).map Char.toUpper = dotted a b c d := by
  have key : ∀ x ∈ dotted a b c d, x ∈ addrChars ∧ x.toUpper = x := by
    intro x hx
    rcases dotted_chars a b c d x hx with h | rfl
    · have h0 := h
      unfold isDig at h0
      have h1 : x.toNat < 128 := by
        simp at h0; omega
      have key : ∀ n : Fin 128, isDig (Char.ofNat n) = true → Char.ofNat n ∈ addrChars ∧ (Char.ofNat n).toUpper = Char.ofNat n := by
        decide +kernel
      have := key ⟨x.toNat, h1⟩
      simp only [Char.ofNat_toNat] at this
      exact this h
    · decide
  refine ⟨fun x hx => (key x hx).1, ?_⟩
  conv_rhs => rw [← List.map_id (dotted a b c d)]
  exact List.map_congr_left (fun x hx => (key x hx).2)

theorem GroupsV4_upper {t : List Char} {vs : List Nat} (h : GroupsV4 t vs) :
    (∀ c ∈ t, c ∈ addrChars) ∧ GroupsV4 (t.map Char.toUpper) vs := by
  induction h with
  | one t v h => exact ⟨(Group_upper h).1, .one _ _ (Group_upper h).2⟩
  | quad a b c d =>
    obtain ⟨h1, h2⟩ := dotted_upper a b c d
    exact ⟨h1, by rw [h2]; exact .quad a b c d⟩
  | cons t v s vs h1 h2 ih =>
    refine ⟨?_, ?_⟩
    · intro x hx
      simp only [List.mem_append, List.mem_cons] at hx
      rcases hx with hx | rfl | hx
      · exact (Group_upper h1).1 x hx
      · decide
      · exact ih.1 x hx
    · rw [List.map_append, List.map_cons]
      exact .cons _ _ _ _ (Group_upper h1).2 ih.2

/-- Upper case does not change the address a text denotes. -/
theorem V6Text_upper {t : List Char} {vs : List Nat} (h : V6Text t vs) :
    (∀ c ∈ t, c ∈ addrChars) ∧ V6Text (t.map Char.toUpper) vs := by
  cases h with
  | full s vs h1 h2 => exact ⟨(GroupsV4_upper h1).1, .full _ _ (GroupsV4_upper h1).2 h2⟩
  | compressed sh hi sl lo h1 h2 h3 =>
    refine ⟨?_, ?_⟩
    · intro x hx
      simp only [List.mem_append, List.mem_cons] at hx
      rcases hx with hx | rfl | rfl | hx
      · rcases h1 with ⟨rfl, _⟩ | h1
        · cases hx
        · exact (Groups_upper h1).1 x hx
      · decide
      · decide
      · rcases h2 with ⟨rfl, _⟩ | h2
        · cases hx
        · exact (GroupsV4_upper h2).1 x hx
    · rw [List.map_append, List.map_cons, List.map_cons]
      refine .compressed _ hi _ lo ?_ ?_ h3
      · rcases h1 with ⟨rfl, rfl⟩ | h1
        · exact .inl ⟨rfl, rfl⟩
        · exact .inr (Groups_upper h1).2
      · rcases h2 with ⟨rfl, rfl⟩ | h2
        · exact .inl ⟨rfl, rfl⟩
        · exact .inr (GroupsV4_upper h2).2

theorem V6Text_ne_nil {t : List Char} {vs : List Nat} (h : V6Text t vs) : t ≠ [] := by
  cases h with
  | full s vs h1 h2 =>
    cases h1 with
    | one t v h => rintro rfl; exact absurd h.1 (by simp)
    | quad a b c d => simp at h2
    | cons t v s vs => simp
  | compressed => simp

theorem upcase_split (t z : List Char) (ht : ∀ c ∈ t, c ≠ '%') (hz : z = [] ∨ ∃ r, z = '%' :: r) :
    upcase (t ++ z) = t.map Char.toUpper ++ z := by
  unfold upcase
  have h1 : ∀ c ∈ t, decide (c ≠ '%') = true := fun c hc => by simpa using ht c hc
  rw [List.takeWhile_append_of_pos h1, List.dropWhile_append_of_pos h1]
  rcases hz with rfl | ⟨r, rfl⟩ <;> simp

theorem upperText_eq (t z : List Char) (ht : ∀ c ∈ t, c.toNat < 128 ∧ c ≠ '%') (hz : z = [] ∨ ∃ r, z = '%' :: r) :
    upperText (t ++ z) = .ok (upcase (t ++ z)) := by
  rw [upcase_split t z (fun c hc => (ht c hc).2) hz]
  induction t with
  | nil => rcases hz with rfl | ⟨r, rfl⟩ <;> simp [upperText]
  | cons c t ih =>
    have hc := ht c (by simp)
    rw [List.cons_append, upperText, if_neg hc.2, toUpperC_eq c hc.1, Res.ok_bind, ih (fun x hx => ht x (by simp [hx])), Res.ok_bind]
    simp

theorem upperAll_eq (t : List Char) (ht : ∀ c ∈ t, c.toNat < 128) : upperAll t = .ok (t.map Char.toUpper) := by
  induction t with
  | nil => rfl
  | cons c t ih =>
    rw [upperAll, toUpperC_eq c (ht c (by simp)), Res.ok_bind, ih (fun x hx => ht x (by simp [hx])), Res.ok_bind]
    simp

/-! ### Words -/

/-- `T` represents the `char` faithfully: the reader of the library yields it again, and white space agrees. -/
def Wide.Keeps {U : Type} (W : Wide U) (c : Char) : Prop :=
  (∀ r, W.enc.next (W.conv c) r = (.ch c, r)) ∧ W.space (W.conv c) = isSpaceC c

theorem wideChar_keeps (c : Char) : wideChar.Keeps c := ⟨fun _ => rfl, rfl⟩

theorem signExt_ascii (n : Nat) (c : Char) (h : c.toNat < 128) : signExt n c = BitVec.ofNat n c.toNat := if_pos h

theorem space_ascii (c : Char) : isSpaceC c = (decide (c.toNat = 32) || (decide (9 ≤ c.toNat) && decide (c.toNat ≤ 13))) := by
  unfold isSpaceC
  congr 1
  rw [decide_eq_decide]
  constructor
  · rintro rfl; rfl
  · intro h
    rw [← Char.ofNat_toNat c, h]

theorem wide32_keeps (c : Char) (h : c.toNat < 128) : wide32.Keeps c := by
  have hn : (BitVec.ofNat 32 c.toNat).toNat = c.toNat := by rw [BitVec.toNat_ofNat]; omega
  refine ⟨fun r => ?_, ?_⟩
  · show encUtf32.next (signExt 32 c) r = _
    rw [signExt_ascii 32 c h]
    simp only [encUtf32]
    rw [hn, if_neg (by omega), Char.ofNat_toNat]
  · show (decide (signExt 32 c = 32) || (decide (9 ≤ (signExt 32 c).toNat) && decide ((signExt 32 c).toNat ≤ 13))) = _
    rw [signExt_ascii 32 c h, hn, space_ascii]
    congr 1
    rw [decide_eq_decide]
    constructor
    · intro e
      have := congrArg BitVec.toNat e
      rw [hn] at this
      exact this
    · intro e
      rw [e]; rfl

theorem wide16_keeps (c : Char) (h : c.toNat < 128) : wide16.Keeps c := by
  have hn : (BitVec.ofNat 16 c.toNat).toNat = c.toNat := by rw [BitVec.toNat_ofNat]; omega
  refine ⟨fun r => ?_, ?_⟩
  · show utf16Next (signExt 16 c) r = _
    rw [signExt_ascii 16 c h]
    have k1 : ∀ n : Fin 128, (utf16CodePoint (BitVec.ofNat 16 n)).2 = 1 := by decide +kernel
    have k1 := k1 ⟨c.toNat, h⟩
    have hm : ((BitVec.ofNat 16 c.toNat).setWidth 32).toNat = c.toNat := by
      rw [BitVec.toNat_setWidth, hn]; omega
    unfold utf16Next
    simp only at k1 ⊢
    rw [if_pos k1, hm, if_neg (by omega), Char.ofNat_toNat]
  · show (decide (signExt 16 c = 32) || (decide (9 ≤ (signExt 16 c).toNat) && decide ((signExt 16 c).toNat ≤ 13))) = _
    rw [signExt_ascii 16 c h, hn, space_ascii]
    congr 1
    rw [decide_eq_decide]
    constructor
    · intro e
      have := congrArg BitVec.toNat e
      rw [hn] at this
      exact this
    · intro e
      rw [e]; rfl

theorem events_map {U : Type} (W : Wide U) (L : W.enc.Law) (t : List Char) (h : ∀ c ∈ t, W.Keeps c) :
    W.enc.events (t.map W.conv) = readChars t := by
  induction t with
  | nil => exact L.nil
  | cons c t ih =>
    rw [List.map_cons, L.cons_ch _ _ _ _ ((h c (by simp)).1 _), ih (fun x hx => h x (by simp [hx]))]
    rfl

theorem readWord_eq {U : Type} (W : Wide U) (s : IStr U) (hs : s.eof = false ∧ s.fail = false) (w rest : List U)
    (h : FirstWord W.space s.input w rest) :
    readWord W s = (w, { s with input := rest, eof := rest.isEmpty }) := by
  obtain ⟨ws, e, h1, h2, h3, h4⟩ := h
  obtain ⟨x, w', rfl⟩ := List.exists_cons_of_ne_nil h2
  have hx : W.space x = false := h3 x (by simp)
  have d1 : s.input.dropWhile W.space = (x :: w') ++ rest := by
    rw [e, List.append_assoc, List.dropWhile_append_of_pos h1]
    simp [hx]
  have h3' : ∀ u ∈ x :: w', (!W.space u) = true := fun u hu => by rw [h3 u hu]; rfl
  have d2 : ((x :: w') ++ rest).dropWhile (fun u => !W.space u) = rest := by
    rw [List.dropWhile_append_of_pos h3']
    rcases h4 with rfl | ⟨y, r, rfl, hy⟩
    · rfl
    · simp [hy]
  have d3 : ((x :: w') ++ rest).takeWhile (fun u => !W.space u) = x :: w' := by
    rw [List.takeWhile_append_of_pos h3']
    rcases h4 with rfl | ⟨y, r, rfl, hy⟩
    · simp
    · simp [hy]
  unfold readWord
  rw [hs.1, hs.2, d1]
  simp only [Bool.or_self, Bool.false_eq_true, if_false]
  rw [d2, d3]
  simp

theorem readWord_none {U : Type} (W : Wide U) (s : IStr U) (hs : s.eof = false ∧ s.fail = false)
    (h : ∀ u ∈ s.input, W.space u = true) :
    readWord W s = ([], { s with input := [], eof := true, fail := true }) := by
  have d : s.input.dropWhile W.space = [] := by
    generalize s.input = l at h
    induction l with
    | nil => rfl
    | cons x l ih =>
      rw [List.dropWhile_cons, if_pos (h x (by simp)), ih (fun u hu => h u (by simp [hu]))]
  unfold readWord
  rw [hs.1, hs.2, d]
  simp

theorem readWord_bad {U : Type} (W : Wide U) (s : IStr U) (hs : s.eof = true ∨ s.fail = true) :
    readWord W s = ([], { s with fail := true }) := by
  unfold readWord
  have : (s.eof || s.fail) = true := by rcases hs with h | h <;> simp [h]
  rw [if_pos this]

theorem firstWord_or {U : Type} (space : U → Bool) (input : List U) :
    (∃ w rest, FirstWord space input w rest) ∨ ∀ u ∈ input, space u = true := by
  induction input with
  | nil => exact .inr (by simp)
  | cons x l ih =>
    cases hx : space x with
    | true =>
      rcases ih with ⟨w, rest, ws, e, h1, h2⟩ | h
      · exact .inl ⟨w, rest, x :: ws, by simp [e], fun u hu => by
          rcases List.mem_cons.1 hu with rfl | hu
          · exact hx
          · exact h1 u hu, h2⟩
      · exact .inr (fun u hu => by
          rcases List.mem_cons.1 hu with rfl | hu
          · exact hx
          · exact h u hu)
    | false =>
      left
      refine ⟨(x :: l).takeWhile (fun u => !space u), (x :: l).dropWhile (fun u => !space u), [], by simp [List.takeWhile_append_dropWhile],
        by simp, by simp [hx], ?_, ?_⟩
      · intro u hu
        have := List.all_eq_true.1 (List.all_takeWhile (p := fun u => !space u) (l := x :: l)) u hu
        simpa using this
      · cases hd : (x :: l).dropWhile (fun u => !space u) with
        | nil => exact .inl rfl
        | cons y r =>
          right
          refine ⟨y, r, rfl, ?_⟩
          have := List.head?_dropWhile_not (fun u => !space u) (x :: l)
          rw [hd] at this
          simpa using this

/-- The first word of a stream holding a text. -/
theorem firstWord_text {U : Type} (W : Wide U) (t : List Char) (hk : ∀ c ∈ t, W.Keeps c) (hs : ∀ c ∈ t, isSpaceC c = false)
    (hn : t ≠ []) (ws rest : List U) (h1 : ∀ u ∈ ws, W.space u = true) (h2 : rest = [] ∨ ∃ x r, rest = x :: r ∧ W.space x = true) :
    FirstWord W.space (ws ++ t.map W.conv ++ rest) (t.map W.conv) rest := by
  refine ⟨ws, rfl, h1, by simpa using hn, ?_, h2⟩
  intro u hu
  obtain ⟨c, hc, rfl⟩ := List.mem_map.1 hu
  rw [(hk c hc).2, hs c hc]

end Ip
