import Verif.Spec.Throw
import Verif.Lemmas.Codes
import Verif.Lemmas.Unicode
import Verif.Lemmas.Bytes
/-
Facts on readers, messages, exceptions and literals.
-/
set_option autoImplicit false

namespace Ip
open Spec

/-- What the proofs use of a character type. -/
structure Enc.Law {U : Type} (enc : Enc U) : Prop where
  nil : enc.events [] = []
  cons_bad : ∀ u r c s r', enc.next u r = (.bad c s, r') → enc.events (u :: r) = [.bad c s]
  cons_ch : ∀ u r c r', enc.next u r = (.ch c, r') → enc.events (u :: r) = .ch c :: enc.events r'
  len : ∀ u r, (enc.next u r).2.length ≤ r.length
  zero : ∀ r, enc.next enc.zero r = (.ch '\x00', r)
  dot : ∀ r, enc.next enc.dot r = (.ch '.', r)
  app_ch : ∀ u r c r' k, enc.next u r = (.ch c, r') →
    enc.next u (r ++ List.replicate k enc.zero) = (.ch c, r' ++ List.replicate k enc.zero)
  app_bad : ∀ u r c s r' k, enc.next u r = (.bad c s, r') → ∃ r'', enc.next u (r ++ List.replicate k enc.zero) = (.bad c s, r'')
  code : ∀ u r c s r', enc.next u r = (.bad c s, r') → c = .unexpected_symbol ∨ c = .wrong_encoding_sequence

theorem encChar_law : encChar.Law where
  nil := rfl
  cons_bad u r c s r' h := by cases h
  cons_ch u r c r' h := by cases h; rfl
  len _ _ := Nat.le_refl _
  zero _ := rfl
  dot _ := rfl
  app_ch u r c r' k h := by cases h; rfl
  app_bad u r c s r' k h := by cases h
  code u r c s r' h := by cases h

theorem encUtf32_law : encUtf32.Law where
  nil := rfl
  cons_bad u r c s r' h := by
    show utf32Events (u :: r) = _
    rw [utf32Events]
    simp only [encUtf32, Prod.mk.injEq] at h
    have h := h.1
    split at h
    · rename_i h1; rw [if_pos h1]; cases h; rfl
    · cases h
  cons_ch u r c r' h := by
    show utf32Events (u :: r) = _
    rw [utf32Events]
    simp only [encUtf32, Prod.mk.injEq] at h
    obtain ⟨h, rfl⟩ := h
    split at h
    · cases h
    · rename_i h1; rw [if_neg h1]; cases h; rfl
  len _ _ := Nat.le_refl _
  zero _ := rfl
  dot _ := rfl
  app_ch u r c r' k h := by
    simp only [encUtf32, Prod.mk.injEq] at h ⊢
    exact ⟨h.1, by rw [← h.2]⟩
  app_bad u r c s r' k h := by
    simp only [encUtf32, Prod.mk.injEq] at h ⊢
    exact ⟨_, h.1, rfl⟩
  code u r c s r' h := by
    simp only [encUtf32, Prod.mk.injEq] at h
    have h := h.1
    split at h
    · cases h; exact .inl rfl
    · cases h

theorem encUtf16_law : encUtf16.Law where
  nil := by show utf16Events [] = []; rw [utf16Events]
  cons_bad u r c s r' h := by
    change utf16Next u r = _ at h
    show utf16Events (u :: r) = _
    rw [utf16Events, h]
  cons_ch u r c r' h := by
    change utf16Next u r = _ at h
    have hl := utf16Next_length u r
    rw [h] at hl
    show utf16Events (u :: r) = _
    rw [utf16Events, h]
    simp only at hl ⊢
    rw [if_pos (by omega)]; rfl
  len := utf16Next_length
  zero r := by show utf16Next 0 r = _; rw [utf16Next_eq]; simp [utf16Fin]
  dot r := by show utf16Next 46 r = _; rw [utf16Next_eq]; simp [utf16Fin]
  app_ch u r c r' k h := by
    change utf16Next u r = _ at h
    show utf16Next u (r ++ _) = _
    rw [utf16Next_eq] at h ⊢
    split at h
    · rename_i h1
      rw [if_pos h1]
      cases r with
      | nil => simp at h
      | cons l r =>
        simp only [List.cons_append] at h ⊢
        split at h
        · rename_i h2
          rw [if_pos h2]
          unfold utf16Fin at h ⊢
          simp only [Prod.mk.injEq] at h ⊢
          split at h
          · rename_i h3; rw [if_pos h3]; exact ⟨h.1, by rw [← h.2]⟩
          · simp at h
        · simp at h
    · rename_i h1
      rw [if_neg h1]
      unfold utf16Fin at h ⊢
      simp only [Prod.mk.injEq] at h ⊢
      exact ⟨h.1, by rw [← h.2]⟩
  app_bad u r c s r' k h := by
    change utf16Next u r = _ at h
    show ∃ r'', utf16Next u (r ++ List.replicate k 0) = _
    rw [utf16Next_eq] at h ⊢
    split at h
    · rename_i h1
      rw [if_pos h1]
      cases r with
      | nil =>
        cases h
        cases k with
        | zero => exact ⟨_, rfl⟩
        | succ k => simp [List.replicate_succ]
      | cons l r =>
        simp only [List.cons_append] at h ⊢
        split at h
        · rename_i h2
          rw [if_pos h2]
          unfold utf16Fin at h ⊢
          simp only [Prod.mk.injEq] at h ⊢
          exact ⟨_, h.1, rfl⟩
        · rename_i h2
          rw [if_neg h2]
          cases h
          exact ⟨_, rfl⟩
    · rename_i h1
      rw [if_neg h1]
      unfold utf16Fin at h ⊢
      simp only [Prod.mk.injEq] at h ⊢
      exact ⟨_, h.1, rfl⟩
  code u r c s r' h := by
    change utf16Next u r = _ at h
    simp only [utf16Next] at h
    repeat' split at h
    all_goals (cases h; try first | exact .inl rfl | exact .inr rfl)

theorem utf8Trail_zeros (k : Nat) : ∀ (n : Nat) (v : BitVec 32) (ok : Bool),
    (utf8Trail (n + 1) v ok (List.replicate k 0)).2.1 = false := by
  intro n
  induction n generalizing k with
  | zero =>
    intro v ok
    cases k with
    | zero => rfl
    | succ k => rw [List.replicate_succ, utf8Trail, utf8Trail]; rfl
  | succ n ih =>
    intro v ok
    cases k with
    | zero => exact utf8Trail_nil _ _ _
    | succ k =>
      rw [List.replicate_succ, utf8Trail]
      exact ih k _ _

theorem utf8Trail_append (k : Nat) : ∀ (n : Nat) (v : BitVec 32) (ok : Bool) (l : List (BitVec 8)),
    ((utf8Trail n v ok l).2.1 = true ∧ utf8Trail n v ok (l ++ List.replicate k 0) =
      ((utf8Trail n v ok l).1, true, (utf8Trail n v ok l).2.2 ++ List.replicate k 0)) ∨
    ((utf8Trail n v ok l).2.1 = false ∧ (utf8Trail n v ok (l ++ List.replicate k 0)).2.1 = false)
  | 0, v, ok, l => by cases ok <;> simp [utf8Trail]
  | n + 1, v, ok, [] => .inr ⟨utf8Trail_nil _ _ _, utf8Trail_zeros _ _ _ _⟩
  | n + 1, v, ok, b :: r => by
    have e : ∀ r', utf8Trailing (b :: r') = ((utf8Trailing [b]).1, (utf8Trailing [b]).2.1, r') := by
      intro r'; rw [utf8Trailing_eq, utf8Trailing_eq]; split <;> rfl
    rw [utf8Trail, utf8Trail, List.cons_append, e (r ++ List.replicate k 0), e r]
    exact utf8Trail_append k n _ _ r

theorem encUtf8_law : encUtf8.Law where
  nil := by show utf8Events [] = []; rw [utf8Events]
  cons_bad u r c s r' h := by
    change utf8Next u r = _ at h
    show utf8Events (u :: r) = _
    rw [utf8Events, h]
  cons_ch u r c r' h := by
    change utf8Next u r = _ at h
    have hl := utf8Next_length u r
    rw [h] at hl
    show utf8Events (u :: r) = _
    rw [utf8Events, h]
    simp only at hl ⊢
    rw [if_pos (by omega)]; rfl
  len := utf8Next_length
  zero r := rfl
  dot r := rfl
  app_ch u r c r' k h := by
    change utf8Next u r = _ at h
    show utf8Next u (r ++ List.replicate k 0) = (.ch c, r' ++ List.replicate k 0)
    simp only [utf8Next] at h ⊢
    split at h
    · cases h
    rename_i h1
    rw [if_neg h1]
    rcases utf8Trail_append k ((utf8CodePoint u).2 - 1) (utf8CodePoint u).1 true r with ⟨e1, e2⟩ | ⟨e1, e2⟩
    · rw [if_neg (by simp [e1])] at h
      rw [e2]
      simp only [reduceCtorEq, if_false]
      split at h
      · cases h
      · rename_i h2
        rw [if_neg h2]
        cases h; rfl
    · rw [if_pos e1] at h; cases h
  app_bad u r c s r' k h := by
    change utf8Next u r = _ at h
    show ∃ r'', utf8Next u (r ++ List.replicate k 0) = _
    simp only [utf8Next] at h ⊢
    split at h
    · rename_i h1
      rw [if_pos h1]; cases h; exact ⟨_, rfl⟩
    rename_i h1
    rw [if_neg h1]
    rcases utf8Trail_append k ((utf8CodePoint u).2 - 1) (utf8CodePoint u).1 true r with ⟨e1, e2⟩ | ⟨e1, e2⟩
    · rw [if_neg (by simp [e1])] at h
      rw [e2]
      simp only [reduceCtorEq, if_false]
      split at h
      · rename_i h2
        rw [if_pos h2]; cases h; exact ⟨_, rfl⟩
      · cases h
    · rw [if_pos e1] at h; rw [if_pos e2]; cases h; exact ⟨_, rfl⟩
  code u r c s r' h := by
    change utf8Next u r = _ at h
    simp only [utf8Next] at h
    repeat' split at h
    all_goals (cases h; try first | exact .inl rfl | exact .inr rfl)

section
variable {U : Type} {enc : Enc U}

theorem Enc.Law.badIn (L : enc.Law) : ∀ (n : Nat) (us : List U), us.length ≤ n → BadIn NotArg (enc.events us)
  | n, [], _ => by rw [L.nil]; intro c v h; cases h
  | 0, u :: r, h => by simp at h
  | n + 1, u :: r, h => by
    have hl := L.len u r
    rcases e : enc.next u r with ⟨c | ⟨c, s⟩, r'⟩
    rotate_left
    · rw [L.cons_bad _ _ _ _ _ e]
      intro c' v hm
      simp only [List.mem_singleton, Ev.bad.injEq] at hm
      rcases L.code _ _ _ _ _ e with h | h <;> (rw [hm.1, h]; decide)
    · rw [L.cons_ch _ _ _ _ e]
      rw [e] at hl
      have ih := Enc.Law.badIn L n r' (by simp only [List.length_cons] at h; simp only at hl; omega)
      intro c' v hm
      simp only [List.mem_cons, reduceCtorEq, false_or] at hm
      exact ih c' v hm

/-- Zeros after the text are read as NUL characters, unless the text ends in an error. -/
theorem Enc.Law.events_zeros (L : enc.Law) (k : Nat) : enc.events (List.replicate k enc.zero) = List.replicate k (.ch '\x00') := by
  induction k with
  | zero => exact L.nil
  | succ k ih => rw [List.replicate_succ, L.cons_ch _ _ _ _ (L.zero _), List.replicate_succ, ih]

theorem Enc.Law.events_pad (L : enc.Law) (k : Nat) : ∀ (n : Nat) (us : List U), us.length ≤ n →
    (∃ cs, enc.events us = readChars cs ∧ enc.events (us ++ List.replicate k enc.zero) = readChars (cs ++ List.replicate k '\x00')) ∨
    (∃ cs code sym, enc.events us = readChars cs ++ [.bad code sym] ∧
      enc.events (us ++ List.replicate k enc.zero) = readChars cs ++ [.bad code sym])
  | n, [], _ => .inl ⟨[], L.nil, by rw [List.nil_append, L.events_zeros]; simp [readChars]⟩
  | 0, u :: r, h => by simp at h
  | n + 1, u :: r, h => by
    have hl := L.len u r
    rw [List.cons_append]
    rcases e : enc.next u r with ⟨ev, r'⟩
    cases ev with
    | bad c s =>
      obtain ⟨r'', e'⟩ := L.app_bad u r c s r' k e
      rw [L.cons_bad _ _ _ _ _ e, L.cons_bad _ _ _ _ _ e']
      exact .inr ⟨[], c, s, rfl, rfl⟩
    | ch c =>
      rw [L.cons_ch _ _ _ _ e, L.cons_ch _ _ _ _ (L.app_ch u r c r' k e)]
      rw [e] at hl
      rcases Enc.Law.events_pad L k n r' (by simp only [List.length_cons] at h; simp only at hl; omega) with
        ⟨cs, h1, h2⟩ | ⟨cs, code, sym, h1, h2⟩
      · exact .inl ⟨c :: cs, by rw [h1]; rfl, by rw [h2]; rfl⟩
      · exact .inr ⟨c :: cs, code, sym, by rw [h1]; rfl, by rw [h2]; rfl⟩

theorem Enc.Law.events_length (L : enc.Law) : ∀ (n : Nat) (us : List U), us.length ≤ n → (enc.events us).length ≤ us.length
  | n, [], _ => by rw [L.nil]; exact Nat.le_refl _
  | 0, u :: r, h => by simp at h
  | n + 1, u :: r, h => by
    have hl := L.len u r
    rcases e : enc.next u r with ⟨c | ⟨c, s⟩, r'⟩
    rotate_left
    · rw [L.cons_bad _ _ _ _ _ e]; simp
    · rw [L.cons_ch _ _ _ _ e]
      rw [e] at hl
      have ih := Enc.Law.events_length L n r' (by simp only [List.length_cons] at h; simp only at hl; omega)
      simp only at hl
      simp only [List.length_cons]; omega

/-! ### `raise_error` -/

theorem raiseCopy_eq {U : Type} (z : U) (address : List U) : ∀ (n i m : Nat), i + n ≤ address.length → n ≤ m →
    raiseCopy address n i (address.take i ++ List.replicate m z) = .ok (address.take (i + n) ++ List.replicate (m - n) z)
  | 0, i, m, _, _ => by simp [raiseCopy]
  | n + 1, i, m, h1, h2 => by
    obtain ⟨m, rfl⟩ : ∃ k, m = k + 1 := ⟨m - 1, by omega⟩
    rw [raiseCopy]
    have hi : i < address.length := by omega
    have e1 : rd address i = .ok address[i] := by unfold rd; rw [List.getElem?_eq_getElem hi]
    rw [e1, Res.ok_bind, List.replicate_succ, wr_append _ _ _ _ _ (by simp; omega), Res.ok_bind]
    have e2 : address.take i ++ address[i] :: List.replicate m z = address.take (i + 1) ++ List.replicate m z := by
      rw [List.take_succ_eq_append_getElem hi, List.append_assoc]; rfl
    rw [e2, raiseCopy_eq z address n (i + 1) m (by omega) (by omega)]
    rw [show i + 1 + n = i + (n + 1) by omega, show m + 1 - (n + 1) = m - n by omega]

theorem raiseBuffer_eq (address : List U) : raiseBuffer enc address address.length =
    .ok (address.take 100 ++ (if address.length > 100 then [enc.dot, enc.dot, enc.dot, enc.zero]
      else List.replicate (104 - address.length) enc.zero)) := by
  unfold raiseBuffer
  simp only
  by_cases h : address.length > 100
  · simp only [if_pos h]
    have := raiseCopy_eq enc.zero address 100 0 104 (by omega) (by omega)
    simp only [List.take_zero, List.nil_append, Nat.zero_add] at this
    rw [this, Res.ok_bind]
    have hl : (address.take 100).length = 100 := by simp; omega
    simp only [List.replicate_succ, List.replicate_zero]
    rw [wr_append _ _ _ _ _ hl.symm, Res.ok_bind]
    rw [show address.take 100 ++ enc.dot :: [enc.zero, enc.zero, enc.zero] = (address.take 100 ++ [enc.dot]) ++ enc.zero :: [enc.zero, enc.zero] by simp]
    rw [wr_append _ _ _ _ _ (by simp; omega), Res.ok_bind]
    rw [show address.take 100 ++ [enc.dot] ++ enc.dot :: [enc.zero, enc.zero] = (address.take 100 ++ [enc.dot, enc.dot]) ++ enc.zero :: [enc.zero] by simp]
    rw [wr_append _ _ _ _ _ (by simp; omega)]
    simp
  · simp only [if_neg h]
    have := raiseCopy_eq enc.zero address address.length 0 104 (by omega) (by omega)
    simp only [List.take_zero, List.nil_append, Nat.zero_add] at this
    rw [this, Res.ok_bind, List.take_of_length_le (by omega), List.take_of_length_le (by omega)]

theorem printArray_ok (L : enc.Law) : ∀ (n : Nat) (us : List U), us.length ≤ n → ∃ t, printArray enc n us = .ok t
  | n, [], _ => ⟨[], by cases n <;> rfl⟩
  | 0, u :: r, h => by simp at h
  | n + 1, u :: r, h => by
    rw [printArray]
    have hl := L.len u r
    split
    · rename_i c r' e
      rw [e] at hl
      obtain ⟨t, ht⟩ := printArray_ok L n r' (by simp only [List.length_cons] at h; simp only at hl; omega)
      split
      · exact ⟨_, rfl⟩
      · exact ⟨_, by rw [ht]; rfl⟩
    · rename_i c s r' e
      rw [e] at hl
      obtain ⟨t, ht⟩ := printArray_ok L n r' (by simp only [List.length_cons] at h; simp only at hl; omega)
      split
      · exact ⟨_, rfl⟩
      · exact ⟨_, by rw [ht]; rfl⟩

theorem pieceText_ok (value : Nat) (str : List U) (t : List Char) (ht : printArray enc 104 str = .ok t) (p : Piece) :
    ∃ x, pieceText enc value str p = .ok x ∧ (p = .str → x = t) := by
  cases p with
  | text s => exact ⟨_, rfl, by simp⟩
  | value => exact ⟨_, rfl, by simp⟩
  | symbol => exact ⟨_, rfl, by simp⟩
  | str => exact ⟨_, ht, fun _ => rfl⟩

theorem concatPieces_ok (value : Nat) (str : List U) (t : List Char) (ht : printArray enc 104 str = .ok t) :
    ∀ ps, ∃ w, concatPieces enc value str ps = .ok w ∧ (Piece.str ∈ ps → ∃ a b, w = a ++ t ++ b)
  | [] => ⟨[], rfl, by simp⟩
  | [p] => by
    obtain ⟨x, hx, hx'⟩ := pieceText_ok (enc := enc) value str t ht p
    refine ⟨x, hx, fun hm => ⟨[], [], ?_⟩⟩
    simp only [List.mem_singleton] at hm
    rw [hx' hm.symm]; simp
  | p :: q :: ps => by
    obtain ⟨x, hx, hx'⟩ := pieceText_ok (enc := enc) value str t ht p
    obtain ⟨w, h1, h2⟩ := concatPieces_ok value str t ht (q :: ps)
    rw [concatPieces, hx, Res.ok_bind, h1]
    refine ⟨_, rfl, fun hm => ?_⟩
    rcases List.mem_cons.1 hm with hm | hm
    · exact ⟨[], ' ' :: w, by rw [hx' hm.symm]; simp⟩
    · obtain ⟨a, b, e⟩ := h2 hm
      exact ⟨x ++ ' ' :: a, b, by rw [e]; simp⟩

theorem raiseBuffer_length (address : List U) : (address.take 100 ++ (if address.length > 100 then [enc.dot, enc.dot, enc.dot, enc.zero]
      else List.replicate (104 - address.length) enc.zero)).length = 104 := by
  split <;> simp <;> omega

theorem raiseError_eq (L : enc.Law) (code : ErrorCode) (value : Nat) (address : List U) :
    ∃ t w, printArray enc 104 (address.take 100 ++ (if address.length > 100 then [enc.dot, enc.dot, enc.dot, enc.zero]
      else List.replicate (104 - address.length) enc.zero)) = .ok t ∧
      raiseError enc code value address address.length = .ok ⟨(raiseCase code).1, code, w⟩ ∧
      (Piece.str ∈ (raiseCase code).2 → ∃ a b, w = a ++ t ++ b) := by
  obtain ⟨t, ht⟩ := printArray_ok L 104 _ (Nat.le_of_eq (raiseBuffer_length (enc := enc) address))
  obtain ⟨w, h1, h2⟩ := concatPieces_ok value _ t ht (raiseCase code).2
  refine ⟨t, w, ht, ?_, h2⟩
  unfold raiseError
  rw [raiseBuffer_eq, Res.ok_bind, h1]; rfl

/-- The characters `cs` are read from the units `emb c`. -/
def Enc.Emb (enc : Enc U) (emb : Char → U) (cs : List Char) : Prop := ∀ c ∈ cs, c ≠ '\x00' ∧ ∀ r, enc.next (emb c) r = (.ch c, r)

theorem printArray_text (emb : Char → U) : ∀ (cs : List Char) (n : Nat) (rest : List U) (t : List Char), enc.Emb emb cs →
    printArray enc n rest = .ok t → printArray enc (cs.length + n) (cs.map emb ++ rest) = .ok (cs ++ t)
  | [], n, rest, t, _, h => by simpa using h
  | c :: cs, n, rest, t, he, h => by
    obtain ⟨h0, h1⟩ := he c (by simp)
    rw [List.length_cons, show cs.length + 1 + n = cs.length + n + 1 by omega, List.map_cons, List.cons_append, printArray, h1]
    simp only
    rw [if_neg h0, printArray_text emb cs n rest t (fun c hc => he c (by simp [hc])) h]
    rfl

theorem printArray_zero (L : enc.Law) (n : Nat) (r : List U) : printArray enc (n + 1) (enc.zero :: r) = .ok [] := by
  rw [printArray, L.zero]; simp

/-- The message shows the beginning of the text. -/
theorem printBuffer_text (L : enc.Law) (emb : Char → U) (cs : List Char) (he : enc.Emb emb cs) :
    printArray enc 104 ((cs.map emb).take 100 ++ (if (cs.map emb).length > 100 then [enc.dot, enc.dot, enc.dot, enc.zero]
      else List.replicate (104 - (cs.map emb).length) enc.zero)) = .ok (shown cs) := by
  unfold shown
  rw [List.length_map, ← List.map_take]
  have he' : enc.Emb emb (cs.take 100) := fun c hc => he c (List.mem_of_mem_take hc)
  by_cases h : cs.length > 100
  · rw [if_pos h, if_pos h]
    have hl : (cs.take 100).length = 100 := by simp; omega
    have := printArray_text emb (cs.take 100) 4 [enc.dot, enc.dot, enc.dot, enc.zero] ['.', '.', '.'] he' (by
      simp only [printArray, L.dot, L.zero]
      simp)
    rw [hl] at this
    exact this
  · rw [if_neg h, if_neg h]
    have hl : (cs.take 100).length = cs.length := by simp; omega
    have := printArray_text emb (cs.take 100) (104 - cs.length) (List.replicate (104 - cs.length) enc.zero) [] he' (by
      rw [show 104 - cs.length = (103 - cs.length) + 1 by omega, List.replicate_succ]
      exact printArray_zero L _ _)
    rw [hl, show cs.length + (104 - cs.length) = 104 by omega] at this
    exact this

theorem raise_eq {α : Type} (L : enc.Law) (code : ErrorCode) (value : Nat) (address : List U) :
    ∃ w, raise enc code value address = (.thrown ⟨(raiseCase code).1, code, w⟩ : Thr α) := by
  obtain ⟨t, w, _, h, _⟩ := raiseError_eq L code value address
  exact ⟨w, by unfold raise; rw [h]⟩

theorem raiseCase_parse (code : ErrorCode) (h : NotArg code) : (raiseCase code).1 = .parse := by
  revert h; cases code <;> decide

theorem raiseCase_class (code : ErrorCode) : (raiseCase code).1 = if code ∈ argumentErrors then .logic else .parse := by
  cases code <;> rfl

theorem orRaise_agrees {α : Type} (L : enc.Law) (text : List U) (r : Res α) (hr : r.ErrIn NotArg) :
    Agrees .parse (orRaise enc text r) r := by
  cases r with
  | ok a => simp [orRaise, Agrees]
  | ub => simp [orRaise, Agrees]
  | err code v =>
    obtain ⟨w, h⟩ := raise_eq (α := α) L code v text
    have hc := raiseCase_parse code (hr code v rfl)
    refine ⟨?_, ?_, ?_, ?_⟩ <;> simp only [orRaise] <;> rw [h] <;> simp [hc]

theorem orRaise0_agrees {α : Type} (r : Res α) (hr : ∀ c v, r = .err c v → c ∈ argumentErrors) :
    Agrees .logic (orRaise0 r) r := by
  cases r with
  | ok a => simp [orRaise0, Agrees]
  | ub => simp [orRaise0, Agrees]
  | err code v =>
    obtain ⟨w, h⟩ := raise_eq (α := α) encChar_law code 0 []
    have hc := raiseCase_class code
    rw [if_pos (hr code v rfl)] at hc
    refine ⟨?_, ?_, ?_, ?_⟩ <;> simp only [orRaise0] <;> rw [h] <;> simp [hc]

theorem anyThrow_agrees {α β γ : Type} (f : α → γ) (g : β → γ) (r4 : Res α) (t6 : Thr β) (r6 : Res β) (t : Thr γ) (r : Res γ)
    (h : Agrees .parse t6 r6)
    (hok : ∀ b, r4 = .ok b → t = .ret (f b) ∧ r = .ok (f b))
    (hub : r4 = .ub → t = .ub ∧ r = .ub)
    (herr : ∀ c v, r4 = .err c v → (∀ a, t6 = .ret a → t = .ret (g a)) ∧ (∀ e, t6 = .thrown e → t = .thrown e) ∧
      (t6 = .ub → t = .ub) ∧ r = r6 >>= fun a => .ok (g a)) :
    Agrees .parse t r := by
  cases r4 with
  | ok a => obtain ⟨rfl, rfl⟩ := hok a rfl; simp [Agrees]
  | ub => obtain ⟨rfl, rfl⟩ := hub rfl; simp [Agrees]
  | err c v =>
    obtain ⟨e1, e2, e3, e4⟩ := herr c v rfl
    obtain ⟨h1, h2, h3, h4⟩ := h
    subst e4
    cases r6 with
    | ok a =>
      have := e1 a ((h1 a).2 rfl)
      subst this; simp [Agrees]
    | ub =>
      have := e3 (h4.2 rfl)
      subst this; simp [Agrees]
    | err c v =>
      obtain ⟨e, he, hc⟩ := (h2 c).2 ⟨v, rfl⟩
      have hcl := h3 e he
      have := e2 e he
      subst this
      simp [Agrees, hcl, hc]

theorem ofEventsLoop_pad : ∀ (n : Nat) (cs w : List Char), cs.length < n → (∀ c ∈ cs, c ≠ '\x00') → ∀ (code : ErrorCode) (sym : Nat),
    FStr.ofEventsLoop n (readChars cs ++ [.bad code sym]) (w ++ List.replicate n '\x00') w.length = .err code sym
  | 0, cs, w, h, _, _, _ => by omega
  | n + 1, [], w, h, _, _, _ => by simp [FStr.ofEventsLoop, readChars]
  | n + 1, c :: cs, w, h, hz, code, sym => by
    simp only [readChars, List.map_cons, List.cons_append, FStr.ofEventsLoop, List.replicate_succ]
    rw [wr_append _ _ _ _ _ rfl]
    simp only [Res.ok_bind]
    rw [if_neg (hz c (by simp))]
    have := ofEventsLoop_pad n cs (w ++ [c]) (by simpa using h) (fun c hc => hz c (by simp [hc])) code sym
    simpa [readChars] using this

/-- The fixed string made from a text padded with zeros. -/
theorem makeFixed_pad (L : enc.Law) (us : List U) (k : Nat) :
    (∀ cs, enc.events us = readChars cs → (∀ c ∈ cs, c ≠ '\x00') →
      ∃ f, makeFixed enc (us ++ List.replicate k enc.zero) = .ok f ∧ f.contents = cs) ∧
    (∀ cs code sym, enc.events us = readChars cs ++ [.bad code sym] → (∀ c ∈ cs, c ≠ '\x00') →
      makeFixed enc (us ++ List.replicate k enc.zero) = .err code sym) := by
  have hp := L.events_pad k us.length us (Nat.le_refl _)
  have hl := L.events_length _ (us ++ List.replicate k enc.zero) (Nat.le_refl _)
  have inj : ∀ a b : List Char, readChars a = readChars b → a = b := by
    intro a
    induction a with
    | nil => intro b h; cases b with
      | nil => rfl
      | cons => simp [readChars] at h
    | cons x a ih => intro b h; cases b with
      | nil => simp [readChars] at h
      | cons y b =>
        simp only [readChars, List.map_cons, List.cons.injEq, Ev.ch.injEq] at h
        rw [h.1, ih b h.2]
  constructor
  · intro cs he hz
    rcases hp with ⟨cs', h1, h2⟩ | ⟨cs', code, sym, h1, h2⟩
    · have : cs' = cs := inj _ _ (by rw [← h1, he])
      subst this
      rw [h2] at hl
      obtain ⟨s, g1, _, _, g4⟩ := FStr.ofEvents_eq (us ++ List.replicate k enc.zero).length (cs' ++ List.replicate k '\x00')
        (by simpa [readChars] using hl)
      refine ⟨s, by unfold makeFixed; rw [h2]; exact g1, ?_⟩
      rw [g4]
      have t1 : ∀ c ∈ cs', (decide (c ≠ '\x00')) = true := by intro c hc; simp [hz c hc]
      rw [List.takeWhile_append_of_pos t1]
      cases k <;> simp [List.replicate_succ]
    · exfalso
      rw [he] at h1
      have : Ev.bad code sym ∈ readChars cs := by rw [h1]; simp
      simp [readChars] at this
  · intro cs code sym he hz
    rcases hp with ⟨cs', h1, h2⟩ | ⟨cs', code', sym', h1, h2⟩
    · exfalso
      rw [he] at h1
      have : Ev.bad code sym ∈ readChars cs' := by rw [← h1]; simp
      simp [readChars] at this
    · rw [he] at h1
      rw [← h1] at h2
      rw [h2] at hl
      unfold makeFixed FStr.ofEvents
      rw [h2]
      have := ofEventsLoop_pad (us ++ List.replicate k enc.zero).length cs [] (by simp [readChars] at hl ⊢; omega) hz code sym
      simp only [List.nil_append, List.length_nil] at this
      rw [this]; rfl

theorem literalCopy_eq {U : Type} (z : U) (address : List U) : ∀ (n i m : Nat), i + n ≤ address.length → n ≤ m →
    literalCopy address n i (address.take i ++ List.replicate m z) = .ok (address.take (i + n) ++ List.replicate (m - n) z)
  | 0, i, m, _, _ => by simp [literalCopy]
  | n + 1, i, m, h1, h2 => by
    obtain ⟨m, rfl⟩ : ∃ k, m = k + 1 := ⟨m - 1, by omega⟩
    rw [literalCopy]
    have hi : i < address.length := by omega
    have e1 : rd address i = .ok address[i] := by unfold rd; rw [List.getElem?_eq_getElem hi]
    rw [e1, Res.ok_bind, List.replicate_succ, wr_append _ _ _ _ _ (by simp; omega), Res.ok_bind]
    have e2 : address.take i ++ address[i] :: List.replicate m z = address.take (i + 1) ++ List.replicate m z := by
      rw [List.take_succ_eq_append_getElem hi, List.append_assoc]; rfl
    rw [e2, literalCopy_eq z address n (i + 1) m (by omega) (by omega)]
    rw [show i + 1 + n = i + (n + 1) by omega, show m + 1 - (n + 1) = m - n by omega]

/-- A literal of admissible length is the array overload on the text padded with zeros. -/
theorem literal_eq {α : Type} (maxLen : Nat) (parse : List U → Thr α) (s : List U) (h : s.length ≤ maxLen) :
    literal enc maxLen parse s = parse (s ++ List.replicate (maxLen - s.length) enc.zero) := by
  unfold literal
  rw [if_neg (by omega), Nat.min_eq_left h]
  have := literalCopy_eq enc.zero s s.length 0 (maxLen + 1) (by omega) (by omega)
  simp only [List.take_zero, List.nil_append, Nat.zero_add, List.take_length] at this
  rw [this]
  simp only
  congr 1
  rw [List.take_append, List.take_of_length_le h, List.take_replicate]
  congr 2
  omega

/-- The array overload on a padded text without NUL characters. -/
theorem arrayParseThrow_pad {α : Type} (L : enc.Law) (parse : List Ev → Res α) (us : List U) (k : Nat)
    (hp : ∀ cs, (parse (readChars cs)).ErrIn NotArg) (cs : List Char) (he : enc.events us = readChars cs)
    (hz : ∀ c ∈ cs, c ≠ '\x00') :
    Agrees .parse (arrayParseThrow enc parse (us ++ List.replicate k enc.zero)) (parse (enc.events us)) ∧
    arrayParse enc parse (us ++ List.replicate k enc.zero) = parse (enc.events us) := by
  obtain ⟨f, h1, h2⟩ := (makeFixed_pad L us k).1 cs he hz
  unfold arrayParseThrow arrayParse
  rw [h1]
  simp only [Res.ok_bind]
  rw [h2, he]
  exact ⟨orRaise_agrees encChar_law _ _ (hp cs), rfl⟩

theorem arrayParse_bad {α : Type} (L : enc.Law) (parse : List Ev → Res α) (us : List U) (k : Nat)
    (cs : List Char) (code : ErrorCode) (sym : Nat) (he : enc.events us = readChars cs ++ [.bad code sym])
    (hz : ∀ c ∈ cs, c ≠ '\x00') :
    arrayParse enc parse (us ++ List.replicate k enc.zero) = .err code sym ∧
    ∃ w, arrayParseThrow enc parse (us ++ List.replicate k enc.zero) = .thrown ⟨.parse, code, w⟩ := by
  have h1 := (makeFixed_pad L us k).2 cs code sym he hz
  unfold arrayParseThrow arrayParse
  rw [h1]
  obtain ⟨w, h⟩ := raise_eq (α := α) L code sym (us ++ List.replicate k enc.zero)
  have hc : (raiseCase code).1 = .parse := raiseCase_parse code (L.badIn us.length us (Nat.le_refl _) code sym (by rw [he]; simp))
  exact ⟨rfl, w, by simp only; rw [h, hc]⟩

/-- The array overloads report what the overload with `error_code` reports. -/
theorem arrayParseThrow_agrees {α : Type} (L : enc.Law) (parse : List Ev → Res α) (us : List U)
    (hp : ∀ cs, (parse (readChars cs)).ErrIn NotArg) :
    Agrees .parse (arrayParseThrow enc parse us) (arrayParse enc parse us) := by
  have hb := L.badIn us.length us (Nat.le_refl _)
  unfold arrayParseThrow arrayParse
  cases h : makeFixed enc us with
  | ok f => exact orRaise_agrees encChar_law _ _ (hp _)
  | ub => simp [Agrees]
  | err code sym =>
    have hc := raiseCase_parse code (ofEvents_codes _ _ hb code sym h)
    obtain ⟨w, hw⟩ := raise_eq (α := α) L code sym us
    simp only [Res.err_bind]
    rw [hw, hc]
    simp [Agrees]

end

end Ip
