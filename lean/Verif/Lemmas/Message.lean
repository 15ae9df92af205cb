import Verif.Spec.Message
import Verif.Lemmas.Throw
import Verif.Lemmas.V6Format
/-
Facts on the messages of exceptions.
-/
set_option autoImplicit false

namespace Ip
open Spec

variable {U : Type} {enc : Enc U}

theorem symbolCode_eq (cp : Nat) : symbolCode cp = uplus cp := by
  unfold symbolCode uplus
  simp only
  rw [List.append_assoc "{U+".toList]
  congr 2
  by_cases h : cp < 65536
  · rw [if_pos h]
    unfold hex4
    have z : (0 : Nat).digitChar = '0' := rfl
    rcases hexShort_cases cp h with ⟨h1, e⟩ | ⟨h0, h1, e⟩ | ⟨h0, h1, e⟩ | ⟨h0, e⟩ <;> (unfold hexShort at e; rw [e])
    · rw [show cp / 4096 % 16 = 0 by omega, show cp / 256 % 16 = 0 by omega, show cp / 16 % 16 = 0 by omega,
        show cp % 16 = cp by omega, z]; rfl
    · rw [show cp / 4096 % 16 = 0 by omega, show cp / 256 % 16 = 0 by omega, show cp / 16 % 16 = cp / 16 by omega, z]; rfl
    · rw [show cp / 4096 % 16 = 0 by omega, show cp / 256 % 16 = cp / 256 by omega, z]; rfl
    · rw [show cp / 4096 % 16 = cp / 4096 by omega]; rfl
  · rw [if_neg h]
    have : ¬ (Nat.toDigits 16 cp).length ≤ 4 := fun hl => by
      have := (Nat.length_toDigits_le_iff (b := 16) (n := cp) (k := 4) (by decide) (by decide)).1 hl
      omega
    rw [show 4 - (Nat.toDigits 16 cp).length = 0 by omega]; rfl

theorem concatPieces_message (value : Nat) (str : List U) (t : List Char) (ht : printArray enc 104 str = .ok t) (code : ErrorCode) :
    concatPieces enc value str (raiseCase code).2 = .ok (message (Nat.toDigits 10 value) (uplus value) t code) := by
  cases code <;>
    (simp only [raiseCase, concatPieces, pieceText, ht, symbolCode_eq, Res.ok_bind]; delta message; dsimp only; try simp)

theorem raiseError_message (L : enc.Law) (address : List U) :
    ∃ t, printArray enc 104 (address.take 100 ++ (if address.length > 100 then [enc.dot, enc.dot, enc.dot, enc.zero]
      else List.replicate (104 - address.length) enc.zero)) = .ok t ∧ ∀ code value,
      raiseError enc code value address address.length =
        .ok ⟨if code ∈ argumentErrors then .logic else .parse, code, message (Nat.toDigits 10 value) (uplus value) t code⟩ := by
  obtain ⟨t, ht⟩ := printArray_ok L 104 _ (Nat.le_of_eq (raiseBuffer_length (enc := enc) address))
  refine ⟨t, ht, fun code value => ?_⟩
  unfold raiseError
  rw [raiseBuffer_eq, Res.ok_bind, concatPieces_message _ _ _ ht, Res.ok_bind, raiseCase_class]

/-- The reader `enc` reads the encoding form `encode`. -/
structure Enc.Form (enc : Enc U) (encode : Nat → List U) : Prop where
  cons : ∀ cp, ∃ u r, encode cp = u :: r
  next : ∀ cp, Scalar cp → ∀ rest u r, encode cp = u :: r →
    enc.next u (r ++ rest) = (if cp < 128 then .ch (Char.ofNat cp) else .bad .unexpected_symbol cp, rest)
  cut : ∀ cp, Scalar cp → ∀ k rest, 0 < k → k < (encode cp).length →
    ∃ u r r', (encode cp).take k = u :: r ∧ enc.next u (r ++ enc.dot :: enc.dot :: enc.dot :: rest) = (.bad .wrong_encoding_sequence 0, r')

theorem utf8Next_cut (b : BitVec 8) (l : List (BitVec 8)) (h : (utf8CodePoint b).2 ≠ 0)
    (hl : (utf8Trail ((utf8CodePoint b).2 - 1) (utf8CodePoint b).1 true l).2.1 = false) :
    ∃ r', utf8Next b l = (.bad .wrong_encoding_sequence 0, r') := by
  unfold utf8Next
  simp only
  rw [if_neg h, if_pos hl]
  exact ⟨_, rfl⟩

theorem utf8Trail_dots : ∀ (n : Nat) (v : BitVec 32) (ok : Bool) (rest : List (BitVec 8)),
    n < 3 → (utf8Trail (n + 1) v ok (46 :: 46 :: 46 :: rest)).2.1 = false
  | 0, _, _, _, _ => rfl
  | 1, _, _, _, _ => rfl
  | 2, _, _, _, _ => rfl

theorem utf8Form : encUtf8.Form utf8Encode where
  cons := utf8Encode_cons
  next := fun cp h rest u r e => utf8Next_encode cp h rest u r e
  cut := by
    intro cp h k rest h0 hk
    show ∃ u r r', _ ∧ utf8Next u (r ++ 46 :: 46 :: 46 :: rest) = _
    obtain ⟨h1, _⟩ := h
    have key : ∀ (b : BitVec 8) (v n : Nat) (cs : List (BitVec 8)), utf8CodePoint b = (BitVec.ofNat 32 v, n + 1) → n < 4 →
        (utf8Trail n (BitVec.ofNat 32 v) true (cs ++ 46 :: 46 :: 46 :: rest)).2.1 = false →
        ∃ r', utf8Next b (cs ++ 46 :: 46 :: 46 :: rest) = (.bad .wrong_encoding_sequence 0, r') := by
      intro b v n cs e hn ht
      exact utf8Next_cut b _ (by rw [e]; simp) (by rw [e]; exact ht)
    unfold utf8Encode at hk ⊢
    split at hk
    · simp at hk; omega
    rename_i hc0
    rw [if_neg hc0]
    split at hk
    · rename_i hc
      rw [if_pos hc]
      simp only [List.length_cons, List.length_nil] at hk
      obtain rfl : k = 1 := by omega
      have e1 : (BitVec.ofNat 8 (0xC0 + cp / 0x40)).toNat = 0xC0 + cp / 0x40 := by simp; omega
      have hcp : utf8CodePoint (BitVec.ofNat 8 (0xC0 + cp / 0x40)) = (BitVec.ofNat 32 (cp / 0x40), 1 + 1) := by
        rw [utf8CodePoint_eq, e1, if_neg (by omega), if_neg (by omega), if_pos (by omega), Nat.add_sub_cancel_left]
      obtain ⟨r', hr⟩ := key _ _ _ [] hcp (by omega) (utf8Trail_dots _ _ _ _ (by omega))
      exact ⟨_, _, r', rfl, hr⟩
    rename_i hc1
    rw [if_neg hc1]
    split at hk
    · rename_i hc
      rw [if_pos hc]
      simp only [List.length_cons, List.length_nil] at hk
      have e1 : (BitVec.ofNat 8 (0xE0 + cp / 0x1000)).toNat = 0xE0 + cp / 0x1000 := by simp; omega
      have hcp : utf8CodePoint (BitVec.ofNat 8 (0xE0 + cp / 0x1000)) = (BitVec.ofNat 32 (cp / 0x1000), 2 + 1) := by
        rw [utf8CodePoint_eq, e1, if_neg (by omega), if_neg (by omega), if_neg (by omega), if_pos (by omega),
          Nat.add_sub_cancel_left]
      rcases (by omega : k = 1 ∨ k = 2) with rfl | rfl
      · obtain ⟨r', hr⟩ := key _ _ _ [] hcp (by omega) (utf8Trail_dots _ _ _ _ (by omega))
        exact ⟨_, _, r', rfl, hr⟩
      · obtain ⟨r', hr⟩ := key _ _ _ [_] hcp (by omega) (by
          rw [List.cons_append, utf8Trail_cont _ _ _ (cp / 0x40 % 0x40) (by omega)]
          exact utf8Trail_dots _ _ _ _ (by omega))
        exact ⟨_, _, r', rfl, hr⟩
    rename_i hc2
    rw [if_neg hc2]
    simp only [List.length_cons, List.length_nil] at hk
    have e1 : (BitVec.ofNat 8 (0xF0 + cp / 0x40000)).toNat = 0xF0 + cp / 0x40000 := by simp; omega
    have hcp : utf8CodePoint (BitVec.ofNat 8 (0xF0 + cp / 0x40000)) = (BitVec.ofNat 32 (cp / 0x40000), 3 + 1) := by
      rw [utf8CodePoint_eq, e1, if_neg (by omega), if_neg (by omega), if_neg (by omega), if_neg (by omega),
        if_pos (by omega), Nat.add_sub_cancel_left]
    rcases (by omega : k = 1 ∨ k = 2 ∨ k = 3) with rfl | rfl | rfl
    · obtain ⟨r', hr⟩ := key _ _ _ [] hcp (by omega) (utf8Trail_dots _ _ _ _ (by omega))
      exact ⟨_, _, r', rfl, hr⟩
    · obtain ⟨r', hr⟩ := key _ _ _ [_] hcp (by omega) (by
        rw [List.cons_append, utf8Trail_cont _ _ _ (cp / 0x1000 % 0x40) (by omega)]
        exact utf8Trail_dots _ _ _ _ (by omega))
      exact ⟨_, _, r', rfl, hr⟩
    · obtain ⟨r', hr⟩ := key _ _ _ [_, _] hcp (by omega) (by
        rw [List.cons_append, utf8Trail_cont _ _ _ (cp / 0x1000 % 0x40) (by omega), List.cons_append,
          utf8Trail_cont _ _ _ (cp / 0x40 % 0x40) (by omega)]
        exact utf8Trail_dots _ _ _ _ (by omega))
      exact ⟨_, _, r', rfl, hr⟩

theorem utf16Form : encUtf16.Form utf16Encode where
  cons := utf16Encode_cons
  next := fun cp h rest u r e => utf16Next_encode cp h rest u r e
  cut := by
    intro cp h k rest h0 hk
    show ∃ u r r', _ ∧ utf16Next u (r ++ 46 :: 46 :: 46 :: rest) = _
    obtain ⟨h1, _⟩ := h
    unfold utf16Encode at hk ⊢
    split at hk
    · simp at hk; omega
    rename_i hc
    rw [if_neg hc]
    simp only [List.length_cons, List.length_nil] at hk
    obtain rfl : k = 1 := by omega
    have e1 : (BitVec.ofNat 16 (0xD800 + (cp - 0x10000) / 0x400)).toNat = 0xD800 + (cp - 0x10000) / 0x400 := by simp; omega
    refine ⟨_, _, 46 :: 46 :: rest, rfl, ?_⟩
    rw [utf16Next_eq, e1, if_pos (by omega)]
    rfl

theorem utf32Form : encUtf32.Form utf32Encode where
  cons := fun _ => ⟨_, _, rfl⟩
  next := by
    intro cp h rest u r e
    unfold utf32Encode at e
    obtain ⟨rfl, rfl⟩ := List.cons.inj e
    have h1 := h.1
    have e : (BitVec.ofNat 32 cp).toNat = cp := by simp; omega
    simp only [encUtf32, e, List.nil_append]
    by_cases hc : cp < 128
    · rw [if_pos hc, if_neg (by omega)]
    · rw [if_neg hc, if_pos (by omega)]
  cut := by
    intro cp h k rest h0 hk
    simp only [utf32Encode, List.length_cons, List.length_nil] at hk; omega

theorem char_zero (cp : Nat) (h : cp < 128) (h0 : cp ≠ 0) : Char.ofNat cp ≠ '\x00' := by
  intro e
  have := toNat_ofNat_ascii cp h
  rw [e] at this
  exact h0 this.symm

theorem printArray_form {encode : Nat → List U} (F : enc.Form encode) : ∀ (cps : List Nat) (n : Nat) (rest : List U) (t : List Char),
    (∀ cp ∈ cps, Scalar cp ∧ cp ≠ 0) → printArray enc n rest = .ok t →
    printArray enc (cps.length + n) (cps.flatMap encode ++ rest) = .ok (displayed cps ++ t)
  | [], n, rest, t, _, h => by simpa [displayed] using h
  | cp :: cps, n, rest, t, hs, h => by
    obtain ⟨u, r, e⟩ := F.cons cp
    obtain ⟨hs1, hs2⟩ := hs cp (by simp)
    have ih := printArray_form F cps n rest t (fun c hc => hs c (by simp [hc])) h
    rw [List.length_cons, show cps.length + 1 + n = cps.length + n + 1 by omega, List.flatMap_cons, e, List.append_assoc,
      List.cons_append, printArray, F.next cp hs1 _ u r e]
    unfold displayed at ih ⊢
    rw [List.flatMap_cons]
    by_cases hc : cp < 128
    · simp only [if_pos hc]
      rw [if_neg (char_zero cp hc hs2), ih]; rfl
    · simp only [if_neg hc]
      rw [if_neg hs2, ih, Res.ok_bind, symbolCode_eq, List.append_assoc]

theorem printArray_more (L : enc.Law) (n m : Nat) (us : List U) (h : us.length ≤ n) (hm : n ≤ m) :
    printArray enc m us = printArray enc n us := by
  induction n generalizing m us with
  | zero =>
    obtain rfl : us = [] := List.length_eq_zero_iff.1 (by omega)
    cases m <;> rfl
  | succ n ih =>
    obtain ⟨m, rfl⟩ : ∃ k, m = k + 1 := ⟨m - 1, by omega⟩
    cases us with
    | nil => rfl
    | cons u r =>
      have hl := L.len u r
      simp only [List.length_cons] at h
      rw [printArray, printArray]
      rcases e : enc.next u r with ⟨c | ⟨c, s⟩, r'⟩ <;>
        (rw [e] at hl; simp only at hl; simp only; rw [ih m r' (by omega) (by omega)])

theorem Enc.Form.length {encode : Nat → List U} (F : enc.Form encode) : ∀ cps : List Nat, cps.length ≤ (cps.flatMap encode).length
  | [] => Nat.le_refl _
  | cp :: cps => by
    obtain ⟨u, r, e⟩ := F.cons cp
    have := Enc.Form.length F cps
    rw [List.flatMap_cons, List.length_append, e]
    simp only [List.length_cons]; omega

/-- Printing complete characters followed by `rest`. -/
theorem printArray_pre (L : enc.Law) {encode : Nat → List U} (F : enc.Form encode) (cps : List Nat) (rest : List U) (t : List Char) (n : Nat)
    (hs : ∀ cp ∈ cps, Scalar cp ∧ cp ≠ 0) (hl : (cps.flatMap encode ++ rest).length = n)
    (h : printArray enc rest.length rest = .ok t) :
    printArray enc n (cps.flatMap encode ++ rest) = .ok (displayed cps ++ t) := by
  have h1 := Enc.Form.length F cps
  rw [List.length_append] at hl
  have h2 := printArray_more L rest.length (n - cps.length) rest (Nat.le_refl _) (by omega)
  have := printArray_form F cps (n - cps.length) rest t hs (h2.trans h)
  rwa [show cps.length + (n - cps.length) = n by omega] at this

theorem printArray_zeros (L : enc.Law) (k : Nat) (h : 0 < k) : printArray enc k (List.replicate k enc.zero) = .ok [] := by
  obtain ⟨k, rfl⟩ : ∃ m, k = m + 1 := ⟨k - 1, by omega⟩
  rw [List.replicate_succ]; exact printArray_zero L _ _

theorem printArray_dots (L : enc.Law) : printArray enc 4 [enc.dot, enc.dot, enc.dot, enc.zero] = .ok ['.', '.', '.'] := by
  simp only [printArray, L.dot, L.zero]; simp

/-- What is shown of a text of complete characters. -/
theorem buffer_short (L : enc.Law) {encode : Nat → List U} (F : enc.Form encode) (cps : List Nat)
    (hs : ∀ cp ∈ cps, Scalar cp ∧ cp ≠ 0) (h : (cps.flatMap encode).length ≤ 100) :
    printArray enc 104 ((cps.flatMap encode).take 100 ++ (if (cps.flatMap encode).length > 100 then [enc.dot, enc.dot, enc.dot, enc.zero]
      else List.replicate (104 - (cps.flatMap encode).length) enc.zero)) = .ok (displayed cps) := by
  rw [if_neg (by omega), List.take_of_length_le h]
  have := printArray_pre L F cps (List.replicate (104 - (cps.flatMap encode).length) enc.zero) [] 104 hs
    (by rw [List.length_append, List.length_replicate]; omega)
    (by rw [List.length_replicate]; exact printArray_zeros L _ (by omega))
  rwa [List.append_nil] at this

theorem buffer_long (L : enc.Law) {encode : Nat → List U} (F : enc.Form encode) (cps : List Nat) (rest : List U)
    (hs : ∀ cp ∈ cps, Scalar cp ∧ cp ≠ 0) (h : (cps.flatMap encode).length = 100) (hr : rest ≠ []) :
    printArray enc 104 ((cps.flatMap encode ++ rest).take 100 ++ (if (cps.flatMap encode ++ rest).length > 100 then [enc.dot, enc.dot, enc.dot, enc.zero]
      else List.replicate (104 - (cps.flatMap encode ++ rest).length) enc.zero)) = .ok (displayed cps ++ ['.', '.', '.']) := by
  have hp := List.length_pos_iff.2 hr
  rw [if_pos (by rw [List.length_append]; omega), List.take_left' h]
  exact printArray_pre L F cps _ _ 104 hs (by simp only [List.length_append, List.length_cons, List.length_nil]; omega) (printArray_dots L)

theorem buffer_cut (L : enc.Law) {encode : Nat → List U} (F : enc.Form encode) (cps : List Nat) (cp : Nat) (rest : List U)
    (hs : ∀ cp ∈ cps, Scalar cp ∧ cp ≠ 0) (hc : Scalar cp) (h : (cps.flatMap encode).length < 100)
    (h2 : 100 < (cps.flatMap encode).length + (encode cp).length) :
    printArray enc 104 ((cps.flatMap encode ++ (encode cp ++ rest)).take 100 ++
      (if (cps.flatMap encode ++ (encode cp ++ rest)).length > 100 then [enc.dot, enc.dot, enc.dot, enc.zero]
      else List.replicate (104 - (cps.flatMap encode ++ (encode cp ++ rest)).length) enc.zero)) = .ok (displayed cps) := by
  rw [if_pos (by simp only [List.length_append]; omega), List.take_append, List.take_of_length_le (by omega),
    List.take_append_of_le_length (by omega), List.append_assoc]
  obtain ⟨u, r, r', e1, e2⟩ := F.cut cp hc (100 - (cps.flatMap encode).length) [enc.zero] (by omega) (by omega)
  have hlen : ((encode cp).take (100 - (cps.flatMap encode).length)).length = 100 - (cps.flatMap encode).length := by
    rw [List.length_take]; omega
  have := printArray_pre L F cps ((encode cp).take (100 - (cps.flatMap encode).length) ++ [enc.dot, enc.dot, enc.dot, enc.zero]) [] 104 hs
    (by simp only [List.length_append, hlen, List.length_cons, List.length_nil]; omega)
    (by
      rw [e1]
      simp only [List.cons_append, List.length_cons]
      rw [printArray, e2]; simp)
  rwa [List.append_nil] at this

theorem buffer_nul (L : enc.Law) {encode : Nat → List U} (F : enc.Form encode) (cps : List Nat) (rest : List U)
    (hs : ∀ cp ∈ cps, Scalar cp ∧ cp ≠ 0) (h : (cps.flatMap encode).length < 100) :
    printArray enc 104 ((cps.flatMap encode ++ enc.zero :: rest).take 100 ++
      (if (cps.flatMap encode ++ enc.zero :: rest).length > 100 then [enc.dot, enc.dot, enc.dot, enc.zero]
      else List.replicate (104 - (cps.flatMap encode ++ enc.zero :: rest).length) enc.zero)) = .ok (displayed cps) := by
  have hb := raiseBuffer_length (enc := enc) (cps.flatMap encode ++ enc.zero :: rest)
  generalize ht : (if (cps.flatMap encode ++ enc.zero :: rest).length > 100 then [enc.dot, enc.dot, enc.dot, enc.zero]
      else List.replicate (104 - (cps.flatMap encode ++ enc.zero :: rest).length) enc.zero) = tail at hb ⊢
  rw [List.take_append, List.take_of_length_le (by omega), List.append_assoc] at hb ⊢
  obtain ⟨k, hk⟩ : ∃ k, 100 - (cps.flatMap encode).length = k + 1 := ⟨99 - (cps.flatMap encode).length, by omega⟩
  rw [hk, List.take_succ_cons, List.cons_append] at hb ⊢
  have := printArray_pre L F cps _ [] 104 hs hb (by rw [List.length_cons]; exact printArray_zero L _ _)
  rwa [List.append_nil] at this

theorem wholly_spec (encode : Nat → List U) : ∀ (cps : List Nat) (n : Nat), ∃ rest, cps = wholly encode n cps ++ rest ∧
    ((wholly encode n cps).flatMap encode).length ≤ n ∧
    (rest = [] ∨ ∃ cp r, rest = cp :: r ∧ n < ((wholly encode n cps).flatMap encode).length + (encode cp).length)
  | [], n => ⟨[], by simp [wholly]⟩
  | cp :: cps, n => by
    rw [wholly]
    by_cases h : (encode cp).length ≤ n
    · rw [if_pos h]
      obtain ⟨rest, h1, h2, h3⟩ := wholly_spec encode cps (n - (encode cp).length)
      refine ⟨rest, by rw [List.cons_append, ← h1], by rw [List.flatMap_cons, List.length_append]; omega, ?_⟩
      rw [List.flatMap_cons, List.length_append]
      rcases h3 with h3 | ⟨a, r, h3, h4⟩
      · exact .inl h3
      · exact .inr ⟨a, r, h3, by omega⟩
    · rw [if_neg h]
      exact ⟨cp :: cps, rfl, by simp, .inr ⟨cp, cps, rfl, by simp; omega⟩⟩

/-- What is shown of any text of non zero scalar values. -/
theorem buffer_any (L : enc.Law) {encode : Nat → List U} (F : enc.Form encode) (cps : List Nat) (hs : ∀ cp ∈ cps, Scalar cp ∧ cp ≠ 0) :
    printArray enc 104 ((cps.flatMap encode).take 100 ++ (if (cps.flatMap encode).length > 100 then [enc.dot, enc.dot, enc.dot, enc.zero]
      else List.replicate (104 - (cps.flatMap encode).length) enc.zero)) =
    .ok (displayed (wholly encode 100 cps) ++
      (if (cps.flatMap encode).length > 100 ∧ ((wholly encode 100 cps).flatMap encode).length = 100 then ['.', '.', '.'] else [])) := by
  obtain ⟨rest, h1, h2, h3⟩ := wholly_spec encode cps 100
  generalize wholly encode 100 cps = w at h1 h2 h3 ⊢
  subst h1
  have hw : ∀ cp ∈ w, Scalar cp ∧ cp ≠ 0 := fun cp hc => hs cp (by simp [hc])
  rcases h3 with rfl | ⟨cp, r, rfl, h4⟩
  · rw [List.append_nil, buffer_short L F w hw h2, if_neg (by omega), List.append_nil]
  · have hcp : 0 < (encode cp).length := by
      obtain ⟨u, r, e⟩ := F.cons cp
      rw [e]; simp
    rw [List.flatMap_append]
    by_cases h : (w.flatMap encode).length = 100
    · rw [buffer_long L F w _ hw h (by
        obtain ⟨u, r', e⟩ := F.cons cp
        rw [List.flatMap_cons, e]; simp)]
      rw [if_pos ⟨by rw [List.length_append, List.flatMap_cons, List.length_append]; omega, h⟩]
    · rw [List.flatMap_cons, buffer_cut L F w cp _ hw (hs cp (by simp)).1 (by omega) h4, if_neg (by omega), List.append_nil]

theorem raise_thrown {α : Type} (code : ErrorCode) (value : Nat) (address : List U) (e : Exn)
    (h : raiseError enc code value address address.length = .ok e) : raise enc code value address = (.thrown e : Thr α) := by
  unfold raise; rw [h]

end Ip
