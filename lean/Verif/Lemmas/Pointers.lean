import Verif.Model.Pointers
import Verif.Spec.Pointers
import Verif.Lemmas.Utf8Loose
import Verif.Lemmas.Throw
set_option autoImplicit false

namespace Ip
open Spec

/-- What the proofs use of a reader on pointers. -/
structure PLaw {U : Type} (next : PReader U) (enc : Enc U) (Ch : Nat → List U → Prop) (span : U → Nat) : Prop where
  law : enc.Law
  out : ∀ arr stop it, arr.length ≤ it → next arr stop it = .ub
  eq : ∀ arr stop it u, arr[it]? = some u → stop ≤ arr.length → next arr stop it =
    if it + span u ≤ arr.length then .ok ((enc.next u ((arr.take stop).drop (it + 1))).1, it + span u) else .ub
  rest : ∀ u l, (enc.next u l).2 = l.drop (span u - 1)
  pos : ∀ u, 1 ≤ span u
  full : ∀ u l c, (enc.next u l).1 = .ch c → span u ≤ l.length + 1
  wrong : ∀ u l, l.length + 1 < span u → (enc.next u l).1 = .bad .wrong_encoding_sequence 0
  taken : ∀ u l c, (enc.next u l).1 = .ch c → Ch c.toNat (u :: l.take (span u - 1))
  unique : ∀ cp g u l t, Ch cp g → u :: l = g ++ t → ∃ c : Char, c.toNat = cp ∧ enc.next u l = (.ch c, t)
  ne : ∀ cp g, Ch cp g → g ≠ []

theorem inc_eq (n it : Nat) : inc n it = if it + 1 ≤ n then .ok (it + 1) else .ub := rfl

theorem rd_of {α : Type} {a : List α} {i : Nat} {x : α} (h : a[i]? = some x) : rd a i = .ok x := by
  unfold rd; rw [h]

theorem rd_out {α : Type} {a : List α} {i : Nat} (h : a.length ≤ i) : rd a i = .ub := by
  unfold rd; rw [List.getElem?_eq_none h]

theorem lt_of_getElem? {α : Type} {a : List α} {i : Nat} {x : α} (h : a[i]? = some x) : i < a.length := by
  rcases Nat.lt_or_ge i a.length with h' | h'
  · exact h'
  · rw [List.getElem?_eq_none h'] at h; cases h

/-! ### `char` -/

theorem charNextP_law : PLaw charNextP encChar (fun cp g => ∃ c : Char, g = [c] ∧ c.toNat = cp) (fun _ => 1) where
  law := encChar_law
  out arr stop it h := by unfold charNextP; rw [rd_out h]; rfl
  eq arr stop it u h hs := by
    have := lt_of_getElem? h
    unfold charNextP
    rw [rd_of h, inc_eq]
    simp only [Res.ok_bind]
    rw [if_pos (by omega), if_pos (by omega)]
    rfl
  rest u l := by simp [encChar]
  pos u := Nat.le_refl _
  full u l c h := by omega
  wrong u l h := by omega
  taken u l c h := by
    simp only [encChar, Ev.ch.injEq] at h
    subst h
    exact ⟨u, by simp, rfl⟩
  unique cp g u l t h e := by
    obtain ⟨c, rfl, rfl⟩ := h
    simp only [List.cons_append, List.nil_append, List.cons.injEq] at e
    obtain ⟨rfl, rfl⟩ := e
    exact ⟨u, rfl, rfl⟩
  ne cp g h := by obtain ⟨c, rfl, _⟩ := h; simp

/-! ### UTF-32 -/

theorem utf32NextP_law : PLaw utf32NextP encUtf32 Ascii (fun _ => 1) where
  law := encUtf32_law
  out arr stop it h := by unfold utf32NextP; rw [rd_out h]; rfl
  eq arr stop it u h hs := by
    have := lt_of_getElem? h
    unfold utf32NextP
    rw [rd_of h, inc_eq]
    simp only [Res.ok_bind]
    rw [if_pos (by omega), if_pos (by omega)]
    simp only [Res.ok_bind, encUtf32]
    split <;> rfl
  rest u l := by simp [encUtf32]
  pos u := Nat.le_refl _
  full u l c h := by omega
  wrong u l h := by omega
  taken u l c h := by
    simp only [encUtf32] at h
    split at h
    · cases h
    · simp only [Ev.ch.injEq] at h
      subst h
      exact ⟨u, by simp, (toNat_ofNat_ascii _ (by omega)).symm, by rw [toNat_ofNat_ascii _ (by omega)]; omega⟩
  unique cp g u l t h e := by
    obtain ⟨c, rfl, rfl, hc⟩ := h
    simp only [List.cons_append, List.nil_append, List.cons.injEq] at e
    obtain ⟨rfl, rfl⟩ := e
    refine ⟨Char.ofNat u.toNat, toNat_ofNat_ascii _ hc, ?_⟩
    simp only [encUtf32]
    rw [if_neg (by omega)]
  ne cp g h := by obtain ⟨c, rfl, _⟩ := h; simp

/-! ### UTF-16 -/

theorem utf16CodePoint_len (u : BitVec 16) : (utf16CodePoint u).2 = announced16 u := by
  unfold utf16CodePoint announced16
  by_cases h : u &&& 0b1111110000000000#16 = 0b1101100000000000#16
  · rw [if_pos h, if_pos ((utf16MaskHigh u).1 h)]
  · rw [if_neg h, if_neg (fun g => h ((utf16MaskHigh u).2 g))]

theorem utf16FinP_eq (n : Nat) (correct : Bool) (value : BitVec 32) (it : Nat) : utf16FinP n correct value it =
    if it + 1 ≤ n then .ok (if correct = false then .bad .wrong_encoding_sequence 0
      else if value.toNat > 127 then .bad .unexpected_symbol value.toNat else .ch (Char.ofNat value.toNat), it + 1) else .ub := by
  unfold utf16FinP
  rw [inc_eq]
  by_cases h : it + 1 ≤ n
  · rw [if_pos h, if_pos h]
    simp only [Res.ok_bind]
    split
    · rfl
    · split <;> rfl
  · rw [if_neg h, if_neg h]; rfl

theorem drop_take_cons {α : Type} (arr : List α) (stop i : Nat) (h : i < stop) (hs : stop ≤ arr.length) :
    ∃ x, arr[i]? = some x ∧ (arr.take stop).drop i = x :: (arr.take stop).drop (i + 1) := by
  have hi : i < (arr.take stop).length := by rw [List.length_take]; omega
  refine ⟨arr[i], List.getElem?_eq_getElem _, ?_⟩
  rw [List.drop_eq_getElem_cons hi]
  simp

theorem drop_take_nil {α : Type} (arr : List α) (stop i : Nat) (h : stop ≤ i) : (arr.take stop).drop i = [] := by
  apply List.drop_eq_nil_of_le
  rw [List.length_take]
  omega

theorem length_drop_take {α : Type} (arr : List α) (stop i : Nat) (h : stop ≤ arr.length) : ((arr.take stop).drop i).length = stop - i := by
  rw [List.length_drop, List.length_take]
  omega

theorem utf16NextP_law : PLaw utf16NextP encUtf16 Ascii announced16 where
  law := encUtf16_law
  out arr stop it h := by unfold utf16NextP; rw [rd_out h]; rfl
  eq arr stop it u h hs := by
    have hl := lt_of_getElem? h
    have hc := utf16CodePoint_len u
    unfold utf16NextP
    rw [rd_of h]
    simp only [Res.ok_bind, encUtf16, utf16Next]
    rw [hc]
    by_cases h1 : announced16 u = 1
    · rw [if_pos h1, if_pos h1, utf16FinP_eq, h1]
      simp only [Bool.true_eq_false, if_false]
      split
      · split <;> rfl
      · rfl
    · have h2 : announced16 u = 2 := by unfold announced16 at h1 ⊢; split at h1 <;> simp_all
      rw [if_neg h1, if_neg h1, inc_eq, if_pos (by omega), h2]
      simp only [Res.ok_bind]
      by_cases h3 : it + 1 ≥ stop
      · rw [if_pos h3, utf16FinP_eq, drop_take_nil _ _ _ h3]
        simp
      · rw [if_neg h3]
        obtain ⟨x, g1, g2⟩ := drop_take_cons arr stop (it + 1) (by omega) hs
        rw [rd_of g1, g2]
        simp only [Res.ok_bind]
        by_cases h4 : x &&& 0b1111110000000000#16 = 0b1101110000000000#16
        · rw [if_pos h4, if_pos h4, utf16FinP_eq]
          simp only [Bool.true_eq_false, if_false]
          split
          · split <;> rfl
          · rfl
        · rw [if_neg h4, if_neg h4, utf16FinP_eq]
          simp
  rest u l := by
    simp only [encUtf16, utf16Next]
    rw [utf16CodePoint_len]
    by_cases h1 : announced16 u = 1
    · rw [if_pos h1, h1]
      split <;> simp
    · have h2 : announced16 u = 2 := by unfold announced16 at h1 ⊢; split at h1 <;> simp_all
      rw [if_neg h1, h2]
      cases l with
      | nil => simp
      | cons x r => simp only; split <;> (try split) <;> simp
  pos u := by unfold announced16; split <;> omega
  full u l c h := by
    rcases Nat.lt_or_ge 1 (announced16 u) with h1 | h1
    · have h2 : announced16 u = 2 := by unfold announced16 at h1 ⊢; split at h1 <;> simp_all
      cases l with
      | nil => simp only [encUtf16, utf16Next, utf16CodePoint_len] at h; rw [if_neg (by omega)] at h; cases h
      | cons x r => simp only [List.length_cons]; omega
    · omega
  wrong u l h := by
    have h2 : announced16 u = 2 ∧ l = [] := by
      unfold announced16 at h ⊢
      split at h
      · exact ⟨by simp_all, List.length_eq_zero_iff.1 (by omega)⟩
      · omega
    obtain ⟨h2, rfl⟩ := h2
    simp only [encUtf16, utf16Next, utf16CodePoint_len]
    rw [if_neg (by omega)]
  taken u l c h := by
    have hr := utf16Next_eq u l
    simp only [encUtf16] at h
    rw [hr] at h
    have : u.toNat < 128 ∧ c = Char.ofNat u.toNat := by
      split at h
      · cases l with
        | nil => cases h
        | cons x r => simp only at h; split at h <;> cases h
      · simp only [utf16Fin] at h
        split at h
        · simp only [Ev.ch.injEq] at h
          exact ⟨by omega, h.symm⟩
        · cases h
    obtain ⟨h1, rfl⟩ := this
    have : announced16 u = 1 := by unfold announced16; rw [if_neg (by omega)]
    rw [this]
    exact ⟨u, by simp, (toNat_ofNat_ascii _ h1).symm, by rw [toNat_ofNat_ascii _ h1]; exact h1⟩
  unique cp g u l t h e := by
    obtain ⟨c, rfl, rfl, hc⟩ := h
    simp only [List.cons_append, List.nil_append, List.cons.injEq] at e
    obtain ⟨rfl, rfl⟩ := e
    refine ⟨Char.ofNat u.toNat, toNat_ofNat_ascii _ hc, ?_⟩
    simp only [encUtf16]
    rw [utf16Next_eq, if_neg (by omega), utf16Fin, if_pos hc]
  ne cp g h := by obtain ⟨c, rfl, _⟩ := h; simp

/-! ### UTF-8 -/

theorem utf8CodePoint_len (b : BitVec 8) : (utf8CodePoint b).2 = 0 ∧ announced8 b = 1 ∨ (utf8CodePoint b).2 = announced8 b := by
  rw [utf8CodePoint_eq]
  unfold announced8
  repeat' split
  all_goals first
    | exact Or.inl ⟨rfl, rfl⟩
    | exact Or.inr rfl
    | (exfalso; omega)

theorem utf8TrailP_eq (arr : List (BitVec 8)) (stop : Nat) (hs : stop ≤ arr.length) : ∀ (n : Nat) (v : BitVec 32) (ok : Bool) (it : Nat),
    utf8TrailP arr stop n v ok it =
      if n = 0 ∨ it + n ≤ arr.length then
        .ok ((utf8Trail n v ok ((arr.take stop).drop (it + 1))).1, (utf8Trail n v ok ((arr.take stop).drop (it + 1))).2.1, it + n)
      else .ub
  | 0, v, ok, it => by simp [utf8TrailP, utf8Trail]
  | n + 1, v, ok, it => by
    rw [utf8TrailP, utf8TrailingP, inc_eq]
    by_cases h : it + 1 ≤ arr.length
    · rw [if_pos h]
      simp only [Res.ok_bind]
      by_cases h1 : it + 1 ≥ stop
      · rw [if_pos h1]
        simp only [Res.ok_bind]
        rw [utf8TrailP_eq arr stop hs n, drop_take_nil _ _ _ (show stop ≤ it + 1 by omega), drop_take_nil _ _ _ (show stop ≤ it + 1 + 1 by omega)]
        simp only [utf8Trail, utf8Trailing]
        rw [show it + 1 + n = it + (n + 1) by omega]
        by_cases h2 : it + (n + 1) ≤ arr.length
        · rw [if_pos (Or.inr h2), if_pos (Or.inr h2)]
        · rw [if_neg (by omega), if_neg (by omega)]
      · rw [if_neg h1]
        obtain ⟨x, g1, g2⟩ := drop_take_cons arr stop (it + 1) (by omega) hs
        rw [rd_of g1, g2]
        simp only [Res.ok_bind]
        have e : (if x &&& 0b11000000#8 = 0b10000000#8 then Res.ok ((x &&& 0b00111111#8).setWidth 32, true, it + 1)
            else Res.ok (0#32, false, it + 1)) =
            Res.ok ((utf8Trailing (x :: (arr.take stop).drop (it + 1 + 1))).1,
              (utf8Trailing (x :: (arr.take stop).drop (it + 1 + 1))).2.1, it + 1) := by
          simp only [utf8Trailing]
          split <;> rfl
        have e2 : (utf8Trailing (x :: (arr.take stop).drop (it + 1 + 1))).2.2 = (arr.take stop).drop (it + 1 + 1) := by
          simp only [utf8Trailing]
          split <;> rfl
        rw [e]
        simp only [Res.ok_bind]
        rw [utf8TrailP_eq arr stop hs n]
        simp only [utf8Trail, e2]
        rw [show it + 1 + n = it + (n + 1) by omega]
        by_cases h2 : it + (n + 1) ≤ arr.length
        · rw [if_pos (Or.inr h2), if_pos (Or.inr h2)]
        · rw [if_neg (by omega), if_neg (by omega)]
    · rw [if_neg h, if_neg (by omega)]; rfl

theorem utf8Trail_rest : ∀ (n : Nat) (v : BitVec 32) (ok : Bool) (l : List (BitVec 8)), (utf8Trail n v ok l).2.2 = l.drop n
  | 0, v, ok, l => rfl
  | n + 1, v, ok, [] => by rw [utf8Trail, utf8Trail_rest]; simp [utf8Trailing]
  | n + 1, v, ok, b :: l => by
    rw [utf8Trail, utf8Trail_rest]
    simp only [utf8Trailing]
    split <;> rfl

theorem utf8Trail_short : ∀ (n : Nat) (v : BitVec 32) (ok : Bool) (l : List (BitVec 8)), l.length < n → (utf8Trail n v ok l).2.1 = false
  | 0, v, ok, l, h => by omega
  | n + 1, v, ok, [], _ => utf8Trail_nil n v ok
  | n + 1, v, ok, b :: l, h => by
    rw [utf8Trail]
    refine utf8Trail_short n _ _ _ ?_
    have : (utf8Trailing (b :: l)).2.2 = l := by simp only [utf8Trailing]; split <;> rfl
    rw [this]
    simpa using h

theorem utf8Next_short (u : BitVec 8) (l : List (BitVec 8)) (h : l.length + 1 < announced8 u) :
    (utf8Next u l).1 = .bad .wrong_encoding_sequence 0 := by
  simp only [utf8Next]
  rcases utf8CodePoint_len u with ⟨_, h2⟩ | h2
  · omega
  · rw [h2, if_neg (by omega), if_pos (utf8Trail_short _ _ _ _ (by omega))]

theorem Spec.Loose.announced {cp : Nat} {g : List (BitVec 8)} (h : Loose cp g) : ∃ a t, g = a :: t ∧ announced8 a = t.length + 1 := by
  cases h with
  | one a h => exact ⟨_, _, rfl, by unfold announced8; repeat' split
                                    all_goals first | rfl | (exfalso; omega)⟩
  | two a z h h' => exact ⟨_, _, rfl, by unfold announced8; rw [if_pos ⟨h, h'⟩]; rfl⟩
  | three a x z h h' => exact ⟨_, _, rfl, by unfold announced8; rw [if_neg (by omega), if_pos ⟨h, h'⟩]; rfl⟩
  | four a x y z h h' => exact ⟨_, _, rfl, by unfold announced8; rw [if_neg (by omega), if_neg (by omega), if_pos ⟨h, h'⟩]; rfl⟩

theorem utf8Next_ch (u : BitVec 8) (l : List (BitVec 8)) (c : Char) (h : (utf8Next u l).1 = .ch c) :
    ∃ g r, Ascii8 c.toNat g ∧ u :: l = g ++ r ∧ utf8Next u l = (.ch c, r) := by
  rcases utf8Next_loose u l with ⟨cp, us, r, h1, h2, h3⟩ | ⟨_, r, h3⟩
  · rw [h3] at h
    simp only [looseEv] at h
    split at h
    · rename_i hc
      simp only [Ev.ch.injEq] at h
      subst h
      refine ⟨us, r, ?_, h2, by rw [h3, looseEv, if_pos hc]⟩
      rw [toNat_ofNat_ascii _ hc]
      exact ⟨h1, hc⟩
    · cases h
  · rw [h3] at h; cases h

theorem utf8NextP_law : PLaw utf8NextP encUtf8 Ascii8 announced8 where
  law := encUtf8_law
  out arr stop it h := by unfold utf8NextP; rw [rd_out h]; rfl
  eq arr stop it u h hs := by
    have hl := lt_of_getElem? h
    unfold utf8NextP
    rw [rd_of h]
    simp only [Res.ok_bind, encUtf8, utf8Next]
    rcases utf8CodePoint_len u with ⟨h1, h2⟩ | h2
    · rw [if_pos h1, if_pos h1, h2, inc_eq, if_pos (by omega), if_pos (by omega)]
      rfl
    · have hp : 1 ≤ announced8 u := by
        unfold announced8
        repeat' split
        all_goals omega
      have h0 : ¬ announced8 u = 0 := by omega
      simp only [h2, h0, if_false]
      rw [utf8TrailP_eq arr stop hs]
      by_cases h3 : it + announced8 u ≤ arr.length
      · rw [if_pos (by omega), if_pos h3]
        simp only [Res.ok_bind]
        rw [inc_eq, if_pos (by omega), show it + (announced8 u - 1) + 1 = it + announced8 u by omega]
        simp only [Res.ok_bind]
        repeat' split
        all_goals rfl
      · rw [if_neg h3]
        by_cases h4 : announced8 u - 1 = 0 ∨ it + (announced8 u - 1) ≤ arr.length
        · rw [if_pos h4]
          simp only [Res.ok_bind]
          rw [inc_eq, if_neg (by omega)]
          rfl
        · rw [if_neg h4]; rfl
  rest u l := by
    simp only [encUtf8, utf8Next]
    rcases utf8CodePoint_len u with ⟨h1, h2⟩ | h2
    · rw [if_pos h1, h2]; rfl
    · rw [h2]
      have hp : 1 ≤ announced8 u := by
        unfold announced8
        repeat' split
        all_goals omega
      rw [if_neg (by omega)]
      repeat' split
      all_goals exact utf8Trail_rest _ _ _ _
  pos u := by
    unfold announced8
    repeat' split
    all_goals omega
  full u l c h := by
    rcases Nat.lt_or_ge (l.length + 1) (announced8 u) with h1 | h1
    · rw [show (encUtf8.next u l).1 = _ from utf8Next_short u l h1] at h
      cases h
    · exact h1
  wrong u l h := utf8Next_short u l h
  taken u l c h := by
    obtain ⟨g, r, h1, h2, h3⟩ := utf8Next_ch u l c h
    obtain ⟨a, t, rfl, h4⟩ := h1.1.announced
    simp only [List.cons_append, List.cons.injEq] at h2
    obtain ⟨rfl, rfl⟩ := h2
    rw [h4]
    simpa using h1
  unique cp g u l t h e := by
    refine ⟨Char.ofNat cp, toNat_ofNat_ascii _ h.2, ?_⟩
    rcases utf8Next_loose u l with ⟨cp', us, r, h1, h2, h3⟩ | ⟨h1, _⟩
    · obtain ⟨rfl, rfl, rfl⟩ := h.1.unique h1 (by rw [← e, h2])
      simp only [encUtf8]
      rw [h3, looseEv, if_pos h.2]
    · exact absurd e (h1 _ _ _ h.1)
  ne cp g h := by obtain ⟨a, t, rfl⟩ := h.1.cons; simp

end Ip
