import Verif.Lemmas.Narrow
import Verif.Lemmas.Samples
import Verif.Props.SubnetsExact
import Verif.Lemmas.AnyNetParse
/-
Property C95: a platform with a `size_t` of 32 bits.
-/
set_option autoImplicit false

namespace Ip
open Spec

/-- C95, IPv4 texts of networks.  Where the number after the slash is below `2^32`, or there is no
number, the two widths give one result; otherwise the narrow build reads the text with the number taken
modulo `2^32`. -/
theorem C95_text_v4 (le : Bool) (evs : List Ev) (strict : Bool) :
    ((∀ v, MaskNumber evs v → v < 2 ^ 32) → (fam4W 32 le).parseNet evs strict = (fam4 le).parseNet evs strict) ∧
    (∀ evs', Reduced 32 evs evs' → (fam4W 32 le).parseNet evs strict = (fam4 le).parseNet evs' strict) := by
  rw [← fam4W_64 le]
  refine ⟨fun h => narrow_same (fam4 le) (readers4 le) 32 64 evs strict fun v hv => ?_,
    fun evs' h => narrow_reduced (fam4 le) (readers4 le) 32 64 (by decide) evs evs' strict h⟩
  have := h v hv
  rw [Nat.mod_eq_of_lt this, Nat.mod_eq_of_lt (by omega)]

/-- C95, IPv6 texts of networks. -/
theorem C95_text_v6 (c : Cfg) (evs : List Ev) (strict : Bool) :
    ((∀ v, MaskNumber evs v → v < 2 ^ 32) → (fam6W 32 c).parseNet evs strict = (fam6 c).parseNet evs strict) ∧
    (∀ evs', Reduced 32 evs evs' → (fam6W 32 c).parseNet evs strict = (fam6 c).parseNet evs' strict) := by
  rw [← fam6W_64 c]
  refine ⟨fun h => narrow_same (fam6 c) (readers6 c) 32 64 evs strict fun v hv => ?_,
    fun evs' h => narrow_reduced (fam6 c) (readers6 c) 32 64 (by decide) evs evs' strict h⟩
  have := h v hv
  rw [Nat.mod_eq_of_lt this, Nat.mod_eq_of_lt (by omega)]

example : ∃ v, MaskNumber (readChars "::/4294967360".toList) v ∧ 2 ^ 32 ≤ v ∧ (fam6W 32 exCfg).parseNet (readChars "::/4294967360".toList) true =
    (fam6 exCfg).parseNet (readChars "::/64".toList) true := by
  have h : DecText "4294967360".toList (2 ^ 32 + 64) :=
    ⟨by simp, [4, 2, 9, 4, 9, 6, 7, 3, 6, 0], by simp [DigitText, digitChars], by decide⟩
  exact ⟨_, ⟨readChars "::".toList, "4294967360".toList, by decide, h, by decide⟩, by decide, (C95_text_v6 exCfg _ true).2 _
    ⟨readChars "::".toList, "4294967360".toList, "64".toList, 2 ^ 32 + 64, by decide, h, ⟨by simp, [6, 4], by simp [DigitText, digitChars], by decide⟩, by decide, by decide⟩⟩

/-- The text `10.0.0.0/4294967304`, and the text `10.0.0.0/8`. -/
def exBigText : List Char := "10.0.0.0/4294967304".toList
def exSmallText : List Char := "10.0.0.0/8".toList

theorem exBig_dec : DecText "4294967304".toList (2 ^ 32 + 8) :=
  ⟨by decide, [4, 2, 9, 4, 9, 6, 7, 3, 0, 4], by simp [DigitText]; decide, by decide⟩

theorem exBig_number : MaskNumber (readChars exBigText) (2 ^ 32 + 8) :=
  ⟨readChars "10.0.0.0".toList, "4294967304".toList, by decide, exBig_dec, by decide⟩

theorem exBig_reduced : Reduced 32 (readChars exBigText) (readChars exSmallText) :=
  ⟨readChars "10.0.0.0".toList, "4294967304".toList, "8".toList, 2 ^ 32 + 8, by decide, exBig_dec,
    ⟨by decide, [8], by simp [DigitText]; decide, by decide⟩, by decide, by decide⟩

example : (fam4W 32 true).parseNet (readChars exBigText) true = (fam4 true).parseNet (readChars exSmallText) true :=
  (C95_text_v4 true _ true).2 _ exBig_reduced

/-- C95, IPv4: the two widths differ only on texts that the 64 bit build rejects with `invalid_netmask`,
and whose number is at least `2^32` but small modulo `2^32`; so what the 64 bit build accepts, the
narrow build accepts with the same result. -/
theorem C95_accepted_v4 (le : Bool) (evs : List Ev) (strict : Bool) :
    (∀ n, (fam4 le).parseNet evs strict = .ok n → (fam4W 32 le).parseNet evs strict = .ok n) ∧
    ((fam4W 32 le).parseNet evs strict ≠ (fam4 le).parseNet evs strict →
      ∃ v, MaskNumber evs v ∧ 2 ^ 32 ≤ v ∧ v % 2 ^ 32 ≤ 32 ∧ 32 < v % 2 ^ 64 ∧
        (fam4 le).parseNet evs strict = .err .invalid_netmask 0) := by
  have h := narrow_diff (fam4 le) (readers4 le) 32 64 (by decide) (by decide) evs strict
  have e : ({ fam4 le with parseNetmask := v4ParseNetmaskW 64 le } : Fam _ _) = fam4 le := fam4W_64 le
  rw [e] at h
  have h : (fam4W 32 le).parseNet evs strict ≠ (fam4 le).parseNet evs strict → _ := h
  refine ⟨fun n hn => ?_, h⟩
  by_contra hne
  obtain ⟨v, _, _, _, _, h5⟩ := h (by rw [hn]; exact hne)
  rw [hn] at h5
  cases h5

example := (C95_accepted_v4 true (readChars "10.0.0.0/8".toList) true).1 _ rfl
example := (C95_accepted_v4 true (readChars "10.0.0.0/4294967304".toList) true).2 (by decide +kernel)

/-- C95, IPv6. -/
theorem C95_accepted_v6 (c : Cfg) (evs : List Ev) (strict : Bool) :
    (∀ n, (fam6 c).parseNet evs strict = .ok n → (fam6W 32 c).parseNet evs strict = .ok n) ∧
    ((fam6W 32 c).parseNet evs strict ≠ (fam6 c).parseNet evs strict →
      ∃ v, MaskNumber evs v ∧ 2 ^ 32 ≤ v ∧ v % 2 ^ 32 ≤ 128 ∧ 128 < v % 2 ^ 64 ∧
        (fam6 c).parseNet evs strict = .err .invalid_netmask 0) := by
  have h := narrow_diff (fam6 c) (readers6 c) 32 64 (by decide) (by decide) evs strict
  have e : fam6W 64 c = fam6 c := fam6W_64 c
  unfold fam6W at e
  rw [e] at h
  have h : (fam6W 32 c).parseNet evs strict ≠ (fam6 c).parseNet evs strict → _ := h
  refine ⟨fun n hn => ?_, h⟩
  by_contra hne
  obtain ⟨v, _, _, _, _, h5⟩ := h (by rw [hn]; exact hne)
  rw [hn] at h5
  cases h5

example := (C95_accepted_v6 exCfg (readChars "::/4294967360".toList) true).2 (by decide +kernel)

/-- C95, the negation of "the result of parsing does not depend on the platform". -/
theorem C95_text_violated :
    (fam4 true).parseNet (readChars exBigText) true = .err .invalid_netmask 0 ∧
    (fam4W 32 true).parseNet (readChars exBigText) true = .ok ⟨[10, 0, 0, 0], [255, 0, 0, 0], 8⟩ ∧
    MaskNumber (readChars exBigText) (2 ^ 32 + 8) := by
  refine ⟨by decide +kernel, by decide +kernel, exBig_number⟩

/-- C95, `subnets`, IPv4: for arguments of the narrow type the two widths give one result, except
where the sum of the prefix length and the difference does not fit: there the 64 bit build reports
`invalid_prefixlen_diff`, and the narrow build ends in undefined behaviour. -/
theorem C95_subnets_v4 (n : Net (List (BitVec 8))) (hn : NetOk4 n) (diff : Nat) (newp : Option Nat) (hd : diff < 2 ^ 32)
    (hp : ∀ p, newp = some p → p < 2 ^ 32) :
    (newp ≠ none ∨ n.plen + diff < 2 ^ 32 ∨ n.plen = 32 →
      (fam4 true).subnetsW 32 n diff newp = (fam4 true).subnets n diff newp) ∧
    (newp = none → 2 ^ 32 ≤ n.plen + diff → n.plen < 32 → (fam4 true).subnetsW 32 n diff newp = .ub ∧
      (fam4 true).subnets n diff newp = .err .invalid_prefixlen_diff 0) := by
  have hpl : n.plen ≤ 32 := hn.plen
  have h := subnetsW_eq (fam4 true) 32 n hpl (by decide) (by decide) (by decide) (by
    intro h a b ha hb
    show (if a < 32 then _ else _) = (if b < 32 then _ else _)
    rw [if_neg (by omega), if_neg (by omega)]) diff newp hd hp
  constructor
  · rintro (h1 | h1 | h1)
    · exact h.1 (.inl h1)
    · exact h.1 (.inr h1)
    · have h1 : n.plen = (fam4 true).maxPrefix := h1
      unfold Fam.subnetsW Fam.subnets
      simp only [if_pos h1]
  · rintro rfl h1 h2
    constructor
    · rw [h.2 h1 (by decide)]
      exact (C35_subnets_sizet_wrap exCfg rfl _ (by omega)).1 n hn h2 (by omega)
    · exact (C35_subnets_v4_exact n hn diff none (by omega) (fun _ h => by cases h) _ 0).2
        ⟨rfl, .tooMany h2 (by omega), fun _ => by omega⟩

example := C95_subnets_v4 ex16 ex16_ok (2 ^ 32 - 16) none (by decide) (fun _ h => by cases h)
example : 2 ^ 32 ≤ ex16.plen + (2 ^ 32 - 16) := by decide

/-- C95, `subnets`, IPv6; `ub` stands for the call of `std::terminate` here. -/
theorem C95_subnets_v6 (c : Cfg) (hc : c.le = true) (n : Net V6) (hn : NetOk6 c n) (diff : Nat) (newp : Option Nat)
    (hd : diff < 2 ^ 32) (hp : ∀ p, newp = some p → p < 2 ^ 32) :
    (newp ≠ none ∨ n.plen + diff < 2 ^ 32 ∨ n.plen = 128 →
      (fam6 c).subnetsW 32 n diff newp = (fam6 c).subnets n diff newp) ∧
    (newp = none → 2 ^ 32 ≤ n.plen + diff → n.plen < 128 → (fam6 c).subnetsW 32 n diff newp = .ub ∧
      (fam6 c).subnets n diff newp = .err .invalid_prefixlen_diff 0) := by
  have hpl : n.plen ≤ 128 := hn.plen
  have h := subnetsW_eq (fam6 c) 32 n hpl (Nat.le_refl _) (by decide) (by decide)
    (fun h a b ha hb => shr6_far h a b ha hb) diff newp hd hp
  constructor
  · rintro (h1 | h1 | h1)
    · exact h.1 (.inl h1)
    · exact h.1 (.inr h1)
    · have h1 : n.plen = (fam6 c).maxPrefix := h1
      unfold Fam.subnetsW Fam.subnets
      simp only [if_pos h1]
  · rintro rfl h1 h2
    constructor
    · rw [h.2 h1 (by decide)]
      exact (C35_subnets_sizet_wrap c hc _ (by omega)).2 n hn h2 (by omega)
    · exact (C35_subnets_v6_exact c hc n hn diff none (by omega) (fun _ h => by cases h) _ 0).2
        ⟨rfl, .tooMany h2 (by omega), fun _ => by omega⟩

example := C95_subnets_v6 exCfg rfl ex32 ex32_ok (2 ^ 32 - 1) none (by decide) (fun _ h => by cases h)

/-! ### The version independent parser -/

theorem dotted_no_number (pre pre' : List Ev) (t : List Char) (v : Nat) (h : Ev.ch '/' ∉ pre) (h' : Ev.ch '/' ∉ pre')
    (ht : DecText t v) (e : pre ++ .ch '/' :: readChars t = pre' ++ .ch '/' :: readChars (dotted 0 0 0 0)) : False := by
  have : readChars t = readChars (dotted 0 0 0 0) := by
    induction pre generalizing pre' with
    | nil =>
      cases pre' with
      | nil => simpa using e
      | cons a as => simp at e h'; exact absurd e.1 h'.1
    | cons a as ih =>
      cases pre' with
      | nil => simp at e h; exact absurd e.1.symm h.1
      | cons b bs =>
        simp only [List.cons_append, List.cons.injEq] at e
        simp only [List.mem_cons, not_or] at h h'
        exact ih bs h.2 h'.2 e.2
  have ht' : t = dotted 0 0 0 0 := by
    have key : ∀ a b : List Char, readChars a = readChars b → a = b := by
      intro a
      induction a with
      | nil => intro b h; cases b with
        | nil => rfl
        | cons _ _ => cases h
      | cons x xs ih => intro b h; cases b with
        | nil => cases h
        | cons y ys =>
          simp only [readChars, List.map_cons, List.cons.injEq, Ev.ch.injEq] at h
          rw [h.1, ih ys h.2]
    exact key _ _ this
  obtain ⟨_, ds, h1, _⟩ := ht
  rw [ht'] at h1
  exact not_decText_dotted 0 0 0 0 ⟨ds, h1⟩

/-- C95, the version independent parser: as `C95_text_v4`, and what the 64 bit build accepts, the narrow
build accepts with the same result. -/
theorem C95_text_any (c : Cfg) (hc : c.le = true) (evs : List Ev) (strict : Bool) :
    ((∀ v, MaskNumber evs v → v < 2 ^ 32) → anyNetFromEventsW 32 c evs strict = anyNetFromEvents c evs strict) ∧
    (∀ evs', Reduced 32 evs evs' → anyNetFromEventsW 32 c evs strict = anyNetFromEvents c evs' strict) ∧
    (∀ n, anyNetFromEvents c evs strict = .ok n → anyNetFromEventsW 32 c evs strict = .ok n) := by
  refine ⟨fun h => ?_, fun evs' h => ?_, fun n hn => ?_⟩
  · rw [anyNetFromEventsW, anyNetFromEvents, (C95_text_v4 c.le evs strict).1 h, (C95_text_v6 c evs strict).1 h]
    rfl
  · rw [anyNetFromEventsW, anyNetFromEvents, (C95_text_v4 c.le evs strict).2 evs' h, (C95_text_v6 c evs strict).2 evs' h]
    rfl
  · have h4 := C95_accepted_v4 c.le evs strict
    have h6 := C95_accepted_v6 c evs strict
    rw [anyNetFromEvents] at hn
    rw [anyNetFromEventsW]
    cases e4 : (fam4 c.le).parseNet evs strict with
    | ub => rw [e4] at hn; cases hn
    | ok m =>
      rw [e4] at hn
      rw [h4.1 m e4]
      exact hn
    | err x y =>
      rw [e4] at hn
      cases e6 : (fam6 c).parseNet evs strict with
      | ub => simp only [e6] at hn; cases hn
      | err a b => simp only [e6] at hn; cases hn
      | ok m =>
        simp only [e6, Res.ok_bind] at hn
        have g6 := h6.1 m e6
        cases d4 : (fam4W 32 c.le).parseNet evs strict with
        | err a b => simp only [g6, Res.ok_bind]; exact hn
        | ub =>
          exfalso
          obtain ⟨v, ⟨pre, t, p1, p2, p3⟩, _⟩ := h4.2 (by rw [d4, e4]; exact fun h => by cases h)
          have hr : Reduced 32 evs (pre ++ .ch '/' :: (Nat.toDigits 10 (v % 2 ^ 32)).map Ev.ch) :=
            ⟨pre, t, _, v, p1, p2, toDigits_decText _, p3, rfl⟩
          have q4 := (C95_text_v4 c.le evs strict).2 _ hr
          rw [d4, hc] at q4
          obtain ⟨a, a1, a2, _⟩ := (C26_parser_safe c hc _ strict).2.1 q4.symm
          refine dotted_no_number pre (readChars a) _ _ p1 (by simpa [readChars] using a2) (toDigits_decText (v % 2 ^ 32)) ?_
          rw [show readChars (Nat.toDigits 10 (v % 2 ^ 32)) = (Nat.toDigits 10 (v % 2 ^ 32)).map Ev.ch from rfl, a1]
          simp [readChars]
        | ok k =>
          exfalso
          obtain ⟨v, ⟨pre, t, p1, p2, p3⟩, _⟩ := h4.2 (by rw [d4, e4]; exact fun h => by cases h)
          have hr : Reduced 32 evs (pre ++ .ch '/' :: (Nat.toDigits 10 (v % 2 ^ 32)).map Ev.ch) :=
            ⟨pre, t, _, v, p1, p2, toDigits_decText _, p3, rfl⟩
          have q4 := (C95_text_v4 c.le evs strict).2 _ hr
          have q6 := (C95_text_v6 c evs strict).2 _ hr
          rw [d4, hc] at q4
          rw [g6] at q6
          exact parseNet_disjoint c _ strict k m q4.symm q6.symm

example : anyNetFromEventsW 32 exCfg (readChars exBigText) true = anyNetFromEvents exCfg (readChars exSmallText) true :=
  (C95_text_any exCfg rfl _ true).2.1 _ exBig_reduced

end Ip
