import Verif.Lemmas.Locale
import Verif.Props.Stream
/-
C85 (numbers in texts do not depend on the installed locale).
-/
set_option autoImplicit false

namespace Ip
open Spec

/-- C85, what happens: under every installed locale `to_string` writes the digits of the number; those of a number
below `2^64` are in groups as the locale says, with its separator between them. -/
theorem C85_text (p : Punct) (x : U128) (base : U128.Base) :
    ∃ t ds, x.toTextIn p base = .ok t ∧ x.toText base = .ok ds ∧
      (2 ^ 64 ≤ x.val → t = ds) ∧
      (x.val < 2 ^ 64 → ∃ groups, GroupsOf p.grouping groups ∧ groups.reverse.flatten = ds ∧ t = joinGroups p.sep groups) := by
  refine ⟨_, _, U128.toTextIn_eq p x base, U128.toText_eq x base, fun h => by rw [if_neg (by omega)], fun h => ?_⟩
  rw [if_pos h]
  exact group_spec p _ (toDigits_ne_nil _ _)

example : U128.toTextIn ⟨',', [3]⟩ ⟨0, 1234567⟩ .decimal = .ok "1,234,567".toList := by decide +kernel
example : U128.toTextIn ⟨'.', [3, 2]⟩ ⟨0, 123456789⟩ .decimal = .ok "12.34.56.789".toList := by decide +kernel
example : U128.toTextIn ⟨'.', [2, 0]⟩ ⟨0, 0x12345⟩ .hexadecimal = .ok "123.45".toList := by decide +kernel
example : GroupsOf [3, 2] ["789".toList, "56".toList, "34".toList, "12".toList] := by simp [GroupsOf, nextLimits]

/-- C85 (partial): `to_string` is what it is in the classic locale exactly for numbers of at least `2^64`, numbers of no more
digits than the first group has, and locales without groups.  Missing: all other numbers. -/
theorem C85_to_string_partial (p : Punct) (x : U128) (base : U128.Base) :
    x.toTextIn p base = x.toText base ↔ (2 ^ 64 ≤ x.val ∨ Ungrouped p (radixOf base) x.val) := by
  have hb := U128.Base.radix_bounds base
  rw [U128.toTextIn_eq, U128.toText_eq, Res.ok.injEq, ← radix_eq_spec]
  by_cases h : x.val < 2 ^ 64
  · rw [if_pos h, group_digits_iff p _ _ (by omega)]
    exact ⟨.inr, fun k => k.resolve_left (by omega)⟩
  · rw [if_neg h]
    exact ⟨fun _ => .inl (by omega), fun _ => rfl⟩

example : Ungrouped ⟨',', [3]⟩ (radixOf .decimal) 999 := by decide
example : ¬ Ungrouped ⟨',', [3]⟩ (radixOf .decimal) 1000 := by decide

/-- C85: the separators left out, the text is that of the classic locale. -/
theorem C85_digits (p : Punct) (x : U128) (base : U128.Base) (hs : ∀ d, d < radixOf base → (p.sep, d) ∉ digitChars) :
    ∃ t ds, x.toTextIn p base = .ok t ∧ x.toText base = .ok ds ∧ t.filter (· ≠ p.sep) = ds := by
  have hb := U128.Base.radix_bounds base
  refine ⟨_, _, U128.toTextIn_eq p x base, U128.toText_eq x base, ?_⟩
  have hn : p.sep ∉ Nat.toDigits base.radix x.val := by
    obtain ⟨ds, h1, -⟩ := toDigits_text base.radix (by omega) hb.2 x.val
    rw [radix_eq_spec] at h1 ⊢
    generalize Nat.toDigits (radixOf base) x.val = cs at h1
    intro hm
    induction cs generalizing ds with
    | nil => cases hm
    | cons c cs ih =>
      cases ds with
      | nil => exact h1
      | cons d ds =>
        rcases List.mem_cons.1 hm with rfl | hm
        · exact hs d h1.2.1 h1.1
        · exact ih ds h1.2.2 hm
  by_cases h : x.val < 2 ^ 64
  · rw [if_pos h]
    exact group_filter p _ (toDigits_ne_nil _ _) hn
  · rw [if_neg h]
    exact List.filter_eq_self.2 fun c hc => by simp; rintro rfl; exact hn hc

example := C85_digits ⟨',', [3]⟩ ⟨0, 1234567⟩ .decimal (by decide)

theorem mem_join_sep (sep : Char) : ∀ gs : List (List Char), 1 < gs.length → sep ∈ List.intercalate [sep] gs
  | [], h => by simp at h
  | [_], h => by simp at h
  | g :: h :: gs, _ => by simp [List.intercalate]

/-- C85 (partial): a number written by `to_string` is read back by `from_string` exactly under the same conditions, where the
separator is neither a digit of the base nor NUL; otherwise the text is rejected.  Missing: all other numbers. -/
theorem C85_round_trip_partial (p : Punct) (x : U128) (base : U128.Base) (hs : ∀ d, d < radixOf base → (p.sep, d) ∉ digitChars)
    (h0 : p.sep ≠ '\x00') :
    ∃ t, x.toTextIn p base = .ok t ∧
      ((2 ^ 64 ≤ x.val ∨ Ungrouped p (radixOf base) x.val) → U128.fromText base (readChars t) = some x) ∧
      (¬ (2 ^ 64 ≤ x.val ∨ Ungrouped p (radixOf base) x.val) → U128.fromText base (readChars t) = none) := by
  obtain ⟨t, ds, h1, h2, h3, h4⟩ := C85_text p x base
  refine ⟨t, h1, fun h => ?_, fun h => ?_⟩
  · obtain ⟨cs, k1, k2⟩ := C44_round_trip x base
    have := (C85_to_string_partial p x base).2 h
    rw [h1, k1] at this
    cases this
    exact k2
  · obtain ⟨cs, es, k1, k2, _⟩ := C44_to_string x base
    rw [h2] at k1
    cases k1
    have hnul : '\x00' ∉ ds := U128.DigitText_no_nul _ _ _ k2
    obtain ⟨groups, g1, g2, g3⟩ := h4 (by omega)
    have hmem : p.sep ∈ t := by
      rw [g3, joinGroups]
      apply mem_join_sep
      rw [List.length_reverse]
      have : groups ≠ [] := by rintro rfl; exact g1
      have := List.length_pos_iff.2 this
      have hne : groups.length ≠ 1 := by
        intro e
        have := (C85_to_string_partial p x base).1 (by rw [h1, h2, g3, join_single _ e, g2])
        exact h this
      omega
    have hz : '\x00' ∉ t := by
      rw [g3, joinGroups]
      intro hm
      obtain ⟨t', ds', q1, q2, q3⟩ := C85_digits p x base hs
      rw [h1] at q1; rw [h2] at q2
      cases q1; cases q2
      refine hnul ?_
      rw [← q3, List.mem_filter]
      exact ⟨by rw [g3, joinGroups]; exact hm, by simpa using h0.symm⟩
    exact ((C44_from_string_partial base t hz).2).2 ⟨p.sep, hmem, hs⟩

example := C85_round_trip_partial ⟨',', [3]⟩ ⟨0, 1234567⟩ .decimal (by decide) (by decide)

/-- C85 (partial): what `operator<<` writes is what it writes under the classic locale exactly under the same conditions,
whatever the locale of the stream; where the separator is no ASCII character and `uppercase` is set, nothing is defined
(`std::toupper` of a negative `char`).  Missing: all other numbers. -/
theorem C85_stream_partial {U : Type} (p : Punct) (W : Wide U) (x : U128) (s : OStr U) :
    (osU128In p W x s = osU128 W x s ↔ (2 ^ 64 ≤ x.val ∨ Ungrouped p (streamRadix s.hex s.oct) x.val)) ∧
    (s.upper = true → 128 ≤ p.sep.toNat → ¬ (2 ^ 64 ≤ x.val ∨ Ungrouped p (streamRadix s.hex s.oct) x.val) →
      osU128In p W x s = .ub) := by
  rw [← baseOfFlags_radix]
  obtain ⟨t, ds, h1, h2, h3, h4⟩ := C85_text p x (baseOfFlags s.hex s.oct)
  have hi := C85_to_string_partial p x (baseOfFlags s.hex s.oct)
  have hlen : ∀ t u, upperAll t = .ok u → u.length = t.length := by
    intro t
    induction t with
    | nil => intro u h; cases h; rfl
    | cons c t ih =>
      intro u h
      obtain ⟨a, _, h⟩ := Res.bind_eq_ok.1 h
      obtain ⟨b, hb, h⟩ := Res.bind_eq_ok.1 h
      cases h
      simp [ih b hb]
  have hub : ∀ t, (∃ c ∈ t, 128 ≤ c.toNat) → upperAll t = .ub := by
    intro t
    induction t with
    | nil => rintro ⟨c, hc, _⟩; cases hc
    | cons c t ih =>
      rintro ⟨d, hd, h⟩
      unfold upperAll toUpperC
      by_cases hc : 128 ≤ c.toNat
      · rw [if_pos hc]; rfl
      · have : ∃ c ∈ t, 128 ≤ c.toNat := by
          rcases List.mem_cons.1 hd with rfl | hd
          · exact absurd h hc
          · exact ⟨d, hd, h⟩
        rw [if_neg hc, ih this]
        split <;> rfl
  have hds : ∃ u, (if s.upper then upperAll ds else .ok ds) = .ok u ∧ u.length = ds.length := by
    cases s.upper with
    | false => exact ⟨ds, rfl, rfl⟩
    | true =>
      obtain ⟨cs, es, k1, k2, _⟩ := C44_to_string x (baseOfFlags s.hex s.oct)
      rw [h2] at k1
      cases k1
      refine ⟨_, upperAll_eq ds fun c hc => ((digitText_upper _ ds es k2).2 c hc).1, by simp⟩
  have ein : osU128In p W x s = (if s.upper then upperAll t else .ok t).bind fun str => .ok { s with out := s.out ++ str.map W.conv } := by
    rw [osU128In, h1, Res.ok_bind]; cases s.upper <;> rfl
  have ecl : osU128 W x s = (if s.upper then upperAll ds else .ok ds).bind fun str => .ok { s with out := s.out ++ str.map W.conv } := by
    rw [osU128, h2, Res.ok_bind]; cases s.upper <;> rfl
  refine ⟨⟨fun h => hi.1 ?_, fun h => ?_⟩, fun hu hsep hx => ?_⟩
  · obtain ⟨u, u1, u2⟩ := hds
    rw [ein, ecl, u1] at h
    rw [show (Res.ok u).bind _ = _ from Res.ok_bind _ _] at h
    obtain ⟨w, w1, w2⟩ := Res.bind_eq_ok.1 h
    simp only [Res.ok.injEq, OStr.mk.injEq, true_and, List.append_cancel_left_eq] at w2
    have hl : w.length = u.length := by
      have := congrArg List.length w2
      simpa using this
    have hw : w.length = t.length := by
      cases hup : s.upper with
      | false => rw [hup] at w1; cases w1; rfl
      | true => rw [hup, if_pos rfl] at w1; exact hlen t w w1
    rw [h1, h2]
    by_cases hx : x.val < 2 ^ 64
    · have e1 := U128.toTextIn_eq p x (baseOfFlags s.hex s.oct)
      have e2 := U128.toText_eq x (baseOfFlags s.hex s.oct)
      rw [h1, if_pos hx] at e1
      rw [h2] at e2
      cases e1; cases e2
      obtain ⟨_, g1, g2⟩ := group_length p (Nat.toDigits (baseOfFlags s.hex s.oct).radix x.val) (toDigits_ne_nil _ _)
      rw [g2 (g1.1 (by omega))]
    · rw [h3 (by omega)]
  · rw [osU128In, osU128, hi.2 h]
  · obtain ⟨groups, g1, g2, g3⟩ := h4 (by omega)
    have hmem : p.sep ∈ t := by
      rw [g3, joinGroups]
      apply mem_join_sep
      rw [List.length_reverse]
      have : groups ≠ [] := by rintro rfl; exact g1
      have := List.length_pos_iff.2 this
      have hne : groups.length ≠ 1 := fun e => hx (hi.1 (by rw [h1, h2, g3, join_single _ e, g2]))
      omega
    rw [osU128In, h1, Res.ok_bind, hu, if_pos rfl, hub t ⟨_, hmem, hsep⟩]
    rfl

example := C85_stream_partial ⟨Char.ofNat 160, [3]⟩ wideChar ⟨0, 1000⟩ ⟨0, true, false, false, []⟩

/-- C85: the messages of exceptions.  For every text there is a list of characters and numbers, the same under all locales,
that the message shows; the locale groups the digits of these numbers, and of the number or symbol concerned. -/
theorem C85_message {U : Type} (enc : Enc U) (L : enc.Law) (address : List U) :
    ∃ toks : List Shown, ∀ (code : ErrorCode) (value : Nat),
      (∀ p : Punct, raiseErrorIn p enc code value address address.length =
        .ok ⟨if code ∈ argumentErrors then .logic else .parse, code, message (p.group (Nat.toDigits 10 value))
          (uplusDigits (p.group (Nat.toDigits 16 value))) (showText (fun n => p.group (Nat.toDigits 16 n)) toks) code⟩) ∧
      raiseError enc code value address address.length =
        .ok ⟨if code ∈ argumentErrors then .logic else .parse, code, message (Nat.toDigits 10 value)
          (uplusDigits (Nat.toDigits 16 value)) (showText (Nat.toDigits 16) toks) code⟩ :=
  raiseErrorIn_message L address

example := C85_message encUtf32 encUtf32_law [49, 46, 0x1F600]

theorem toDigits_mem_hex (b n : Nat) (hb1 : 1 < b) (hb2 : b ≤ 16) : ∀ c ∈ Nat.toDigits b n, c ∈ hexChars := by
  obtain ⟨ds, h1, -, -, -, h5⟩ := toDigits_text b hb1 hb2 n
  intro c hc
  have key : ∀ d, d < 16 → d.digitChar ∈ hexChars := by decide
  rw [h5] at hc
  obtain ⟨d, hd, rfl⟩ := List.mem_map.1 hc
  refine key d ?_
  clear h5 hc
  generalize Nat.toDigits b n = cs at h1
  induction cs generalizing ds with
  | nil => cases ds with
    | nil => cases hd
    | cons _ _ => exact h1.elim
  | cons c cs ih => cases ds with
    | nil => exact h1.elim
    | cons e ds =>
      rcases List.mem_cons.1 hd with rfl | hd
      · have := h1.2.1; omega
      · exact ih ds hd h1.2.2

theorem showText_count (p : Punct) (hs : p.sep ∉ hexChars) (f : Nat → List Char) : ∀ toks : List Shown,
    (showText f toks).count p.sep = (toks.map fun
      | .char c => if c = p.sep then 1 else 0
      | .number n => (f n).count p.sep).sum
  | [] => rfl
  | .char c :: toks => by
    have := showText_count p hs f toks
    unfold showText at this ⊢
    rw [List.flatMap_cons, List.count_append, this]
    simp [List.count_singleton]
  | .number n :: toks => by
    have := showText_count p hs f toks
    unfold showText at this ⊢
    have h' : p.sep ∉ "{U+0}".toList := fun h => hs (by
      have : ∀ c ∈ "{U+0}".toList, c ∈ hexChars := by decide
      exact this _ h)
    rw [List.flatMap_cons, List.count_append, this, uplusDigits_count _ h']
    simp

theorem showText_count_iff (p : Punct) (hs : p.sep ∉ hexChars) (toks : List Shown) :
    (showText (Nat.toDigits 16) toks).count p.sep ≤ (showText (fun n => p.group (Nat.toDigits 16 n)) toks).count p.sep ∧
    ((showText (fun n => p.group (Nat.toDigits 16 n)) toks).count p.sep = (showText (Nat.toDigits 16) toks).count p.sep ↔
      ∀ n, Shown.number n ∈ toks → Ungrouped p 16 n) := by
  have hd16 : ∀ n, p.sep ∉ Nat.toDigits 16 n := fun n k => hs (toDigits_mem_hex 16 n (by decide) (by decide) _ k)
  rw [showText_count p hs, showText_count p hs]
  induction toks with
  | nil => simp
  | cons t toks ih =>
    cases t with
    | char c =>
      simp only [List.map_cons, List.sum_cons, List.mem_cons, reduceCtorEq, false_or]
      exact ⟨by omega, by rw [← ih.2]; omega⟩
    | number m =>
      have h0 : (Nat.toDigits 16 m).count p.sep = 0 := List.count_eq_zero.2 (hd16 m)
      have h1 := group_count p 16 m (by decide) (hd16 m)
      simp only [List.map_cons, List.sum_cons, List.mem_cons, Shown.number.injEq, h0]
      refine ⟨by omega, ⟨fun h n hn => ?_, fun h => ?_⟩⟩
      · rcases hn with rfl | hn
        · exact h1.1 (by omega)
        · exact ih.2.1 (by omega) n hn
      · have := h1.2 (h m (.inl rfl))
        have := ih.2.2 fun n hn => h n (.inr hn)
        omega

theorem showText_congr (f g : Nat → List Char) : ∀ toks : List Shown, (∀ n, Shown.number n ∈ toks → f n = g n) →
    showText f toks = showText g toks
  | [], _ => rfl
  | .char c :: toks, h => by
    have := showText_congr f g toks fun n hn => h n (List.mem_cons_of_mem _ hn)
    unfold showText at this ⊢
    rw [List.flatMap_cons, List.flatMap_cons, this]
  | .number m :: toks, h => by
    have := showText_congr f g toks fun n hn => h n (List.mem_cons_of_mem _ hn)
    unfold showText at this ⊢
    rw [List.flatMap_cons, List.flatMap_cons, this]
    simp only [h m (List.mem_cons_self ..)]

/-- C85 (partial): the message of an exception is that of the classic locale exactly if none of the numbers in it is long
enough for a separator, where the separator is not itself a digit or a character written around code points.  Missing: all
other messages. -/
theorem C85_message_partial {U : Type} (enc : Enc U) (L : enc.Law) (address : List U) :
    ∃ toks : List Shown, ∀ (p : Punct), p.sep ∉ hexChars → ∀ (code : ErrorCode) (value : Nat),
      (raiseErrorIn p enc code value address address.length = raiseError enc code value address address.length ↔
        (code ∈ numberErrors → Ungrouped p 10 value) ∧ (code = .unexpected_symbol → Ungrouped p 16 value) ∧
        (code ∉ textless → ∀ n, Shown.number n ∈ toks → Ungrouped p 16 n)) ∧
      ∃ w, raiseError enc code value address address.length = .ok ⟨if code ∈ argumentErrors then .logic else .parse, code, w⟩ ∧
        (code ∉ textless → ∃ a b, w = a ++ showText (Nat.toDigits 16) toks ++ b) := by
  obtain ⟨toks, h⟩ := raiseErrorIn_message L address
  refine ⟨toks, fun p hs code value => ⟨?_, _, (h code value).2, message_shows _ _ _ code⟩⟩
  rw [(h code value).1 p, (h code value).2, Res.ok.injEq, Exn.mk.injEq]
  have hd10 : p.sep ∉ Nat.toDigits 10 value := fun k => hs (toDigits_mem_hex 10 value (by decide) (by decide) _ k)
  have hd16 : p.sep ∉ Nat.toDigits 16 value := fun k => hs (toDigits_mem_hex 16 value (by decide) (by decide) _ k)
  have h' : p.sep ∉ "{U+0}".toList := fun h => hs (by
    have : ∀ c ∈ "{U+0}".toList, c ∈ hexChars := by decide
    exact this _ h)
  have cv := group_count p 10 value (by decide) hd10
  have cu := group_count p 16 value (by decide) hd16
  have ct := showText_count_iff p hs toks
  constructor
  · rintro ⟨_, _, he⟩
    have := congrArg (List.count p.sep) he
    rw [message_count, message_count _ (Nat.toDigits 10 value), uplusDigits_count _ h', uplusDigits_count _ h',
      List.count_eq_zero.2 hd10, List.count_eq_zero.2 hd16] at this
    refine ⟨fun k => cv.1 ?_, fun k => cu.1 ?_, fun k => ct.2.1 ?_⟩
    · rw [if_pos k, if_pos k] at this
      split at this <;> split at this <;> omega
    · rw [if_pos k, if_pos k] at this
      split at this <;> split at this <;> omega
    · rw [if_neg k, if_neg k] at this
      split at this <;> split at this <;> omega
  · rintro ⟨k1, k2, k3⟩
    refine ⟨rfl, rfl, message_congr _ _ _ _ _ _ code (fun k => (group_digits_iff p 10 value (by decide)).2 (k1 k))
      (fun k => by rw [(group_digits_iff p 16 value (by decide)).2 (k2 k)])
      (fun k => showText_congr _ _ toks fun n hn => (group_digits_iff p 16 n (by decide)).2 (k3 k n hn))⟩

example := C85_message_partial encUtf32 encUtf32_law [49, 46, 0x1F600]
example : ',' ∉ hexChars := by decide

/-- C85, messages about texts of `char`: only the number concerned depends on the locale. -/
theorem C85_message_char (p : Punct) (s : List Char) (hz : ∀ c ∈ s, c ≠ '\x00') (code : ErrorCode) (value : Nat) :
    raiseErrorIn p encChar code value s s.length = .ok ⟨if code ∈ argumentErrors then .logic else .parse, code,
      message (p.group (Nat.toDigits 10 value)) (uplusDigits (p.group (Nat.toDigits 16 value))) (Spec.shown s) code⟩ := by
  obtain ⟨t, h1, _⟩ := raiseError_message encChar_law s
  have h2 := printBuffer_text encChar_law id s (emb_char s hz)
  rw [List.map_id, h1] at h2
  cases h2
  have hp : ∀ (fuel : Nat) (l : List Char) (t : List Char), printArray encChar fuel l = .ok t → printArrayIn p encChar fuel l = .ok t := by
    intro fuel
    induction fuel with
    | zero => intro l t h; cases l <;> exact h
    | succ fuel ih =>
      intro l t h
      cases l with
      | nil => exact h
      | cons c l =>
        rw [printArray] at h
        rw [printArrayIn]
        simp only [encChar] at h ⊢
        by_cases hc : c = '\x00'
        · rw [if_pos hc] at h ⊢; exact h
        · rw [if_neg hc] at h ⊢
          obtain ⟨t', k1, k2⟩ := Res.bind_eq_ok.1 h
          refine (congrArg (fun r => r.bind fun t => Res.ok (c :: t)) (ih l t' k1)).trans k2
  unfold raiseErrorIn
  rw [raiseBuffer_eq, Res.ok_bind, concatPiecesIn_message p _ _ _ (hp _ _ _ h1), Res.ok_bind, raiseCase_class]

example := C85_message_char ⟨',', [3]⟩ "1.2.3.256".toList (by decide) .octet_exceeded_255 3

/-- C85, negation: with the separator `,` and groups of three digits 1000 is written `1,000`, and that text is no number; with
a space between the groups, a stream reads 1 instead; and messages change. -/
theorem C85_violated :
    U128.toTextIn ⟨',', [3]⟩ ⟨0, 1000⟩ .decimal = .ok "1,000".toList ∧
    U128.fromText .decimal (readChars "1,000".toList) = none ∧
    (∃ o, osU128In ⟨' ', [3]⟩ wideChar ⟨0, 1000⟩ ⟨0, false, false, false, []⟩ = .ok o ∧
      (isU128 wideChar ⟨0, 0⟩ ⟨0, false, false, o.out, false, false⟩).1 = ⟨0, 1⟩ ∧
      (isU128 wideChar ⟨0, 0⟩ ⟨0, false, false, o.out, false, false⟩).2.fail = false) ∧
    raiseErrorIn ⟨',', [3]⟩ encUtf32 .unexpected_symbol 0x1F600 [49, 0x1F600] 2 =
      .ok ⟨.parse, .unexpected_symbol, "unexpected next unicode symbol {U+1f,600} in string 1{U+1f,600}".toList⟩ := by
  refine ⟨by decide +kernel, by decide +kernel, ⟨_, rfl, by decide +kernel, by decide +kernel⟩, by decide +kernel⟩

end Ip
