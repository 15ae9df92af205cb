import Verif.Spec.Locale
import Verif.Lemmas.U128Text
import Verif.Lemmas.Message
import Verif.Lemmas.Stream
/-
Facts on grouped digits.
-/
set_option autoImplicit false

namespace Ip
open Spec

theorem group_rev_spec (sep : Char) : ∀ (cs : List Char) (gs : List Nat) (left : Nat), (gs.headD 0 = 0 ∨ left ≤ gs.headD 0) →
    ∃ (d : List Char) (rest : List (List Char)), cs = d ++ rest.flatten ∧
      groupRev sep gs left cs = List.intercalate [sep] (d :: rest) ∧
      (gs.headD 0 = 0 ∨ d.length ≤ left) ∧
      (rest ≠ [] → gs.headD 0 ≠ 0 ∧ d.length = left ∧ GroupsOf (nextLimits gs) rest) ∧
      (gs.headD 0 = 0 ∨ 0 < left → cs ≠ [] → d ≠ [])
  | [], gs, left, _ => ⟨[], [], by simp, by cases gs <;> rfl, by simp, by simp, by simp⟩
  | c :: cs, [], left, _ => ⟨c :: cs, [], by simp, by simp [groupRev, List.intercalate], by simp, by simp, by simp⟩
  | c :: cs, g :: more, left, hl => by
    by_cases h0 : g = 0
    · exact ⟨c :: cs, [], by simp, by simp [groupRev, List.intercalate, h0], by simp [h0], by simp, by simp⟩
    have hl' : left ≤ g := by simpa [h0] using hl
    by_cases h1 : left > 0
    · obtain ⟨d, rest, e1, e2, e3, e4, e5⟩ := group_rev_spec sep cs (g :: more) (left - 1) (by simp; omega)
      refine ⟨c :: d, rest, by simp [e1], ?_, ?_, ?_, by simp⟩
      · rw [groupRev, if_neg h0, if_pos h1, e2]
        cases rest <;> simp [List.intercalate]
      · simp [h0] at e3 ⊢; omega
      · intro hr
        obtain ⟨k1, k2, k3⟩ := e4 hr
        exact ⟨k1, by simp [k2]; omega, k3⟩
    · have hl0 : left = 0 := by omega
      subst hl0
      have key : ∀ ms : List Nat, nextLimits (g :: more) = ms →
          groupRev sep (g :: more) 0 (c :: cs) = sep :: c :: groupRev sep ms (ms.headD 0 - 1) cs →
          ∃ (d : List Char) (rest : List (List Char)), c :: cs = d ++ rest.flatten ∧
            groupRev sep (g :: more) 0 (c :: cs) = List.intercalate [sep] (d :: rest) ∧
            ((g :: more).headD 0 = 0 ∨ d.length ≤ 0) ∧
            (rest ≠ [] → (g :: more).headD 0 ≠ 0 ∧ d.length = 0 ∧ GroupsOf (nextLimits (g :: more)) rest) ∧
            ((g :: more).headD 0 = 0 ∨ 0 < 0 → c :: cs ≠ [] → d ≠ []) := by
        intro ms hms e
        obtain ⟨d, rest, e1, e2, e3, e4, e5⟩ := group_rev_spec sep cs ms (ms.headD 0 - 1) (by omega)
        refine ⟨[], (c :: d) :: rest, by simp [e1], ?_, by simp, ?_, by simp [h0]⟩
        · rw [e, e2]
          cases rest <;> simp [List.intercalate]
        · intro _
          refine ⟨by simpa using h0, rfl, ?_⟩
          rw [hms]
          cases rest with
          | nil =>
            refine ⟨by simp, ?_⟩
            by_cases hz : ms.headD 0 = 0
            · exact .inl hz
            · refine .inr ?_
              rcases e3 with e3 | e3
              · exact absurd e3 hz
              · simp only [List.length_cons]; omega
          | cons r rs =>
            obtain ⟨k1, k2, k3⟩ := e4 (by simp)
            exact ⟨by simp, by simp only [List.length_cons]; omega, k3⟩
      cases more with
      | nil => exact key [g] rfl (by rw [groupRev, if_neg h0, if_neg h1, if_pos rfl]; rfl)
      | cons m ms => exact key (m :: ms) rfl (by rw [groupRev, if_neg h0, if_neg h1, if_neg (by simp)])

theorem flatten_map_reverse : ∀ gs : List (List Char), (gs.map List.reverse).reverse.flatten = gs.flatten.reverse
  | [] => rfl
  | g :: gs => by simp [flatten_map_reverse gs]

theorem intercalate_reverse (sep : Char) : ∀ gs : List (List Char),
    List.intercalate [sep] (gs.map List.reverse).reverse = (List.intercalate [sep] gs).reverse := by
  have snoc : ∀ (l : List (List Char)) (x : List Char), l ≠ [] →
      List.intercalate [sep] (l ++ [x]) = List.intercalate [sep] l ++ sep :: x := by
    intro l
    induction l with
    | nil => intro x h; exact absurd rfl h
    | cons a l ih =>
      intro x _
      cases l with
      | nil => simp [List.intercalate]
      | cons b l =>
        have := ih x (by simp)
        simp only [List.intercalate, List.cons_append, List.intersperse_cons_cons, List.flatten_cons] at this ⊢
        rw [this]; simp
  intro gs
  induction gs with
  | nil => rfl
  | cons g gs ih =>
    cases gs with
    | nil => simp [List.intercalate]
    | cons h gs =>
      rw [List.map_cons, List.reverse_cons, snoc _ _ (by simp), ih]
      simp [List.intercalate]

theorem groupsOf_map_reverse : ∀ (gs : List (List Char)) (ls : List Nat), GroupsOf ls gs → GroupsOf ls (gs.map List.reverse)
  | [], _, h => h
  | [d], _, h => ⟨by simpa using h.1, by simpa using h.2⟩
  | d :: e :: more, _, h => ⟨by simpa using h.1, by simpa using h.2.1, groupsOf_map_reverse (e :: more) _ h.2.2⟩

/-- Grouped digits in terms of groups. -/
theorem group_spec (p : Punct) (ds : List Char) (hd : ds ≠ []) :
    ∃ groups, GroupsOf p.grouping groups ∧ groups.reverse.flatten = ds ∧ p.group ds = joinGroups p.sep groups := by
  obtain ⟨d, rest, e1, e2, e3, e4, e5⟩ := group_rev_spec p.sep ds.reverse p.grouping (p.grouping.headD 0) (by simp)
  refine ⟨(d :: rest).map List.reverse, groupsOf_map_reverse _ _ ?_, ?_, ?_⟩
  · have hd' : d ≠ [] := e5 (by omega) (by simpa using hd)
    cases rest with
    | nil => exact ⟨hd', e3⟩
    | cons r rs =>
      obtain ⟨k1, k2, k3⟩ := e4 (by simp)
      exact ⟨hd', k2, k3⟩
  · rw [flatten_map_reverse, List.flatten_cons, ← e1, List.reverse_reverse]
  · rw [joinGroups, intercalate_reverse, ← e2]; rfl

theorem joinGroups_length (sep : Char) : ∀ gs : List (List Char), gs ≠ [] →
    (List.intercalate [sep] gs).length + 1 = gs.flatten.length + gs.length
  | [], h => absurd rfl h
  | [g], _ => by simp [List.intercalate]
  | g :: h :: gs, _ => by
    have := joinGroups_length sep (h :: gs) (by simp)
    simp only [List.intercalate, List.intersperse_cons_cons, List.flatten_cons, List.length_append, List.length_cons, List.length_nil] at this ⊢
    omega

theorem groupsOf_single {ls : List Nat} {gs : List (List Char)} (h : GroupsOf ls gs) :
    gs.length = 1 ↔ (ls.headD 0 = 0 ∨ gs.reverse.flatten.length ≤ ls.headD 0) := by
  match gs, h with
  | [d], h => simpa using h.2
  | d :: e :: more, h =>
    refine ⟨fun k => by simp at k, fun k => ?_⟩
    have h1 : 0 < d.length := List.length_pos_iff.2 h.1
    have h2 : 0 < e.length := by
      cases more with
      | nil => exact List.length_pos_iff.2 h.2.2.1
      | cons f more => exact List.length_pos_iff.2 h.2.2.1
    have h3 := h.2.1
    simp only [List.reverse_cons, List.append_assoc, List.flatten_append, List.length_append, List.flatten_cons, List.flatten_nil,
      List.length_nil, List.cons_append, List.nil_append] at k
    omega

theorem join_single (sep : Char) {gs : List (List Char)} (h : gs.length = 1) : joinGroups sep gs = gs.reverse.flatten := by
  match gs, h with
  | [d], _ => simp [joinGroups, List.intercalate]

/-- The number of characters tells whether there are separators. -/
theorem group_length (p : Punct) (ds : List Char) (hd : ds ≠ []) :
    ds.length ≤ (p.group ds).length ∧ ((p.group ds).length = ds.length ↔ (p.grouping.headD 0 = 0 ∨ ds.length ≤ p.grouping.headD 0)) ∧
    ((p.grouping.headD 0 = 0 ∨ ds.length ≤ p.grouping.headD 0) → p.group ds = ds) := by
  obtain ⟨gs, h1, h2, h3⟩ := group_spec p ds hd
  have hs := groupsOf_single h1
  rw [h2] at hs
  have hne : gs ≠ [] := by rintro rfl; exact h1
  have hl := joinGroups_length p.sep gs.reverse (by simpa using hne)
  rw [h2, List.length_reverse] at hl
  have hp := List.length_pos_iff.2 hne
  rw [← hs]
  refine ⟨by rw [h3, joinGroups]; omega, by rw [h3, joinGroups]; omega, fun h => ?_⟩
  rw [h3, join_single _ h, h2]

theorem group_filter (p : Punct) (ds : List Char) (hd : ds ≠ []) (hs : p.sep ∉ ds) : (p.group ds).filter (· ≠ p.sep) = ds := by
  obtain ⟨gs, h1, h2, h3⟩ := group_spec p ds hd
  rw [h3, joinGroups]
  rw [← h2] at hs ⊢
  generalize gs.reverse = l at hs
  clear h1 h2 h3 hd gs
  induction l with
  | nil => rfl
  | cons a l ih =>
    simp only [List.flatten_cons, List.mem_append, not_or] at hs
    have ha : a.filter (· ≠ p.sep) = a := List.filter_eq_self.2 fun x hx => by
      simp; rintro rfl; exact hs.1 hx
    cases l with
    | nil => simpa [List.intercalate] using fun x hx => by rintro rfl; exact hs.1 hx
    | cons b l =>
      have := ih hs.2
      simp only [List.intercalate, List.intersperse_cons_cons, List.flatten_cons, List.filter_append] at this ⊢
      rw [this, ha]; simp

theorem toDigits_length_le (b n g : Nat) (hb : 1 < b) (hg : g ≠ 0) : (Nat.toDigits b n).length ≤ g ↔ n < b ^ g :=
  Nat.length_toDigits_le_iff hb (by omega)

theorem ungrouped_iff (p : Punct) (b n : Nat) (hb : 1 < b) :
    Ungrouped p b n ↔ (p.grouping.headD 0 = 0 ∨ (Nat.toDigits b n).length ≤ p.grouping.headD 0) := by
  unfold Ungrouped
  by_cases h : p.grouping.headD 0 = 0
  · exact ⟨fun _ => .inl h, fun _ => .inl h⟩
  · rw [toDigits_length_le b n _ hb h]

theorem toDigits_ne_nil (b n : Nat) : Nat.toDigits b n ≠ [] := by
  intro h
  have := Nat.length_toDigits_pos (b := b) (n := n)
  rw [h] at this
  simp at this

theorem group_digits_iff (p : Punct) (b n : Nat) (hb : 1 < b) :
    p.group (Nat.toDigits b n) = Nat.toDigits b n ↔ Ungrouped p b n := by
  rw [ungrouped_iff p b n hb]
  obtain ⟨_, h1, h2⟩ := group_length p _ (toDigits_ne_nil b n)
  exact ⟨fun h => h1.1 (by rw [h]), h2⟩

namespace U128

theorem digitTextIn_eq (p : Punct) (base : Base) (r : BitVec 64) (h : r.toNat < base.radix) :
    digitTextIn p base r = digitText base r := by
  have hg : ∀ n, n < 10 → p.group (Nat.toDigits 10 n) = Nat.toDigits 10 n := by
    intro n hn
    rw [group_digits_iff p 10 n (by decide)]
    unfold Ungrouped
    by_cases h0 : p.grouping.headD 0 = 0
    · exact .inl h0
    · refine .inr (Nat.lt_of_lt_of_le hn ?_)
      calc 10 = 10 ^ 1 := rfl
        _ ≤ _ := Nat.pow_le_pow_right (by decide) (by omega)
  cases base with
  | hexadecimal => rfl
  | decimal => simp only [digitTextIn, digitText]; rw [hg _ h]
  | octal => simp only [digitTextIn, digitText]; rw [hg _ (Nat.lt_trans h (by decide))]

theorem toTextLoopIn_eq (p : Punct) (base : Base) : ∀ (fuel : Nat) (x : U128) (out : List Char),
    toTextLoopIn p base fuel x out = toTextLoop base fuel x out
  | 0, _, _ => rfl
  | fuel + 1, x, out => by
    have hr := Base.radix_bounds base
    obtain ⟨q, h1, h2⟩ := div_eq x (ofI64 (BitVec.ofNat 64 base.radix))
    rw [val_radix] at h2
    have hrv : (x.sub (q.mul (ofI64 (BitVec.ofNat 64 base.radix)))).val = x.val % base.radix := by
      obtain ⟨m, g1, g2⟩ := mod_eq x (ofI64 (BitVec.ofNat 64 base.radix))
      rw [mod, h1, Res.ok_bind, Res.ok.injEq] at g1
      rw [g1, g2, val_radix]
    have hm : x.val % base.radix < base.radix := Nat.mod_lt _ (by omega)
    have hlow : (x.sub (q.mul (ofI64 (BitVec.ofNat 64 base.radix)))).lower.toNat < base.radix := by
      rw [val] at hrv; omega
    rw [toTextLoopIn, toTextLoop, h1]
    simp only [Res.ok_bind]
    rw [digitTextIn_eq p base _ hlow, digitText_eq base _ hlow, Res.ok_bind, Res.ok_bind, toTextLoopIn_eq p base fuel]

theorem toTextIn_eq (p : Punct) (x : U128) (base : Base) :
    x.toTextIn p base = .ok (if x.val < 2 ^ 64 then p.group (Nat.toDigits base.radix x.val) else Nat.toDigits base.radix x.val) := by
  have hv : x.val < 2 ^ 64 ↔ x.upper = 0 := by
    rw [val]
    have := x.lower.isLt
    constructor
    · intro h
      apply BitVec.eq_of_toNat_eq
      show x.upper.toNat = 0
      omega
    · intro h
      rw [h]
      simpa using this
  unfold toTextIn
  by_cases h : x.upper = 0
  · rw [if_pos h, if_pos (hv.2 h)]
    have : x.val = x.lower.toNat := by simp [val, h]
    rw [this]
  · rw [if_neg h, if_neg (fun k => h (hv.1 k)), toTextLoopIn_eq]
    have := toText_eq x base
    rw [toText, if_neg h] at this
    exact this

end U128

/-! ### Messages -/

theorem symbolCodeIn_eq (p : Punct) (n : Nat) : symbolCodeIn p n = uplusDigits (p.group (Nat.toDigits 16 n)) := rfl

theorem symbolCode_digits (n : Nat) : symbolCode n = uplusDigits (Nat.toDigits 16 n) := rfl

/-- What is shown of a text does not depend on the locale, but for the digits of numbers. -/
theorem printArrayIn_eq {U : Type} (enc : Enc U) : ∀ (fuel : Nat) (l : List U) (t : List Char), printArray enc fuel l = .ok t →
    ∃ toks : List Shown, (∀ p : Punct, printArrayIn p enc fuel l = .ok (showText (fun n => p.group (Nat.toDigits 16 n)) toks)) ∧
      t = showText (Nat.toDigits 16) toks
  | fuel, [], t, h => by
    refine ⟨[], fun p => by cases fuel <;> rfl, ?_⟩
    cases fuel <;> (cases h; rfl)
  | 0, _ :: _, _, h => by cases h
  | fuel + 1, u :: rest, t, h => by
    rw [printArray] at h
    rcases hn : enc.next u rest with ⟨e, r⟩
    rw [hn] at h
    cases e with
    | ch c =>
      simp only at h
      by_cases hc : c = '\x00'
      · rw [if_pos hc] at h
        cases h
        exact ⟨[], fun p => by rw [printArrayIn, hn]; simp only; rw [if_pos hc]; rfl, rfl⟩
      · rw [if_neg hc] at h
        obtain ⟨t', h1, h2⟩ := Res.bind_eq_ok.1 h
        cases h2
        obtain ⟨toks, k1, k2⟩ := printArrayIn_eq enc fuel r t' h1
        refine ⟨.char c :: toks, fun p => ?_, by rw [k2]; rfl⟩
        rw [printArrayIn, hn]
        simp only
        rw [if_neg hc, k1 p]; rfl
    | bad code sym =>
      simp only at h
      by_cases hc : sym = 0
      · rw [if_pos hc] at h
        cases h
        exact ⟨[], fun p => by rw [printArrayIn, hn]; simp only; rw [if_pos hc]; rfl, rfl⟩
      · rw [if_neg hc] at h
        obtain ⟨t', h1, h2⟩ := Res.bind_eq_ok.1 h
        cases h2
        obtain ⟨toks, k1, k2⟩ := printArrayIn_eq enc fuel r t' h1
        refine ⟨.number sym :: toks, fun p => ?_, by rw [k2]; rfl⟩
        rw [printArrayIn, hn]
        simp only
        rw [if_neg hc, k1 p]; rfl

theorem concatPiecesIn_message {U : Type} {enc : Enc U} (p : Punct) (value : Nat) (str : List U) (t : List Char)
    (ht : printArrayIn p enc 104 str = .ok t) (code : ErrorCode) :
    concatPiecesIn p enc value str (raiseCase code).2 =
      .ok (message (p.group (Nat.toDigits 10 value)) (uplusDigits (p.group (Nat.toDigits 16 value))) t code) := by
  cases code <;>
    (simp only [raiseCase, concatPiecesIn, pieceTextIn, ht, symbolCodeIn_eq, Res.ok_bind]; delta message; dsimp only; try simp)

theorem raiseErrorIn_message {U : Type} {enc : Enc U} (L : enc.Law) (address : List U) :
    ∃ toks : List Shown, ∀ (code : ErrorCode) (value : Nat),
      (∀ p : Punct, raiseErrorIn p enc code value address address.length =
        .ok ⟨if code ∈ argumentErrors then .logic else .parse, code, message (p.group (Nat.toDigits 10 value))
          (uplusDigits (p.group (Nat.toDigits 16 value))) (showText (fun n => p.group (Nat.toDigits 16 n)) toks) code⟩) ∧
      raiseError enc code value address address.length =
        .ok ⟨if code ∈ argumentErrors then .logic else .parse, code, message (Nat.toDigits 10 value)
          (uplusDigits (Nat.toDigits 16 value)) (showText (Nat.toDigits 16) toks) code⟩ := by
  obtain ⟨t, ht, h⟩ := raiseError_message L address
  obtain ⟨toks, h1, h2⟩ := printArrayIn_eq enc _ _ t ht
  refine ⟨toks, fun code value => ⟨fun p => ?_, ?_⟩⟩
  · unfold raiseErrorIn
    rw [raiseBuffer_eq, Res.ok_bind, concatPiecesIn_message p _ _ _ (h1 p), Res.ok_bind, raiseCase_class]
  · rw [h, ← symbolCode_eq, symbolCode_digits, h2]

theorem group_count (p : Punct) (b n : Nat) (hb : 1 < b) (hs : p.sep ∉ Nat.toDigits b n) :
    (p.group (Nat.toDigits b n)).count p.sep = 0 ↔ Ungrouped p b n := by
  rw [← group_digits_iff p b n hb]
  constructor
  · intro h
    have := group_filter p _ (toDigits_ne_nil b n) hs
    rw [List.filter_eq_self.2] at this
    · exact this
    · intro x hx
      simp
      rintro rfl
      exact absurd h (by rw [List.count_eq_zero]; exact fun k => k hx)
  · intro h
    rw [h, List.count_eq_zero]
    exact hs

theorem uplusDigits_count (c : Char) (h : c ∉ "{U+0}".toList) (ds : List Char) : (uplusDigits ds).count c = ds.count c := by
  have h' : c ≠ '{' ∧ c ≠ 'U' ∧ c ≠ '+' ∧ c ≠ '0' ∧ c ≠ '}' := by simpa using h
  unfold uplusDigits
  rw [List.count_append, List.count_append, List.count_append, List.count_replicate, if_neg (by simpa using fun e => h'.2.2.2.1 e.symm)]
  have : "{U+".toList.count c = 0 := List.count_eq_zero.2 (by simp; exact ⟨h'.1, h'.2.1, h'.2.2.1⟩)
  have h2 : ['}'].count c = 0 := List.count_eq_zero.2 (by simpa using h'.2.2.2.2)
  rw [this, h2]
  omega

theorem message_count (c : Char) (v u s : List Char) (code : ErrorCode) :
    (message v u s code).count c = (message [] [] [] code).count c + (if code ∈ numberErrors then v.count c else 0) +
      (if code = .unexpected_symbol then u.count c else 0) + (if code ∈ textless then 0 else s.count c) := by
  have h0 : ([] : List Char).count c = 0 := rfl
  cases code <;> (delta message; dsimp only; repeat rw [List.count_append]
                  try rw [h0]
                  repeat (first | rw [if_pos (by decide)] | rw [if_neg (by decide)])
                  try omega)

theorem message_congr (v u s v' u' s' : List Char) (code : ErrorCode) (hv : code ∈ numberErrors → v = v')
    (hu : code = .unexpected_symbol → u = u') (hs : code ∉ textless → s = s') : message v u s code = message v' u' s' code := by
  cases code <;> (simp [numberErrors, textless] at hv hu hs; delta message; dsimp only; try simp_all)

theorem message_shows (v u s : List Char) (code : ErrorCode) (hs : code ∉ textless) : ∃ a b, message v u s code = a ++ s ++ b := by
  cases code <;> first
    | exact absurd (by decide) hs
    | (delta message; dsimp only; first
        | exact ⟨_, [], by simp only [List.append_nil]; rfl⟩
        | exact ⟨_, _, rfl⟩)

end Ip
