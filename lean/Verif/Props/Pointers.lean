import Verif.Lemmas.PointersPlace
import Verif.Lemmas.PointersZone
/-
C84: reading a text forms no pointer outside the array that holds the text and compares no null pointer.

A text `us` lies in an array `pre ++ us ++ post`: `begin` is the index `pre.length`, `end` is the index
`pre.length + us.length`; `post` has one element for a string with a terminating NUL and none for a view of a whole
array.  A pointer may take the indices up to the length of the array; a further increment is undefined (`Res.ub`), and
so is a read at the end of the array.

The full statement, that no text leads to undefined behaviour, is false: `C84_utf8_leaves_array`,
`C84_utf16_leaves_array`, `C84_array_leaves_array` and `C84_null_end_compared`.  The theorems say exactly for which
texts it is false and that on all others the functions on pointers are the functions on events (`Model/V4.lean` and so
on), about which the other properties are proved.
-/
set_option autoImplicit false

namespace Ip
open Spec

/-! ### One call of a reader -/

/-- `utf8_next_or_error`: the pointer moves by the number of bytes announced, whether or not they are there. -/
theorem C84_utf8_step (arr : List (BitVec 8)) (stop it : Nat) (u : BitVec 8) (h : arr[it]? = some u) (hs : stop ≤ arr.length) :
    UndefinedWhen (arr.length < it + announced8 u) (utf8NextP arr stop it)
      (.ok ((utf8Next u ((arr.take stop).drop (it + 1))).1, it + announced8 u)) := by
  rw [utf8NextP_law.eq arr stop it u h hs]
  exact ⟨fun h => if_neg (by omega), fun h => if_pos (by omega)⟩

example : utf8NextP [0xC3#8, 0x80#8, 0x31#8] 3 0 = .ok (.bad .unexpected_symbol 192, 2) := by decide
example : utf8NextP [0x31#8, 0xE0#8, 0x00#8] 2 1 = .ub := by decide

/-- `utf16_next_or_error`. -/
theorem C84_utf16_step (arr : List (BitVec 16)) (stop it : Nat) (u : BitVec 16) (h : arr[it]? = some u) (hs : stop ≤ arr.length) :
    UndefinedWhen (arr.length < it + announced16 u) (utf16NextP arr stop it)
      (.ok ((utf16Next u ((arr.take stop).drop (it + 1))).1, it + announced16 u)) := by
  rw [utf16NextP_law.eq arr stop it u h hs]
  exact ⟨fun h => if_neg (by omega), fun h => if_pos (by omega)⟩

example : utf16NextP [0x31#16, 0xD83D#16, 0xDE00#16] 3 1 = .ok (.bad .unexpected_symbol 0x1F600, 3) := by decide
example : utf16NextP [0x31#16, 0xD83D#16, 0xDE00#16] 2 1 = .ok (.bad .wrong_encoding_sequence 0, 3) := by decide

/-! ### Violations -/

/-- The text `1` `E0` of a string with a terminating NUL: the reader moves its pointer beyond the NUL. -/
theorem C84_utf8_leaves_array : v4FromP utf8NextP [0x31#8, 0xE0#8, 0x00#8] 2 0 = .ub ∧
    v6FromP utf8NextP [0x31#8, 0xE0#8, 0x00#8] 2 false false 16 0 = .ub ∧
    v4ParseNetP utf8NextP [0x31#8, 0xE0#8, 0x00#8] 2 true 0 true = .ub ∧
    fromTextLoopP utf8NextP [0x31#8, 0xE0#8, 0x00#8] 2 .decimal 3 (U128.ofI64 0) 0 = .ub ∧
    makeFixedP utf8NextP [0x31#8, 0xF0#8, 0x00#8] = .ub := by
  refine ⟨by decide, by decide +kernel, by decide +kernel, by decide +kernel, by decide⟩

/-- A view of two UTF-16 units, the last of them a high surrogate. -/
theorem C84_utf16_leaves_array : v4FromP utf16NextP [0x31#16, 0xD83D#16] 2 0 = .ub := by decide

/-- The array `C1 81 C1 81 'x'` without a terminating NUL: `C1 81` is taken for `A`, so that two characters are read
from four bytes, then the last element, then the element behind the array. -/
theorem C84_array_leaves_array : makeFixedP utf8NextP [0xC1#8, 0x81#8, 0xC1#8, 0x81#8, 0x78#8] = .ub ∧
    v4ArrayP utf8NextP [0xC1#8, 0x81#8, 0xC1#8, 0x81#8, 0x78#8] = .ub := by
  constructor <;> decide

/-- `"%1"`: the end of the address stays null and is compared with `begin`. -/
theorem C84_null_end_compared : v6FromP charNextP ['%', '1', '\x00'] 2 true false 16 0 = .ub ∧
    v6FromP charNextP ['%', '1', '\x00'] 2 false false 16 0 = .err .least_3_parts 1 ∧
    v6ParseNetP charNextP "%1/64\x00".toList 5 true ⟨true, false, 16, true, fun c => c.toNat, fun c => c.toNat⟩ 0 true = .ub := by
  refine ⟨by decide +kernel, by decide +kernel, by decide +kernel⟩

/-! ### `char` and UTF-32: never -/

/-- Texts of `char` (read as ASCII or Latin-1): IPv4 addresses and networks, the scope of `set_scope_id`, integers, arrays. -/
theorem C84_char (pre us post : List Char) :
    v4FromP charNextP (pre ++ us ++ post) (pre.length + us.length) pre.length = v4FromEvents (readChars us) ∧
    (∀ le strict, v4ParseNetP charNextP (pre ++ us ++ post) (pre.length + us.length) le pre.length strict =
      (fam4 le).parseNet (readChars us) strict) ∧
    (∀ spaces i str, setScopeLoopP charNextP (pre ++ us ++ post) (pre.length + us.length) spaces (us.length + 1) i str pre.length =
      setScopeLoop spaces (readChars us) i str) ∧
    (∀ base x, fromTextLoopP charNextP (pre ++ us ++ post) (pre.length + us.length) base (us.length + 1) x pre.length =
      .ok (U128.fromTextLoop base (readChars us) x)) ∧
    makeFixedP charNextP us = mkFixed us ∧ v4ArrayP charNextP us = v4ParseArray us :=
  ⟨(v4_place charNextP_law pre us post).2 fun h => not_over_one h.1,
    fun le strict => (net4_place charNextP_law pre us post le strict).2 fun h => not_over_one h.1,
    fun spaces i str => (scope_place charNextP_law pre us post spaces i str).2 fun h => not_over_one h.1,
    fun base x => (uint_place charNextP_law pre us post base x).2 not_over_one,
    makeFixedP_char us, v4ArrayP_char us⟩

example : v4FromP charNextP "x1.2.3.4".toList 8 1 = .ok [1, 2, 3, 4] := by decide

/-- Texts of UTF-32. -/
theorem C84_utf32 (pre us post : List (BitVec 32)) :
    v4FromP utf32NextP (pre ++ us ++ post) (pre.length + us.length) pre.length = v4FromEvents (utf32Events us) ∧
    (∀ le strict, v4ParseNetP utf32NextP (pre ++ us ++ post) (pre.length + us.length) le pre.length strict =
      (fam4 le).parseNet (utf32Events us) strict) ∧
    (∀ spaces i str, setScopeLoopP utf32NextP (pre ++ us ++ post) (pre.length + us.length) spaces (us.length + 1) i str pre.length =
      setScopeLoop spaces (utf32Events us) i str) ∧
    (∀ base x, fromTextLoopP utf32NextP (pre ++ us ++ post) (pre.length + us.length) base (us.length + 1) x pre.length =
      .ok (U128.fromTextLoop base (utf32Events us) x)) ∧
    (∀ last, makeFixedP utf32NextP (us ++ [last]) = FStr.ofEvents us.length (utf32Events us ++ utf32Events [last])) :=
  ⟨(v4_place utf32NextP_law pre us post).2 fun h => not_over_one h.1,
    fun le strict => (net4_place utf32NextP_law pre us post le strict).2 fun h => not_over_one h.1,
    fun spaces i str => (scope_place utf32NextP_law pre us post spaces i str).2 fun h => not_over_one h.1,
    fun base x => (uint_place utf32NextP_law pre us post base x).2 not_over_one,
    fun last => (array_place utf32NextP_law us last).2 fun h => h.elim not_over_one
      (not_past_one fun cp g hg => by obtain ⟨u, rfl, _⟩ := hg; rfl)⟩

/-- IPv6 addresses in `char` and UTF-32: undefined only for a zone id without an address, when a null pointer compares
greater than `begin`. -/
theorem C84_v6_char_partial (pre us post : List Char) (nullLess spaces : Bool) (M : Nat) :
    UndefinedWhen (nullLess = true ∧ ZoneOnly (ZoneOk spaces M) us)
    (v6FromP charNextP (pre ++ us ++ post) (pre.length + us.length) nullLess spaces M pre.length) (v6FromEvents spaces M (readChars us)) := by
  have h := v6_place charNextP_law pre us post nullLess spaces M
  have e : ∀ s, Writes (fun cp g => ∃ c : Char, g = [c] ∧ c.toNat = cp) us s ↔ us = s := fun s => by
    rw [← events_chars_iff charNextP_law]
    exact ⟨fun h => readChars_inj h, fun h => by rw [h]; rfl⟩
  refine ⟨fun hw => h.1 (Or.inr ⟨hw.1, us, (e us).2 rfl, hw.2⟩), fun hw => h.2 ?_⟩
  rintro (h' | ⟨h1, s, h2, h3⟩)
  · exact not_over_one h'.1
  · exact hw ⟨h1, (e s).1 h2 ▸ h3⟩

example : v6FromP charNextP "::1%a\x00".toList 5 true false 16 0 ≠ .ub := by decide +kernel

theorem C84_v6_utf32_partial (pre us post : List (BitVec 32)) (nullLess spaces : Bool) (M : Nat) :
    UndefinedWhen (nullLess = true ∧ ∃ s, Writes Ascii us s ∧ ZoneOnly (ZoneOk spaces M) s)
    (v6FromP utf32NextP (pre ++ us ++ post) (pre.length + us.length) nullLess spaces M pre.length)
    (v6FromEvents spaces M (utf32Events us)) := by
  have h := v6_place utf32NextP_law pre us post nullLess spaces M
  refine ⟨fun hw => h.1 (Or.inr hw), fun hw => h.2 ?_⟩
  rintro (h' | h')
  · exact not_over_one h'.1
  · exact hw h'

/-- IPv6 networks in `char` and UTF-32 that do not start with `%`, or where a null pointer does not compare greater than
`begin`; the others are in `C84_net6_percent_char` and `C84_net6_percent_utf32`. -/
theorem C84_net6_char_partial (pre us post : List Char) (nullLess : Bool) (c : Cfg) (strict : Bool)
    (h : nullLess = false ∨ us.head? ≠ some '%') :
    v6ParseNetP charNextP (pre ++ us ++ post) (pre.length + us.length) nullLess c pre.length strict =
      (fam6 c).parseNet (readChars us) strict := by
  refine (net6_place charNextP_law pre us post nullLess c strict (h.imp id ?_)).2 fun h => not_over_one h.1
  rintro h ⟨g, r, rfl, d, rfl, hd⟩
  rw [Char.toNat_inj.1 hd] at h
  exact h rfl

example : "fe80::/64".toList.head? ≠ some '%' := by decide

theorem C84_net6_utf32_partial (pre us post : List (BitVec 32)) (nullLess : Bool) (c : Cfg) (strict : Bool)
    (h : nullLess = false ∨ us.head? ≠ some 0x25#32) :
    v6ParseNetP utf32NextP (pre ++ us ++ post) (pre.length + us.length) nullLess c pre.length strict =
      (fam6 c).parseNet (utf32Events us) strict := by
  refine (net6_place utf32NextP_law pre us post nullLess c strict (h.imp id ?_)).2 fun h => not_over_one h.1
  rintro h ⟨g, r, rfl, d, rfl, hd, _⟩
  have : d = 0x25#32 := BitVec.eq_of_toNat_eq hd
  rw [this] at h
  exact h rfl

example := C84_net6_utf32_partial [0x78] [0x3A, 0x3A, 0x2F, 0x38] [] true ⟨true, false, 16, false, fun _ => 0, fun _ => 0⟩ true (.inr (by decide))

/-- IPv6 networks in `char` that start with `%`, where a null pointer compares greater: undefined exactly when the reading
of events reports that the address has too few parts, that is when a zone id and a prefix length that are both right
follow the `%`. -/
theorem C84_net6_percent_char (pre us post : List Char) (c : Cfg) (strict : Bool) (h : us.head? = some '%') :
    UndefinedWhen (∃ v, (fam6 c).parseNet (readChars us) strict = .err .least_3_parts v)
    (v6ParseNetP charNextP (pre ++ us ++ post) (pre.length + us.length) true c pre.length strict)
    ((fam6 c).parseNet (readChars us) strict) := by
  obtain ⟨a, r, rfl⟩ : ∃ a r, us = a :: r := by
    cases us with
    | nil => cases h
    | cons a r => exact ⟨a, r, rfl⟩
  have ha : a = '%' := by simpa using h
  subst ha
  have := net6_zone charNextP_law pre ('%' :: r) post c strict ⟨['%'], r, rfl, '%', rfl, rfl⟩
  exact ⟨fun h => this.1 (.inr h), fun h => this.2 (by rintro (h' | h'); exacts [not_over_one h'.1, h h'])⟩

example : (fam6 ⟨true, false, 16, false, fun _ => 0, fun _ => 0⟩).parseNet (readChars "%eth0/64".toList) true = .err .least_3_parts 0 ∧
    (fam6 ⟨true, false, 16, false, fun _ => 0, fun _ => 0⟩).parseNet (readChars "%/64".toList) true = .err .invalid_scope_id 0 := by
  constructor <;> decide +kernel

/-- The same in UTF-32. -/
theorem C84_net6_percent_utf32 (pre us post : List (BitVec 32)) (c : Cfg) (strict : Bool) (h : us.head? = some 0x25#32) :
    UndefinedWhen (∃ v, (fam6 c).parseNet (utf32Events us) strict = .err .least_3_parts v)
    (v6ParseNetP utf32NextP (pre ++ us ++ post) (pre.length + us.length) true c pre.length strict)
    ((fam6 c).parseNet (utf32Events us) strict) := by
  obtain ⟨a, r, rfl⟩ : ∃ a r, us = a :: r := by
    cases us with
    | nil => cases h
    | cons a r => exact ⟨a, r, rfl⟩
  have ha : a = 0x25#32 := by simpa using h
  subst ha
  have := net6_zone utf32NextP_law pre (0x25#32 :: r) post c strict ⟨[0x25#32], r, rfl, 0x25#32, rfl, by decide, by decide⟩
  exact ⟨fun h => this.1 (.inr h), fun h => this.2 (by rintro (h' | h'); exacts [not_over_one h'.1, h h'])⟩

example := C84_net6_percent_utf32 [0x78] [0x25, 0x31, 0x2F, 0x38] [] ⟨true, false, 16, false, fun _ => 0, fun _ => 0⟩ true rfl

/-! ### UTF-8: exactly when the text ends in a sequence that is cut off -/

/-- IPv4 addresses in UTF-8. -/
theorem C84_v4_utf8_partial (pre us post : List (BitVec 8)) :
    UndefinedWhen (Overruns Ascii8 announced8 (fun _ => True) post.length us ∧
      v4FromEvents (utf8Events us) = .err .wrong_encoding_sequence 0)
    (v4FromP utf8NextP (pre ++ us ++ post) (pre.length + us.length) pre.length) (v4FromEvents (utf8Events us)) :=
  v4_place utf8NextP_law pre us post

example : Overruns Ascii8 announced8 (fun _ => True) 1 [0x31#8, 0xE0#8] :=
  ⟨[(0x31, [0x31#8])], 0xE0#8, [], rfl, by
    simp only [List.mem_singleton, forall_eq]
    exact ⟨⟨Loose.one 0x31#8 (by decide), by decide⟩, trivial⟩, by decide⟩

/-- IPv6 addresses in UTF-8. -/
theorem C84_v6_utf8_partial (pre us post : List (BitVec 8)) (nullLess spaces : Bool) (M : Nat) :
    UndefinedWhen (Overruns Ascii8 announced8 (fun _ => True) post.length us ∧
        v6FromEvents spaces M (utf8Events us) = .err .wrong_encoding_sequence 0 ∨
      nullLess = true ∧ ∃ s, Writes Ascii8 us s ∧ ZoneOnly (ZoneOk spaces M) s)
    (v6FromP utf8NextP (pre ++ us ++ post) (pre.length + us.length) nullLess spaces M pre.length)
    (v6FromEvents spaces M (utf8Events us)) :=
  v6_place utf8NextP_law pre us post nullLess spaces M

/-- IPv4 networks in UTF-8. -/
theorem C84_net4_utf8_partial (pre us post : List (BitVec 8)) (le strict : Bool) :
    UndefinedWhen (Overruns Ascii8 announced8 (fun _ => True) post.length us ∧
      (fam4 le).parseNet (utf8Events us) strict = .err .wrong_encoding_sequence 0)
    (v4ParseNetP utf8NextP (pre ++ us ++ post) (pre.length + us.length) le pre.length strict)
    ((fam4 le).parseNet (utf8Events us) strict) :=
  net4_place utf8NextP_law pre us post le strict

/-- IPv6 networks in UTF-8 that do not start with `%`. -/
theorem C84_net6_utf8_partial (pre us post : List (BitVec 8)) (nullLess : Bool) (c : Cfg) (strict : Bool)
    (h : nullLess = false ∨ ¬ ∃ g r, us = g ++ r ∧ Ascii8 '%'.toNat g) :
    UndefinedWhen (Overruns Ascii8 announced8 (fun _ => True) post.length us ∧
      (fam6 c).parseNet (utf8Events us) strict = .err .wrong_encoding_sequence 0)
    (v6ParseNetP utf8NextP (pre ++ us ++ post) (pre.length + us.length) nullLess c pre.length strict)
    ((fam6 c).parseNet (utf8Events us) strict) :=
  net6_place utf8NextP_law pre us post nullLess c strict h

example := C84_net6_utf8_partial [0x78] [0x25, 0x31, 0x2F, 0xE0] [] false ⟨true, false, 16, false, fun _ => 0, fun _ => 0⟩ true (.inl rfl)

/-- IPv6 networks in UTF-8 that start with `%`, where a null pointer compares greater. -/
theorem C84_net6_percent_utf8 (pre us post : List (BitVec 8)) (c : Cfg) (strict : Bool)
    (h : ∃ g r, us = g ++ r ∧ Ascii8 '%'.toNat g) :
    UndefinedWhen (Overruns Ascii8 announced8 (fun _ => True) post.length us ∧
        (fam6 c).parseNet (utf8Events us) strict = .err .wrong_encoding_sequence 0 ∨
      ∃ v, (fam6 c).parseNet (utf8Events us) strict = .err .least_3_parts v)
    (v6ParseNetP utf8NextP (pre ++ us ++ post) (pre.length + us.length) true c pre.length strict)
    ((fam6 c).parseNet (utf8Events us) strict) :=
  net6_zone utf8NextP_law pre us post c strict h

example : ∃ g r, [0x25#8, 0x31#8, 0x2F#8, 0x38#8] = g ++ r ∧ Ascii8 '%'.toNat g :=
  ⟨[0x25#8], [0x31#8, 0x2F#8, 0x38#8], rfl, .one 0x25#8 (by decide), by decide⟩

/-- The scope id of `set_scope_id` and 128 bit integers in UTF-8; an integer stops at the first character that is no
digit of the base. -/
theorem C84_scope_uint_utf8_partial (pre us post : List (BitVec 8)) :
    (∀ spaces i str, UndefinedWhen (Overruns Ascii8 announced8 (fun _ => True) post.length us ∧
        setScopeLoop spaces (utf8Events us) i str = .err .wrong_encoding_sequence 0)
      (setScopeLoopP utf8NextP (pre ++ us ++ post) (pre.length + us.length) spaces (us.length + 1) i str pre.length)
      (setScopeLoop spaces (utf8Events us) i str)) ∧
    (∀ base x, UndefinedWhen
        (Overruns Ascii8 announced8 (fun cp => cp ≠ 0 ∧ ∃ c : Char, c.toNat = cp ∧ (U128.digitOf base c).isSome) post.length us)
      (fromTextLoopP utf8NextP (pre ++ us ++ post) (pre.length + us.length) base (us.length + 1) x pre.length)
      (.ok (U128.fromTextLoop base (utf8Events us) x))) :=
  ⟨fun spaces i str => scope_place utf8NextP_law pre us post spaces i str,
    fun base x => uint_place utf8NextP_law pre us post base x⟩

/-- A fixed string from an array in UTF-8 of any elements: exactly when a sequence is cut off, or the last element is
read and is not the end. -/
theorem C84_array_utf8_partial (units : List (BitVec 8)) (last : BitVec 8) :
    UndefinedWhen (Overruns Ascii8 announced8 (· ≠ 0) 1 units ∨ ReadsPast Ascii8 announced8 units.length units last)
    (makeFixedP utf8NextP (units ++ [last])) (FStr.ofEvents units.length (utf8Events units ++ utf8Events [last])) :=
  array_place utf8NextP_law units last

example : ReadsPast Ascii8 announced8 4 [0xC1#8, 0x81#8, 0xC1#8, 0x81#8] 0x78#8 := by
  have h : Loose 65 [0xC1#8, 0x81#8] := Loose.two 0xC1#8 0x81#8 (by decide) (by decide) (by decide)
  exact ⟨[(65, [0xC1#8, 0x81#8]), (65, [0xC1#8, 0x81#8])], rfl, by simp [Ascii8, h], by decide,
    Or.inr ⟨⟨0x78, ⟨Loose.one 0x78#8 (by decide), by decide⟩, by decide⟩, by decide⟩⟩

/-- An array in UTF-8 that ends in NUL, as a string literal does: `makeFixed` of `Model/Throw.lean` unless a sequence is
cut off. -/
theorem C84_literal_utf8_partial (units : List (BitVec 8)) :
    UndefinedWhen (Overruns Ascii8 announced8 (· ≠ 0) 1 units) (makeFixedP utf8NextP (units ++ [0x00#8])) (makeFixed encUtf8 units) :=
  array_nul_place utf8NextP_law units 0x00#8 (by decide)

/-- With three elements behind the text no sequence overruns the array. -/
theorem C84_utf8_room (us : List (BitVec 8)) (P : Nat → Prop) (k : Nat) (h : 3 ≤ k) : ¬ Overruns Ascii8 announced8 P k us := by
  rintro ⟨_, u, r, _, _, hk⟩
  have : announced8 u ≤ 4 := by unfold announced8; split <;> (try split) <;> (try split) <;> omega
  omega

example := C84_utf8_room [0x31, 0xE0] (fun _ => True) 3 (by decide)

/-- A text in well formed UTF-8 never overruns its array. -/
theorem C84_utf8_well_formed (cps : List Nat) (h : ∀ cp ∈ cps, Scalar cp) (P : Nat → Prop) (k : Nat) :
    ¬ Overruns Ascii8 announced8 P k (cps.flatMap utf8Encode) := by
  intro ho
  have hm := over_wrong utf8NextP_law ho
  rw [show encUtf8.events = utf8Events from rfl, utf8Events_encode cps h] at hm
  clear ho
  induction cps with
  | nil => simp [textEvents] at hm
  | cons cp cps ih =>
    simp only [textEvents] at hm
    split at hm
    · exact ih (fun x hx => h x (by simp [hx])) (by simpa using hm)
    · simp at hm

example : v4FromP utf8NextP ([] ++ [0x31, 0xE9, 0x20AC, 0x1F600].flatMap utf8Encode ++ [])
    (0 + ([0x31, 0xE9, 0x20AC, 0x1F600].flatMap utf8Encode).length) 0 = .err .unexpected_symbol 0xE9 := by
  decide +kernel

/-! ### UTF-16: exactly when a high surrogate is the last element of the array -/

/-- IPv4 addresses, IPv4 networks, scope ids and 128 bit integers in UTF-16. -/
theorem C84_utf16_partial (pre us post : List (BitVec 16)) :
    UndefinedWhen (Overruns Ascii announced16 (fun _ => True) post.length us ∧
        v4FromEvents (utf16Events us) = .err .wrong_encoding_sequence 0)
      (v4FromP utf16NextP (pre ++ us ++ post) (pre.length + us.length) pre.length) (v4FromEvents (utf16Events us)) ∧
    (∀ le strict, UndefinedWhen (Overruns Ascii announced16 (fun _ => True) post.length us ∧
        (fam4 le).parseNet (utf16Events us) strict = .err .wrong_encoding_sequence 0)
      (v4ParseNetP utf16NextP (pre ++ us ++ post) (pre.length + us.length) le pre.length strict)
      ((fam4 le).parseNet (utf16Events us) strict)) ∧
    (∀ spaces i str, UndefinedWhen (Overruns Ascii announced16 (fun _ => True) post.length us ∧
        setScopeLoop spaces (utf16Events us) i str = .err .wrong_encoding_sequence 0)
      (setScopeLoopP utf16NextP (pre ++ us ++ post) (pre.length + us.length) spaces (us.length + 1) i str pre.length)
      (setScopeLoop spaces (utf16Events us) i str)) ∧
    (∀ base x, UndefinedWhen
        (Overruns Ascii announced16 (fun cp => cp ≠ 0 ∧ ∃ c : Char, c.toNat = cp ∧ (U128.digitOf base c).isSome) post.length us)
      (fromTextLoopP utf16NextP (pre ++ us ++ post) (pre.length + us.length) base (us.length + 1) x pre.length)
      (.ok (U128.fromTextLoop base (utf16Events us) x))) :=
  ⟨v4_place utf16NextP_law pre us post, fun le strict => net4_place utf16NextP_law pre us post le strict,
    fun spaces i str => scope_place utf16NextP_law pre us post spaces i str, fun base x => uint_place utf16NextP_law pre us post base x⟩

example : Overruns Ascii announced16 (fun _ => True) 0 [0x31#16, 0xD83D#16] :=
  ⟨[(0x31, [0x31#16])], 0xD83D#16, [], rfl, by
    simp only [List.mem_singleton, forall_eq]
    exact ⟨⟨0x31#16, rfl, rfl, by decide⟩, trivial⟩, by decide⟩

/-- IPv6 addresses in UTF-16. -/
theorem C84_v6_utf16_partial (pre us post : List (BitVec 16)) (nullLess spaces : Bool) (M : Nat) :
    UndefinedWhen (Overruns Ascii announced16 (fun _ => True) post.length us ∧
        v6FromEvents spaces M (utf16Events us) = .err .wrong_encoding_sequence 0 ∨
      nullLess = true ∧ ∃ s, Writes Ascii us s ∧ ZoneOnly (ZoneOk spaces M) s)
    (v6FromP utf16NextP (pre ++ us ++ post) (pre.length + us.length) nullLess spaces M pre.length)
    (v6FromEvents spaces M (utf16Events us)) :=
  v6_place utf16NextP_law pre us post nullLess spaces M

/-- IPv6 networks in UTF-16 that do not start with `%`. -/
theorem C84_net6_utf16_partial (pre us post : List (BitVec 16)) (nullLess : Bool) (c : Cfg) (strict : Bool)
    (h : nullLess = false ∨ us.head? ≠ some 0x25#16) :
    UndefinedWhen (Overruns Ascii announced16 (fun _ => True) post.length us ∧
      (fam6 c).parseNet (utf16Events us) strict = .err .wrong_encoding_sequence 0)
    (v6ParseNetP utf16NextP (pre ++ us ++ post) (pre.length + us.length) nullLess c pre.length strict)
    ((fam6 c).parseNet (utf16Events us) strict) := by
  refine net6_place utf16NextP_law pre us post nullLess c strict (h.imp id ?_)
  rintro h ⟨g, r, rfl, d, rfl, hd, _⟩
  have : d = 0x25#16 := BitVec.eq_of_toNat_eq hd
  rw [this] at h
  exact h rfl

example := C84_net6_utf16_partial [0x78] [0x3A, 0x3A, 0x2F, 0xD83D] [] true ⟨true, false, 16, false, fun _ => 0, fun _ => 0⟩ true (.inr (by decide))

/-- IPv6 networks in UTF-16 that start with `%`, where a null pointer compares greater. -/
theorem C84_net6_percent_utf16 (pre us post : List (BitVec 16)) (c : Cfg) (strict : Bool) (h : us.head? = some 0x25#16) :
    UndefinedWhen (Overruns Ascii announced16 (fun _ => True) post.length us ∧
        (fam6 c).parseNet (utf16Events us) strict = .err .wrong_encoding_sequence 0 ∨
      ∃ v, (fam6 c).parseNet (utf16Events us) strict = .err .least_3_parts v)
    (v6ParseNetP utf16NextP (pre ++ us ++ post) (pre.length + us.length) true c pre.length strict)
    ((fam6 c).parseNet (utf16Events us) strict) := by
  obtain ⟨a, r, rfl⟩ : ∃ a r, us = a :: r := by
    cases us with
    | nil => cases h
    | cons a r => exact ⟨a, r, rfl⟩
  have ha : a = 0x25#16 := by simpa using h
  subst ha
  exact net6_zone utf16NextP_law pre (0x25#16 :: r) post c strict ⟨[0x25#16], r, rfl, 0x25#16, rfl, by decide, by decide⟩

example := C84_net6_percent_utf16 [0x78] [0x25, 0x31, 0x2F, 0xD83D] [] ⟨true, false, 16, false, fun _ => 0, fun _ => 0⟩ true rfl

/-- With one element behind the text, such as a terminating NUL, no text in UTF-16 overruns its array. -/
theorem C84_utf16_room (us : List (BitVec 16)) (P : Nat → Prop) (k : Nat) (h : 1 ≤ k) : ¬ Overruns Ascii announced16 P k us := by
  rintro ⟨_, u, r, _, _, hk⟩
  have : announced16 u ≤ 2 := by unfold announced16; split <;> omega
  omega

example := C84_utf16_room [0x31, 0xD83D] (fun _ => True) 1 (by decide)

/-- A fixed string from an array in UTF-16, with or without a terminating NUL, unless a high surrogate is last and is
read: never, because every character is one unit. -/
theorem C84_array_utf16 (units : List (BitVec 16)) (last : BitVec 16) :
    makeFixedP utf16NextP (units ++ [last]) = FStr.ofEvents units.length (utf16Events units ++ utf16Events [last]) := by
  refine (array_place utf16NextP_law units last).2 ?_
  rintro (h | ⟨gs, e, hg, hk, _⟩)
  · exact C84_utf16_room _ _ 1 (Nat.le_refl _) h
  · have := flatMap_length_one gs fun g hgm => by obtain ⟨u, hu, _⟩ := (hg g hgm).1; rw [hu]; rfl
    rw [e, this] at hk
    omega

/-- A text in well formed UTF-16 never overruns its array. -/
theorem C84_utf16_well_formed (cps : List Nat) (h : ∀ cp ∈ cps, Scalar cp) (P : Nat → Prop) (k : Nat) :
    ¬ Overruns Ascii announced16 P k (cps.flatMap utf16Encode) := by
  intro ho
  have hm := over_wrong utf16NextP_law ho
  rw [show encUtf16.events = utf16Events from rfl, utf16Events_encode cps h] at hm
  clear ho
  induction cps with
  | nil => simp [textEvents] at hm
  | cons cp cps ih =>
    simp only [textEvents] at hm
    split at hm
    · exact ih (fun x hx => h x (by simp [hx])) (by simpa using hm)
    · simp at hm

example := C84_utf16_well_formed [0x31, 0xE9, 0x1F600] (by simp [Scalar]) (fun _ => True) 0

end Ip
