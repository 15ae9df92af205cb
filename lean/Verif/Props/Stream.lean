import Verif.Props.AnyNet
import Verif.Props.V4
import Verif.Props.U128
import Verif.Lemmas.Stream
/-
Stream operators: C48.  Networks on little endian hosts.
-/
set_option autoImplicit false

namespace Ip
open Spec

/-- A character type whose reader is lawful and which represents ASCII. -/
structure Wide.Ok {U : Type} (W : Wide U) : Prop where
  law : W.enc.Law
  ascii : ∀ c : Char, c.toNat < 128 → W.Keeps c

theorem wideChar_ok : wideChar.Ok := ⟨encChar_law, fun c _ => wideChar_keeps c⟩
theorem wide32_ok : wide32.Ok := ⟨encUtf32_law, wide32_keeps⟩
theorem wide16_ok : wide16.Ok := ⟨encUtf16_law, wide16_keeps⟩

/-- The text written: upper case, up to the scope id, if the flag is set. -/
def shown (upper : Bool) (t : List Char) : List Char := if upper then upcase t else t

/-- Whatever precedes (white space), follows (nothing, or white space and anything) and the state of the strict
flag: the text is read as a good object, exactly its characters are consumed, and no error is set. -/
def ReadsBack {U α : Type} (W : Wide U) (read : IStr U → Res (Option α × IStr U)) (t : List U) (good : α → Prop) : Prop :=
  ∀ (i : IStr U) (ws rest : List U), i.eof = false → i.fail = false → i.input = ws ++ t ++ rest →
    (∀ u ∈ ws, W.space u = true) → (rest = [] ∨ ∃ x r, rest = x :: r ∧ W.space x = true) →
    ∃ a i', read i = .ok (some a, i') ∧ good a ∧ i'.input = rest ∧ i'.fail = false ∧ i'.eof = rest.isEmpty

theorem osWrite_eq {U : Type} (W : Wide U) (toStr : Format → Res (List Char)) (s : OStr U) (fmt : Format)
    (hf : formatOfWord s.word = .ok fmt) (u : List Char) (hu : toStr fmt = .ok u) (hup : upperText u = .ok (upcase u)) :
    osWrite W toStr s = .ok { s with word := 0, out := s.out ++ (shown s.upper u).map W.conv } := by
  unfold osWrite shown
  rw [hf, Res.ok_bind, hu, Res.ok_bind]
  cases s.upper <;> simp [hup]

theorem readsBack_of {U α : Type} {W : Wide U} (hW : W.Ok) (parse : List Ev → Bool → Res α) (t : List Char) (good : α → Prop)
    (hk : ∀ c ∈ t, W.Keeps c) (hs : ∀ c ∈ t, isSpaceC c = false) (hn : t ≠ [])
    (hp : ∀ strict, ∃ a, parse (readChars t) strict = .ok a ∧ good a) :
    ReadsBack W (isReadNet W parse) (t.map W.conv) good ∧ ReadsBack W (isRead W (fun e => parse e true)) (t.map W.conv) good := by
  constructor
  · intro i ws rest h1 h2 h3 h4 h5
    obtain ⟨a, p1, p2⟩ := hp (i.word == 0)
    have hr := readWord_eq W { i with word := 0 } ⟨h1, h2⟩ (t.map W.conv) rest
      (by show FirstWord W.space i.input _ _; rw [h3]; exact firstWord_text W t hk hs hn ws rest h4 h5)
    refine ⟨a, { i with word := 0, input := rest, eof := rest.isEmpty }, ?_, p2, rfl, h2, rfl⟩
    unfold isReadNet isRead
    simp only
    rw [hr, events_map W hW.law t hk, p1]
  · intro i ws rest h1 h2 h3 h4 h5
    obtain ⟨a, p1, p2⟩ := hp true
    have hr := readWord_eq W i ⟨h1, h2⟩ (t.map W.conv) rest (by rw [h3]; exact firstWord_text W t hk hs hn ws rest h4 h5)
    refine ⟨a, { i with input := rest, eof := rest.isEmpty }, ?_, p2, rfl, h2, rfl⟩
    unfold isRead
    simp only
    rw [hr, events_map W hW.law t hk, p1]

/-! ### Texts -/

theorem dotted_ok (a b c d : BitVec 8) : upperText (dotted a b c d) = .ok (upcase (dotted a b c d)) ∧
    upcase (dotted a b c d) = dotted a b c d ∧ dotted a b c d ≠ [] ∧
    ∀ x ∈ dotted a b c d, x.toNat < 128 ∧ isSpaceC x = false := by
  obtain ⟨h1, h2⟩ := dotted_upper a b c d
  have hf : ∀ x ∈ dotted a b c d, x.toNat < 128 ∧ x ≠ '%' := fun x hx =>
    ⟨(addrChars_facts x (h1 x hx)).1, (addrChars_facts x (h1 x hx)).2.2.1⟩
  have e1 := upperText_eq (dotted a b c d) [] hf (.inl rfl)
  have e2 := upcase_split (dotted a b c d) [] (fun x hx => (hf x hx).2) (.inl rfl)
  rw [List.append_nil] at e1 e2
  rw [h2, List.append_nil] at e2
  exact ⟨e1, e2, by simp [dotted], fun x hx => ⟨(addrChars_facts x (h1 x hx)).1, (addrChars_facts x (h1 x hx)).2.1⟩⟩

/-- What a stream shows of a scope id: every character is represented faithfully and is not white space. -/
def ScopeShown {U : Type} (W : Wide U) (z : List Char) : Prop := ∀ c ∈ z, W.Keeps c ∧ isSpaceC c = false

theorem scopeShown_char (M : Nat) (z : List Char) (h : ZoneOk false M z) : ScopeShown wideChar z := by
  intro c hc
  obtain ⟨-, -, h⟩ := h.2 c hc
  obtain ⟨h1, h2, h3, h4, h5, h6⟩ := h rfl
  refine ⟨wideChar_keeps c, ?_⟩
  cases hs : isSpaceC c with
  | false => rfl
  | true =>
    exfalso
    rw [space_ascii] at hs
    simp only [Bool.or_eq_true, Bool.and_eq_true, decide_eq_true_eq] at hs
    have hn : c.toNat = 32 ∨ c.toNat = 9 ∨ c.toNat = 10 ∨ c.toNat = 11 ∨ c.toNat = 12 ∨ c.toNat = 13 := by omega
    rw [← Char.ofNat_toNat c] at h1 h2 h3 h4 h5 h6
    rcases hn with e | e | e | e | e | e <;> rw [e] at h1 h2 h3 h4 h5 h6
    · exact h1 rfl
    · exact h2 rfl
    · exact h3 rfl
    · exact h4 rfl
    · exact h5 rfl
    · exact h6 rfl

theorem zoneText_or (z : List Char) : zoneText z = [] ∨ ∃ r, zoneText z = '%' :: r := by
  unfold zoneText
  split
  · exact .inl rfl
  · exact .inr ⟨_, rfl⟩

/-- The text of an IPv6 address as it is written. -/
theorem v6_shown {U : Type} {W : Wide U} (hW : W.Ok) (M : Nat) (a : V6) (ha : a.WF M) (hz : ScopeShown W a.scope.contents) (fmt : Format)
    (upper : Bool) :
    ∃ u t, v6ToString M a fmt = .ok u ∧ upperText u = .ok (upcase u) ∧ shown upper u = t ++ zoneText a.scope.contents ∧
      V6Text t (groupsOf a.bytes) ∧ '.' ∉ t ∧ '/' ∉ t ∧ t.length ≤ 39 ∧
      ∀ c ∈ t ++ zoneText a.scope.contents, W.Keeps c ∧ isSpaceC c = false := by
  obtain ⟨g1, g2, g3⟩ := groupBytes_groupsOf 8 a.bytes ha.1
  obtain ⟨t, h1, h2, h3⟩ := v6ToString_eq M a ha fmt
  obtain ⟨h4, h5⟩ := h1.text g2 g3
  obtain ⟨h6, h7⟩ := V6Text_upper h4
  have hp : ∀ c ∈ t, c.toNat < 128 ∧ c ≠ '%' := fun c hc => ⟨(addrChars_facts c (h6 c hc)).1, (addrChars_facts c (h6 c hc)).2.2.1⟩
  have hzz : ∀ c ∈ zoneText a.scope.contents, W.Keeps c ∧ isSpaceC c = false := by
    intro c hc
    unfold zoneText at hc
    split at hc
    · cases hc
    · rcases List.mem_cons.1 hc with rfl | hc
      · exact ⟨hW.ascii _ (by decide), by decide⟩
      · exact hz c hc
  have hac : ∀ c ∈ addrChars, W.Keeps c ∧ isSpaceC c = false := fun c hc =>
    ⟨hW.ascii c (addrChars_facts c hc).1, (addrChars_facts c hc).2.1⟩
  have hall : ∀ t' : List Char, (∀ c ∈ t', c ∈ addrChars) → ∀ c ∈ t' ++ zoneText a.scope.contents, W.Keeps c ∧ isSpaceC c = false := by
    intro t' ht' c hc
    rcases List.mem_append.1 hc with hc | hc
    · exact hac c (ht' c hc)
    · exact hzz c hc
  refine ⟨_, if upper then t.map Char.toUpper else t, h3, upperText_eq _ _ hp (zoneText_or _), ?_, ?_⟩
  · cases upper
    · rfl
    · exact upcase_split _ _ (fun c hc => (hp c hc).2) (zoneText_or _)
  · cases upper
    · exact ⟨h4, h5, h1.noslash g2 g3, h2, hall t h6⟩
    · have hm : ∀ c ∈ t.map Char.toUpper, c ∈ addrChars := by
        intro c hc
        obtain ⟨x, hx, rfl⟩ := List.mem_map.1 hc
        exact (addrChars_facts x (h6 x hx)).2.2.2.2.2
      refine ⟨h7, ?_, ?_, by simpa using h2, hall _ hm⟩
      · intro hc
        obtain ⟨x, hx, e⟩ := List.mem_map.1 hc
        have key : ∀ x ∈ addrChars, x.toUpper = '.' → x = '.' := by decide
        exact h5 (key x (h6 x hx) e ▸ hx)
      · intro hc
        exact (addrChars_facts _ (hm _ hc)).2.2.2.1 rfl

/-! ### Output is read back -/

theorem exScoped_shown : ScopeShown wideChar exScoped.scope.contents := scopeShown_char 16 _ exScoped_good.2.1

/-- C48, IPv4 addresses: whatever the flags and the format, the address is written in dotted decimal form, the format
is reset, and reading the output yields the same address. -/
theorem C48_v4 {U : Type} (W : Wide U) (hW : W.Ok) (a b c d : BitVec 8) (s : OStr U) (fmt : Format)
    (hs : formatOfWord s.word = .ok fmt) :
    osV4 W [a, b, c, d] s = .ok { s with word := 0, out := s.out ++ (dotted a b c d).map W.conv } ∧
    ReadsBack W (isRead W v4FromEvents) ((dotted a b c d).map W.conv) (· = [a, b, c, d]) := by
  obtain ⟨h1, h2, h3, h4⟩ := dotted_ok a b c d
  constructor
  · have := osWrite_eq W (fun _ => v4ToString [a, b, c, d]) s fmt hs _ (v4ToString_eq a b c d) h1
    rw [osV4, this]
    unfold shown
    rw [h2]
    simp
  · exact (readsBack_of hW (fun e _ => v4FromEvents e) _ (· = [a, b, c, d]) (fun x hx => hW.ascii x (h4 x hx).1) (fun x hx => (h4 x hx).2) h3
      (fun _ => ⟨_, v4FromEvents_dotted a b c d, rfl⟩)).2

example := C48_v4 wide16 wide16_ok 10 0 0 1 ⟨3, true, false, false, []⟩ .compressed rfl

/-- C48, IPv6 addresses: the text written is that of the selected format; the flag `uppercase` changes it to upper case
up to the scope id; the format is reset; reading the output yields the same address and scope id. -/
theorem C48_v6 {U : Type} (W : Wide U) (hW : W.Ok) (spaces : Bool) (M : Nat) (a : V6) (ha : a.Good spaces M)
    (hz : ScopeShown W a.scope.contents) (s : OStr U) (fmt : Format) (hs : formatOfWord s.word = .ok fmt) :
    ∃ u, v6ToString M a fmt = .ok u ∧
      osV6 W M a s = .ok { s with word := 0, out := s.out ++ (shown s.upper u).map W.conv } ∧
      ReadsBack W (isRead W (v6FromEvents spaces M)) ((shown s.upper u).map W.conv)
        (fun b => b.WF M ∧ b.bytes = a.bytes ∧ b.scope.contents = a.scope.contents) := by
  obtain ⟨u, t, h1, h2, h3, h4, h5, h6, h7, h8⟩ := v6_shown hW M a ha.1 hz fmt s.upper
  refine ⟨u, h1, osWrite_eq W _ s fmt hs u h1 h2, ?_⟩
  rw [h3]
  obtain ⟨g1, g2, g3⟩ := groupBytes_groupsOf 8 a.bytes ha.1.1
  obtain ⟨b, b1, b2, b3, b4⟩ := v6Parse_of_accepts spaces M _ t a.scope.contents (groupsOf a.bytes)
    ⟨rfl, h4, fun h => absurd h h5, ha.2.1⟩ ha.2.2
  refine (readsBack_of hW (fun e _ => v6FromEvents spaces M e) _ _ (fun x hx => (h8 x hx).1) (fun x hx => (h8 x hx).2) ?_
      (fun _ => ⟨b, b1, b2, by rw [b3, g1], b4⟩)).2
  intro e
  exact V6Text_ne_nil h4 (List.append_eq_nil_iff.1 e).1

example := C48_v6 wideChar wideChar_ok false 16 exScoped exScoped_good exScoped_shown ⟨1, true, false, false, []⟩ .full rfl

/-- C48, addresses of either version. -/
theorem C48_any {U : Type} (W : Wide U) (hW : W.Ok) (spaces : Bool) (M : Nat) (s : OStr U) (fmt : Format)
    (hs : formatOfWord s.word = .ok fmt) :
    (∀ a b c d : BitVec 8, osAny W M (.v4 [a, b, c, d]) s = .ok { s with word := 0, out := s.out ++ (dotted a b c d).map W.conv } ∧
      ReadsBack W (isRead W (anyFromEvents spaces M)) ((dotted a b c d).map W.conv) (· = .v4 [a, b, c, d])) ∧
    (∀ a : V6, a.Good spaces M → ScopeShown W a.scope.contents → ∃ u, v6ToString M a fmt = .ok u ∧
      osAny W M (.v6 a) s = .ok { s with word := 0, out := s.out ++ (shown s.upper u).map W.conv } ∧
      ReadsBack W (isRead W (anyFromEvents spaces M)) ((shown s.upper u).map W.conv)
        (fun x => ∃ b, x = .v6 b ∧ b.WF M ∧ b.bytes = a.bytes ∧ b.scope.contents = a.scope.contents)) := by
  constructor
  · intro a b c d
    obtain ⟨h1, h2, h3, h4⟩ := dotted_ok a b c d
    refine ⟨(C48_v4 W hW a b c d s fmt hs).1, ?_⟩
    exact (readsBack_of hW (fun e _ => anyFromEvents spaces M e) _ (· = .v4 [a, b, c, d]) (fun x hx => hW.ascii x (h4 x hx).1) (fun x hx => (h4 x hx).2) h3
      (fun _ => ⟨_, ((C20_any_parse spaces M _).1 _).2 (v4FromEvents_dotted a b c d), rfl⟩)).2
  · intro a ha hz
    obtain ⟨u, t, h1, h2, h3, h4, h5, h6, h7, h8⟩ := v6_shown hW M a ha.1 hz fmt s.upper
    refine ⟨u, h1, osWrite_eq W _ s fmt hs u h1 h2, ?_⟩
    rw [h3]
    obtain ⟨g1, g2, g3⟩ := groupBytes_groupsOf 8 a.bytes ha.1.1
    obtain ⟨b, b1, b2, b3, b4⟩ := v6Parse_of_accepts spaces M _ t a.scope.contents (groupsOf a.bytes)
      ⟨rfl, h4, fun h => absurd h h5, ha.2.1⟩ ha.2.2
    refine (readsBack_of hW (fun e _ => anyFromEvents spaces M e) _ _ (fun x hx => (h8 x hx).1) (fun x hx => (h8 x hx).2) ?_
        (fun _ => ⟨.v6 b, ((C20_any_parse spaces M _).2.1 _).2 b1, b, rfl, b2, by rw [b3, g1], b4⟩)).2
    intro e
    exact V6Text_ne_nil h4 (List.append_eq_nil_iff.1 e).1

example := C48_any wideChar wideChar_ok false 16 ⟨1, true, false, false, []⟩ .full rfl

/-! ### Networks -/

theorem digitText_mem (b : Nat) : ∀ (cs : List Char) (ds : List Nat), DigitText b cs ds → ∀ c ∈ cs, ∃ d, d < b ∧ (c, d) ∈ digitChars := by
  intro cs
  induction cs with
  | nil => intro ds _ c hc; cases hc
  | cons x xs ih =>
    intro ds h c hc
    cases ds with
    | nil => exact h.elim
    | cons d ds =>
      obtain ⟨k1, k2, k3⟩ := h
      rcases List.mem_cons.1 hc with rfl | hc
      · exact ⟨d, k2, k1⟩
      · exact ih ds k3 c hc

theorem toDigits_chars (n : Nat) : ∀ c ∈ '/' :: Nat.toDigits 10 n, c.toNat < 128 ∧ isSpaceC c = false ∧ c ≠ '%' ∧ c.toUpper = c := by
  intro c hc
  rcases List.mem_cons.1 hc with rfl | hc
  · decide
  · obtain ⟨ds, h1, h2, h3, h4, h5⟩ := toDigits_text 10 (by decide) (by decide) n
    obtain ⟨d, hd, hm⟩ := digitText_mem 10 _ _ h1 c hc
    have all : ∀ p ∈ digitChars, p.2 < 10 → p.1.toNat < 128 ∧ isSpaceC p.1 = false ∧ p.1 ≠ '%' ∧ p.1.toUpper = p.1 := by decide
    exact all (c, d) hm hd

theorem upcase_net (t z : List Char) (n : Nat) (ht : ∀ c ∈ t, c.toNat < 128 ∧ c ≠ '%') (hz : z = [] ∨ ∃ r, z = '%' :: r) :
    upcase (t ++ z ++ '/' :: Nat.toDigits 10 n) = t.map Char.toUpper ++ z ++ '/' :: Nat.toDigits 10 n ∧
    upperText (t ++ z ++ '/' :: Nat.toDigits 10 n) = .ok (upcase (t ++ z ++ '/' :: Nat.toDigits 10 n)) := by
  have hd := toDigits_chars n
  generalize '/' :: Nat.toDigits 10 n = m at hd ⊢
  rcases hz with rfl | ⟨r, rfl⟩
  · have hm : m.map Char.toUpper = m := by
      conv_rhs => rw [← List.map_id m]
      exact List.map_congr_left (fun x hx => (hd x hx).2.2.2)
    have hall : ∀ c ∈ t ++ m, c.toNat < 128 ∧ c ≠ '%' := by
      intro c hc
      rcases List.mem_append.1 hc with hc | hc
      · exact ht c hc
      · exact ⟨(hd c hc).1, (hd c hc).2.2.1⟩
    have e1 := upcase_split (t ++ m) [] (fun c hc => (hall c hc).2) (.inl rfl)
    have e2 := upperText_eq (t ++ m) [] hall (.inl rfl)
    simp only [List.append_nil] at e1 e2 ⊢
    exact ⟨by rw [e1, List.map_append, hm], e2⟩
  · rw [List.append_assoc, List.cons_append]
    exact ⟨by rw [upcase_split t _ (fun c hc => (ht c hc).2) (.inr ⟨_, rfl⟩)]; simp, upperText_eq t _ ht (.inr ⟨_, rfl⟩)⟩

/-- C48, IPv4 networks: the text written does not depend on the flags, and is read back in strict and in non strict
mode. -/
theorem C48_net4 {U : Type} (W : Wide U) (hW : W.Ok) (n : Net (List (BitVec 8))) (hn : NetOk4 n) (s : OStr U) (fmt : Format)
    (hs : formatOfWord s.word = .ok fmt) :
    ∃ u, (fam4 true).netToString fmt n = .ok u ∧
      osNet W (fam4 true) n s = .ok { s with word := 0, out := s.out ++ u.map W.conv } ∧
      ReadsBack W (isReadNet W (fam4 true).parseNet) (u.map W.conv) (· = n) := by
  have hl : n.addr.length = 4 := hn.wf
  obtain ⟨a, b, c, d, e⟩ : ∃ a b c d, n.addr = [a, b, c, d] := by
    match n.addr, hl with
    | [a, b, c, d], _ => exact ⟨a, b, c, d, rfl⟩
  have ht : (fam4 true).netToString fmt n = .ok (dotted a b c d ++ '/' :: Nat.toDigits 10 n.plen) := by
    show (v4ToString n.addr >>= _) = _
    rw [e, v4ToString_eq]
    rfl
  obtain ⟨h1, h2⟩ := dotted_upper a b c d
  obtain ⟨k1, k2⟩ := upcase_net (dotted a b c d) [] n.plen (fun x hx =>
    ⟨(addrChars_facts x (h1 x hx)).1, (addrChars_facts x (h1 x hx)).2.2.1⟩) (.inl rfl)
  rw [List.append_nil] at k1 k2
  rw [h2, List.append_nil] at k1
  have hd := toDigits_chars n.plen
  have hc : ∀ x ∈ dotted a b c d ++ '/' :: Nat.toDigits 10 n.plen, x.toNat < 128 ∧ isSpaceC x = false := by
    intro x hx
    rcases List.mem_append.1 hx with hx | hx
    · exact ⟨(addrChars_facts x (h1 x hx)).1, (addrChars_facts x (h1 x hx)).2.1⟩
    · exact ⟨(hd x hx).1, (hd x hx).2.1⟩
  refine ⟨_, ht, ?_, ?_⟩
  · have := osWrite_eq W (fun fmt => (fam4 true).netToString fmt n) s fmt hs _ ht k2
    rw [osNet, this]
    unfold shown
    rw [k1]
    simp
  · refine (readsBack_of hW _ _ (· = n) (fun x hx => hW.ascii x (hc x hx).1) (fun x hx => (hc x hx).2) (by simp) ?_).1
    intro strict
    obtain ⟨t, g1, g2⟩ := C25_round_trip_v4 n hn fmt strict
    rw [ht] at g1
    cases g1
    exact ⟨n, g2, rfl⟩

example := C48_net4 wide32 wide32_ok ex16 ex16_ok ⟨1, true, false, false, []⟩ .full rfl

/-- The text of an IPv6 network as it is written. -/
theorem net6_shown {U : Type} {W : Wide U} (hW : W.Ok) (c : Cfg) (n : Net V6) (ha : n.addr.WF c.M)
    (hz : ScopeShown W n.addr.scope.contents) (fmt : Format) (upper : Bool) :
    ∃ u t, (fam6 c).netToString fmt n = .ok u ∧ upperText u = .ok (upcase u) ∧
      shown upper u = t ++ zoneText n.addr.scope.contents ++ '/' :: Nat.toDigits 10 n.plen ∧
      V6Text t (groupsOf n.addr.bytes) ∧ '.' ∉ t ∧ '/' ∉ t ∧ t.length ≤ 39 ∧
      ∀ ch ∈ shown upper u, W.Keeps ch ∧ isSpaceC ch = false := by
  obtain ⟨u, t, h1, h2, h3, h4⟩ := v6_shown hW c.M n.addr ha hz fmt upper
  obtain ⟨h5, h6, h7, h8, h9⟩ := h4
  obtain ⟨g1, g2, g3⟩ := groupBytes_groupsOf 8 n.addr.bytes ha.1
  obtain ⟨t0, f1, f2, f3⟩ := v6ToString_eq c.M n.addr ha fmt
  have hu : u = t0 ++ zoneText n.addr.scope.contents := by
    rw [h1] at f3
    cases f3
    rfl
  obtain ⟨f4, f5⟩ := f1.text g2 g3
  obtain ⟨f6, f7⟩ := V6Text_upper f4
  have hp : ∀ c ∈ t0, c.toNat < 128 ∧ c ≠ '%' := fun c hc => ⟨(addrChars_facts c (f6 c hc)).1, (addrChars_facts c (f6 c hc)).2.2.1⟩
  obtain ⟨k1, k2⟩ := upcase_net t0 (zoneText n.addr.scope.contents) n.plen hp (zoneText_or _)
  have hsh : shown upper (u ++ '/' :: Nat.toDigits 10 n.plen) = t ++ zoneText n.addr.scope.contents ++ '/' :: Nat.toDigits 10 n.plen := by
    rw [← h3, hu]
    cases upper
    · rfl
    · show upcase _ = upcase _ ++ _
      rw [k1, upcase_split t0 _ (fun c hc => (hp c hc).2) (zoneText_or _)]
  refine ⟨u ++ '/' :: Nat.toDigits 10 n.plen, t, ?_, by rw [hu]; exact k2, hsh, h5, h6, h7, h8, ?_⟩
  · show (v6ToString c.M n.addr fmt >>= _) = _
    rw [h1]
    rfl
  · rw [hsh]
    intro ch hch
    rcases List.mem_append.1 hch with hch | hch
    · exact h9 ch hch
    · have hd := toDigits_chars n.plen ch hch
      exact ⟨hW.ascii ch hd.1, hd.2.1⟩

/-- C48, IPv6 networks: written in the selected format, in upper case up to the scope id if the flag is set, and read
back as an equal network in strict and in non strict mode. -/
theorem C48_net6 {U : Type} (W : Wide U) (hW : W.Ok) (c : Cfg) (hc : c.le = true) (hv : ∀ x y, c.val x = c.val y → x = y)
    (n : Net V6) (hn : NetOk6 c n) (hg : n.addr.Good c.spaces c.M) (hz : ScopeShown W n.addr.scope.contents) (s : OStr U)
    (fmt : Format) (hs : formatOfWord s.word = .ok fmt) :
    ∃ u, (fam6 c).netToString fmt n = .ok u ∧
      osNet W (fam6 c) n s = .ok { s with word := 0, out := s.out ++ (shown s.upper u).map W.conv } ∧
      ReadsBack W (isReadNet W (fam6 c).parseNet) ((shown s.upper u).map W.conv)
        (fun m => NetOk6 c m ∧ m.plen = n.plen ∧ m.addr.bytes = n.addr.bytes ∧ m.addr.scope.contents = n.addr.scope.contents ∧
          (fam6 c).netEq n m = .ok true) := by
  obtain ⟨u, t, h1, h2, h3, h4, h5, h6, h7, h8⟩ := net6_shown hW c n hg.1 hz fmt s.upper
  refine ⟨u, h1, osWrite_eq W _ s fmt hs u h1 h2, ?_⟩
  refine (readsBack_of hW _ _ _ (fun x hx => (h8 x hx).1) (fun x hx => (h8 x hx).2) (by rw [h3]; simp) ?_).1
  intro strict
  obtain ⟨m, g1, g2, g3, g4, g5, _, g7⟩ := parseNet_v6_text c hc hv n hn hg t h4 h5 h6 h7 strict
  rw [h3]
  exact ⟨m, g1, g2, g3, g4, g5, g7⟩

example := C48_net6 wideChar wideChar_ok exCfg rfl exCfg_val ex32 ex32_ok ex32_good (scopeShown_char 16 _ ex32_good.2.1)
  ⟨1, true, false, false, []⟩ .full rfl

/-- C48, networks of either version. -/
theorem C48_any_net {U : Type} (W : Wide U) (hW : W.Ok) (c : Cfg) (hc : c.le = true) (hv : ∀ x y, c.val x = c.val y → x = y)
    (s : OStr U) (fmt : Format) (hs : formatOfWord s.word = .ok fmt) :
    (∀ n, NetOk4 n → ∃ u, (fam4 true).netToString fmt n = .ok u ∧
      osAnyNet W c (.v4 n) s = .ok { s with word := 0, out := s.out ++ u.map W.conv } ∧
      ReadsBack W (isReadNet W (anyNetFromEvents c)) (u.map W.conv) (· = .v4 n)) ∧
    (∀ n, NetOk6 c n → n.addr.Good c.spaces c.M → ScopeShown W n.addr.scope.contents → ∃ u, (fam6 c).netToString fmt n = .ok u ∧
      osAnyNet W c (.v6 n) s = .ok { s with word := 0, out := s.out ++ (shown s.upper u).map W.conv } ∧
      ReadsBack W (isReadNet W (anyNetFromEvents c)) ((shown s.upper u).map W.conv)
        (fun x => ∃ m, x = .v6 m ∧ NetOk6 c m ∧ m.plen = n.plen ∧ m.addr.bytes = n.addr.bytes ∧
          m.addr.scope.contents = n.addr.scope.contents ∧ (fam6 c).netEq n m = .ok true)) := by
  have lift : ∀ {β : Type} (parse : List Ev → Bool → Res β) (f : β → AnyNet) (t : List U) (good : β → Prop) (good' : AnyNet → Prop),
      (∀ evs strict b, parse evs strict = .ok b → anyNetFromEvents c evs strict = .ok (f b)) → (∀ b, good b → good' (f b)) →
      ReadsBack W (isReadNet W parse) t good → ReadsBack W (isReadNet W (anyNetFromEvents c)) t good' := by
    intro β parse f t good good' hf hg hr i ws rest h1 h2 h3 h4 h5
    obtain ⟨a, i', r1, r2, r3⟩ := hr i ws rest h1 h2 h3 h4 h5
    refine ⟨f a, i', ?_, hg a r2, r3⟩
    unfold isReadNet isRead at r1 ⊢
    simp only at r1 ⊢
    cases hp : parse (W.enc.events (readWord W { i with word := 0 }).1) (i.word == 0) with
    | ub => rw [hp] at r1; cases r1
    | err e v => rw [hp] at r1; simp at r1
    | ok b =>
      rw [hp] at r1
      rw [hf _ _ _ hp]
      simp only [Res.ok.injEq, Prod.mk.injEq, Option.some.injEq] at r1 ⊢
      exact ⟨by rw [r1.1], r1.2⟩
  constructor
  · intro n hn
    obtain ⟨u, h1, h2, h3⟩ := C48_net4 W hW n hn s fmt hs
    refine ⟨u, h1, ?_, lift _ .v4 _ _ _ (fun evs strict b h => ((C49_parse c hc evs strict).1 b).2 h) (fun b hb => by rw [hb]) h3⟩
    rw [← h2]
    unfold osAnyNet osNet anyNetToString
    rw [hc]
  · intro n hn hg hz
    obtain ⟨u, h1, h2, h3⟩ := C48_net6 W hW c hc hv n hn hg hz s fmt hs
    exact ⟨u, h1, h2, lift _ .v6 _ _ _ (fun evs strict b h => ((C49_parse c hc evs strict).2.1 b).2 h) (fun b hb => ⟨b, rfl, hb⟩) h3⟩

example := C48_any_net wideChar wideChar_ok exCfg rfl exCfg_val ⟨1, true, false, false, []⟩ .full rfl

/-! ### State of the stream -/

/-- A program writing objects with `toStr` and choosing formats. -/
def runOut {U α : Type} (W : Wide U) (toStr : α → Format → Res (List Char)) : List (OutOp Format α) → OStr U → Res (OStr U)
  | [], s => .ok s
  | .manip f :: ops, s => runOut W toStr ops (osFormat f s)
  | .write a :: ops, s => do
    let s ← osWrite W (toStr a) s
    runOut W toStr ops s

theorem runOut_eq {U α : Type} (W : Wide U) (toStr : α → Format → Res (List Char)) (ops : List (OutOp Format α))
    (h : ∀ a fmt, .write a ∈ ops → ∃ u, toStr a fmt = .ok u ∧ upperText u = .ok (upcase u)) (s : OStr U) (f : Format)
    (hs : formatOfWord s.word = .ok f) :
    ∃ us s', runOut W toStr ops s = .ok s' ∧ List.Forall₂ (fun p u => toStr p.2 p.1 = .ok u) (formats .compressed f ops) us ∧
      s'.out = s.out ++ us.flatMap (fun u => (shown s.upper u).map W.conv) := by
  induction ops generalizing s f with
  | nil => exact ⟨[], s, rfl, .nil, by simp⟩
  | cons op ops ih =>
    have ih := ih (fun a fmt ha => h a fmt (by simp [ha]))
    cases op with
    | manip g =>
      obtain ⟨us, s', h1, h2, h3⟩ := ih (osFormat g s) g (by cases g <;> rfl)
      refine ⟨us, s', h1, h2, ?_⟩
      rw [h3]
      cases g <;> rfl
    | write a =>
      obtain ⟨u, u1, u2⟩ := h a f (by simp)
      have hw := osWrite_eq W (toStr a) s f hs u u1 u2
      obtain ⟨us, s', h1, h2, h3⟩ := ih { s with word := 0, out := s.out ++ (shown s.upper u).map W.conv } .compressed rfl
      refine ⟨u :: us, s', ?_, .cons u1 h2, ?_⟩
      · rw [runOut, hw]
        exact h1
      · rw [h3]
        simp

/-- Objects of the library with `operator<<`; objects of one version have the same text and the same operator. -/
abbrev StreamObj := AnyAddr ⊕ AnyNet

/-- `to_string` of the objects. -/
def objToString (c : Cfg) : StreamObj → Format → Res (List Char)
  | .inl a, fmt => anyToString c.M fmt a
  | .inr n, fmt => anyNetToString c fmt n

/-- The objects of a program can be built. -/
def ObjOk (c : Cfg) : StreamObj → Prop
  | .inl a => AddrOkAny c a
  | .inr (.v4 n) => NetOk4 n
  | .inr (.v6 n) => NetOk6 c n

theorem v6_upperText (M : Nat) (a : V6) (ha : a.WF M) (fmt : Format) :
    ∃ t u, v6ToString M a fmt = .ok u ∧ u = t ++ zoneText a.scope.contents ∧ (∀ c ∈ t, c.toNat < 128 ∧ c ≠ '%') := by
  obtain ⟨g1, g2, g3⟩ := groupBytes_groupsOf 8 a.bytes ha.1
  obtain ⟨t, h1, h2, h3⟩ := v6ToString_eq M a ha fmt
  obtain ⟨h6, -⟩ := V6Text_upper (h1.text g2 g3).1
  exact ⟨t, _, h3, rfl, fun c hc => ⟨(addrChars_facts c (h6 c hc)).1, (addrChars_facts c (h6 c hc)).2.2.1⟩⟩

theorem obj_upperText (c : Cfg) (hc : c.le = true) (o : StreamObj) (ho : ObjOk c o) (fmt : Format) :
    ∃ u, objToString c o fmt = .ok u ∧ upperText u = .ok (upcase u) := by
  match o, ho with
  | .inl (.v4 a), h =>
    have hl : a.length = 4 := h
    match a, hl with
    | [a, b, c', d], _ => exact ⟨_, v4ToString_eq a b c' d, (dotted_ok a b c' d).1⟩
  | .inl (.v6 a), h =>
    obtain ⟨t, u, h1, rfl, h2⟩ := v6_upperText c.M a h fmt
    exact ⟨_, h1, upperText_eq _ _ h2 (zoneText_or _)⟩
  | .inr (.v4 n), h =>
    obtain ⟨u, h1, h2, -⟩ := C48_net4 wideChar wideChar_ok n h ⟨0, true, false, false, []⟩ .compressed rfl
    have hl : n.addr.length = 4 := h.wf
    obtain ⟨a, b, c', d, e⟩ : ∃ a b c d, n.addr = [a, b, c, d] := by
      match n.addr, hl with
      | [a, b, c, d], _ => exact ⟨a, b, c, d, rfl⟩
    obtain ⟨k1, k2⟩ := dotted_upper a b c' d
    have := (upcase_net (dotted a b c' d) [] n.plen (fun x hx =>
      ⟨(addrChars_facts x (k1 x hx)).1, (addrChars_facts x (k1 x hx)).2.2.1⟩) (.inl rfl)).2
    rw [List.append_nil] at this
    refine ⟨_, ?_, this⟩
    show (fam4 c.le).netToString fmt n = _
    rw [hc]
    show (v4ToString n.addr >>= _) = _
    rw [e, v4ToString_eq]
    rfl
  | .inr (.v6 n), h =>
    obtain ⟨t, u, h1, rfl, h2⟩ := v6_upperText c.M n.addr h.wf fmt
    refine ⟨_, ?_, (upcase_net t _ n.plen h2 (zoneText_or n.addr.scope.contents)).2⟩
    show (v6ToString c.M n.addr fmt >>= _) = _
    rw [h1]
    rfl

/-- C48: the format manipulator applies to one output only.  For every sequence of outputs of addresses and networks of
both versions and of manipulators: each object is written in the format chosen last since the previous output, and
compressed if there is none; with the flag `uppercase` in upper case up to the scope id. -/
theorem C48_format_once {U : Type} (W : Wide U) (c : Cfg) (hc : c.le = true) (ops : List (OutOp Format StreamObj))
    (ho : ∀ o, .write o ∈ ops → ObjOk c o) (s : OStr U) (hs : s.word = 0) :
    ∃ us s', runOut W (objToString c) ops s = .ok s' ∧
      List.Forall₂ (fun p u => objToString c p.2 p.1 = .ok u) (formats .compressed .compressed ops) us ∧
      s'.out = s.out ++ us.flatMap (fun u => (shown s.upper u).map W.conv) := by
  exact runOut_eq W (objToString c) ops (fun o fmt hm => obj_upperText c hc o (ho o hm) fmt) s .compressed (by rw [hs]; rfl)

example := C48_format_once wideChar exCfg rfl [.manip .compact, .write (.inl (.v6 exScoped)), .write (.inr (.v4 ex16))]
  (by simp [ObjOk, AddrOkAny, exScoped_ok, ex16_ok, exCfg]) ⟨0, true, false, false, []⟩ rfl

/-- A program reading networks with `parse` and choosing `strict` or `non_strict`: the networks read. -/
def runIn {U α : Type} (W : Wide U) (parse : List Ev → Bool → Res α) : List (OutOp Bool Unit) → IStr U → Res (List (Option α) × IStr U)
  | [], s => .ok ([], s)
  | .manip strict :: ops, s => runIn W parse ops (if strict then isStrict s else isNonStrict s)
  | .write () :: ops, s => do
    let r ← isReadNet W parse s
    let rs ← runIn W parse ops r.2
    .ok (r.1 :: rs.1, rs.2)

/-- Reading one network after the other, with the given strictness. -/
def readAll {U α : Type} (W : Wide U) (parse : List Ev → Bool → Res α) : List Bool → IStr U → Res (List (Option α) × IStr U)
  | [], s => .ok ([], s)
  | strict :: fs, s => do
    let r ← isRead W (fun evs => parse evs strict) s
    let rs ← readAll W parse fs r.2
    .ok (r.1 :: rs.1, rs.2)

theorem readWord_word {U : Type} (W : Wide U) (s : IStr U) : (readWord W s).2.word = s.word := by
  unfold readWord
  split
  · rfl
  · simp only
    split <;> rfl

theorem isRead_word {U α : Type} (W : Wide U) (parse : List Ev → Res α) (s : IStr U) (r : Option α × IStr U)
    (h : isRead W parse s = .ok r) : r.2.word = s.word := by
  unfold isRead at h
  simp only at h
  split at h
  · cases h; exact readWord_word W s
  · cases h; exact readWord_word W s
  · cases h

/-- C48: `non_strict` applies to one input only; without it networks are read in strict mode. -/
theorem C48_strict_once {U α : Type} (W : Wide U) (parse : List Ev → Bool → Res α) (ops : List (OutOp Bool Unit)) (s : IStr U) :
    (runIn W parse ops s >>= fun r => .ok (r.1, { r.2 with word := 0 })) =
      readAll W parse ((formats true (s.word == 0) ops).map Prod.fst) { s with word := 0 } := by
  induction ops generalizing s with
  | nil => rfl
  | cons op ops ih =>
    cases op with
    | manip f =>
      rw [runIn, ih]
      cases f <;> rfl
    | write u =>
      cases u
      rw [runIn, formats, List.map_cons, readAll, isReadNet]
      simp only
      cases hr : isRead W (fun evs => parse evs (s.word == 0)) { s with word := 0 } with
      | ub => rfl
      | err e v => rfl
      | ok r =>
        have hw := isRead_word W _ _ _ hr
        have := ih r.2
        have hw : r.2.word = 0 := hw
        have e : { r.2 with word := 0 } = r.2 := by
          cases r with
          | mk a b => cases b; simp only at hw; subst hw; rfl
        have e0 : ((0 : Nat) == 0) = true := rfl
        rw [e, hw, e0] at this
        simp only [Res.ok_bind]
        rw [← this]
        cases runIn W parse ops r.2 <;> rfl

/-- `>> non_strict >> a >> b` on `10.0.0.1/8 10.0.0.1/8`: the manipulator counts once. -/
example : (runIn wideChar (fam4 true).parseNet [.manip false, .write (), .write ()] ⟨0, false, false, "10.0.0.1/8 10.0.0.1/8".toList, false, false⟩ >>=
    fun r => .ok r.1) = .ok [some ⟨[10, 0, 0, 0], [255, 0, 0, 0], 8⟩, none] := by
  decide +kernel

/-! ### Errors -/

/-- What `operator>>` does: a word accepted by the parser is the value read and nothing else changes; in every other
case `failbit` is set. -/
def ReadExact {U α : Type} (W : Wide U) (read : IStr U → Res (Option α × IStr U)) (parse : List Ev → Res α) (s : IStr U) : Prop :=
  ∃ r s', read s = .ok (r, s') ∧ (s'.fail = true ↔ r = none) ∧
    (∀ a, r = some a ↔ s.eof = false ∧ s.fail = false ∧ ∃ w rest, FirstWord W.space s.input w rest ∧ parse (W.enc.events w) = .ok a) ∧
    (s.eof = true ∨ s.fail = true → s'.input = s.input) ∧
    (s.eof = false → s.fail = false → ∀ w rest, FirstWord W.space s.input w rest → s'.input = rest)

theorem readExact_of {U α : Type} {W : Wide U} (L : W.enc.Law) (parse : List Ev → Res α) (s : IStr U)
    (h0 : ∃ e v, parse [] = .err e v)
    (hu : ∀ w rest, FirstWord W.space s.input w rest → parse (W.enc.events w) ≠ .ub) : ReadExact W (isRead W parse) parse s := by
  obtain ⟨e, v, h0⟩ := h0
  by_cases hg : s.eof = true ∨ s.fail = true
  · refine ⟨none, { s with fail := true }, ?_, by simp, ?_, fun _ => rfl, ?_⟩
    · unfold isRead
      simp only
      rw [readWord_bad W s hg, L.nil, h0]
    · intro a
      rcases hg with hg | hg <;> simp [hg]
    · intro h1 h2
      rcases hg with hg | hg
      · rw [hg] at h1; cases h1
      · rw [hg] at h2; cases h2
  · have h1 : s.eof = false := by cases h : s.eof; rfl; exact absurd (.inl h) hg
    have h2 : s.fail = false := by cases h : s.fail; rfl; exact absurd (.inr h) hg
    rcases firstWord_or W.space s.input with ⟨w, rest, hw⟩ | hn
    · have hr := readWord_eq W s ⟨h1, h2⟩ w rest hw
      have huniq : ∀ w' rest', FirstWord W.space s.input w' rest' → w' = w ∧ rest' = rest := by
        intro w' rest' hw'
        have hr' := readWord_eq W s ⟨h1, h2⟩ w' rest' hw'
        rw [hr] at hr'
        have e1 := congrArg Prod.fst hr'
        have e2 := congrArg (fun x => x.2.input) hr'
        exact ⟨e1.symm, e2.symm⟩
      cases hp : parse (W.enc.events w) with
      | ub => exact absurd hp (hu w rest hw)
      | ok a =>
        refine ⟨some a, { s with input := rest, eof := rest.isEmpty }, ?_, ?_, ?_, ?_, ?_⟩
        · unfold isRead
          simp only
          rw [hr, hp]
        · simp [h2]
        · intro b
          refine ⟨?_, ?_⟩
          · rintro ⟨⟩
            exact ⟨h1, h2, w, rest, hw, hp⟩
          · rintro ⟨-, -, w', rest', hw', hp'⟩
            rw [(huniq w' rest' hw').1, hp] at hp'
            cases hp'
            rfl
        · intro h; exact absurd h hg
        · intro _ _ w' rest' hw'
          exact (huniq w' rest' hw').2.symm
      | err e v =>
        refine ⟨none, { s with input := rest, eof := rest.isEmpty, fail := true }, ?_, ?_, ?_, ?_, ?_⟩
        · unfold isRead
          simp only
          rw [hr, hp]
        · simp
        · intro b
          refine ⟨by simp, ?_⟩
          rintro ⟨-, -, w', rest', hw', hp'⟩
          rw [(huniq w' rest' hw').1, hp] at hp'
          cases hp'
        · intro h; exact absurd h hg
        · intro _ _ w' rest' hw'
          exact (huniq w' rest' hw').2.symm
    · have hno : ∀ w rest, ¬ FirstWord W.space s.input w rest := by
        rintro w rest ⟨ws, e, -, hw, hs, -⟩
        obtain ⟨x, w', rfl⟩ := List.exists_cons_of_ne_nil hw
        have := hn x (by rw [e]; simp)
        rw [hs x (by simp)] at this
        cases this
      refine ⟨none, { s with input := [], eof := true, fail := true }, ?_, by simp, ?_, ?_, ?_⟩
      · unfold isRead
        simp only
        rw [readWord_none W s ⟨h1, h2⟩ hn, L.nil, h0]
      · intro a
        refine ⟨by simp, ?_⟩
        rintro ⟨-, -, w, rest, hw, -⟩
        exact absurd hw (hno w rest)
      · intro h; exact absurd h hg
      · intro _ _ w rest hw
        exact absurd hw (hno w rest)

/-- C48: `operator>>` of addresses sets `failbit` iff the next word is not an address (or there is none). -/
theorem C48_failbit {U : Type} (W : Wide U) (hW : W.Ok) (spaces : Bool) (M : Nat) (s : IStr U) :
    ReadExact W (isRead W v4FromEvents) v4FromEvents s ∧
    ReadExact W (isRead W (v6FromEvents spaces M)) (v6FromEvents spaces M) s ∧
    ReadExact W (isRead W (anyFromEvents spaces M)) (anyFromEvents spaces M) s := by
  have h6 : ∃ e v, v6FromEvents spaces M [] = .err e v := by
    cases h : v6FromEvents spaces M [] with
    | ub => exact absurd h (v6FromEvents_safe spaces M []).1
    | err e v => exact ⟨e, v, rfl⟩
    | ok a =>
      exfalso
      have h : v6Parse spaces M [] = .ok a := h
      obtain ⟨ip, z, vs, h1, h2, -⟩ := C09_v6_sound_partial spaces M [] (by simp) a h
      exact V6Text_ne_nil h2 (List.append_eq_nil_iff.1 h1.symm).1
  have h4 : ∃ e v, v4FromEvents [] = .err e v := ⟨.empty_address, 0, by decide⟩
  refine ⟨readExact_of hW.law _ s h4 (fun w rest _ => v4FromEvents_ne_ub _), readExact_of hW.law _ s h6 (fun w rest _ =>
    (v6FromEvents_safe spaces M _).1), readExact_of hW.law _ s ?_ (fun w rest _ => (C20_any_parse spaces M _).2.2.2)⟩
  obtain ⟨e, v, h6⟩ := h6
  refine ⟨e, v, ((C20_any_parse spaces M []).2.2.1 e v).2 ⟨?_, h6⟩⟩
  obtain ⟨e', v', h4⟩ := h4
  intro b hb
  rw [h4] at hb
  cases hb

example := C48_failbit wideChar wideChar_ok false 16 ⟨0, false, false, " 10.0.0.x y".toList, false, false⟩

/-- C48 (partial): `operator>>` of networks sets `failbit` iff the next word is not a network (in the selected mode).
Missing for IPv4 and for either version: words with the netmask `0.0.0.0`, whose parsing is undefined behaviour
(`C26_zero_mask_undefined`). -/
theorem C48_failbit_net_partial {U : Type} (W : Wide U) (hW : W.Ok) (c : Cfg) (hc : c.le = true) (s : IStr U) :
    ReadExact W (isReadNet W (fam6 c).parseNet) (fun e => (fam6 c).parseNet e (s.word == 0)) s ∧
    ((∀ w rest a, FirstWord W.space s.input w rest → W.enc.events w ≠ readChars (a ++ '/' :: dotted 0 0 0 0)) →
      ReadExact W (isReadNet W (fam4 true).parseNet) (fun e => (fam4 true).parseNet e (s.word == 0)) s ∧
      ReadExact W (isReadNet W (anyNetFromEvents c)) (fun e => anyNetFromEvents c e (s.word == 0)) s) := by
  have h6 : ∀ strict, ∃ e v, (fam6 c).parseNet [] strict = .err e v := by
    intro strict
    refine (C26_v6_partial c hc [] (by simp [addrPart]) (by simp [addrPart]) (by simp [maskPart]) strict).2 ?_
    rintro ⟨b, z, p, ⟨ip, vs, h, -⟩, -⟩
    exact V6Text_ne_nil h.2.1 (List.append_eq_nil_iff.1 h.1.symm).1
  have h4 : ∀ strict, ∃ e v, (fam4 true).parseNet [] strict = .err e v := by
    intro strict
    refine (C26_v4_partial [] (by simp [addrPart]) (by simp [addrPart]) (by simp [maskPart]) strict).2 ?_
    rintro ⟨x, p, ⟨a, b, c, d, -, h⟩, -⟩
    simp [addrPart, dotted] at h
  refine ⟨?_, ?_⟩
  · exact readExact_of hW.law (fun e => (fam6 c).parseNet e (s.word == 0)) { s with word := 0 } (h6 _)
      (fun w rest _ => (C26_parser_safe c hc _ _).1)
  · intro hm
    have hu : ∀ w rest, FirstWord W.space s.input w rest → (fam4 true).parseNet (W.enc.events w) (s.word == 0) ≠ .ub := by
      intro w rest hw h
      obtain ⟨a, ha, -⟩ := (C26_parser_safe c hc _ _).2.1 h
      exact hm w rest a hw ha
    refine ⟨readExact_of hW.law (fun e => (fam4 true).parseNet e (s.word == 0)) { s with word := 0 } (h4 _) hu,
      readExact_of hW.law (fun e => anyNetFromEvents c e (s.word == 0)) { s with word := 0 } ?_ ?_⟩
    · obtain ⟨e, v, h⟩ := h6 (s.word == 0)
      exact ⟨e, v, ((C49_parse c hc [] _).2.2.1 e v).2 ⟨h4 _, h⟩⟩
    · intro w rest hw h
      exact hu w rest hw ((C49_parse c hc _ _).2.2.2.1.1 h)

example := C48_failbit_net_partial wideChar wideChar_ok exCfg rfl ⟨0, false, false, " 10.0.0.1/8 y".toList, false, false⟩

/-! ### Limits -/

/-- C48, limit: where spaces are allowed in scope ids (`IPADDRESS_SCOPE_ID_SUPPORT_SPACES`), the output of an address with the scope id `a b` is read as an address with the
scope id `a`. -/
theorem C48_space_in_scope : ∃ (a : V6) (t : List Char) (b : V6) (rest : List Char), a.Good true 16 ∧ a.scope.contents = "a b".toList ∧
    osV6 wideChar 16 a ⟨0, false, false, false, []⟩ = .ok ⟨0, false, false, false, t⟩ ∧
    isRead wideChar (v6FromEvents true 16) ⟨0, false, false, t, false, false⟩ = .ok (some b, ⟨0, false, false, rest, false, false⟩) ∧
    b.scope.contents = "a".toList ∧ rest = " b".toList := by
  refine ⟨⟨[0xfe, 0x80, 0, 0, 0, 0, 0, 0, 0, 0, 0, 0, 0, 0, 0, 1], ⟨"a b".toList ++ List.replicate 13 '\x00', 3⟩⟩, "fe80::1%a b".toList,
    ⟨[0xfe, 0x80, 0, 0, 0, 0, 0, 0, 0, 0, 0, 0, 0, 0, 0, 1], ⟨"a".toList ++ List.replicate 15 '\x00', 1⟩⟩, " b".toList, ?_, ?_⟩
  · unfold V6.Good ZoneOk V6.WF FStr.WF
    decide +kernel
  · decide +kernel

/-- C48, limit: a stream of wide characters writes a scope id that is not ASCII byte by byte, with sign extension, and
the output is not read back: `failbit` is set. -/
theorem C48_wide_scope : ∃ (a : V6) (t : List (BitVec 32)), a.Good false 16 ∧
    osV6 wide32 16 a ⟨0, false, false, false, []⟩ = .ok ⟨0, false, false, false, t⟩ ∧
    isRead wide32 (v6FromEvents false 16) ⟨0, false, false, t, false, false⟩ = .ok (none, ⟨0, false, false, [], true, true⟩) := by
  refine ⟨⟨[0xfe, 0x80, 0, 0, 0, 0, 0, 0, 0, 0, 0, 0, 0, 0, 0, 1], ⟨[Char.ofNat 0xc3, Char.ofNat 0xa9] ++ List.replicate 14 '\x00', 2⟩⟩,
    "fe80::1%".toList.map (signExt 32) ++ [0xffffffc3, 0xffffffa9], ?_, ?_⟩
  · unfold V6.Good ZoneOk V6.WF FStr.WF
    decide +kernel
  · decide +kernel

/-! ### `uint128_t` -/

theorem digitText_upper (b : Nat) : ∀ (cs : List Char) (ds : List Nat), DigitText b cs ds →
    DigitText b (cs.map Char.toUpper) ds ∧ ∀ c ∈ cs, c.toNat < 128 ∧ isSpaceC c = false ∧ c ≠ '\x00' ∧
      c.toUpper.toNat < 128 ∧ isSpaceC c.toUpper = false ∧ c.toUpper ≠ '\x00' := by
  intro cs
  induction cs with
  | nil =>
    intro ds h
    cases ds with
    | nil => exact ⟨trivial, by simp⟩
    | cons d ds => exact h.elim
  | cons c cs ih =>
    intro ds h
    cases ds with
    | nil => exact h.elim
    | cons d ds =>
      obtain ⟨h1, h2, h3⟩ := h
      obtain ⟨k1, k2⟩ := ih ds h3
      have key : ∀ p ∈ digitChars, (p.1.toUpper, p.2) ∈ digitChars ∧ p.1.toNat < 128 ∧ isSpaceC p.1 = false ∧ p.1 ≠ '\x00' ∧
        p.1.toUpper.toNat < 128 ∧ isSpaceC p.1.toUpper = false ∧ p.1.toUpper ≠ '\x00' := by decide
      obtain ⟨m1, m2⟩ := key (c, d) h1
      refine ⟨⟨m1, h2, k1⟩, ?_⟩
      intro x hx
      rcases List.mem_cons.1 hx with rfl | hx
      · exact m2
      · exact k2 x hx

/-- C48, `uint128_t`: a number is written in the base selected by the flags, in upper case if `uppercase` is set, and is
read back with the same base, whatever the object held before. -/
theorem C48_uint128 {U : Type} (W : Wide U) (hW : W.Ok) (x : U128) (s : OStr U) :
    ∃ t ds, osU128 W x s = .ok { s with out := s.out ++ t.map W.conv } ∧
      DigitText (streamRadix s.hex s.oct) t ds ∧ ds ≠ [] ∧ digitsValue (streamRadix s.hex s.oct) ds = x.val ∧
      (s.upper = true → ∀ c ∈ t, c ∉ ['a', 'b', 'c', 'd', 'e', 'f']) ∧
      (s.upper = false → ∀ c ∈ t, c ∉ ['A', 'B', 'C', 'D', 'E', 'F']) ∧
      ∀ (old : U128) (i : IStr U) (ws rest : List U), i.hex = s.hex → i.oct = s.oct → i.eof = false → i.fail = false →
        i.input = ws ++ t.map W.conv ++ rest → (∀ u ∈ ws, W.space u = true) →
        (rest = [] ∨ ∃ x r, rest = x :: r ∧ W.space x = true) →
        isU128 W old i = (x, { i with input := rest, eof := rest.isEmpty }) := by
  simp only [← baseOfFlags_radix]
  obtain ⟨cs, ds, h1, h2, h3, h4, h5, h6⟩ := C44_to_string x (baseOfFlags s.hex s.oct)
  obtain ⟨k1, k2⟩ := digitText_upper _ cs ds h2
  have hread : ∀ t : List Char, DigitText (radixOf (baseOfFlags s.hex s.oct)) t ds →
      (∀ c ∈ t, c.toNat < 128 ∧ isSpaceC c = false ∧ c ≠ '\x00') →
      ∀ (old : U128) (i : IStr U) (ws rest : List U), i.hex = s.hex → i.oct = s.oct → i.eof = false → i.fail = false →
        i.input = ws ++ t.map W.conv ++ rest → (∀ u ∈ ws, W.space u = true) →
        (rest = [] ∨ ∃ x r, rest = x :: r ∧ W.space x = true) →
        isU128 W old i = (x, { i with input := rest, eof := rest.isEmpty }) := by
    intro t ht hc old i ws rest e1 e2 e3 e4 e5 e6 e7
    have hk : ∀ c ∈ t, W.Keeps c := fun c hc' => hW.ascii c (hc c hc').1
    have hne : t ≠ [] := by
      rintro rfl
      cases ds with
      | nil => exact h4 rfl
      | cons d ds => exact ht.elim
    have hr := readWord_eq W i ⟨e3, e4⟩ (t.map W.conv) rest
      (by rw [e5]; exact firstWord_text W t hk (fun c hc' => (hc c hc').2.1) hne ws rest e6 e7)
    have hx : U128.fromText (baseOfFlags s.hex s.oct) (readChars t) = some x :=
      ((C44_from_string_partial _ t (fun h => (hc _ h).2.2 rfl)).1 x).2 ⟨ds, ht, by
        rw [h3, Nat.mod_eq_of_lt]; exact U128.val_lt x⟩
    unfold isU128
    simp only
    rw [hr, events_map W hW.law t hk, e1, e2, hx]
  have hos : ∀ t, (if s.upper then upperAll cs else .ok cs) = .ok t → osU128 W x s = .ok { s with out := s.out ++ t.map W.conv } := by
    intro t ht
    rw [osU128, h1, Res.ok_bind]
    cases hu : s.upper with
    | false =>
      rw [hu] at ht
      cases ht
      rfl
    | true =>
      rw [hu, if_pos rfl] at ht
      rw [if_pos rfl, ht]
      rfl
  rcases Bool.eq_false_or_eq_true s.upper with hu | hu
  rotate_left
  · refine ⟨cs, ds, hos cs (by rw [hu]; rfl), h2, h4, h3, by simp [hu], fun _ => h6, ?_⟩
    exact hread cs h2 (fun c hc => ⟨(k2 c hc).1, (k2 c hc).2.1, (k2 c hc).2.2.1⟩)
  · refine ⟨cs.map Char.toUpper, ds, hos _ (by rw [hu]; exact upperAll_eq cs (fun c hc => (k2 c hc).1)), k1, h4, h3, ?_, by simp [hu], ?_⟩
    · intro _ c hc
      obtain ⟨y, hy, rfl⟩ := List.mem_map.1 hc
      have key : ∀ n : Fin 128, (Char.ofNat n).toUpper ∉ ['a', 'b', 'c', 'd', 'e', 'f'] := by decide +kernel
      have := key ⟨y.toNat, (k2 y hy).1⟩
      simpa only [Char.ofNat_toNat] using this
    · refine hread _ k1 ?_
      intro c hc
      obtain ⟨y, hy, rfl⟩ := List.mem_map.1 hc
      exact (k2 y hy).2.2.2

example := C48_uint128 wide16 wide16_ok ⟨7, 9⟩ ⟨0, true, false, false, []⟩

/-- C48 (partial), `uint128_t`: where there is a word, `failbit` is set, and the object is unchanged, iff the word is not a
number; otherwise the object is that number.  Missing: words containing NUL, and numbers of more than 128 bits, which are
read modulo `2 ^ 128`. -/
theorem C48_uint128_failbit_partial {U : Type} (W : Wide U) (hW : W.Ok) (old : U128) (s : IStr U) (hg : s.eof = false ∧ s.fail = false)
    (t : List Char) (ht : ∀ c ∈ t, W.Keeps c ∧ c ≠ '\x00') (rest : List U) (hw : FirstWord W.space s.input (t.map W.conv) rest) :
    (∀ ds, DigitText (streamRadix s.hex s.oct) t ds → ∃ x, isU128 W old s = (x, { s with input := rest, eof := rest.isEmpty }) ∧
      x.val = digitsValue (streamRadix s.hex s.oct) ds % 2 ^ 128) ∧
    ((¬ ∃ ds, DigitText (streamRadix s.hex s.oct) t ds) →
      isU128 W old s = (old, { s with input := rest, eof := rest.isEmpty, fail := true })) := by
  simp only [← baseOfFlags_radix]
  have hr := readWord_eq W s hg _ rest hw
  have he := events_map W hW.law t (fun c hc => (ht c hc).1)
  obtain ⟨h1, h2⟩ := C44_from_string_partial (baseOfFlags s.hex s.oct) t (fun h => (ht _ h).2 rfl)
  unfold isU128
  simp only
  rw [hr, he]
  cases hx : U128.fromText (baseOfFlags s.hex s.oct) (readChars t) with
  | none =>
    refine ⟨?_, fun _ => rfl⟩
    intro ds hd
    exfalso
    obtain ⟨c, hc, hn⟩ := h2.1 hx
    obtain ⟨d, d1, d2⟩ := digitText_mem _ t ds hd c hc
    exact hn d d1 d2
  | some x =>
    obtain ⟨ds, hd, hv⟩ := (h1 x).1 hx
    refine ⟨?_, fun h => absurd ⟨ds, hd⟩ h⟩
    intro ds' hd'
    exact ⟨x, rfl, by rw [hv, DigitText_unique _ t ds ds' hd hd']⟩

example := C48_uint128_failbit_partial wideChar wideChar_ok ⟨7, 9⟩ ⟨0, false, false, " 12 3".toList, false, false⟩ ⟨rfl, rfl⟩ "12".toList
  (fun c hc => ⟨wideChar_keeps c, by rintro rfl; revert hc; decide⟩) " 3".toList ⟨[' '], rfl, by decide, by decide, by decide, .inr ⟨_, _, rfl, by decide⟩⟩

/-- C48, `uint128_t`: where no word can be read `failbit` is set, but the object becomes 0 (the empty text is read as 0),
also if the stream had failed before. -/
theorem C48_uint128_no_word {U : Type} (W : Wide U) (hW : W.Ok) (old : U128) (s : IStr U)
    (h : s.eof = true ∨ s.fail = true ∨ ∀ u ∈ s.input, W.space u = true) :
    ∃ s', isU128 W old s = (⟨0, 0⟩, s') ∧ s'.fail = true := by
  have h0 : ∀ b : U128.Base, U128.fromText b [] = some ⟨0, 0⟩ := by intro b; cases b <;> decide
  have key : ∀ s', readWord W s = ([], s') → s'.fail = true → ∃ s', isU128 W old s = (⟨0, 0⟩, s') ∧ s'.fail = true := by
    intro s' h1 h2
    refine ⟨s', ?_, h2⟩
    unfold isU128
    simp only
    rw [h1, hW.law.nil, h0]
  by_cases hg : s.eof = true ∨ s.fail = true
  · exact key _ (readWord_bad W s hg) rfl
  · have h1 : s.eof = false := by cases h : s.eof; rfl; exact absurd (.inl h) hg
    have h2 : s.fail = false := by cases h : s.fail; rfl; exact absurd (.inr h) hg
    rcases h with h | h | h
    · exact absurd (.inl h) hg
    · exact absurd (.inr h) hg
    · exact key _ (readWord_none W s ⟨h1, h2⟩ h) rfl

/-! ### Examples -/

example : osV6 wideChar 16 ⟨[0xfe, 0x80, 0, 0, 0, 0, 0, 0, 0, 0, 0, 0, 0, 0, 0, 0xab], ⟨"eth0".toList ++ List.replicate 12 '\x00', 4⟩⟩
    (osFormat .full ⟨0, true, false, false, []⟩) =
    .ok ⟨0, true, false, false, "FE80:0000:0000:0000:0000:0000:0000:00AB%eth0".toList⟩ := by decide +kernel
example : ScopeShown wideChar "eth0".toList := scopeShown_char 16 _ (by unfold ZoneOk; decide)
example : ScopeShown wide16 "eth0".toList := fun c hc => by
  have h : ∀ c ∈ "eth0".toList, c.toNat < 128 ∧ isSpaceC c = false := by decide
  exact ⟨wide16_keeps c (h c hc).1, (h c hc).2⟩
example : formats Format.compressed .compressed [.manip .full, .manip .compact, .write 'x', .write 'y', .manip .full, .write 'z'] =
    [(.compact, 'x'), (.compressed, 'y'), (.full, 'z')] := rfl
example : (isReadNet wideChar (fam4 true).parseNet (isNonStrict ⟨0, false, false, " 192.168.0.1/16 10.0.0.0/8".toList, false, false⟩)) =
    .ok (some ex16, ⟨0, false, false, " 10.0.0.0/8".toList, false, false⟩) := by decide +kernel
example : (isReadNet wideChar (fam4 true).parseNet ⟨0, false, false, " 192.168.0.1/16 10.0.0.0/8".toList, false, false⟩) =
    .ok (none, ⟨0, false, false, " 10.0.0.0/8".toList, false, true⟩) := by decide +kernel
example : osU128 wide16 ⟨0, 0xabc⟩ ⟨0, true, true, false, []⟩ = .ok ⟨0, true, true, false, "ABC".toList.map (signExt 16)⟩ := by decide +kernel

end Ip
