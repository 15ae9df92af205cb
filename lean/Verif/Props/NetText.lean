import Verif.Props.Net
import Verif.Lemmas.NetText
/-
Properties of network texts: C23, C25, C26 and the parser part of C24.
-/
set_option autoImplicit false

namespace Ip
open Spec

/-! ### C23 -/

/-- `24` is a small number. -/
theorem ex24 (v : Nat) (h : DecText ['2', '4'] v) : v < 2 ^ 64 := by
  rw [decText_unique _ _ _ h ⟨by simp, [2, 4], by simp [DigitText, digitChars], rfl⟩]
  decide

/-- C23 (partial), IPv4: a non empty text after the slash is accepted iff it denotes a prefix length, and
then that prefix length with its netmask is obtained.  Missing: numbers of `2^64` or more (which wrap, see
`C23_number_wraps`) and the text `0.0.0.0` (undefined behaviour, see `C23_zero_mask_undefined`). -/
theorem C23_v4_partial (t : List Char) (ht : t ≠ []) (hv : ∀ v, DecText t v → v < 2 ^ 64) (hz : t ≠ dotted 0 0 0 0) :
    (∀ p, MaskText4 t p → ∃ m cv, v4ParseNetmask true (readChars t) = .ok (m, p, cv) ∧ m.length = 4 ∧
      IsMask 32 p (beValue m)) ∧
    ((¬ ∃ p, MaskText4 t p) → ∃ e v, v4ParseNetmask true (readChars t) = .err e v) := by
  rcases v4ParseNetmask_rel t ht hv hz with ⟨p, m, cv, h1, h2, h3, h4, h5⟩ | ⟨h1, h2⟩
  · refine ⟨fun q hq => ?_, fun h => absurd ⟨p, h1⟩ h⟩
    obtain rfl := maskText4_unique t p q h1 hq
    exact ⟨m, cv, h2, h3, (isMask_iff 32 p _ h4).mpr h5⟩
  · exact ⟨fun q hq => absurd ⟨q, hq⟩ h1, fun _ => h2⟩

example := C23_v4_partial ['2', '4'] (by simp) ex24 (by decide)

/-- C23 (partial), IPv6; missing: numbers of `2^64` or more. -/
theorem C23_v6_partial (t : List Char) (ht : t ≠ []) (hv : ∀ v, DecText t v → v < 2 ^ 64) :
    (∀ p, MaskText6 t p → ∃ m, v6ParseNetmask (readChars t) = .ok (m, p, 0) ∧ m.length = 16 ∧
      IsMask 128 p (beValue m)) ∧
    ((¬ ∃ p, MaskText6 t p) → v6ParseNetmask (readChars t) = .err .invalid_netmask 0) := by
  rcases v6ParseNetmask_rel t ht hv with ⟨p, m, h1, h2, h3, h4, h5⟩ | ⟨h1, h2⟩
  · refine ⟨fun q hq => ?_, fun h => absurd ⟨p, h1⟩ h⟩
    obtain rfl := maskText6_unique t p q h1 hq
    exact ⟨m, h2, h3, (isMask_iff 128 p _ h4).mpr h5⟩
  · exact ⟨fun q hq => absurd ⟨q, hq⟩ h1, fun _ => h2⟩

example := C23_v6_partial ['2', '4'] (by simp) ex24

/-- C23, negation: `18446744073709551640` (which is `2^64 + 24`) is accepted as prefix length 24. -/
theorem C23_number_wraps :
    v4ParseNetmask true (readChars ['1','8','4','4','6','7','4','4','0','7','3','7','0','9','5','5','1','6','4','0']) =
      .ok ([255, 255, 255, 0], 24, 0) ∧
    v6ParseNetmask (readChars ['1','8','4','4','6','7','4','4','0','7','3','7','0','9','5','5','1','6','4','0']) =
      .ok ([255, 255, 255, 0, 0, 0, 0, 0, 0, 0, 0, 0, 0, 0, 0, 0], 24, 0) ∧
    DecText ['1','8','4','4','6','7','4','4','0','7','3','7','0','9','5','5','1','6','4','0'] (2 ^ 64 + 24) := by
  refine ⟨by decide +kernel, by decide +kernel, by simp, [1,8,4,4,6,7,4,4,0,7,3,7,0,9,5,5,1,6,4,0], ?_, by decide⟩
  simp [DigitText, digitChars]

/-- C23, negation: the netmask text `0.0.0.0` is undefined behaviour (a shift by `size_t(0) - 1`); it is
the only text after the slash for which the IPv4 parser has any, and the IPv6 parser has none. -/
theorem C23_zero_mask_undefined :
    v4ParseNetmask true (readChars (dotted 0 0 0 0)) = .ub ∧
    (∀ evs, v4ParseNetmask true evs = .ub → evs = readChars (dotted 0 0 0 0)) ∧
    (∀ evs, v6ParseNetmask evs ≠ .ub) :=
  ⟨by decide +kernel, v4ParseNetmask_ub, v6ParseNetmask_ne_ub⟩

example : v4ParseNetmask true (readChars (dotted 255 255 240 0)) = .ok ([255, 255, 240, 0], 20, 3) := by decide +kernel
example : v4ParseNetmask true (readChars (dotted 0 0 15 255)) = .ok ([255, 255, 240, 0], 20, 3) := by decide +kernel
example : v4ParseNetmask true (readChars (dotted 0 255 0 255)) = .err .netmask_pattern_mixes_zeroes_and_ones 3 := by
  decide +kernel
example : MaskText4 ['2', '4'] 24 := .inl ⟨⟨by simp, [2, 4], by simp [DigitText, digitChars], by decide⟩, by decide⟩

/-! ### C25 -/

theorem toDigits_decText (n : Nat) : DecText (Nat.toDigits 10 n) n := by
  obtain ⟨ds, h1, h2, _, h4, h5⟩ := toDigits_text 10 (by decide) (by decide) n
  refine ⟨?_, ds, h1, h2⟩
  rw [h5]
  simpa using h4

/-- C25, IPv4: the text of a network is parsed back, in strict and in non strict mode. -/
theorem C25_round_trip_v4 (n : Net (List (BitVec 8))) (hn : NetOk4 n) (fmt : Format) (strict : Bool) :
    ∃ t, (fam4 true).netToString fmt n = .ok t ∧ (fam4 true).parseNet (readChars t) strict = .ok n := by
  have hl : n.addr.length = 4 := hn.wf
  obtain ⟨a, b, c, d, e⟩ : ∃ a b c d, n.addr = [a, b, c, d] := by
    match n.addr, hl with
    | [a, b, c, d], _ => exact ⟨a, b, c, d, rfl⟩
  have hp : n.plen ≤ 32 := hn.plen
  have ht : (fam4 true).netToString fmt n = .ok (dotted a b c d ++ '/' :: Nat.toDigits 10 n.plen) := by
    show (v4ToString n.addr >>= _) = _
    rw [e, v4ToString_eq]
    rfl
  refine ⟨_, ht, ?_⟩
  obtain ⟨hA, hM⟩ := parts_of_slash (dotted a b c d) (Nat.toDigits 10 n.plen) (dotted_noslash a b c d)
  have hd := toDigits_decText n.plen
  have hmt : MaskText4 (Nat.toDigits 10 n.plen) n.plen := .inl ⟨hd, hp⟩
  obtain ⟨m1, m2, _⟩ := maskText4_ne _ _ hmt
  have hz : Nat.toDigits 10 n.plen ≠ dotted 0 0 0 0 := by
    intro e
    obtain ⟨_, ds, h, _⟩ := hd
    rw [e] at h
    exact not_decText_dotted 0 0 0 0 ⟨ds, h⟩
  obtain ⟨m, cv, g1, g2, g3⟩ := (C23_v4_partial _ m1 (fun v hv => by
    rw [← decText_unique _ _ _ hd hv]; exact Nat.lt_of_le_of_lt hp (by decide)) hz).1 n.plen hmt
  have hx : (fam4 true).parseArray (addrArray (fam4 true) (dotted a b c d)) = .ok n.addr := by
    rw [v4_parseArray _ (dotted_length a b c d).1 (fun c hc => (dotted_noColon _ _ _ _ c hc).2.1)]
    exact (v4Parse_ok_iff _ _).mpr ⟨a, b, c, d, e, rfl⟩
  have hb := (isMask_iff 32 n.plen _ hp).mp g3
  rw [parseNet_reading fam4Law _ (by rw [hA]; exact (dotted_length a b c d).1) strict n.addr (by rw [hA]; exact hx) m n.plen cv
    (.inr ⟨_, hM, m1, m2, g1⟩) (by rw [g2]; rfl) hb hp]
  obtain ⟨m', b', k1, k2, _, _, k5⟩ := fromAddress_eq fam4Law n.addr hn.wf n.plen hp strict
  have hal : (fam4 true).v n.addr % 2 ^ ((fam4 true).maxPrefix - n.plen) = 0 := hn.aligned
  rw [k5, if_pos hal]
  obtain ⟨m0, z1, z2, z3⟩ := hn.mask
  have : m' = m0 := beValue_inj _ _ (by omega) (by rw [k2, z3])
  cases n
  simp only [withValue]
  rw [this, ← z1]

example : (fam4 true).netToString .compressed ex17 = .ok (dotted 192 168 128 0 ++ ['/', '1', '7']) := by decide +kernel

/-- Reading a text made of an address text, the scope id and the prefix length of an IPv6 network. -/
theorem parseNet_v6_text (c : Cfg) (hc : c.le = true) (hv : ∀ x y, c.val x = c.val y → x = y) (n : Net V6)
    (hn : NetOk6 c n) (hg : n.addr.Good c.spaces c.M) (t0 : List Char) (ht0 : V6Text t0 (groupsOf n.addr.bytes)) (hdot : '.' ∉ t0)
    (hslash : '/' ∉ t0) (hlen0 : t0.length ≤ 39) (strict : Bool) :
    ∃ n', (fam6 c).parseNet (readChars (t0 ++ zoneText n.addr.scope.contents ++ '/' :: Nat.toDigits 10 n.plen)) strict = .ok n' ∧ NetOk6 c n' ∧
      n'.plen = n.plen ∧ n'.addr.bytes = n.addr.bytes ∧ n'.addr.scope.contents = n.addr.scope.contents ∧
      n'.mask = n.mask ∧ (fam6 c).netEq n n' = .ok true := by
  have L := fam6Law c hc
  obtain ⟨hw, hz, hnul⟩ := hg
  obtain ⟨g1, g2, g3⟩ := groupBytes_groupsOf 8 n.addr.bytes hw.1
  obtain ⟨x, h2, h3, h4, h5⟩ := v6Parse_of_accepts c.spaces c.M _ t0 n.addr.scope.contents (groupsOf n.addr.bytes)
    ⟨rfl, ht0, fun h => absurd h hdot, hz⟩ hnul
  rw [g1] at h4
  have hsl : '/' ∉ t0 ++ zoneText n.addr.scope.contents := by
    rw [List.mem_append, not_or]
    refine ⟨hslash, ?_⟩
    unfold zoneText
    split
    · simp
    · rw [List.mem_cons, not_or]
      exact ⟨by decide, fun h => (hz.2 _ h).2.1 rfl⟩
  have hnl : ∀ ch ∈ t0 ++ zoneText n.addr.scope.contents, ch ≠ '\x00' := by
    intro ch hch
    rcases List.mem_append.1 hch with hch | hch
    · exact (V6Text.chars ht0 ch hch).1
    · unfold zoneText at hch
      split at hch
      · simp at hch
      · rcases List.mem_cons.1 hch with rfl | hch
        · decide
        · exact hnul ch hch
  have hlen : (t0 ++ zoneText n.addr.scope.contents).length ≤ 41 + c.M := by
    rw [List.length_append]
    have := hz.1
    unfold zoneText
    split
    · simp; omega
    · simp; omega
  generalize t0 ++ zoneText n.addr.scope.contents = t at *
  have hp : n.plen ≤ 128 := hn.plen
  obtain ⟨hA, hM⟩ := parts_of_slash t (Nat.toDigits 10 n.plen) hsl
  have hd := toDigits_decText n.plen
  have hmt : MaskText6 (Nat.toDigits 10 n.plen) n.plen := ⟨hd, hp⟩
  obtain ⟨m1, m2, _⟩ := maskText6_ne _ _ hmt
  obtain ⟨m, k1, k2, k3⟩ := (C23_v6_partial _ m1 (fun v hv => by
    rw [← decText_unique _ _ _ hd hv]; exact Nat.lt_of_le_of_lt hp (by decide))).1 n.plen hmt
  have hx : (fam6 c).parseArray (addrArray (fam6 c) t) = .ok x := by
    rw [v6_parseArray c t hlen hnl, h2]
  have hb := (isMask_iff 128 n.plen _ hp).mp k3
  have hpm : (fam6 c).parseNetmask (readChars (Nat.toDigits 10 n.plen)) = .ok ((fam6 c).ofBytes m, n.plen, 0) := by
    show (v6ParseNetmask _ >>= _) = _
    rw [k1]; rfl
  have hr := parseNet_reading L (t ++ '/' :: Nat.toDigits 10 n.plen) (by rw [hA]; exact hlen) strict x
    (by rw [hA]; exact hx) m n.plen 0 (.inr ⟨_, hM, m1, m2, hpm⟩) (by rw [k2]; rfl) hb hp
  obtain ⟨m', b', q1, q2, _, _, q5⟩ := fromAddress_eq L x h3 n.plen hp strict
  have hva : (fam6 c).v x = (fam6 c).v n.addr := congrArg beValue h4
  have hal : (fam6 c).v n.addr % 2 ^ ((fam6 c).maxPrefix - n.plen) = 0 := hn.aligned
  rw [q5, hva, if_pos hal] at hr
  obtain ⟨m0, z1, z2, z3⟩ := hn.mask
  have hm0 : m' = m0 := beValue_inj _ _ (by omega) (by rw [q2, z3])
  have hok : NetOk6 c ⟨x, (fam6 c).ofBytes m', n.plen⟩ :=
    ⟨h3, hp, ⟨m', rfl, q1, q2⟩, by rw [← hva] at hal; exact hal⟩
  refine ⟨_, hr, hok, rfl, h4, h5, by rw [z1, hm0], ?_⟩
  obtain ⟨e, o, r1, _, r2, _⟩ := C38_order_v6 c hc hv n _ hn hok
  rw [r1, r2.mpr ⟨⟨h4.symm, h5.symm⟩, rfl⟩]

/-- C25, IPv6: the text of a network whose scope id is storable is parsed back to an equal network, in
every format, in strict and in non strict mode. -/
theorem C25_round_trip_v6 (c : Cfg) (hc : c.le = true) (hv : ∀ x y, c.val x = c.val y → x = y) (n : Net V6)
    (hn : NetOk6 c n) (hg : n.addr.Good c.spaces c.M) (fmt : Format) (strict : Bool) :
    ∃ t n', (fam6 c).netToString fmt n = .ok t ∧ (fam6 c).parseNet (readChars t) strict = .ok n' ∧ NetOk6 c n' ∧
      n'.plen = n.plen ∧ n'.addr.bytes = n.addr.bytes ∧ n'.addr.scope.contents = n.addr.scope.contents ∧
      n'.mask = n.mask ∧ (fam6 c).netEq n n' = .ok true := by
  obtain ⟨t0, f1, f2, f3⟩ := v6ToString_eq c.M n.addr hg.1 fmt
  obtain ⟨g1, g2, g3⟩ := groupBytes_groupsOf 8 n.addr.bytes hg.1.1
  obtain ⟨h4, h5⟩ := f1.text g2 g3
  obtain ⟨n', h⟩ := parseNet_v6_text c hc hv n hn hg t0 h4 h5 (f1.noslash g2 g3) f2 strict
  refine ⟨_, n', ?_, h⟩
  show (v6ToString c.M n.addr fmt >>= _) = _
  rw [f3]
  rfl

example : ex32.addr.Good exCfg.spaces exCfg.M := by
  refine ⟨ex32_ok.wf, ?_, ?_⟩ <;> simp [ex32, emptyScope, ZoneOk, FStr.contents]

/-! ### C26 -/

theorem fam4_reading (s : List Char) (hs : ∀ c ∈ addrPart s, c ≠ '\x00') (hl : (addrPart s).length ≤ 15)
    (hm : ∀ m, maskPart s = some m → (∀ v, DecText m v → v < 2 ^ 64) ∧ m ≠ dotted 0 0 0 0) (strict : Bool)
    (x : List (BitVec 8)) (p : Nat) (h : NetText4 s x p) :
    p ≤ 32 ∧ x.length = 4 ∧ ∃ cv, (fam4 true).parseNet (readChars s) strict = withValue cv ((fam4 true).fromAddress x p strict) := by
  obtain ⟨⟨a, b, c, d, e1, e2⟩, h⟩ := h
  have hx : (fam4 true).parseArray (addrArray (fam4 true) (addrPart s)) = .ok x := by
    rw [v4_parseArray _ hl hs]
    exact (v4Parse_ok_iff _ _).mpr ⟨a, b, c, d, e1, e2⟩
  rcases h with ⟨h1, rfl⟩ | ⟨m, h1, h2⟩
  · exact ⟨Nat.le_refl _, by rw [e1]; rfl, 0, parseNet_reading fam4Law s hl strict x hx _ 32 0 (.inl ⟨h1, fam4_parseNetmask_nil⟩) rfl
      (by decide) (Nat.le_refl _)⟩
  · obtain ⟨m1, m2, m3⟩ := maskText4_ne m p h2
    obtain ⟨v1, v2⟩ := hm m h1
    obtain ⟨mb, cv, g1, g2, g3⟩ := (C23_v4_partial m m1 v1 v2).1 p h2
    exact ⟨m3, by rw [e1]; rfl, cv, parseNet_reading fam4Law s hl strict x hx mb p cv (.inr ⟨m, h1, m1, m2, g1⟩) (by rw [g2]; rfl)
      ((isMask_iff 32 p _ m3).mp g3) m3⟩

/-- C26 and C24 (partial), the IPv4 network parser: a text that denotes an address and a prefix length is
accepted with exactly these, unless host bits are set, which is an error in strict mode and clears them
otherwise; every other text is rejected.  Missing: texts with a NUL before the slash, with more than 15
characters before it (`C26_v4_truncates`, `C26_v4_nul`), and the exceptions of C23. -/
theorem C26_v4_partial (s : List Char) (hs : ∀ c ∈ addrPart s, c ≠ '\x00') (hl : (addrPart s).length ≤ 15)
    (hm : ∀ m, maskPart s = some m → (∀ v, DecText m v → v < 2 ^ 64) ∧ m ≠ dotted 0 0 0 0) (strict : Bool) :
    (∀ x p, NetText4 s x p →
      ((¬ ∃ i, i < 32 - p ∧ (beValue x).testBit i = true) →
        ∃ n, (fam4 true).parseNet (readChars s) strict = .ok n ∧ n.addr = x ∧ n.plen = p) ∧
      ((∃ i, i < 32 - p ∧ (beValue x).testBit i = true) → strict = true →
        ∃ v, (fam4 true).parseNet (readChars s) strict = .err .has_host_bits_set v) ∧
      (strict = false → ∃ n, (fam4 true).parseNet (readChars s) strict = .ok n ∧ n.plen = p ∧
        ∀ i, (beValue n.addr).testBit i = ((beValue x).testBit i && decide (32 - p ≤ i)))) ∧
    ((¬ ∃ x p, NetText4 s x p) → ∃ e v, (fam4 true).parseNet (readChars s) strict = .err e v) := by
  constructor
  · intro x p h
    obtain ⟨hp, hx, cv, hr⟩ := fam4_reading s hs hl hm strict x p h
    obtain ⟨⟨f1, f2⟩, n, f3, f4, f5⟩ := C24_from_address_v4 x hx p hp
    rw [hr]
    refine ⟨?_, ?_, ?_⟩
    · intro hb
      obtain ⟨m', b', k1, k2, _, _, k5⟩ := fromAddress_eq fam4Law x hx p hp strict
      obtain ⟨m'', b'', k1', k2', _, _, k5'⟩ := fromAddress_eq fam4Law x hx p hp true
      obtain ⟨n', g1, g2, g3⟩ := f2 hb
      by_cases ha : (fam4 true).v x % 2 ^ ((fam4 true).maxPrefix - p) = 0
      · rw [k5, if_pos ha]; exact ⟨_, rfl, rfl, rfl⟩
      · rw [k5', if_neg ha] at g1; cases g1
    · intro hb hst
      subst hst
      rw [f1.mpr hb]
      exact ⟨cv, rfl⟩
    · intro hst
      subst hst
      rw [f3]
      exact ⟨n, rfl, f4, f5⟩
  · intro hno
    apply parseNet_reject s hl strict ⟨_, _, _, fam4_parseNetmask_nil⟩
    · by_cases ha : ∃ a b c d : BitVec 8, addrPart s = dotted a b c d
      · right
        obtain ⟨a, b, c, d, ha⟩ := ha
        cases hmp : maskPart s with
        | none => exact absurd ⟨[a, b, c, d], 32, ⟨a, b, c, d, rfl, ha⟩, .inl ⟨hmp, rfl⟩⟩ hno
        | some m =>
          refine ⟨m, rfl, ?_⟩
          by_cases hm0 : m = []
          · exact .inl hm0
          · obtain ⟨v1, v2⟩ := hm m hmp
            refine .inr (.inr ((C23_v4_partial m hm0 v1 v2).2 ?_))
            rintro ⟨p, h⟩
            exact hno ⟨[a, b, c, d], p, ⟨a, b, c, d, rfl, ha⟩, .inr ⟨m, hmp, h⟩⟩
      · left
        rw [v4_parseArray _ hl hs]
        cases hp : v4Parse (addrPart s) with
        | ok r =>
          obtain ⟨a, b, c, d, _, h⟩ := (v4Parse_ok_iff _ _).mp hp
          exact absurd ⟨a, b, c, d, h⟩ ha
        | err e v => exact ⟨e, v, rfl⟩
        | ub => exact absurd hp (v4FromEvents_ne_ub _)
    · intro m hmp h
      have := v4ParseNetmask_ub _ h
      have e : m = dotted 0 0 0 0 := by
        have hi : ∀ x y : List Char, readChars x = readChars y → x = y := by
          intro x
          induction x with
          | nil => intro y h; cases y with
            | nil => rfl
            | cons c y => cases h
          | cons a x ih => intro y h; cases y with
            | nil => cases h
            | cons c y =>
              simp only [readChars, List.map_cons, List.cons.injEq, Ev.ch.injEq] at h
              rw [h.1, ih y h.2]
        exact hi _ _ this
      exact (hm m hmp).2 e

example := C26_v4_partial "10.0.0.0/24".toList (by decide) (by decide) (fun m h => by
  have e : maskPart "10.0.0.0/24".toList = some ['2', '4'] := by decide
  obtain rfl := Option.some.inj (e.symm.trans h)
  exact ⟨ex24, by decide⟩) true

/-- The reading of an IPv6 network text. -/
def NetText6 (c : Cfg) (s : List Char) (b : List (BitVec 8)) (z : List Char) (p : Nat) : Prop :=
  (∃ ip vs, Accepts c.spaces c.M (addrPart s) ip z vs ∧ b = groupBytes vs) ∧
  ((maskPart s = none ∧ p = 128) ∨ ∃ m, maskPart s = some m ∧ MaskText6 m p)

/-- C26 and C24 (partial), the IPv6 network parser.  Missing as for IPv4.  When host bits are cleared the
scope id is dropped. -/
theorem C26_v6_partial (c : Cfg) (hc : c.le = true) (s : List Char) (hs : ∀ ch ∈ addrPart s, ch ≠ '\x00')
    (hl : (addrPart s).length ≤ 41 + c.M)
    (hm : ∀ m, maskPart s = some m → ∀ v, DecText m v → v < 2 ^ 64) (strict : Bool) :
    (∀ b z p, NetText6 c s b z p →
      ((¬ ∃ i, i < 128 - p ∧ (beValue b).testBit i = true) →
        ∃ n, (fam6 c).parseNet (readChars s) strict = .ok n ∧ n.addr.bytes = b ∧ n.addr.scope.contents = z ∧ n.plen = p) ∧
      ((∃ i, i < 128 - p ∧ (beValue b).testBit i = true) → strict = true →
        ∃ v, (fam6 c).parseNet (readChars s) strict = .err .has_host_bits_set v) ∧
      (strict = false → ∃ n, (fam6 c).parseNet (readChars s) strict = .ok n ∧ n.plen = p ∧
        ∀ i, (beValue n.addr.bytes).testBit i = ((beValue b).testBit i && decide (128 - p ≤ i)))) ∧
    ((¬ ∃ b z p, NetText6 c s b z p) → ∃ e v, (fam6 c).parseNet (readChars s) strict = .err e v) := by
  have L := fam6Law c hc
  have hpa := v6_parseArray c _ hl hs
  have hmk : ∀ m, (fam6 c).parseNetmask (readChars m) = (v6ParseNetmask (readChars m) >>= fun m => .ok (⟨m.1, emptyScope c.M⟩, m.2)) :=
    fun _ => rfl
  constructor
  · rintro b z p ⟨⟨ip, vs, hacc, rfl⟩, h⟩
    have hz : ∀ ch ∈ z, ch ≠ '\x00' := by
      intro ch hch
      apply hs ch
      rw [hacc.1, List.mem_append]
      right
      unfold zoneText
      rw [if_neg (by intro e; rw [e] at hch; simp at hch)]
      exact List.mem_cons_of_mem _ hch
    obtain ⟨x, x1, x2, x3, x4⟩ := v6Parse_of_accepts c.spaces c.M _ ip z vs hacc hz
    have hx : (fam6 c).parseArray (addrArray (fam6 c) (addrPart s)) = .ok x := by rw [hpa, x1]
    have hread : p ≤ 128 ∧ ∃ cv, (fam6 c).parseNet (readChars s) strict = withValue cv ((fam6 c).fromAddress x p strict) := by
      rcases h with ⟨h1, rfl⟩ | ⟨m, h1, h2⟩
      · exact ⟨Nat.le_refl _, 0, parseNet_reading L s hl strict x hx _ 128 0 (.inl ⟨h1, fam6_parseNetmask_nil c⟩) rfl
          (show beValue (List.replicate 16 255#8) = 2 ^ 128 - 2 ^ (128 - 128) by decide +kernel) (Nat.le_refl _)⟩
      · obtain ⟨m1, m2, m3⟩ := maskText6_ne m p h2
        obtain ⟨mb, g1, g2, g3⟩ := (C23_v6_partial m m1 (hm m h1)).1 p h2
        refine ⟨m3, 0, parseNet_reading L s hl strict x hx mb p 0 (.inr ⟨m, h1, m1, m2, ?_⟩) (by rw [g2]; rfl)
          ((isMask_iff 128 p _ m3).mp g3) m3⟩
        rw [hmk, g1]; rfl
    obtain ⟨hp, cv, hr⟩ := hread
    obtain ⟨⟨f1, f2⟩, n, f3, f4, f5⟩ := C24_from_address_v6 c hc x x2 p hp
    rw [hr, ← x3]
    refine ⟨?_, ?_, ?_⟩
    · intro hb
      obtain ⟨m', b', k1, k2, _, _, k5⟩ := fromAddress_eq L x x2 p hp strict
      obtain ⟨m'', b'', k1', k2', _, _, k5'⟩ := fromAddress_eq L x x2 p hp true
      obtain ⟨n', g1, g2, g3⟩ := f2 hb
      by_cases ha : (fam6 c).v x % 2 ^ ((fam6 c).maxPrefix - p) = 0
      · rw [k5, if_pos ha]; exact ⟨_, rfl, rfl, x4, rfl⟩
      · rw [k5', if_neg ha] at g1; cases g1
    · intro hb hst
      subst hst
      rw [f1.mpr hb]
      exact ⟨cv, rfl⟩
    · intro hst
      subst hst
      rw [f3]
      exact ⟨n, rfl, f4, f5⟩
  · intro hno
    apply parseNet_reject s hl strict ⟨_, _, _, fam6_parseNetmask_nil c⟩
    · rcases v6Parse_rel c.spaces c.M (addrPart s) hs with ⟨ip, z, vs, a, h1, _⟩ | ⟨_, e, v, h⟩
      · right
        cases hmp : maskPart s with
        | none => exact absurd ⟨_, z, 128, ⟨ip, vs, h1, rfl⟩, .inl ⟨hmp, rfl⟩⟩ hno
        | some m =>
          refine ⟨m, rfl, ?_⟩
          by_cases hm0 : m = []
          · exact .inl hm0
          · refine .inr (.inr ⟨.invalid_netmask, 0, ?_⟩)
            rw [hmk, (C23_v6_partial m hm0 (hm m hmp)).2 ?_]; · rfl
            rintro ⟨p, h⟩
            exact hno ⟨_, z, p, ⟨ip, vs, h1, rfl⟩, .inr ⟨m, hmp, h⟩⟩
      · left
        exact ⟨e, v, by rw [hpa, h]⟩
    · intro m hmp h
      rw [hmk] at h
      cases hq : v6ParseNetmask (readChars m) with
      | ub => exact v6ParseNetmask_ne_ub _ hq
      | ok r => rw [hq] at h; cases h
      | err e v => rw [hq] at h; cases h

example := C26_v6_partial exCfg rfl "2001:db8::/24".toList (by decide) (by decide) (fun m h => by
  have e : maskPart "2001:db8::/24".toList = some ['2', '4'] := by decide
  obtain rfl := Option.some.inj (e.symm.trans h)
  exact ex24) true

/-- C26: the IPv6 network parser has no undefined behaviour, whatever the input (also ill formed Unicode),
and the IPv4 network parser exactly for the netmask text `0.0.0.0` after at most 15 characters. -/
theorem C26_parser_safe (c : Cfg) (hc : c.le = true) (evs : List Ev) (strict : Bool) :
    (fam6 c).parseNet evs strict ≠ .ub ∧
    ((fam4 true).parseNet evs strict = .ub ↔
      ∃ a, evs = readChars (a ++ '/' :: dotted 0 0 0 0) ∧ '/' ∉ a ∧ a.length ≤ 15) := by
  constructor
  · intro h
    obtain ⟨st, _, h2⟩ := parseNet_ub (fam6Law c hc) (fam6_parseArray_ok c) (fam6_parseNetmask_ok c) (by
      intro arr h
      have h : v6ParseArray c.spaces c.M arr = .ub := h
      obtain ⟨f, f1, _⟩ := mkFixed_eq arr
      rw [v6ParseArray, f1, Res.ok_bind] at h
      exact (v6FromEvents_safe c.spaces c.M _).1 h) evs strict h
    have h2 : (v6ParseNetmask st >>= fun m => .ok (⟨m.1, emptyScope c.M⟩, m.2) : Res (V6 × Nat × Nat)) = .ub := h2
    cases hq : v6ParseNetmask st with
    | ub => exact v6ParseNetmask_ne_ub _ hq
    | ok r => rw [hq] at h2; cases h2
    | err e v => rw [hq] at h2; cases h2
  · constructor
    · intro h
      obtain ⟨r, h1, h2⟩ := parseNet_ub fam4Law fam4_parseArray_ok fam4_parseNetmask_ok (by
        intro arr h
        have h : v4ParseArray arr = .ub := h
        obtain ⟨f, f1, _⟩ := mkFixed_eq arr
        rw [v4ParseArray, f1, Res.ok_bind] at h
        exact v4FromEvents_ne_ub _ h) evs strict h
      have := v4ParseNetmask_ub _ h2
      rcases h1 with h1 | ⟨a, h1, h3, h4⟩
      · rw [h1] at this
        have hlen := congrArg List.length this
        simp [readChars, dotted] at hlen
      · exact ⟨a, by rw [h1, this]; simp [readChars], h3, h4⟩
    · rintro ⟨a, rfl, h1, h2⟩
      rw [parseNet_slash (fam4 true) a _ h1 h2, if_neg (by simp [dotted]), if_neg (by decide), parseTail]
      have : (fam4 true).parseNetmask (readChars (dotted 0 0 0 0)) = .ub := by decide +kernel
      rw [this]
      rfl

example := C26_parser_safe exCfg rfl (readChars "10.0.0.0/0.0.0.0".toList) false

/-- C26, negation: `1.2.3.4/0.0.0.0` is undefined behaviour. -/
theorem C26_zero_mask_undefined (strict : Bool) :
    (fam4 true).parseNet (readChars (dotted 1 2 3 4 ++ '/' :: dotted 0 0 0 0)) strict = .ub := by
  cases strict <;> decide +kernel

/-- C26, negation: more than 15 characters before the slash of an IPv4 network (`41 + c.M` for IPv6) and
everything after them are ignored, including the prefix length. -/
theorem C26_truncates (c : Cfg) (s : List Char) (strict : Bool) :
    (15 < (addrPart s).length → (fam4 true).parseNet (readChars s) strict = (fam4 true).parseNet (readChars (s.take 15)) strict) ∧
    (41 + c.M < (addrPart s).length →
      (fam6 c).parseNet (readChars s) strict = (fam6 c).parseNet (readChars (s.take (41 + c.M))) strict) := by
  refine ⟨fun h => parseNet_truncates (F := fam4 true) ?_ s h strict, fun h => parseNet_truncates (F := fam6 c) ?_ s h strict⟩
  · intro arr x _
    show v4ParseArray _ = v4ParseArray _
    rw [v4ParseArray, mkFixed_last]; rfl
  · intro arr x _
    show v6ParseArray _ _ _ = v6ParseArray _ _ _
    rw [v6ParseArray, mkFixed_last]; rfl

example := (C26_truncates exCfg "192.168.100.2001/24".toList true).1 (by decide)
example := (C26_truncates exCfg ("fe80::1%".toList ++ List.replicate 60 'a' ++ "/64".toList) true).2 (by decide +kernel)

/-- C26, negation, a witness: `255.255.255.2550/24` is accepted as `255.255.255.255/32`. -/
theorem C26_truncates_witness :
    (fam4 true).parseNet (readChars (dotted 255 255 255 255 ++ ['0', '/', '2', '4'])) true =
      .ok ⟨[255, 255, 255, 255], [255, 255, 255, 255], 32⟩ := by
  decide +kernel

/-- C26, negation: characters between a NUL and the slash are ignored. -/
theorem C26_nul_ignored (a m : List Char) (strict : Bool) (ha : '/' ∉ a) (hl : a.length ≤ 15) :
    (fam4 true).parseNet (readChars (a ++ '/' :: m)) strict = (fam4 true).parseNet (readChars (cstr a ++ '/' :: m)) strict := by
  have h1 : '/' ∉ cstr a := fun h => ha (List.takeWhile_subset _ h)
  have h2 : (cstr a).length ≤ 15 := Nat.le_trans (List.takeWhile_sublist _).length_le hl
  rw [parseNet_slash (fam4 true) a m ha hl, parseNet_slash (fam4 true) (cstr a) m h1 h2]
  have e : ∀ a : List Char, a.length ≤ 15 → (fam4 true).parseArray (addrArray (fam4 true) a) = v4Parse (cstr a) := by
    intro a hl
    obtain ⟨f, g1, g2⟩ := mkFixed_nul 15 a hl
    show v4ParseArray _ = _
    rw [v4ParseArray, show addrArray (fam4 true) a = a ++ List.replicate (15 + 1 - a.length) '\x00' from rfl, g1, Res.ok_bind, g2]
    rfl
  have e2 : cstr (cstr a) = cstr a := cstr_eq_self _ (fun c hc => by
    have := List.all_eq_true.1 (List.all_takeWhile (p := fun c : Char => decide (c ≠ '\x00')) (l := a)) c hc
    simpa using this)
  rw [parseTail, parseTail, e a hl, e _ h2, e2]

example := C26_nul_ignored "10.0.0.0".toList "24".toList true (by decide) (by decide)

/-- C26, negation, a witness: `1.2.3.0`, NUL, `x`, `/24` is accepted. -/
theorem C26_nul_witness :
    (fam4 true).parseNet (readChars (dotted 1 2 3 0 ++ ['\x00', 'x', '/', '2', '4'])) true =
      .ok ⟨[1, 2, 3, 0], [255, 255, 255, 0], 24⟩ := by
  decide +kernel

example : NetText4 ['1', '.', '2', '.', '3', '.', '0', '/', '2', '4'] [1, 2, 3, 0] 24 := by
  refine ⟨⟨1, 2, 3, 0, rfl, by decide⟩, .inr ⟨['2', '4'], by decide, .inl ⟨⟨by simp, [2, 4], by simp [DigitText, digitChars], by decide⟩, by decide⟩⟩⟩

end Ip
