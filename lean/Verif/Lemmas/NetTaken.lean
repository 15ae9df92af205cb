import Verif.Props.NetText
import Verif.Lemmas.V6Nul
import Verif.Spec.NetTaken
/-
The network parser on all texts: reduction to the texts covered by `C26_v4_partial` and
`C26_v6_partial`.
-/
set_option autoImplicit false

namespace Ip
open Spec

theorem digitsLoop_dec (t : List Char) (v : Nat) (h : DecText t v) :
    digitsLoop (readChars t) 0 = .ok (some (v % 2 ^ 64)) := by
  obtain ⟨_, ds, h1, rfl⟩ := h
  rcases digitsLoop_rel t 0 with ⟨ds', g1, g2⟩ | ⟨g, _⟩
  · rw [DigitText_unique 10 t _ _ g1 h1] at g2
    exact g2
  · exact absurd ⟨ds, h1⟩ g

/-- The text of the number as it is after the wrap around; other texts are kept. -/
theorem maskNorm (t : List Char) : ∃ t', (t' = [] ↔ t = []) ∧ ('/' ∈ t' ↔ '/' ∈ t) ∧
    v4ParseNetmask true (readChars t') = v4ParseNetmask true (readChars t) ∧
    v6ParseNetmask (readChars t') = v6ParseNetmask (readChars t) ∧ (∀ v, DecText t' v → v < 2 ^ 64) ∧
    (t' = dotted 0 0 0 0 ↔ t = dotted 0 0 0 0) ∧
    (t ≠ dotted 0 0 0 0 → ∀ p, MaskText4 t' p ↔ MaskTaken4 t p) ∧ (∀ p, MaskText6 t' p ↔ MaskTaken6 t p) := by
  by_cases h : ∃ v, DecText t v
  · obtain ⟨v, h⟩ := h
    have hd := toDigits_decText (v % 2 ^ 64)
    have hlt : v % 2 ^ 64 < 2 ^ 64 := Nat.mod_lt _ (by decide)
    have e1 := digitsLoop_dec _ _ h
    have e2 := digitsLoop_dec _ _ hd
    rw [Nat.mod_eq_of_lt hlt] at e2
    have n1 : readChars t ≠ [] := by simpa [readChars] using h.1
    have n2 : readChars (Nat.toDigits 10 (v % 2 ^ 64)) ≠ [] := by simpa [readChars] using hd.1
    have nd : ∀ u w, DecText u w → ∀ a b c d, u ≠ dotted a b c d := by
      rintro u w ⟨_, ds, h, _⟩ a b c d rfl
      exact not_decText_dotted a b c d ⟨ds, h⟩
    have u1 : ∀ w, DecText (Nat.toDigits 10 (v % 2 ^ 64)) w → w = v % 2 ^ 64 := fun w hw => decText_unique _ _ _ hw hd
    have u2 : ∀ w, DecText t w → w = v := fun w hw => decText_unique _ _ _ hw h
    refine ⟨Nat.toDigits 10 (v % 2 ^ 64), ⟨fun e => absurd e hd.1, fun e => absurd e h.1⟩,
      ⟨fun e => absurd e (decText_noslash _ _ hd), fun e => absurd e (decText_noslash _ _ h)⟩, ?_, ?_, ?_,
      ⟨fun e => absurd e (nd _ _ hd _ _ _ _), fun e => absurd e (nd _ _ h _ _ _ _)⟩, fun _ p => ⟨?_, ?_⟩, fun p => ⟨?_, ?_⟩⟩
    · rw [v4ParseNetmask, v4ParseNetmask, e1, e2]
      simp only [Res.ok_bind, if_neg n1, if_neg n2]
    · rw [v6ParseNetmask, v6ParseNetmask, e1, e2]
      simp only [Res.ok_bind, if_neg n1, if_neg n2]
    · intro w hw
      rw [u1 w hw]; exact hlt
    · rintro (⟨g1, g2⟩ | ⟨a, b, c, d, g1, _⟩)
      · exact .inl ⟨v, h, u1 p g1, g2⟩
      · exact absurd g1 (nd _ _ hd _ _ _ _)
    · rintro (⟨w, g1, g2, g3⟩ | ⟨a, b, c, d, g1, _⟩)
      · rw [u2 w g1] at g2
        exact .inl ⟨by rw [g2]; exact hd, g3⟩
      · exact absurd g1 (nd _ _ h _ _ _ _)
    · rintro ⟨g1, g2⟩
      exact ⟨v, h, u1 p g1, g2⟩
    · rintro ⟨w, g1, g2, g3⟩
      rw [u2 w g1] at g2
      exact ⟨by rw [g2]; exact hd, g3⟩
  · refine ⟨t, Iff.rfl, Iff.rfl, rfl, rfl, fun v hv => absurd ⟨v, hv⟩ h, Iff.rfl, fun hz p => ⟨?_, ?_⟩, fun p => ⟨?_, ?_⟩⟩
    · rintro (⟨g1, g2⟩ | ⟨a, b, c, d, g1, g2⟩)
      · exact absurd ⟨p, g1⟩ h
      · refine .inr ⟨a, b, c, d, g1, ?_⟩
        rcases g2 with ⟨q1, q2⟩ | ⟨q0, q1, q2⟩
        · refine ⟨?_, .inl ⟨q1, q2⟩⟩
          rcases Nat.eq_zero_or_pos p with rfl | hp
          · exfalso
            apply hz
            have := (isMask_iff 32 0 _ q1).mp q2
            have e : ([a, b, c, d] : List (BitVec 8)) = [0, 0, 0, 0] := beValue_inj _ _ rfl (by rw [this]; rfl)
            cases e
            exact g1
          · exact hp
        · exact ⟨q0, .inr ⟨q1, q2⟩⟩
    · rintro (⟨w, g1, _⟩ | ⟨a, b, c, d, g1, q0, g2⟩)
      · exact absurd ⟨w, g1⟩ h
      · refine .inr ⟨a, b, c, d, g1, ?_⟩
        rcases g2 with ⟨q1, q2⟩ | ⟨q1, q2⟩
        · exact .inl ⟨q1, q2⟩
        · exact .inr ⟨q0, q1, q2⟩
    · rintro ⟨g1, _⟩; exact absurd ⟨p, g1⟩ h
    · rintro ⟨w, g1, _⟩; exact absurd ⟨w, g1⟩ h

section
variable {A U : Type} {F : Fam A U}

theorem parseNet_congr (a a' m m' : List Char) (ha : '/' ∉ a) (ha' : '/' ∉ a') (hl : a.length ≤ F.maxLen)
    (hl' : a'.length ≤ F.maxLen) (hA : F.parseArray (addrArray F a) = F.parseArray (addrArray F a'))
    (h1 : m' = [] ↔ m = []) (h2 : '/' ∈ m' ↔ '/' ∈ m) (hM : F.parseNetmask (readChars m') = F.parseNetmask (readChars m))
    (strict : Bool) :
    F.parseNet (readChars (a ++ '/' :: m)) strict = F.parseNet (readChars (a' ++ '/' :: m')) strict := by
  rw [parseNet_slash F a m ha hl, parseNet_slash F a' m' ha' hl']
  simp only [h1, h2, parseTail, hA, hM]

theorem parseNet_congr_noslash (a a' : List Char) (ha : '/' ∉ a) (ha' : '/' ∉ a') (hl : a.length ≤ F.maxLen)
    (hl' : a'.length ≤ F.maxLen) (hA : F.parseArray (addrArray F a) = F.parseArray (addrArray F a')) (strict : Bool) :
    F.parseNet (readChars a) strict = F.parseNet (readChars a') strict := by
  rw [parseNet_noslash F a ha hl, parseNet_noslash F a' ha' hl', parseTail, parseTail, hA]

/-- The network parser sees the address part shortened to the buffer and ended at NUL, and the number
after the wrap around. -/
theorem parseNet_norm (hlast : ∀ arr x, arr.length = F.maxLen → F.parseArray (arr ++ [x]) = F.parseArray (arr ++ ['\x00']))
    (hcut : ∀ a : List Char, a.length ≤ F.maxLen → F.parseArray (addrArray F a) = F.parseArray (addrArray F (cstr a)))
    (hmask : ∀ t t', v4ParseNetmask true (readChars t') = v4ParseNetmask true (readChars t) →
      v6ParseNetmask (readChars t') = v6ParseNetmask (readChars t) → F.parseNetmask (readChars t') = F.parseNetmask (readChars t))
    (s : List Char) (strict : Bool) :
    ∃ s', F.parseNet (readChars s) strict = F.parseNet (readChars s') strict ∧
      addrPart s' = addrRead F.maxLen s ∧
      ((addrPart s).length ≤ F.maxLen → maskPart s = none → maskPart s' = none) ∧
      ((addrPart s).length ≤ F.maxLen → ∀ m, maskPart s = some m → ∃ m', maskPart s' = some m' ∧
        (∀ v, DecText m' v → v < 2 ^ 64) ∧ (m' = dotted 0 0 0 0 ↔ m = dotted 0 0 0 0) ∧
        (m ≠ dotted 0 0 0 0 → ∀ p, MaskText4 m' p ↔ MaskTaken4 m p) ∧ (∀ p, MaskText6 m' p ↔ MaskTaken6 m p)) ∧
      (F.maxLen < (addrPart s).length → maskPart s' = none) := by
  have sub : ∀ a : List Char, '/' ∉ a → '/' ∉ cstr a := fun a h hc => h (cstr_mem hc).1
  have short : ∀ (s : List Char), (addrPart s).length ≤ F.maxLen →
      ∃ s', F.parseNet (readChars s) strict = F.parseNet (readChars s') strict ∧
      addrPart s' = cstr (addrPart s) ∧ (maskPart s = none → maskPart s' = none) ∧
      (∀ m, maskPart s = some m → ∃ m', maskPart s' = some m' ∧
        (∀ v, DecText m' v → v < 2 ^ 64) ∧ (m' = dotted 0 0 0 0 ↔ m = dotted 0 0 0 0) ∧
        (m ≠ dotted 0 0 0 0 → ∀ p, MaskText4 m' p ↔ MaskTaken4 m p) ∧ (∀ p, MaskText6 m' p ↔ MaskTaken6 m p)) := by
    intro s hl
    obtain ⟨h0, hs⟩ := parts_eq s
    have hl' : (cstr (addrPart s)).length ≤ F.maxLen := Nat.le_trans (cstr_length_le _) hl
    have h0' := sub _ h0
    have hc := hcut _ hl
    rcases hs with ⟨g1, g2⟩ | ⟨m, g1, g2⟩
    · obtain ⟨p1, p2⟩ := parts_of_noslash _ h0'
      refine ⟨cstr (addrPart s), ?_, p1, fun _ => p2, ?_⟩
      · conv => lhs; rw [g2]
        exact parseNet_congr_noslash _ _ h0 h0' hl hl' hc strict
      · intro m hm; rw [g1] at hm; cases hm
    · obtain ⟨m', k1, k2, k3, k4, k5, k6, k7, k8⟩ := maskNorm m
      obtain ⟨p1, p2⟩ := parts_of_slash _ m' h0'
      refine ⟨cstr (addrPart s) ++ '/' :: m', ?_, p1, ?_, ?_⟩
      · conv => lhs; rw [g2]
        exact parseNet_congr _ _ m m' h0 h0' hl hl' hc k1 k2 (hmask _ _ k3 k4) strict
      · intro hm; rw [g1] at hm; cases hm
      · intro n hn
        rw [g1] at hn
        cases hn
        exact ⟨m', p2, k5, k6, k7, k8⟩
  by_cases hl : (addrPart s).length ≤ F.maxLen
  · obtain ⟨s', h1, h2, h3, h4⟩ := short s hl
    refine ⟨s', h1, ?_, fun _ => h3, fun _ => h4, fun h => absurd h (by omega)⟩
    rw [h2, addrRead, cutNul_eq, List.take_of_length_le hl]
  · have hl : F.maxLen < (addrPart s).length := by omega
    have e : addrPart (s.take F.maxLen) = (addrPart s).take F.maxLen ∧ maskPart (s.take F.maxLen) = none := by
      obtain ⟨h0, hs⟩ := parts_eq s
      obtain ⟨tail, ht⟩ : ∃ tail, s = addrPart s ++ tail := by
        rcases hs with ⟨_, e⟩ | ⟨m, _, e⟩
        · exact ⟨[], by rw [List.append_nil]; exact e⟩
        · exact ⟨_, e⟩
      have et : s.take F.maxLen = (addrPart s).take F.maxLen := by
        conv => lhs; rw [ht]
        exact List.take_append_of_le_length (by omega)
      rw [et]
      exact parts_of_noslash _ fun h => h0 (List.mem_of_mem_take h)
    have hle : (addrPart (s.take F.maxLen)).length ≤ F.maxLen := by rw [e.1]; simp
    obtain ⟨s', h1, h2, h3, _⟩ := short (s.take F.maxLen) hle
    refine ⟨s', ?_, by rw [h2, e.1, addrRead, cutNul_eq], fun h => absurd h (by omega), fun h => absurd h (by omega), fun _ => h3 e.2⟩
    rw [parseNet_truncates hlast s hl strict, h1]
end

theorem fam4_norm (s : List Char) (strict : Bool) :
    ∃ s', (fam4 true).parseNet (readChars s) strict = (fam4 true).parseNet (readChars s') strict ∧
      addrPart s' = addrRead 15 s ∧ (addrPart s').length ≤ 15 ∧ (∀ c ∈ addrPart s', c ≠ '\x00') ∧
      ((addrPart s).length ≤ 15 → maskPart s = none → maskPart s' = none) ∧
      ((addrPart s).length ≤ 15 → ∀ m, maskPart s = some m → ∃ m', maskPart s' = some m' ∧
        (∀ v, DecText m' v → v < 2 ^ 64) ∧ (m' = dotted 0 0 0 0 ↔ m = dotted 0 0 0 0) ∧
        (m ≠ dotted 0 0 0 0 → ∀ p, MaskText4 m' p ↔ MaskTaken4 m p) ∧ (∀ p, MaskText6 m' p ↔ MaskTaken6 m p)) ∧
      (15 < (addrPart s).length → maskPart s' = none) := by
  obtain ⟨s', h1, h2, h3, h4, h5⟩ := parseNet_norm (F := fam4 true) (by
      intro arr x _
      show v4ParseArray _ = v4ParseArray _
      rw [v4ParseArray, mkFixed_last]; rfl) (by
      intro a hl
      have hl : a.length ≤ 15 := hl
      have e : ∀ a : List Char, a.length ≤ 15 → (fam4 true).parseArray (addrArray (fam4 true) a) = v4Parse (cstr a) := by
        intro a hl
        obtain ⟨f, g1, g2⟩ := mkFixed_nul 15 a hl
        show v4ParseArray _ = _
        rw [v4ParseArray, show addrArray (fam4 true) a = a ++ List.replicate (15 + 1 - a.length) '\x00' from rfl, g1, Res.ok_bind, g2]
        rfl
      rw [e a hl, e _ (Nat.le_trans (cstr_length_le a) hl), cstr_cstr]) (by
      intro t t' h _
      exact h) s strict
  have h2 : addrPart s' = addrRead 15 s := h2
  refine ⟨s', h1, h2, ?_, ?_, h3, h4, h5⟩
  · rw [h2, addrRead, cutNul_eq]
    exact Nat.le_trans (cstr_length_le _) (by simp)
  · rw [h2, addrRead, cutNul_eq]
    exact fun c hc => (cstr_mem hc).2

theorem fam6_norm (c : Cfg) (s : List Char) (strict : Bool) :
    ∃ s', (fam6 c).parseNet (readChars s) strict = (fam6 c).parseNet (readChars s') strict ∧
      addrPart s' = addrRead (41 + c.M) s ∧ (addrPart s').length ≤ 41 + c.M ∧ (∀ ch ∈ addrPart s', ch ≠ '\x00') ∧
      ((addrPart s).length ≤ 41 + c.M → maskPart s = none → maskPart s' = none) ∧
      ((addrPart s).length ≤ 41 + c.M → ∀ m, maskPart s = some m → ∃ m', maskPart s' = some m' ∧
        (∀ v, DecText m' v → v < 2 ^ 64) ∧ (m' = dotted 0 0 0 0 ↔ m = dotted 0 0 0 0) ∧
        (m ≠ dotted 0 0 0 0 → ∀ p, MaskText4 m' p ↔ MaskTaken4 m p) ∧ (∀ p, MaskText6 m' p ↔ MaskTaken6 m p)) ∧
      (41 + c.M < (addrPart s).length → maskPart s' = none) := by
  obtain ⟨s', h1, h2, h3, h4, h5⟩ := parseNet_norm (F := fam6 c) (by
      intro arr x _
      show v6ParseArray _ _ _ = v6ParseArray _ _ _
      rw [v6ParseArray, mkFixed_last]; rfl) (by
      intro a hl
      have hl : a.length ≤ 41 + c.M := hl
      have e : ∀ a : List Char, a.length ≤ 41 + c.M → (fam6 c).parseArray (addrArray (fam6 c) a) = v6Parse c.spaces c.M (cstr a) := by
        intro a hl
        obtain ⟨f, g1, g2⟩ := mkFixed_nul (41 + c.M) a hl
        show v6ParseArray _ _ _ = _
        rw [v6ParseArray, show addrArray (fam6 c) a = a ++ List.replicate (41 + c.M + 1 - a.length) '\x00' from rfl, g1, Res.ok_bind, g2]
        rfl
      rw [e a hl, e _ (Nat.le_trans (cstr_length_le a) hl), cstr_cstr]) (by
      intro t t' _ h
      show (v6ParseNetmask (readChars t') >>= _) = (v6ParseNetmask (readChars t) >>= _)
      rw [h]) s strict
  have h2 : addrPart s' = addrRead (41 + c.M) s := h2
  refine ⟨s', h1, h2, ?_, ?_, h3, h4, h5⟩
  · rw [h2, addrRead, cutNul_eq]
    exact Nat.le_trans (cstr_length_le _) (by simp)
  · rw [h2, addrRead, cutNul_eq]
    exact fun c hc => (cstr_mem hc).2

end Ip
