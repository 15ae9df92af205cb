import Verif.Lemmas.NetTaken
import Verif.Lemmas.Samples
/-
Properties C23, C24 and C26 for all texts: exactly what the network parser accepts.
-/
set_option autoImplicit false

namespace Ip
open Spec

/-- C23, for all texts, IPv4: `0.0.0.0` is undefined behaviour; every other non empty text after the
slash is accepted iff it is `MaskTaken4`, and then that prefix length with its netmask is obtained. -/
theorem C23_v4_exact (t : List Char) (ht : t ≠ []) :
    (t = dotted 0 0 0 0 → v4ParseNetmask true (readChars t) = .ub) ∧
    (∀ p, MaskTaken4 t p → ∃ m cv, v4ParseNetmask true (readChars t) = .ok (m, p, cv) ∧ m.length = 4 ∧
      IsMask 32 p (beValue m)) ∧
    (t ≠ dotted 0 0 0 0 → (¬ ∃ p, MaskTaken4 t p) → ∃ e v, v4ParseNetmask true (readChars t) = .err e v) := by
  obtain ⟨t', k1, _, k3, _, k5, k6, k7, _⟩ := maskNorm t
  have ht' : t' ≠ [] := fun e => ht (k1.1 e)
  have hz : ∀ p, MaskTaken4 t p → t ≠ dotted 0 0 0 0 := by
    rintro p (⟨v, ⟨_, ds, h, _⟩, _⟩ | ⟨a, b, c, d, h1, h2, h3⟩) rfl
    · exact not_decText_dotted 0 0 0 0 ⟨ds, h⟩
    · have e1 := (v4Parse_ok_iff _ _).mpr ⟨a, b, c, d, rfl, h1⟩
      have e2 := (v4Parse_ok_iff (dotted 0 0 0 0) _).mpr ⟨0, 0, 0, 0, rfl, rfl⟩
      rw [e1] at e2
      cases e2
      have e0 : beValue [(0 : BitVec 8), 0, 0, 0] = 0 := rfl
      rcases h3 with ⟨h3, h4⟩ | ⟨h3, h4⟩
      · have := (isMask_iff 32 p _ h3).mp h4
        rw [e0] at this
        have : 2 ^ (32 - p) < 2 ^ 32 := Nat.pow_lt_pow_right (by decide) (by omega)
        omega
      · have := (isHostMask_iff 32 p _).mp h4
        rw [e0] at this
        have : 2 ^ 1 ≤ 2 ^ (32 - p) := Nat.pow_le_pow_right (by decide) (by omega)
        omega
  refine ⟨?_, ?_, ?_⟩
  · rintro rfl
    exact C23_zero_mask_undefined.1
  · intro p hp
    have h0 := hz p hp
    rw [← k3]
    exact (C23_v4_partial t' ht' k5 (fun e => h0 (k6.1 e))).1 p ((k7 h0 p).2 hp)
  · intro h0 hno
    rw [← k3]
    exact (C23_v4_partial t' ht' k5 (fun e => h0 (k6.1 e))).2 (by rintro ⟨p, hp⟩; exact hno ⟨p, (k7 h0 p).1 hp⟩)

example := C23_v4_exact "0.0.0.255".toList (by decide)

/-- C23, for all texts, IPv6. -/
theorem C23_v6_exact (t : List Char) (ht : t ≠ []) :
    (∀ p, MaskTaken6 t p → ∃ m, v6ParseNetmask (readChars t) = .ok (m, p, 0) ∧ m.length = 16 ∧
      IsMask 128 p (beValue m)) ∧
    ((¬ ∃ p, MaskTaken6 t p) → v6ParseNetmask (readChars t) = .err .invalid_netmask 0) := by
  obtain ⟨t', k1, _, _, k4, k5, _, _, k8⟩ := maskNorm t
  have h := C23_v6_partial t' (fun e => ht (k1.1 e)) k5
  rw [k4] at h
  exact ⟨fun p hp => h.1 p ((k8 p).2 hp), fun hno => h.2 (by rintro ⟨p, hp⟩; exact hno ⟨p, (k8 p).1 hp⟩)⟩

example := C23_v6_exact "18446744073709551640".toList (by decide)

theorem bigPrefix : DecText ['1','8','4','4','6','7','4','4','0','7','3','7','0','9','5','5','1','6','4','0'] (2 ^ 64 + 24) :=
  C23_number_wraps.2.2

example : MaskTaken4 ['1','8','4','4','6','7','4','4','0','7','3','7','0','9','5','5','1','6','4','0'] 24 :=
  .inl ⟨_, bigPrefix, by decide, by decide⟩
example : MaskTaken6 ['1','8','4','4','6','7','4','4','0','7','3','7','0','9','5','5','1','6','4','0'] 24 :=
  ⟨_, bigPrefix, by decide, by decide⟩

/-- C26 and C24, for all texts, the IPv4 network parser: undefined behaviour for the netmask text `0.0.0.0`
after at most 15 characters; otherwise a text is accepted iff it is `NetTaken4`, with the address and the
prefix length it denotes unless host bits are set, which is an error in strict mode and clears them
otherwise. -/
theorem C26_v4_exact (s : List Char) (strict : Bool) :
    ((addrPart s).length ≤ 15 ∧ maskPart s = some (dotted 0 0 0 0) → (fam4 true).parseNet (readChars s) strict = .ub) ∧
    (¬ ((addrPart s).length ≤ 15 ∧ maskPart s = some (dotted 0 0 0 0)) →
      (∀ x p, NetTaken4 s x p →
        ((¬ ∃ i, i < 32 - p ∧ (beValue x).testBit i = true) →
          ∃ n, (fam4 true).parseNet (readChars s) strict = .ok n ∧ n.addr = x ∧ n.plen = p) ∧
        ((∃ i, i < 32 - p ∧ (beValue x).testBit i = true) → strict = true →
          ∃ v, (fam4 true).parseNet (readChars s) strict = .err .has_host_bits_set v) ∧
        (strict = false → ∃ n, (fam4 true).parseNet (readChars s) strict = .ok n ∧ n.plen = p ∧
          ∀ i, (beValue n.addr).testBit i = ((beValue x).testBit i && decide (32 - p ≤ i)))) ∧
      ((¬ ∃ x p, NetTaken4 s x p) → ∃ e v, (fam4 true).parseNet (readChars s) strict = .err e v)) := by
  constructor
  · rintro ⟨hl, hm⟩
    obtain ⟨h0, hs⟩ := parts_eq s
    rcases hs with ⟨e, _⟩ | ⟨m, e, e'⟩
    · rw [e] at hm; cases hm
    · rw [e] at hm; cases hm
      exact ((C26_parser_safe exCfg rfl (readChars s) strict).2).2 ⟨addrPart s, by rw [← e'], h0, hl⟩
  · intro hz
    obtain ⟨s', h1, h2, h3, h4, h5, h6, h7⟩ := fam4_norm s strict
    rw [h1]
    have hm : ∀ m, maskPart s' = some m → (∀ v, DecText m v → v < 2 ^ 64) ∧ m ≠ dotted 0 0 0 0 := by
      intro m hm
      by_cases hl : (addrPart s).length ≤ 15
      · cases hs : maskPart s with
        | none => rw [h5 hl hs] at hm; cases hm
        | some n =>
          obtain ⟨m', g1, g2, g3, _⟩ := h6 hl n hs
          rw [g1] at hm
          cases hm
          exact ⟨g2, fun e => hz ⟨hl, by rw [hs, g3.1 e]⟩⟩
      · rw [h7 (by omega)] at hm; cases hm
    have heq : ∀ x p, NetTaken4 s x p ↔ NetText4 s' x p := by
      intro x p
      unfold NetTaken4 NetText4
      rw [h2]
      refine and_congr Iff.rfl ?_
      by_cases hl : (addrPart s).length ≤ 15
      · have hn : ¬ 15 < (addrPart s).length := by omega
        cases hs : maskPart s with
        | none =>
          rw [h5 hl hs]
          simp [hl, hn]
        | some n =>
          obtain ⟨m', g1, g2, g3, g4, _⟩ := h6 hl n hs
          have := g4 (fun e => hz ⟨hl, by rw [hs, e]⟩) p
          rw [g1]
          simp [hl, hn, this]
      · rw [h7 (by omega)]
        simp [hl]
        omega
    have hp := C26_v4_partial s' h4 h3 hm strict
    refine ⟨fun x p h => hp.1 x p ((heq x p).1 h), fun hno => hp.2 ?_⟩
    rintro ⟨x, p, h⟩
    exact hno ⟨x, p, (heq x p).2 h⟩

/-- `255.255.255.2550/24` is one of the texts taken. -/
example : NetTaken4 (dotted 255 255 255 255 ++ ['0', '/', '2', '4']) [255, 255, 255, 255] 32 :=
  ⟨⟨255, 255, 255, 255, rfl, by decide⟩, fun h => absurd h (by decide), fun _ => rfl⟩
/-- `1.2.3.0`, NUL, `x`, `/24` is another. -/
example : NetTaken4 (dotted 1 2 3 0 ++ ['\x00', 'x', '/', '2', '4']) [1, 2, 3, 0] 24 :=
  ⟨⟨1, 2, 3, 0, rfl, by decide⟩, fun _ => .inr ⟨['2', '4'], by decide,
    .inl ⟨24, ⟨by simp, [2, 4], by simp [DigitText, digitChars], by decide⟩, by decide, by decide⟩⟩, by decide⟩

/-- C26 and C24, for all texts, the IPv6 network parser. -/
theorem C26_v6_exact (c : Cfg) (hc : c.le = true) (s : List Char) (strict : Bool) :
    (∀ vs z p, NetTaken6 c.spaces c.M s vs z p →
      ((¬ ∃ i, i < 128 - p ∧ (beValue (groupBytes vs)).testBit i = true) →
        ∃ n, (fam6 c).parseNet (readChars s) strict = .ok n ∧ n.addr.bytes = groupBytes vs ∧
          n.addr.scope.contents = z ∧ n.plen = p) ∧
      ((∃ i, i < 128 - p ∧ (beValue (groupBytes vs)).testBit i = true) → strict = true →
        ∃ v, (fam6 c).parseNet (readChars s) strict = .err .has_host_bits_set v) ∧
      (strict = false → ∃ n, (fam6 c).parseNet (readChars s) strict = .ok n ∧ n.plen = p ∧
        ∀ i, (beValue n.addr.bytes).testBit i = ((beValue (groupBytes vs)).testBit i && decide (128 - p ≤ i)))) ∧
    ((¬ ∃ vs z p, NetTaken6 c.spaces c.M s vs z p) → ∃ e v, (fam6 c).parseNet (readChars s) strict = .err e v) := by
  obtain ⟨s', h1, h2, h3, h4, h5, h6, h7⟩ := fam6_norm c s strict
  rw [h1]
  have hm : ∀ m, maskPart s' = some m → ∀ v, DecText m v → v < 2 ^ 64 := by
    intro m hm
    by_cases hl : (addrPart s).length ≤ 41 + c.M
    · cases hs : maskPart s with
      | none => rw [h5 hl hs] at hm; cases hm
      | some n =>
        obtain ⟨m', g1, g2, g3, _⟩ := h6 hl n hs
        rw [g1] at hm
        cases hm
        exact g2
    · rw [h7 (by omega)] at hm; cases hm
  have hmask : ∀ p, (((addrPart s).length ≤ 41 + c.M → (maskPart s = none ∧ p = 128) ∨ ∃ m, maskPart s = some m ∧ MaskTaken6 m p) ∧
      (41 + c.M < (addrPart s).length → p = 128)) ↔
      ((maskPart s' = none ∧ p = 128) ∨ ∃ m, maskPart s' = some m ∧ MaskText6 m p) := by
    intro p
    by_cases hl : (addrPart s).length ≤ 41 + c.M
    · have hn : ¬ 41 + c.M < (addrPart s).length := by omega
      cases hs : maskPart s with
      | none => rw [h5 hl hs]; simp [hl, hn]
      | some n =>
        obtain ⟨m', g1, g2, g3, _, g4⟩ := h6 hl n hs
        rw [g1]
        simp [hl, hn, g4 p]
    · rw [h7 (by omega)]
      have hn : 41 + c.M < (addrPart s).length := by omega
      simp [hl, hn]
  have toText : ∀ vs z p, NetTaken6 c.spaces c.M s vs z p → NetText6 c s' (groupBytes vs) z p := by
    rintro vs z p ⟨⟨ip, g1, g2, g3, g4⟩, g5⟩
    exact ⟨⟨ip, vs, ⟨by rw [h2, g1], g2, g3, g4⟩, rfl⟩, (hmask p).1 g5⟩
  have hp := C26_v6_partial c hc s' h4 h3 hm strict
  refine ⟨fun vs z p h => hp.1 _ z p (toText vs z p h), fun hno => hp.2 ?_⟩
  rintro ⟨b, z, p, ⟨ip, vs, ⟨g1, g2, g3, g4⟩, _⟩, g5⟩
  exact hno ⟨vs, z, p, ⟨ip, by rw [← h2, g1], g2, g3, g4⟩, (hmask p).2 g5⟩

example : NetTaken6 false 16 "1::\x00zz/64".toList [1, 0, 0, 0, 0, 0, 0, 0] [] 64 :=
  ⟨⟨"1::".toList, by decide, V6Text.compressed ['1'] [1] [] [] (Or.inr (Groups.one _ _ (group_one '1' 1 rfl)))
      (Or.inl ⟨rfl, rfl⟩) (by decide), by decide, by simp [ZoneOk]⟩,
    fun _ => .inr ⟨['6', '4'], by decide, 64, ⟨by simp, [6, 4], by simp [DigitText, digitChars], by decide⟩, by decide, by decide⟩,
    by decide⟩

end Ip
