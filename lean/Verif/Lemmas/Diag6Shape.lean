import Verif.Lemmas.Diag6
/-
Errors of the number of parts, of empty parts, of the symbols of parts and of zone ids.
-/
set_option autoImplicit false

namespace Ip
open Spec

theorem boundLoop_only (fs : List FStr) (count : Nat) : ∀ (n i skip : Nat) (e : ErrorCode) (v : Nat),
    boundLoop fs count n i skip = .err e v → e = .most_one_double_colon_permitted ∧ v = count
  | 0, _, _, _, _, h => by cases h
  | n + 1, i, skip, e, v, h => by
    rw [boundLoop] at h
    cases hr : rd fs i with
    | ub => rw [hr] at h; cases h
    | err _ _ => unfold rd at hr; split at hr <;> cases hr
    | ok p =>
      rw [hr, Res.ok_bind] at h
      split at h
      · split at h
        · cases h; exact ⟨rfl, rfl⟩
        · exact boundLoop_only fs count n _ _ e v h
      · exact boundLoop_only fs count n _ _ e v h

theorem parsePartLoop_only (f : FStr) (cv : Nat) : ∀ (n i : Nat) (value : BitVec 16) (e : ErrorCode) (v : Nat),
    parsePartLoop f cv n i value = .err e v → e = .part_has_invalid_symbol ∧ v = cv
  | 0, _, _, _, _, h => by cases h
  | n + 1, i, value, e, v, h => by
    rw [parsePartLoop] at h
    cases hr : rd f.data i with
    | ub => rw [hr] at h; cases h
    | err _ _ => unfold rd at hr; split at hr <;> cases hr
    | ok c =>
      rw [hr, Res.ok_bind] at h
      cases hp : pow16 (f.length - i - 1) with
      | ub => rw [hp] at h; cases h
      | err _ _ => unfold pow16 at hp; split at hp <;> cases hp
      | ok w =>
        rw [hp, Res.ok_bind] at h
        split at h
        · exact parsePartLoop_only f cv n _ _ e v h
        · cases h; exact ⟨rfl, rfl⟩

theorem parsePartsLoop_only (fs : List FStr) (cv : Nat) : ∀ (n i : Nat) (res : List (BitVec 8)) (index : Nat) (e : ErrorCode)
    (v : Nat), parsePartsLoop fs cv n i res index = .err e v → e = .part_has_invalid_symbol ∧ v = cv
  | 0, _, _, _, _, _, h => by cases h
  | n + 1, i, res, index, e, v, h => by
    rw [parsePartsLoop] at h
    cases hr : rd fs i with
    | ub => rw [hr] at h; cases h
    | err _ _ => unfold rd at hr; split at hr <;> cases hr
    | ok p =>
      rw [hr, Res.ok_bind] at h
      cases hp : parsePart p cv with
      | ub => rw [hp] at h; cases h
      | err e' v' =>
        rw [hp] at h
        cases h
        exact parsePartLoop_only p cv _ _ _ e v hp
      | ok w =>
        rw [hp, Res.ok_bind] at h
        cases h1 : wr res index ((w >>> 8).setWidth 8) with
        | ub => rw [h1] at h; cases h
        | err _ _ => unfold wr at h1; split at h1 <;> cases h1
        | ok r1 =>
          rw [h1, Res.ok_bind] at h
          cases h2 : wr r1 (index + 1) ((w &&& 0xFF#16).setWidth 8) with
          | ub => rw [h2] at h; cases h
          | err _ _ => unfold wr at h2; split at h2 <;> cases h2
          | ok r2 =>
            rw [h2, Res.ok_bind] at h
            exact parsePartsLoop_only fs cv n _ _ _ e v h

theorem parseParts_only (fs : List FStr) (count hi lo sk : Nat) (e : ErrorCode) (v : Nat)
    (h : parseParts fs count hi lo sk = .err e v) : e = .part_has_invalid_symbol ∧ v = count := by
  unfold parseParts at h
  cases h1 : parsePartsLoop fs count hi 0 (List.replicate 16 0#8) 0 with
  | ub => rw [h1] at h; cases h
  | err e' v' => rw [h1] at h; cases h; exact parsePartsLoop_only _ _ _ _ _ _ _ _ h1
  | ok r =>
    rw [h1, Res.ok_bind] at h
    split at h
    · cases h
    · cases h2 : parsePartsLoop fs count lo (count - lo) r.1 (r.2 + (sk <<< 1)) with
      | ub => rw [h2] at h; cases h
      | err e' v' => rw [h2] at h; cases h; exact parsePartsLoop_only _ _ _ _ _ _ _ _ h2
      | ok r => rw [h2] at h; cases h

theorem shapeFault_run {fs : List FStr} {P : List (List Char)} {code : ErrorCode} (h : FsRel fs P) (h3 : 3 ≤ P.length)
    (h9 : P.length ≤ 9) (hf : ShapeFault P code) : partsBound fs P.length = .err code P.length := by
  obtain ⟨f0, r0, z0⟩ := h.part_empty 0 (by omega)
  obtain ⟨fl, rl, zl⟩ := h.part_empty (P.length - 1) (by omega)
  have hgap : ∀ k, GapAt P k → boundLoop fs P.length (P.length - 1 - 1) 1 0 = .ok k := by
    rintro k ⟨g1, g2, g3, g4⟩
    rcases boundLoop_cases h (P.length - 1 - 1) 1 (by omega) (by omega) with
      ⟨a, b⟩ | ⟨k', a, b, c, d, e⟩ | ⟨i, j, a, b, c, d, e, _⟩
    · exact absurd g3 (a k (by omega) (by omega))
    · rw [e, g4 k' (by omega) (by omega) c]
    · have := g4 i (by omega) (by omega) d
      have := g4 j (by omega) (by omega) e
      omega
  have hnone : NoGap P → boundLoop fs P.length (P.length - 1 - 1) 1 0 = .ok 0 := by
    intro g
    rcases boundLoop_cases h (P.length - 1 - 1) 1 (by omega) (by omega) with
      ⟨a, b⟩ | ⟨k', a, b, c, d, e⟩ | ⟨i, j, a, b, c, d, e, _⟩
    · exact b
    · exact absurd c (g k' (by omega) (by omega))
    · exact absurd d (g i (by omega) (by omega))
  simp only [partsBound]
  rw [if_neg (by omega)]
  cases hf with
  | twice i j g1 g2 g3 g4 g5 =>
    rcases boundLoop_cases h (P.length - 1 - 1) 1 (by omega) (by omega) with
      ⟨a, b⟩ | ⟨k', a, b, c, d, e⟩ | ⟨_, _, _, _, _, _, _, e, v, he⟩
    · exact absurd g4 (a i (by omega) (by omega))
    · by_cases hi : i = k'
      · exact absurd g5 (d j (by omega) (by omega) (by omega))
      · exact absurd g4 (d i (by omega) (by omega) hi)
    · obtain ⟨rfl, rfl⟩ := boundLoop_only _ _ _ _ _ _ _ he
      rw [he]; rfl
  | leading k g1 g2 g3 =>
    rw [hgap k g1, Res.ok_bind]
    obtain ⟨a, b, _⟩ := g1
    rw [if_pos (by omega), if_neg (by omega), r0, Res.ok_bind, if_pos (z0.2 g2), if_pos (by omega)]
    rfl
  | trailing k g1 g2 g3 g4 =>
    rw [hgap k g1, Res.ok_bind]
    obtain ⟨a, b, _⟩ := g1
    rw [if_pos (by omega), if_neg (by omega), r0, Res.ok_bind, rl]
    by_cases e0 : emptyAt P 0
    · have hk := g2 e0
      rw [if_pos (z0.2 e0), if_neg (by omega), Res.ok_bind, Res.ok_bind, if_pos (zl.2 g3), if_neg (by omega), if_pos (by omega)]
      rfl
    · rw [if_neg (fun hh => e0 (z0.1 hh)), Res.ok_bind, Res.ok_bind, if_pos (zl.2 g3), if_neg (by omega), if_pos (by omega)]
      rfl
  | parts k g1 g2 g3 g4 =>
    rw [hgap k g1, Res.ok_bind]
    obtain ⟨a, b, _⟩ := g1
    rw [if_pos (by omega), if_neg (by omega), r0, Res.ok_bind, rl, if_neg (fun hh => g2 (z0.1 hh)), Res.ok_bind, Res.ok_bind,
      if_neg (fun hh => g3 (zl.1 hh)), Res.ok_bind, if_neg (by omega), if_pos (by omega)]
  | count g1 g2 =>
    rw [hnone g1, Res.ok_bind, if_neg (by simp), if_pos g2]
  | leading8 g1 g2 g3 =>
    rw [hnone g1, Res.ok_bind, if_neg (by simp), if_neg (by omega), r0, Res.ok_bind, if_pos (z0.2 g3)]
  | trailing8 g1 g2 g3 g4 =>
    rw [hnone g1, Res.ok_bind, if_neg (by simp), if_neg (by omega), r0, Res.ok_bind, if_neg (fun hh => g3 (z0.1 hh)), rl,
      Res.ok_bind, if_pos (zl.2 (by rw [g2]; exact g4))]

theorem shape_cases (P : List (List Char)) (h3 : 3 ≤ P.length) (h9 : P.length ≤ 9) :
    (∃ x, BoundIx P x) ∨ ∃ code, ShapeFault P code := by
  by_cases hg : NoGap P
  · by_cases h8 : P.length = 8
    · by_cases e0 : P[0]? = some []
      · exact .inr ⟨_, .leading8 hg h8 e0⟩
      · by_cases e7 : P[7]? = some []
        · exact .inr ⟨_, .trailing8 hg h8 e0 e7⟩
        · refine .inl ⟨_, BoundIx.full h8 ?_⟩
          intro j hj hjj
          by_cases j0 : j = 0
          · subst j0; exact e0 hjj
          · by_cases j7 : j = 7
            · subst j7; exact e7 hjj
            · exact hg j (by omega) (by omega) hjj
    · exact .inr ⟨_, .count hg h8⟩
  · have : ∃ i, 1 ≤ i ∧ i + 1 < P.length ∧ P[i]? = some [] := by
      by_cases hx : ∃ i, 1 ≤ i ∧ i + 1 < P.length ∧ P[i]? = some []
      · exact hx
      · exact absurd (fun j h1 h2 h3 => hx ⟨j, h1, h2, h3⟩) hg
    obtain ⟨i, i1, i2, i3⟩ := this
    by_cases hu : ∀ j, 1 ≤ j → j + 1 < P.length → P[j]? = some [] → j = i
    · have hgap : GapAt P i := ⟨i1, i2, i3, hu⟩
      have huu : ∀ j, 1 ≤ j → j + 1 < P.length → j ≠ i → ¬ emptyAt P j := fun j a b c d => c (hu j a b d)
      by_cases e0 : P[0]? = some []
      · by_cases hi : i = 1
        · by_cases el : P[P.length - 1]? = some []
          · by_cases hl : i + 2 = P.length
            · exact .inl ⟨_, BoundIx.comp i 0 0 i1 i2 i3 huu (.inl ⟨e0, hi, rfl⟩) (.inl ⟨el, hl, rfl⟩) (by omega)⟩
            · exact .inr ⟨_, .trailing i hgap (fun _ => hi) el hl⟩
          · exact .inl ⟨_, BoundIx.comp i 0 (P.length - i - 1) i1 i2 i3 huu (.inl ⟨e0, hi, rfl⟩) (.inr ⟨el, rfl⟩) (by omega)⟩
        · exact .inr ⟨_, .leading i hgap e0 hi⟩
      · by_cases el : P[P.length - 1]? = some []
        · by_cases hl : i + 2 = P.length
          · exact .inl ⟨_, BoundIx.comp i i 0 i1 i2 i3 huu (.inr ⟨e0, rfl⟩) (.inl ⟨el, hl, rfl⟩) (by omega)⟩
          · exact .inr ⟨_, .trailing i hgap (fun h => absurd h e0) el hl⟩
        · by_cases h9' : P.length = 9
          · exact .inr ⟨_, .parts i hgap e0 el h9'⟩
          · exact .inl ⟨_, BoundIx.comp i i (P.length - i - 1) i1 i2 i3 huu (.inr ⟨e0, rfl⟩) (.inr ⟨el, rfl⟩) (by omega)⟩
    · have : ∃ j, 1 ≤ j ∧ j + 1 < P.length ∧ P[j]? = some [] ∧ j ≠ i := by
        by_cases hx : ∃ j, 1 ≤ j ∧ j + 1 < P.length ∧ P[j]? = some [] ∧ j ≠ i
        · exact hx
        · refine absurd (fun j h1 h2 h3 => ?_) hu
          by_cases e : j = i
          · exact e
          · exact absurd ⟨j, h1, h2, h3, e⟩ hx
      obtain ⟨j, j1, j2, j3, j4⟩ := this
      by_cases hlt : i < j
      · exact .inr ⟨_, .twice i j i1 hlt j2 i3 j3⟩
      · exact .inr ⟨_, .twice j i j1 (by omega) i2 j3 i3⟩

theorem HexNum_of (t : List Char) (h : ∀ c ∈ t, ∃ d, HexDigit c d) : ∃ v, HexNum t v := by
  induction t using snoc_induction with
  | h0 => exact ⟨0, .nil⟩
  | h1 t c ih =>
    obtain ⟨v, hv⟩ := ih (fun x hx => h x (by simp [hx]))
    obtain ⟨d, hd⟩ := h c (by simp)
    exact ⟨_, .snoc t c v d hv hd⟩

theorem HexAll_iff : ∀ (ts : List (List Char)), (∃ vs, HexAll ts vs) ↔ ¬ HasSymbol ts
  | [] => ⟨fun _ ⟨_, h, _⟩ => by simp at h, fun _ => ⟨[], .nil⟩⟩
  | t :: ts => by
    constructor
    · rintro ⟨vs, h⟩ ⟨p, hp, c, hc, hd⟩
      cases h with
      | cons _ v _ vs h1 h2 =>
        rcases List.mem_cons.1 hp with rfl | hp
        · obtain ⟨d, hd'⟩ := h1.digits c hc
          exact hd d hd'
        · exact (HexAll_iff ts).1 ⟨vs, h2⟩ ⟨p, hp, c, hc, hd⟩
    · intro h
      obtain ⟨vs, hvs⟩ := (HexAll_iff ts).2 (fun ⟨p, hp, x⟩ => h ⟨p, by simp [hp], x⟩)
      obtain ⟨v, hv⟩ := HexNum_of t (fun c hc => by
        by_cases hx : ∃ d, HexDigit c d
        · exact hx
        · exact absurd ⟨t, by simp, c, hc, fun d hd => hx ⟨d, hd⟩⟩ h)
      exact ⟨v :: vs, .cons t v ts vs hv hvs⟩

/-- The parts that are not parsed are empty. -/
theorem BoundIx.symbols {P : List (List Char)} {hi lo sk : Nat} (h : BoundIx P (hi, lo, sk)) :
    HasSymbol P ↔ HasSymbol (P.take hi) ∨ HasSymbol (P.drop (P.length - lo)) := by
  constructor
  · rintro ⟨p, hp, c, hc, hd⟩
    obtain ⟨i, hi', rfl⟩ := List.getElem_of_mem hp
    have hne : ¬ emptyAt P i := by
      intro he
      rw [emptyAt, List.getElem?_eq_getElem hi', Option.some.injEq] at he
      rw [he] at hc; simp at hc
    have : i < hi ∨ P.length - lo ≤ i := by
      generalize hx : (hi, lo, sk) = x at h
      cases h with
      | full g1 g2 => cases hx; omega
      | comp k hi' lo' g1 g2 g3 g4 g5 g6 g7 =>
        simp only [Prod.mk.injEq] at hx
        obtain ⟨rfl, rfl, rfl⟩ := hx
        have hik : i ≠ k := fun e => hne (e ▸ g3)
        rcases g5 with ⟨a, b, c⟩ | ⟨a, b⟩ <;> rcases g6 with ⟨a', b', c'⟩ | ⟨a', b'⟩
        · have : i ≠ 0 := fun e => hne (e ▸ a)
          have : i ≠ P.length - 1 := fun e => hne (e ▸ a')
          omega
        · have : i ≠ 0 := fun e => hne (e ▸ a)
          omega
        · have : i ≠ P.length - 1 := fun e => hne (e ▸ a')
          omega
        · omega
    rcases this with hlt | hle
    · exact .inl ⟨P[i], List.mem_take_iff_getElem.2 ⟨i, by omega, rfl⟩, c, hc, hd⟩
    · refine .inr ⟨P[i], List.mem_drop_iff_getElem.2 ⟨i - (P.length - lo), by omega, ?_⟩, c, hc, hd⟩
      congr 1; omega
  · rintro (⟨p, hp, x⟩ | ⟨p, hp, x⟩)
    · exact ⟨p, List.mem_of_mem_take hp, x⟩
    · exact ⟨p, List.mem_of_mem_drop hp, x⟩

theorem Spec.Resolved.splitOk {ps R : List (List Char)} (h : Resolved ps R) (hl : 3 ≤ R.length) (hc : ∀ p ∈ ps, ':' ∉ p) :
    SplitOk (colons ps) R := by
  have hc' : ∀ p ∈ ps, ∀ c ∈ p, c ≠ ':' := fun p hp c hcp e => hc p hp (e ▸ hcp)
  cases h with
  | hex d k q1 q2 q3 q4 =>
    simp at hl
    exact .hex d k (pieces_colons _ (by simp) hc') q1 q3 q4 (by omega) q2
  | quad d k w x y z q1 q2 q3 q4 q5 =>
    simp at hl
    exact .quad d k w x y z (pieces_colons _ (by simp) hc') q1 q3 q4 q5 (by omega) q2

/-- What is wrong with the parts is what the parser reports. -/
theorem partsFault_run {ps : List (List Char)} {code : ErrorCode} {v : Nat} (h : PartsFault ps code v)
    (hc : ∀ p ∈ ps, ':' ∉ p) : parseAddr (colons ps) = .err code v := by
  cases h with
  | split _ _ h => rw [parseAddr, splitFault_run h hc]; rfl
  | few R h1 h2 => rw [parseAddr, few_run h1 h2 hc]; rfl
  | shape R _ h1 h2 h3 =>
    have hs := h1.splitOk h2 hc
    rcases splitParts_rel (colons ps) with ⟨P, fs, g1, g2, g3⟩ | ⟨g1, _⟩
    · have := g1.unique hs; subst this
      rw [parseAddr, g2, Res.ok_bind]
      dsimp only
      rw [shapeFault_run g3 h2 g1.length.2 h3]; rfl
    · exact absurd ⟨R, hs⟩ g1
  | symbol R h1 h2 h3 h4 =>
    have hs := h1.splitOk h2 hc
    rcases parseAddr_rel (colons ps) with ⟨vs, g1, _⟩ | ⟨g1, e, v, g2⟩
    · obtain ⟨P, hi, lo, sk, his, los, q1, q2, q3, q4, _⟩ := g1
      have := q1.unique hs; subst this
      rcases q2.symbols.1 h4 with h | h
      · exact absurd h ((HexAll_iff _).1 ⟨_, q3⟩)
      · exact absurd h ((HexAll_iff _).1 ⟨_, q4⟩)
    · rw [g2]
      rcases splitParts_rel (colons ps) with ⟨P, fs, k1, k2, k3⟩ | ⟨k1, _⟩
      · have := k1.unique hs; subst this
        rcases partsBound_rel k3 h2 k1.length.2 with ⟨x, b1, b2⟩ | ⟨b1, e', v', b2⟩
        · rw [parseAddr, k2, Res.ok_bind] at g2
          dsimp only at g2
          rw [b2, Res.ok_bind] at g2
          obtain ⟨rfl, rfl⟩ := parseParts_only _ _ _ _ _ _ _ g2
          rfl
        · rcases shape_cases P h2 k1.length.2 with hb | ⟨code, hb⟩
          · exact absurd hb b1
          · exact absurd hb (h3 code)
      · exact absurd ⟨R, hs⟩ k1

/-- Either the parts are those of an address or something is wrong with them. -/
theorem parts_cases (ps : List (List Char)) (hne : ps ≠ []) (hc : ∀ p ∈ ps, ':' ∉ p) :
    (∃ b, parseAddr (colons ps) = .ok b) ∨ ∃ code v, PartsFault ps code v := by
  rcases split_cases ps hne with ⟨code, v, h⟩ | ⟨R, h⟩
  · exact .inr ⟨code, v, .split code v h⟩
  · by_cases h3 : R.length < 3
    · exact .inr ⟨_, _, .few R h h3⟩
    · have hs := h.splitOk (by omega) hc
      rcases shape_cases R (by omega) hs.length.2 with ⟨⟨hi, lo, sk⟩, hb⟩ | ⟨code, hf⟩
      · by_cases hsym : HasSymbol R
        · refine .inr ⟨_, _, .symbol R h (by omega) (fun code hf => ?_) hsym⟩
          rcases splitParts_rel (colons ps) with ⟨P, fs, k1, k2, k3⟩ | ⟨k1, _⟩
          · have := k1.unique hs; subst this
            have e1 := shapeFault_run k3 (by omega) k1.length.2 hf
            rcases partsBound_rel k3 (by omega) k1.length.2 with ⟨x, _, b2⟩ | ⟨b1, _⟩
            · rw [b2] at e1; cases e1
            · exact b1 ⟨_, hb⟩
          · exact k1 ⟨R, hs⟩
        · left
          rcases parseAddr_rel (colons ps) with ⟨vs, _, g⟩ | ⟨g, _⟩
          · exact ⟨_, g⟩
          · obtain ⟨his, a1⟩ := (HexAll_iff (R.take hi)).2 (fun h => hsym (hb.symbols.2 (.inl h)))
            obtain ⟨los, a2⟩ := (HexAll_iff (R.drop (R.length - lo))).2 (fun h => hsym (hb.symbols.2 (.inr h)))
            exact absurd ⟨_, R, hi, lo, sk, his, los, hs, hb, a1, a2, rfl⟩ g
      · exact .inr ⟨_, _, .shape R code h (by omega) hf⟩

theorem isParts_exists (a : List Char) : ∃ ps, IsParts a ps :=
  ⟨pieces a, pieces_ne_nil a, fun p hp hm => pieces_mem_noColon a p hp ':' hm rfl, (colons_pieces a).symm⟩

/-! ### Zone ids -/

theorem zoneOk_one (spaces : Bool) (c : Char) : ZoneOk spaces 1 [c] ↔ invalidScopeSymbol spaces c = false := by
  rw [ZoneOk_iff]; simp

theorem scopeLoop_run (spaces : Bool) (M : Nat) (ip : List Char) (rest : List Ev) :
    ∀ (z w : List Char), w.length + z.length ≤ M → (∀ c ∈ z, invalidScopeSymbol spaces c = false) →
    scopeLoop spaces M ⟨ip, true, w ++ List.replicate (M + 1 - w.length) '\x00', w.length⟩ (readChars z ++ rest) =
      scopeLoop spaces M ⟨ip, true, (w ++ z) ++ List.replicate (M + 1 - (w ++ z).length) '\x00', (w ++ z).length⟩ rest
  | [], w, _, _ => by simp [readChars]
  | c :: z, w, h, hz => by
    simp only [List.length_cons] at h
    have ih := scopeLoop_run spaces M ip rest z (w ++ [c]) (by simp; omega) (fun x hx => hz x (by simp [hx]))
    have e : M + 1 - w.length = (M - w.length) + 1 := by omega
    have e2 : M + 1 - (w ++ [c]).length = M - w.length := by simp
    rw [e2] at ih
    simp only [readChars, List.map_cons, List.cons_append, scopeLoop, scopeStep] at ih ⊢
    rw [if_neg (by simp)]
    simp only [if_true]
    rw [if_neg (by omega), if_neg (by simp [hz c (by simp)]), e, List.replicate_succ, wr_append _ _ _ _ _ rfl, Res.ok_bind,
      Res.ok_bind]
    simp only [List.append_assoc, List.cons_append, List.nil_append, List.length_append,
      List.length_cons, List.length_nil, Nat.zero_add] at ih ⊢
    exact ih

/-- The loop of `split_scope_id` on an address, a percent sign and the beginning of a zone id. -/
theorem scopeLoop_both (spaces : Bool) (M : Nat) (ip z : List Char) (rest : List Ev) (h : '%' ∉ ip) (hz : ZoneOk spaces M z) :
    scopeLoop spaces M ⟨[], false, List.replicate (M + 1) '\x00', 0⟩ (readChars (ip ++ '%' :: z) ++ rest) =
      scopeLoop spaces M ⟨ip, true, z ++ List.replicate (M + 1 - z.length) '\x00', z.length⟩ rest := by
  have hz' := (ZoneOk_iff spaces M z).1 hz
  have h' : ∀ c ∈ ip, c ≠ '%' := fun c hc e => h (e ▸ hc)
  have h1 := scopeLoop_ip spaces M (.ch '%' :: (readChars z ++ rest)) (List.replicate (M + 1) '\x00') 0 ip [] h'
  have e1 : readChars (ip ++ '%' :: z) ++ rest = readChars ip ++ (.ch '%' :: (readChars z ++ rest)) := by simp [readChars]
  have h2 := scopeLoop_run spaces M ip rest z [] (by simpa using hz'.1) hz'.2
  rw [e1, h1]
  simp only [List.nil_append, List.length_nil, Nat.sub_zero] at h2 ⊢
  rw [← h2]
  simp [scopeLoop, scopeStep]

theorem zoneFault_run {spaces : Bool} {M : Nat} {ip z : List Char} {code : ErrorCode} (h : '%' ∉ ip)
    (hf : ZoneFault spaces M z code) (rest : List Ev) :
    scopeLoop spaces M ⟨[], false, List.replicate (M + 1) '\x00', 0⟩ (readChars (ip ++ '%' :: z) ++ rest) = .err code 0 := by
  have key : ∀ (pre : List Char) c post, readChars (ip ++ '%' :: (pre ++ c :: post)) ++ rest =
      readChars (ip ++ '%' :: pre) ++ (.ch c :: (readChars post ++ rest)) := by
    intro pre c post; simp [readChars]
  cases hf with
  | long pre c post h1 h2 =>
    rw [key, scopeLoop_both spaces M ip pre _ h h1, scopeLoop, scopeStep, if_neg (by simp), if_pos rfl, if_pos (by simp [h2])]
    rfl
  | symbol pre c post h1 h2 h3 =>
    have hi : invalidScopeSymbol spaces c = true := by
      cases hb : invalidScopeSymbol spaces c with
      | true => rfl
      | false => exact absurd ((zoneOk_one spaces c).2 hb) h3
    rw [key, scopeLoop_both spaces M ip pre _ h h1, scopeLoop, scopeStep, if_neg (by simp), if_pos rfl,
      if_neg (by simp; omega), if_pos hi]
    rfl

theorem zone_cases (spaces : Bool) (M : Nat) (z : List Char) : ZoneOk spaces M z ∨ ∃ code, ZoneFault spaces M z code := by
  induction z using snoc_induction with
  | h0 => left; rw [ZoneOk_iff]; simp
  | h1 z c ih =>
    rcases ih with h | ⟨code, h⟩
    · have hz := (ZoneOk_iff spaces M z).1 h
      by_cases hl : z.length = M
      · exact .inr ⟨_, .long z c [] h hl⟩
      · cases hb : invalidScopeSymbol spaces c with
        | true => exact .inr ⟨_, .symbol z c [] h (by omega) (fun hh => by rw [(zoneOk_one spaces c).1 hh] at hb; cases hb)⟩
        | false =>
          left
          rw [ZoneOk_iff]
          refine ⟨by simp; omega, fun x hx => ?_⟩
          rcases List.mem_append.1 hx with hx | hx
          · exact hz.2 x hx
          · rw [List.mem_singleton.1 hx]; exact hb
    · right
      cases h with
      | long pre d post h1 h2 => exact ⟨_, by simpa using ZoneFault.long pre d (post ++ [c]) h1 h2⟩
      | symbol pre d post h1 h2 h3 => exact ⟨_, by simpa using ZoneFault.symbol pre d (post ++ [c]) h1 h2 h3⟩

theorem splitScope_zone {spaces : Bool} {M : Nat} {ip z : List Char} (h : '%' ∉ ip) (hz : ZoneOk spaces M z) :
    splitScope spaces M (readChars (ip ++ '%' :: z)) =
      if z = [] ∨ z.head? = some '\x00' then .err .invalid_scope_id 0
      else .ok (ip, z ++ List.replicate (M + 1 - z.length) '\x00') := by
  have := scopeLoop_both spaces M ip z [] h hz
  rw [List.append_nil] at this
  rw [splitScope, this, scopeLoop, Res.ok_bind]
  cases z with
  | nil => simp [List.replicate_succ, rd]
  | cons c z =>
    simp only [if_true, List.cons_append, rd, List.getElem?_cons_zero, Res.ok_bind]
    simp

end Ip
