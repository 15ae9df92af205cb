import Verif.Lemmas.V6Format
/-
The texts written by `ip_to_chars` belong to the grammar and the compressed one is canonical.
-/
set_option autoImplicit false

namespace Ip
open Spec

theorem HexAll_map (f : Nat → List Char) : ∀ (vs : List Nat), (∀ v ∈ vs, HexNum (f v) v) → HexAll (vs.map f) vs
  | [], _ => HexAll.nil
  | v :: vs, h => HexAll.cons _ _ _ _ (h v (by simp)) (HexAll_map f vs (fun w hw => h w (by simp [hw])))

theorem gapText_run (A B : List (List Char)) (p q : Bool) (hp : p = true ↔ A = []) (hq : q = true ↔ B = []) :
    gapText (A ++ [] :: B, p, q) = colons A ++ ':' :: ':' :: colons B := by
  unfold gapText
  simp only
  by_cases hA : A = []
  · rw [hp.2 hA, hA]
    by_cases hB : B = []
    · rw [hq.2 hB, hB]; rfl
    · have : q = false := by cases q; rfl; exact absurd (hq.1 rfl) hB
      rw [this, List.nil_append, colons_cons _ _ hB]
      simp [colons]
  · have : p = false := by cases p; rfl; exact absurd (hp.1 rfl) hA
    rw [this, colons_append _ _ hA (by simp)]
    by_cases hB : B = []
    · rw [hq.2 hB, hB]; simp [colons]
    · have : q = false := by cases q; rfl; exact absurd (hq.1 rfl) hB
      rw [this, colons_cons _ _ hB]
      simp

theorem ZeroRun_split {vs : List Nat} {p l : Nat} (h : ZeroRun vs p l) :
    vs = vs.take p ++ List.replicate l 0 ++ vs.drop (p + l) := by
  obtain ⟨h1, h2⟩ := h
  have e : (vs.drop p).take l = List.replicate l 0 := by
    apply List.ext_getElem
    · simp; omega
    · intro i hi1 hi2
      have hi : i < l := by simpa using hi2
      have := h2 (p + i) (by omega) (by omega)
      rw [List.getElem?_eq_getElem (by omega)] at this
      simpa using this
  rw [← e, ← List.drop_drop, List.append_assoc, List.take_append_drop, List.take_append_drop]

theorem Compressed.canonical {vs : List Nat} (hv : vs.length = 8) {x : List (List Char) × Bool × Bool} (h : Compressed vs x) :
    Canonical vs (gapText x) := by
  cases h with
  | run p l h2 hz hb =>
    left
    refine ⟨p, l, h2, hz, hb, ?_⟩
    have := hz.1
    rw [gapText_run]
    · simp only [decide_eq_true_eq, List.map_eq_nil_iff, List.take_eq_nil_iff]
      constructor
      · exact Or.inl
      · rintro (h | h)
        · exact h
        · rw [h] at hv; cases hv
    · simp only [decide_eq_true_eq, List.map_eq_nil_iff, List.drop_eq_nil_iff]
      omega
  | none hz =>
    right
    exact ⟨hz, by simp [gapText]⟩

theorem noDot_colons (ts : List (List Char)) (h : ∀ t ∈ ts, '.' ∉ t) : '.' ∉ colons ts := by
  induction ts with
  | nil => simp [colons]
  | cons t ts ih =>
    by_cases hts : ts = []
    · subst hts; simpa [colons] using h
    · rw [colons_cons _ _ hts]
      simp only [List.mem_append, List.mem_cons, not_or]
      exact ⟨h t (by simp), by decide, ih (fun u hu => h u (by simp [hu]))⟩

theorem HexNum_noDot {t : List Char} {v : Nat} (h : HexNum t v) : '.' ∉ t := by
  intro hd
  obtain ⟨d, hd⟩ := h.digits '.' hd
  have := (hexVal_of_HexDigit hd).2
  simp [hexVal] at this

theorem Groups_map (f : Nat → List Char) (vs : List Nat) (hne : vs ≠ [])
    (hf : ∀ v ∈ vs, HexNum (f v) v ∧ 1 ≤ (f v).length ∧ (f v).length ≤ 4) : Groups (colons (vs.map f)) vs := by
  apply Groups_of (HexAll_map f vs (fun v hv => (hf v hv).1)) (by simpa using hne)
  intro t ht
  rw [List.mem_map] at ht
  obtain ⟨v, hv, rfl⟩ := ht
  exact ⟨List.length_pos_iff.1 (hf v hv).2.1, (hf v hv).2.2⟩

theorem Canonical_text {vs : List Nat} (hv : vs.length = 8) (hlt : ∀ v ∈ vs, v < 65536) {s : List Char}
    (h : Canonical vs s) : V6Text s vs ∧ '.' ∉ s := by
  have hf : ∀ us : List Nat, (∀ u ∈ us, u ∈ vs) → ∀ v ∈ us, HexNum (hexShort v) v ∧ 1 ≤ (hexShort v).length ∧ (hexShort v).length ≤ 4 :=
    fun us hus v hvu => ⟨hexShort_HexNum v (hlt v (hus v hvu)), hexShort_length v (hlt v (hus v hvu))⟩
  have hd : ∀ us : List Nat, (∀ u ∈ us, u ∈ vs) → '.' ∉ colons (us.map hexShort) := by
    intro us hus
    apply noDot_colons
    intro t ht
    rw [List.mem_map] at ht
    obtain ⟨v, hv, rfl⟩ := ht
    exact HexNum_noDot (hf us hus v hv).1
  rcases h with ⟨p, l, h2, hz, hb, rfl⟩ | ⟨_, rfl⟩
  · have hp := hz.1
    have m1 : ∀ u ∈ vs.take p, u ∈ vs := fun u hu => List.mem_of_mem_take hu
    have m2 : ∀ u ∈ vs.drop (p + l), u ∈ vs := fun u hu => List.mem_of_mem_drop hu
    refine ⟨?_, ?_⟩
    · have e := ZeroRun_split hz
      have := V6Text.compressed (colons ((vs.take p).map hexShort)) (vs.take p) (colons ((vs.drop (p + l)).map hexShort)) (vs.drop (p + l))
        (by
          by_cases hne : vs.take p = []
          · left; rw [hne]; exact ⟨rfl, rfl⟩
          · right; exact Groups_map _ _ hne (hf _ m1))
        (by
          by_cases hne : vs.drop (p + l) = []
          · left; rw [hne]; exact ⟨rfl, rfl⟩
          · right; exact GroupsV4_of_Groups (Groups_map _ _ hne (hf _ m2)))
        (by simp; omega)
      have el : 8 - ((vs.take p).length + (vs.drop (p + l)).length) = l := by simp; omega
      rw [el, ← e] at this
      exact this
    · simp only [List.mem_append, List.mem_cons, not_or]
      exact ⟨hd _ m1, by decide, by decide, hd _ m2⟩
  · have hne : vs ≠ [] := by intro h; rw [h] at hv; cases hv
    exact ⟨V6Text.full _ _ (GroupsV4_of_Groups (Groups_map _ _ hne (hf vs (fun _ h => h)))) hv, hd vs (fun _ h => h)⟩

theorem FmtText.text {vs : List Nat} (hv : vs.length = 8) (hlt : ∀ v ∈ vs, v < 65536) {fmt : Format} {s : List Char}
    (h : FmtText vs fmt s) : V6Text s vs ∧ '.' ∉ s := by
  have hne : vs ≠ [] := by intro h; rw [h] at hv; cases hv
  cases h with
  | full =>
    refine ⟨V6Text.full _ _ (GroupsV4_of_Groups (Groups_map _ _ hne ?_)) hv, ?_⟩
    · intro v hv'
      exact ⟨hex4_HexNum v (hlt v hv'), by simp [hex4]⟩
    · apply noDot_colons
      intro t ht
      rw [List.mem_map] at ht
      obtain ⟨v, hv, rfl⟩ := ht
      exact HexNum_noDot (hex4_HexNum v (hlt v hv))
  | compact =>
    refine ⟨V6Text.full _ _ (GroupsV4_of_Groups (Groups_map _ _ hne ?_)) hv, ?_⟩
    · intro v hv'
      exact ⟨hexShort_HexNum v (hlt v hv'), hexShort_length v (hlt v hv')⟩
    · apply noDot_colons
      intro t ht
      rw [List.mem_map] at ht
      obtain ⟨v, hv, rfl⟩ := ht
      exact HexNum_noDot (hexShort_HexNum v (hlt v hv))
  | compressed x hx => exact Canonical_text hv hlt (hx.canonical hv)

/-- `to_string`. -/
theorem v6ToString_eq (M : Nat) (a : V6) (ha : a.WF M) (fmt : Format) :
    ∃ t, FmtText (groupsOf a.bytes) fmt t ∧ t.length ≤ 39 ∧ v6ToString M a fmt = .ok (t ++ zoneText a.scope.contents) := by
  obtain ⟨t, rest, h1, h2, h3, h4⟩ := v6ToChars_eq a.bytes ha.1 a.scope ha.2.1 fmt (List.replicate (42 + M) '\x00')
    (by rw [List.length_replicate, ha.2.2])
  refine ⟨t, h1, h2, ?_⟩
  rw [v6ToString, h3, Res.ok_bind]
  simp only [List.take_left]

/-- `V6Text` determines the value. -/
theorem V6Text_unique {s : List Char} {vs vs' : List Nat} (h : V6Text s vs) (h' : V6Text s vs')
    (hd : '.' ∈ s → s.count ':' ≤ 6) : groupBytes vs = groupBytes vs' := by
  rcases parseAddr_rel s with ⟨ws, g1, g2⟩ | ⟨g1, _⟩
  · have e1 := ParseOk_of_text h hd
    have e2 := ParseOk_of_text h' hd
    have u : ∀ us, ParseOk s us → us = ws := by
      intro us hu
      obtain ⟨P, hi, lo, sk, his, los, hs, hb, h1, h2, rfl⟩ := hu
      obtain ⟨P', hi', lo', sk', his', los', hs', hb', h1', h2', rfl⟩ := g1
      have eP := hs.unique hs'
      subst eP
      have eb := hb.unique hb'
      cases eb
      rw [h1.unique h1', h2.unique h2']
    rw [u _ e1, u _ e2]
  · exact absurd ⟨vs, ParseOk_of_text h hd⟩ g1

/-- The split of a text into address and zone is unique. -/
theorem zone_split_unique : ∀ (x y u w : List Char), (∀ c ∈ x, c ≠ '%') → (∀ c ∈ y, c ≠ '%') →
    x ++ zoneText u = y ++ zoneText w → x = y ∧ u = w := by
    have zt : ∀ u : List Char, (u = [] ∧ zoneText u = []) ∨ (u ≠ [] ∧ zoneText u = '%' :: u) := by
      intro u
      by_cases hu : u = []
      · left; simp [zoneText, hu]
      · right; simp [zoneText, hu]
    intro x
    induction x with
    | nil =>
      intro y u w _ hy h
      cases y with
      | nil =>
        refine ⟨rfl, ?_⟩
        rcases zt u with ⟨u1, u2⟩ | ⟨u1, u2⟩ <;> rcases zt w with ⟨w1, w2⟩ | ⟨w1, w2⟩ <;> rw [u2, w2] at h <;>
          simp at h
        · rw [u1, w1]
        · exact h
      | cons d y =>
        exfalso
        rcases zt u with ⟨u1, u2⟩ | ⟨u1, u2⟩ <;> rw [u2] at h <;> simp at h
        exact hy d (by simp) h.1.symm
    | cons d x ih =>
      intro y u w hx hy h
      cases y with
      | nil =>
        exfalso
        rcases zt w with ⟨u1, u2⟩ | ⟨u1, u2⟩ <;> rw [u2] at h <;> simp at h
        exact hx d (by simp) h.1
      | cons d' y =>
        simp at h
        obtain ⟨rfl, h⟩ := h
        obtain ⟨rfl, rfl⟩ := ih y u w (fun c hc => hx c (by simp [hc])) (fun c hc => hy c (by simp [hc])) h
        exact ⟨rfl, rfl⟩

/-- An acceptable text is accepted with the value it denotes. -/
theorem v6Parse_of_accepts (spaces : Bool) (M : Nat) (s ip z : List Char) (vs : List Nat)
    (h : Accepts spaces M s ip z vs) (hn : ∀ c ∈ z, c ≠ '\x00') :
    ∃ a, v6Parse spaces M s = .ok a ∧ a.WF M ∧ a.bytes = groupBytes vs ∧ a.scope.contents = z := by
  obtain ⟨rfl, ht, hd, hz⟩ := h
  have hnul : ∀ c ∈ ip ++ zoneText z, c ≠ '\x00' := by
    intro c hc
    rcases List.mem_append.1 hc with hc | hc
    · exact (V6Text.chars ht c hc).1
    · unfold zoneText at hc
      split at hc
      · simp at hc
      · rcases List.mem_cons.1 hc with rfl | hc
        · decide
        · exact hn c hc
  rcases v6Parse_rel spaces M _ hnul with ⟨ip', z', vs', b, b1, b2, b3, b4, b5⟩ | ⟨b1, _⟩
  · obtain ⟨rfl, rfl⟩ := zone_split_unique ip ip' z z' (fun c hc => (V6Text.chars ht c hc).2)
      (fun c hc => (V6Text.chars b1.2.1 c hc).2) b1.1
    exact ⟨b, b2, b3, by rw [b4, V6Text_unique b1.2.1 ht hd], b5⟩
  · exact absurd ⟨ip, z, vs, rfl, ht, hd, hz⟩ b1

end Ip
