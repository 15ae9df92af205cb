import Verif.Lemmas.NetTaken
import Verif.Model.Narrow
import Verif.Spec.Narrow
/-
The reader of netmasks and `subnets` for other widths of `size_t`.
-/
set_option autoImplicit false

namespace Ip
open Spec

/-! ### The 64 bit model is the instance of width 64 -/

theorem digitsLoopW_64 : ∀ (evs : List Ev) (p : Nat), digitsLoopW 64 evs p = digitsLoop evs p
  | [], _ => rfl
  | .bad _ _ :: _, _ => rfl
  | .ch c :: rest, p => by
    rw [digitsLoopW, digitsLoop]
    simp only [digitsLoopW_64 rest]

theorem v4ParseNetmaskW_64 (le : Bool) (evs : List Ev) : v4ParseNetmaskW 64 le evs = v4ParseNetmask le evs := by
  rw [v4ParseNetmaskW, v4ParseNetmask, digitsLoopW_64]; rfl

theorem v6ParseNetmaskW_64 (evs : List Ev) : v6ParseNetmaskW 64 evs = v6ParseNetmask evs := by
  rw [v6ParseNetmaskW, v6ParseNetmask, digitsLoopW_64]; rfl

theorem fam4W_64 (le : Bool) : fam4W 64 le = fam4 le := by
  have : v4ParseNetmaskW 64 le = v4ParseNetmask le := funext (v4ParseNetmaskW_64 le)
  rw [fam4W, this]; rfl

theorem fam6W_64 (c : Cfg) : fam6W 64 c = fam6 c := by
  have : v6ParseNetmaskW 64 = v6ParseNetmask := funext v6ParseNetmaskW_64
  rw [fam6W, this]; rfl

theorem subnetsW_64 {A U : Type} (F : Fam A U) : F.subnetsW 64 = F.subnets := rfl

/-! ### The digit loop -/

theorem digitsLoopW_rel (w : Nat) : ∀ (t : List Char) (ds : List Nat) (a : Nat), DigitText 10 t ds →
    digitsLoopW w (readChars t) (a % 2 ^ w) = .ok (some (ds.foldl (fun acc d => acc * 10 + d) a % 2 ^ w))
  | [], [], _, _ => rfl
  | [], _ :: _, _, h => h.elim
  | _ :: _, [], _, h => h.elim
  | c :: cs, d :: ds, a, h => by
    obtain ⟨h1, h2, h3⟩ := h
    obtain ⟨g1, g2⟩ := dec_digit c d h1 h2
    simp only [readChars, List.map_cons, digitsLoopW, if_pos g1, g2]
    have e : (a % 2 ^ w * 10 + d) % 2 ^ w = (a * 10 + d) % 2 ^ w := by
      rw [Nat.add_mod, Nat.mod_mul_mod, ← Nat.add_mod]
    rw [e]
    exact digitsLoopW_rel w cs ds (a * 10 + d) h3

theorem digitsLoopW_dec (w : Nat) (t : List Char) (v : Nat) (h : DecText t v) :
    digitsLoopW w (readChars t) 0 = .ok (some (v % 2 ^ w)) := by
  obtain ⟨_, ds, h1, rfl⟩ := h
  have := digitsLoopW_rel w t ds 0 h1
  rwa [Nat.zero_mod] at this

theorem digitsLoopW_cases : ∀ (evs : List Ev), (∃ t ds, evs = readChars t ∧ DigitText 10 t ds) ∨
    ∀ w w' p p', digitsLoopW w evs p = digitsLoopW w' evs p'
  | [] => .inl ⟨[], [], rfl, trivial⟩
  | .bad _ _ :: _ => .inr fun _ _ _ _ => rfl
  | .ch c :: rest => by
    by_cases hc : '0'.toNat ≤ c.toNat ∧ c.toNat ≤ '9'.toNat
    · rcases digitsLoopW_cases rest with ⟨t, ds, h1, h2⟩ | h
      · obtain ⟨g1, g2⟩ := digit_dec c hc
        exact .inl ⟨c :: t, _ :: ds, by rw [h1]; rfl, g1, g2, h2⟩
      · refine .inr fun w w' p p' => ?_
        rw [digitsLoopW, digitsLoopW, if_pos hc, if_pos hc]
        exact h w w' _ _
    · refine .inr fun w w' p p' => ?_
      rw [digitsLoopW, digitsLoopW, if_neg hc, if_neg hc]

/-- The events of a netmask are a number, or are read alike for all widths. -/
theorem maskEvents_cases (evs : List Ev) : evs = [] ∨ (∃ t v, evs = readChars t ∧ DecText t v) ∨
    ∀ w w', digitsLoopW w evs 0 = digitsLoopW w' evs 0 := by
  rcases digitsLoopW_cases evs with ⟨t, ds, h1, h2⟩ | h
  · by_cases ht : t = []
    · subst ht; exact .inl h1
    · exact .inr (.inl ⟨t, _, h1, ht, ds, h2, rfl⟩)
  · exact .inr (.inr fun w w' => h w w' 0 0)

/-! ### `parse_address_with_prefix` -/

section
variable {A U : Type}

/-- The loop does not depend on the reader of netmasks. -/
theorem parseLoop_other (F G : Fam A U) (h : F.maxLen = G.maxLen) : ∀ (evs : List Ev) (st : Fam.ParseSt),
    F.parseLoop evs st = G.parseLoop evs st
  | [], _ => rfl
  | .bad _ _ :: _, _ => rfl
  | .ch c :: rest, st => by
    have hs : ∀ st, F.storeChar c st = G.storeChar c st := fun st => by rw [Fam.storeChar, Fam.storeChar, h]
    rw [Fam.parseLoop, Fam.parseLoop]
    simp only [hs, parseLoop_other F G h rest]

variable (F : Fam A U)

theorem parseLoop_some : ∀ (evs : List Ev) (st st' : Fam.ParseSt), st.netmask.isSome → F.parseLoop evs st = .ok st' → st' = st
  | [], st, st', _, h => by cases h; rfl
  | .bad _ _ :: _, _, _, _, h => by cases h
  | .ch c :: rest, st, st', hs, h => by
    rw [Fam.parseLoop] at h
    split at h
    · cases h
    · rw [Fam.storeChar, if_neg (by rw [Option.isNone_iff_eq_none]; rintro e; rw [e] at hs; cases hs), Res.ok_bind] at h
      split at h
      · cases h; rfl
      · exact parseLoop_some rest st st' hs h

theorem parseLoop_mask : ∀ (evs : List Ev) (st st' : Fam.ParseSt), st.netmask = none → F.parseLoop evs st = .ok st' →
    st'.netmask = none ∨ ∃ pre rest, Ev.ch '/' ∉ pre ∧ evs = pre ++ Ev.ch '/' :: rest ∧ st'.netmask = some rest
  | [], st, st', hn, h => by cases h; exact .inl hn
  | .bad _ _ :: _, _, _, _, h => by cases h
  | .ch c :: rest, st, st', hn, h => by
    rw [Fam.parseLoop] at h
    by_cases hc : c = '/'
    · rw [if_pos hc, hn, if_neg (by simp)] at h
      by_cases hr : rest = []
      · rw [if_pos hr] at h; cases h
      · rw [if_neg hr, Fam.storeChar, if_neg (by simp), Res.ok_bind] at h
        refine .inr ⟨[], rest, by simp, by rw [hc]; rfl, ?_⟩
        split at h
        · cases h; rfl
        · rw [parseLoop_some F rest _ _ rfl h]
    · rw [if_neg hc, Fam.storeChar, if_pos (by rw [hn]; rfl)] at h
      cases hw : wr st.address st.symbol c with
      | ub => rw [hw] at h; cases h
      | err e v => rw [hw] at h; cases h
      | ok a =>
        rw [hw] at h
        simp only [Res.ok_bind] at h
        split at h
        · cases h; exact .inl rfl
        · rcases parseLoop_mask rest _ _ rfl h with g | ⟨pre, r, g1, g2, g3⟩
          · exact .inl g
          · refine .inr ⟨.ch c :: pre, r, ?_, by rw [g2]; rfl, g3⟩
            simp only [List.mem_cons, not_or]
            exact ⟨fun e => hc (by cases e; rfl), g1⟩

theorem parseLoop_digits : ∀ (t : List Char) (ds : List Nat) (st : Fam.ParseSt), DigitText 10 t ds → st.netmask.isSome →
    F.parseLoop (readChars t) st = .ok st
  | [], _, _, _, _ => rfl
  | _ :: _, [], _, h, _ => h.elim
  | c :: cs, d :: ds, st, h, hs => by
    obtain ⟨h1, h2, h3⟩ := h
    obtain ⟨g1, _⟩ := dec_digit c d h1 h2
    have hc : c ≠ '/' := by rintro rfl; exact absurd g1 (by decide)
    show F.parseLoop (.ch c :: readChars cs) st = _
    rw [Fam.parseLoop, if_neg hc, Fam.storeChar,
      if_neg (by rw [Option.isNone_iff_eq_none]; rintro e; rw [e] at hs; cases hs), Res.ok_bind]
    split
    · rfl
    · exact parseLoop_digits cs ds st h3 hs

/-- What stands before the slash does not depend on the number after it. -/
theorem parseLoop_number (t t' : List Char) (v v' : Nat) (ht : DecText t v) (ht' : DecText t' v') :
    ∀ (pre : List Ev) (st : Fam.ParseSt), Ev.ch '/' ∉ pre → st.netmask = none →
    (F.parseLoop (pre ++ .ch '/' :: readChars t) st = F.parseLoop (pre ++ .ch '/' :: readChars t') st ∧
      ∀ s, F.parseLoop (pre ++ .ch '/' :: readChars t) st = .ok s → s.netmask = none) ∨
    ∃ sym addr, F.parseLoop (pre ++ .ch '/' :: readChars t) st = .ok ⟨sym, addr, some (readChars t)⟩ ∧
      F.parseLoop (pre ++ .ch '/' :: readChars t') st = .ok ⟨sym, addr, some (readChars t')⟩
  | [], st, _, hn => by
    have key : ∀ u w, DecText u w → F.parseLoop (.ch '/' :: readChars u) st = .ok ⟨st.symbol, st.address, some (readChars u)⟩ := by
      rintro u w ⟨hu, ds, h1, _⟩
      have hr : readChars u ≠ [] := by simpa [readChars] using hu
      rw [Fam.parseLoop, if_pos rfl, hn, if_neg (by simp), if_neg hr, Fam.storeChar, if_neg (by simp), Res.ok_bind]
      split
      · rfl
      · exact parseLoop_digits F u ds _ h1 rfl
    exact .inr ⟨_, _, key t v ht, key t' v' ht'⟩
  | .bad e x :: pre, st, _, _ => .inl ⟨rfl, fun s h => by cases h⟩
  | .ch c :: pre, st, hp, hn => by
    simp only [List.mem_cons, not_or] at hp
    have hc : c ≠ '/' := fun e => hp.1 (by rw [e])
    simp only [List.cons_append]
    rw [Fam.parseLoop, Fam.parseLoop, if_neg hc, if_neg hc, Fam.storeChar, if_pos (by rw [hn]; rfl)]
    cases hw : wr st.address st.symbol c with
    | ub => exact .inl ⟨rfl, fun s h => by cases h⟩
    | err e x => exact .inl ⟨rfl, fun s h => by cases h⟩
    | ok a =>
      simp only [Res.ok_bind]
      split
      · exact .inl ⟨rfl, fun s h => by cases h; rfl⟩
      · exact parseLoop_number t t' v v' ht ht' pre _ hp.2 rfl

/-- Two readers of netmasks. -/
theorem parseNet_mask_congr (f g : List Ev → Res (A × Nat × Nat)) (evs : List Ev) (strict : Bool) (h0 : f [] = g [])
    (h : ∀ pre rest, Ev.ch '/' ∉ pre → evs = pre ++ .ch '/' :: rest → f rest = g rest) :
    ({ F with parseNetmask := f } : Fam A U).parseNet evs strict = ({ F with parseNetmask := g } : Fam A U).parseNet evs strict := by
  rw [Fam.parseNet, Fam.parseNet, parseLoop_other ({ F with parseNetmask := f } : Fam A U) ({ F with parseNetmask := g } : Fam A U) rfl]
  cases hl : ({ F with parseNetmask := g } : Fam A U).parseLoop evs ⟨0, List.replicate (F.maxLen + 1) '\x00', none⟩ with
  | ub => rfl
  | err e v => rfl
  | ok st =>
    have : f (st.netmask.getD []) = g (st.netmask.getD []) := by
      rcases parseLoop_mask _ evs _ _ rfl hl with e | ⟨pre, rest, e1, e2, e3⟩
      · rw [e]; exact h0
      · rw [e3]; exact h pre rest e1 e2
    simp only [Res.ok_bind, this]

/-- Two readers of netmasks, on two numbers. -/
theorem parseNet_number_congr (f g : List Ev → Res (A × Nat × Nat)) (strict : Bool) (h0 : f [] = g []) (pre : List Ev)
    (hp : Ev.ch '/' ∉ pre) (t t' : List Char) (v v' : Nat) (ht : DecText t v) (ht' : DecText t' v')
    (h : f (readChars t) = g (readChars t')) :
    ({ F with parseNetmask := f } : Fam A U).parseNet (pre ++ .ch '/' :: readChars t) strict =
      ({ F with parseNetmask := g } : Fam A U).parseNet (pre ++ .ch '/' :: readChars t') strict := by
  rw [Fam.parseNet, Fam.parseNet, parseLoop_other ({ F with parseNetmask := f } : Fam A U) ({ F with parseNetmask := g } : Fam A U) rfl]
  show (Fam.parseLoop ({ F with parseNetmask := g } : Fam A U) _ ⟨0, List.replicate (F.maxLen + 1) '\x00', none⟩ >>= _) =
    (Fam.parseLoop ({ F with parseNetmask := g } : Fam A U) _ ⟨0, List.replicate (F.maxLen + 1) '\x00', none⟩ >>= _)
  rcases parseLoop_number ({ F with parseNetmask := g } : Fam A U) t t' v v' ht ht' pre
      ⟨0, List.replicate (F.maxLen + 1) '\x00', none⟩ hp rfl with ⟨h1, h2⟩ | ⟨sym, addr, h1, h2⟩
  · rw [← h1]
    cases hl : Fam.parseLoop ({ F with parseNetmask := g } : Fam A U) (pre ++ .ch '/' :: readChars t)
        ⟨0, List.replicate (F.maxLen + 1) '\x00', none⟩ with
    | ub => rfl
    | err e v => rfl
    | ok st =>
      have := h2 st hl
      simp only [Res.ok_bind, this, Option.getD_none, h0]
  · rw [h1, h2]
    simp only [Res.ok_bind, Option.getD_some, h]

/-- A number that the reader rejects. -/
theorem parseNet_number_err (f : List Ev → Res (A × Nat × Nat)) (strict : Bool) (pre : List Ev)
    (hp : Ev.ch '/' ∉ pre) (t : List Char) (v : Nat) (ht : DecText t v) (e : ErrorCode) (x : Nat)
    (h : f (readChars t) = .err e x) :
    (∀ g t' v', DecText t' v' → f [] = g [] → ({ F with parseNetmask := f } : Fam A U).parseNet (pre ++ .ch '/' :: readChars t) strict =
      ({ F with parseNetmask := g } : Fam A U).parseNet (pre ++ .ch '/' :: readChars t') strict) ∨
    ({ F with parseNetmask := f } : Fam A U).parseNet (pre ++ .ch '/' :: readChars t) strict = .err e x := by
  rcases parseLoop_number ({ F with parseNetmask := f } : Fam A U) t t v v ht ht pre
      ⟨0, List.replicate (F.maxLen + 1) '\x00', none⟩ hp rfl with ⟨_, h2⟩ | ⟨sym, addr, h1, _⟩
  · left
    intro g t' v' ht' h0
    rcases parseLoop_number ({ F with parseNetmask := f } : Fam A U) t t' v v' ht ht' pre
        ⟨0, List.replicate (F.maxLen + 1) '\x00', none⟩ hp rfl with ⟨h1, _⟩ | ⟨sym, addr, h1, _⟩
    · rw [Fam.parseNet, Fam.parseNet, ← parseLoop_other ({ F with parseNetmask := f } : Fam A U) ({ F with parseNetmask := g } : Fam A U) rfl]
      show (Fam.parseLoop ({ F with parseNetmask := f } : Fam A U) _ ⟨0, List.replicate (F.maxLen + 1) '\x00', none⟩ >>= _) =
        (Fam.parseLoop ({ F with parseNetmask := f } : Fam A U) _ ⟨0, List.replicate (F.maxLen + 1) '\x00', none⟩ >>= _)
      rw [← h1]
      cases hl : Fam.parseLoop ({ F with parseNetmask := f } : Fam A U) (pre ++ .ch '/' :: readChars t)
          ⟨0, List.replicate (F.maxLen + 1) '\x00', none⟩ with
      | ub => rfl
      | err e v => rfl
      | ok st =>
        have := h2 st hl
        simp only [Res.ok_bind, this, Option.getD_none, h0]
    · have := h2 _ h1
      cases this
  · right
    rw [Fam.parseNet]
    show (Fam.parseLoop ({ F with parseNetmask := f } : Fam A U) _ ⟨0, List.replicate (F.maxLen + 1) '\x00', none⟩ >>= _) = _
    rw [h1]
    simp only [Res.ok_bind, Option.getD_some, h]
    rfl
end

/-! ### The widths 32 and 64 -/

/-- Readers that only differ in the width. -/
structure Readers {A : Type} (max : Nat) (f : Nat → List Ev → Res (A × Nat × Nat)) : Prop where
  nil : ∀ w, f w [] = f 64 []
  dec : ∀ w w' t t' v v', DecText t v → DecText t' v' → v % 2 ^ w = v' % 2 ^ w' → f w (readChars t) = f w' (readChars t')
  same : ∀ w w' evs, evs ≠ [] → digitsLoopW w evs 0 = digitsLoopW w' evs 0 → f w evs = f w' evs
  big : ∀ w t v, DecText t v → max < v % 2 ^ w → f w (readChars t) = .err .invalid_netmask 0

theorem readers4 (le : Bool) : Readers 32 (fun w => v4ParseNetmaskW w le) where
  nil _ := rfl
  dec w w' t t' v v' h h' e := by
    have n1 : readChars t ≠ [] := by simpa [readChars] using h.1
    have n2 : readChars t' ≠ [] := by simpa [readChars] using h'.1
    simp only [v4ParseNetmaskW, digitsLoopW_dec _ _ _ h, digitsLoopW_dec _ _ _ h', Res.ok_bind, if_neg n1, if_neg n2, e]
  same w w' evs _ h := by simp only [v4ParseNetmaskW, h]
  big w t v h hb := by
    simp only [v4ParseNetmaskW, digitsLoopW_dec _ _ _ h, Res.ok_bind, if_pos (show v % 2 ^ w > 32 from hb)]

theorem readers6 (c : Cfg) : Readers 128 (fun w evs => do
      let m ← v6ParseNetmaskW w evs
      Res.ok ((⟨m.1, emptyScope c.M⟩ : V6), m.2)) where
  nil _ := rfl
  dec w w' t t' v v' h h' e := by
    have n1 : readChars t ≠ [] := by simpa [readChars] using h.1
    have n2 : readChars t' ≠ [] := by simpa [readChars] using h'.1
    simp only [v6ParseNetmaskW, digitsLoopW_dec _ _ _ h, digitsLoopW_dec _ _ _ h', Res.ok_bind, if_neg n1, if_neg n2, e]
  same w w' evs _ h := by simp only [v6ParseNetmaskW, h]
  big w t v h hb := by
    simp only [v6ParseNetmaskW, digitsLoopW_dec _ _ _ h, Res.ok_bind, if_pos (show v % 2 ^ w > 128 from hb)]
    rfl

section
variable {A U : Type} (F : Fam A U) {max : Nat} {f : Nat → List Ev → Res (A × Nat × Nat)}

theorem narrow_same (R : Readers max f) (w w' : Nat) (evs : List Ev) (strict : Bool)
    (h : ∀ v, MaskNumber evs v → v % 2 ^ w = v % 2 ^ w') :
    ({ F with parseNetmask := f w } : Fam A U).parseNet evs strict = ({ F with parseNetmask := f w' } : Fam A U).parseNet evs strict := by
  refine parseNet_mask_congr F _ _ evs strict ((R.nil w).trans (R.nil w').symm) fun pre rest h1 h2 => ?_
  rcases maskEvents_cases rest with e | ⟨t, v, e, hd⟩ | e
  · rw [e]; exact (R.nil w).trans (R.nil w').symm
  · rw [e]
    exact R.dec w w' t t v v hd hd (h v ⟨pre, t, h1, hd, by rw [h2, e]; rfl⟩)
  · by_cases hr : rest = []
    · rw [hr]; exact (R.nil w).trans (R.nil w').symm
    · exact R.same w w' rest hr (e w w')

theorem narrow_reduced (R : Readers max f) (w w' : Nat) (hw : w ≤ w') (evs evs' : List Ev) (strict : Bool) (h : Reduced w evs evs') :
    ({ F with parseNetmask := f w } : Fam A U).parseNet evs strict = ({ F with parseNetmask := f w' } : Fam A U).parseNet evs' strict := by
  obtain ⟨pre, t, t', v, h1, h2, h3, rfl, rfl⟩ := h
  refine parseNet_number_congr F _ _ strict ((R.nil w).trans (R.nil w').symm) pre h1 t t' v _ h2 h3 (R.dec w w' t t' v _ h2 h3 ?_)
  have h1 : v % 2 ^ w < 2 ^ w := Nat.mod_lt _ (Nat.two_pow_pos w)
  have h2 : 2 ^ w ≤ 2 ^ w' := Nat.pow_le_pow_right (by decide) hw
  exact (Nat.mod_eq_of_lt (by omega)).symm

theorem narrow_diff (R : Readers max f) (w w' : Nat) (hw : w ≤ w') (hm : max < 2 ^ w) (evs : List Ev) (strict : Bool)
    (h : ({ F with parseNetmask := f w } : Fam A U).parseNet evs strict ≠ ({ F with parseNetmask := f w' } : Fam A U).parseNet evs strict) :
    ∃ v, MaskNumber evs v ∧ 2 ^ w ≤ v ∧ v % 2 ^ w ≤ max ∧ max < v % 2 ^ w' ∧
      ({ F with parseNetmask := f w' } : Fam A U).parseNet evs strict = .err .invalid_netmask 0 := by
  by_cases hv : ∃ v, MaskNumber evs v ∧ v % 2 ^ w ≠ v % 2 ^ w'
  · obtain ⟨v, hv, hne⟩ := hv
    have hdvd : v % 2 ^ w' % 2 ^ w = v % 2 ^ w := Nat.mod_mod_of_dvd _ (Nat.pow_dvd_pow 2 hw)
    obtain ⟨pre, t, h1, h2, h3⟩ := hv
    have h3 : evs = pre ++ .ch '/' :: readChars t := h3
    have hge : 2 ^ w ≤ v % 2 ^ w' := by
      by_contra hlt
      rw [Nat.mod_eq_of_lt (Nat.lt_of_not_le hlt)] at hdvd
      exact hne hdvd.symm
    have hle : v % 2 ^ w' ≤ v := Nat.mod_le _ _
    have hbig : max < v % 2 ^ w' := by omega
    have he := R.big w' t v h2 hbig
    have hx : ({ F with parseNetmask := f w' } : Fam A U).parseNet evs strict = .err .invalid_netmask 0 := by
      rcases parseNet_number_err F (f w') strict pre h1 t v h2 _ _ he with g | g
      · have := g (f w) t v h2 ((R.nil w').trans (R.nil w).symm)
        rw [← h3] at this
        exact absurd this.symm h
      · rw [h3]; exact g
    refine ⟨v, ⟨pre, t, h1, h2, h3⟩, by omega, ?_, hbig, hx⟩
    by_contra hlt
    have hw' := R.big w t v h2 (by omega)
    refine h ?_
    rcases parseNet_number_err F (f w) strict pre h1 t v h2 _ _ hw' with g | g
    · have := g (f w') t v h2 ((R.nil w).trans (R.nil w').symm)
      rwa [← h3] at this
    · rw [hx, h3]; exact g
  · refine absurd (narrow_same F R w w' evs strict fun v hv' => ?_) h
    by_contra hne
    exact hv ⟨v, hv', hne⟩
end

/-! ### `subnets` -/

theorem shr6_far (h : U128) (a b : Nat) (ha : 128 < a) (hb : 128 < b) : U128.shr h (a : Int) = U128.shr h (b : Int) := by
  have : ∀ a : Nat, 128 < a → U128.shr h (a : Int) = .ok ⟨0, 0⟩ := by
    intro a ha
    rw [U128.shr, if_neg (by omega), if_neg (by omega), if_neg (by omega)]
  rw [this a ha, this b hb]

/-- What `subnets` asks of the shift. -/
theorem subnetsW_eq {A U : Type} (F : Fam A U) (w : Nat) (n : Net A) (hp : n.plen ≤ F.maxPrefix) (hm : F.maxPrefix ≤ 128)
    (hw : w ≤ 64) (h8 : 8 ≤ w)
    (hs : ∀ h a b, 128 < a → 128 < b → F.ops.shr h a = F.ops.shr h b)
    (diff : Nat) (newp : Option Nat) (hd : diff < 2 ^ w) (hn : ∀ p, newp = some p → p < 2 ^ w) :
    (newp ≠ none ∨ n.plen + diff < 2 ^ w → F.subnetsW w n diff newp = F.subnets n diff newp) ∧
    (2 ^ w ≤ n.plen + diff → 2 ^ 9 ≤ 2 ^ w → F.subnetsW w n diff none = F.subnets n (diff + (2 ^ 64 - 2 ^ w)) none) := by
  have hle : 2 ^ w ≤ 2 ^ 64 := Nat.pow_le_pow_right (by decide) hw
  have h8 : 2 ^ 8 ≤ 2 ^ w := Nat.pow_le_pow_right (by decide) h8
  constructor
  · intro h
    unfold Fam.subnetsW Fam.subnets
    cases newp with
    | none =>
      have h : n.plen + diff < 2 ^ w := by simpa using h
      simp only [Nat.mod_eq_of_lt h, Nat.mod_eq_of_lt (Nat.lt_of_lt_of_le h hle)]
    | some p =>
      have hp' := hn p rfl
      by_cases hlt : p < n.plen
      · simp only [if_pos hlt]
      · have e : n.plen + (p - n.plen) = p := by omega
        simp only [e, Nat.mod_eq_of_lt hp', Nat.mod_eq_of_lt (Nat.lt_of_lt_of_le hp' hle)]
  · intro h h9
    have e1 : (n.plen + diff) % 2 ^ w = n.plen + diff - 2 ^ w := by
      rw [Nat.mod_eq_sub_mod h, Nat.mod_eq_of_lt (by omega)]
    have e2 : (n.plen + (diff + (2 ^ 64 - 2 ^ w))) % 2 ^ 64 = n.plen + diff - 2 ^ w := by
      rw [Nat.mod_eq_sub_mod (by omega), Nat.mod_eq_of_lt (by omega)]
      omega
    have e3 : ∀ h, F.ops.shr h diff = F.ops.shr h (diff + (2 ^ 64 - 2 ^ w)) := fun x => hs x _ _ (by omega) (by omega)
    unfold Fam.subnetsW Fam.subnets
    simp only [e1, e2, Fam.subnetsMk, e3]

end Ip
