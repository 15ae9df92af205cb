import Verif.Spec.DiagNet
import Verif.Lemmas.NetTaken
import Verif.Props.Diag4
import Verif.Props.Diag6
import Verif.Props.NetTaken
/-
The network parser on all texts, error by error.
-/
set_option autoImplicit false

namespace Ip
open Spec

section
variable {A U : Type} {F : Fam A U} {WF : A → Prop} {val : U → Nat}

/-- The network parser as a function of the two texts it reads. -/
theorem parseNet_shape (hlast : ∀ arr x, arr.length = F.maxLen → F.parseArray (arr ++ [x]) = F.parseArray (arr ++ ['\x00']))
    (hcut : ∀ a : List Char, a.length ≤ F.maxLen → F.parseArray (addrArray F a) = F.parseArray (addrArray F (cstr a)))
    (s : List Char) (strict : Bool) :
    (maskRead F.maxLen s = none ∧
      F.parseNet (readChars s) strict = parseTail F (addrArray F (addrRead F.maxLen s)) [] strict) ∨
    ∃ m, maskRead F.maxLen s = some m ∧ F.parseNet (readChars s) strict =
      if m = [] then .err .empty_netmask 0 else if '/' ∈ m then .err .only_one_slash_permitted 0
      else parseTail F (addrArray F (addrRead F.maxLen s)) (readChars m) strict := by
  have tail : ∀ a evs, a.length ≤ F.maxLen → parseTail F (addrArray F a) evs strict =
      parseTail F (addrArray F (cstr a)) evs strict := by
    intro a evs h
    rw [parseTail, parseTail, hcut a h]
  obtain ⟨h0, hs⟩ := parts_eq s
  by_cases hl : (addrPart s).length ≤ F.maxLen
  · have ha : addrRead F.maxLen s = cstr (addrPart s) := by rw [addrRead, cutNul_eq, List.take_of_length_le hl]
    rw [ha, maskRead, if_pos hl]
    rcases hs with ⟨g1, g2⟩ | ⟨m, g1, g2⟩
    · left
      refine ⟨g1, ?_⟩
      conv => lhs; rw [g2]
      rw [parseNet_noslash F _ h0 hl, tail _ _ hl]
    · right
      refine ⟨m, g1, ?_⟩
      conv => lhs; rw [g2]
      rw [parseNet_slash F _ m h0 hl, tail _ _ hl]
  · left
    rw [maskRead, if_neg hl]
    refine ⟨rfl, ?_⟩
    have et : s.take F.maxLen = (addrPart s).take F.maxLen := by
      obtain ⟨tail, ht⟩ : ∃ tail, s = addrPart s ++ tail := by
        rcases hs with ⟨_, e⟩ | ⟨m, _, e⟩
        · exact ⟨[], by rw [List.append_nil]; exact e⟩
        · exact ⟨_, e⟩
      conv => lhs; rw [ht]
      exact List.take_append_of_le_length (by omega)
    have hle : ((addrPart s).take F.maxLen).length ≤ F.maxLen := by simp
    rw [parseNet_truncates hlast s (by omega) strict, et,
      parseNet_noslash F _ (fun h => h0 (List.mem_of_mem_take h)) hle, tail _ _ hle, addrRead, cutNul_eq]

theorem parseLoop_bad (c : ErrorCode) (sym : Nat) (rest : List Ev) : ∀ (a pre arr : List Char) (i : Nat), i = pre.length →
    '/' ∉ a → i + a.length ≤ F.maxLen → a.length ≤ arr.length →
    F.parseLoop (readChars a ++ .bad c sym :: rest) ⟨i, pre ++ arr, none⟩ = .err c sym
  | [], _, _, _, _, _, _, _ => rfl
  | x :: a, pre, [], i, _, _, _, h => by simp at h
  | x :: a, pre, y :: arr, i, hi, hs, hl, hr => by
    have hx : x ≠ '/' := fun e => hs (by simp [e])
    have ih := parseLoop_bad c sym rest a (pre ++ [x]) arr (i + 1) (by simp [hi]) (fun h => hs (by simp [h]))
      (by simp at hl; omega) (by simpa using hr)
    simp only [List.length_cons] at hl
    show F.parseLoop (.ch x :: (readChars a ++ .bad c sym :: rest)) _ = _
    rw [Fam.parseLoop, if_neg hx]
    simp only [Fam.storeChar, Option.isNone_none, if_true, wr_append pre y x arr i hi, Res.ok_bind]
    rw [decide_eq_false (by omega), if_neg (by decide)]
    rw [List.append_assoc] at ih
    exact ih

theorem parseLoop_addrEv (tail : List Ev) : ∀ (a pre arr : List Char) (i : Nat), i = pre.length → '/' ∉ a →
    i + a.length ≤ F.maxLen → a.length ≤ arr.length →
    F.parseLoop (readChars a ++ tail) ⟨i, pre ++ arr, none⟩ =
      F.parseLoop tail ⟨i + a.length, pre ++ a ++ arr.drop a.length, none⟩
  | [], pre, arr, i, _, _, _, _ => by simp [readChars]
  | x :: a, pre, [], i, _, _, _, h => by simp at h
  | x :: a, pre, y :: arr, i, hi, hs, hl, hr => by
    have hx : x ≠ '/' := fun e => hs (by simp [e])
    have ih := parseLoop_addrEv tail a (pre ++ [x]) arr (i + 1) (by simp [hi]) (fun h => hs (by simp [h]))
      (by simp at hl; omega) (by simpa using hr)
    simp only [List.length_cons] at hl
    show F.parseLoop (.ch x :: (readChars a ++ tail)) _ = _
    rw [Fam.parseLoop, if_neg hx]
    simp only [Fam.storeChar, Option.isNone_none, if_true, wr_append pre y x arr i hi, Res.ok_bind]
    rw [decide_eq_false (by omega), if_neg (by decide)]
    rw [List.append_assoc] at ih
    simp only [List.cons_append, List.nil_append] at ih
    rw [ih]
    simp [Nat.add_comm, Nat.add_left_comm]

theorem parseLoop_afterBad (c : ErrorCode) (sym : Nat) (rest r : List Ev) (i : Nat) (arr : List Char) (hi : i ≤ F.maxLen) :
    ∀ m : List Char, F.parseLoop (readChars m ++ .bad c sym :: rest) ⟨i, arr, some r⟩ =
      if '/' ∈ m then .err .only_one_slash_permitted 0 else .err c sym
  | [] => by simp [readChars, Fam.parseLoop]
  | x :: m => by
    have ih := parseLoop_afterBad c sym rest r i arr hi m
    show F.parseLoop (.ch x :: (readChars m ++ .bad c sym :: rest)) _ = _
    by_cases hx : x = '/'
    · subst hx
      simp [Fam.parseLoop]
    · rw [Fam.parseLoop, if_neg hx]
      simp only [Fam.storeChar, Option.isNone_some, Bool.false_eq_true, if_false, Res.ok_bind]
      rw [decide_eq_false (by omega), if_neg (by decide), ih]
      have : ('/' ∈ x :: m) ↔ '/' ∈ m := by simp [List.mem_cons, Ne.symm hx]
      simp only [this]

/-- A text that the reader cannot read further after `s`. -/
theorem parseNet_bad (s : List Char) (c : ErrorCode) (sym : Nat) (rest : List Ev) (strict : Bool) :
    ((addrPart s).length ≤ F.maxLen →
      ((∃ m, maskPart s = some m ∧ '/' ∈ m) →
        F.parseNet (readChars s ++ .bad c sym :: rest) strict = .err .only_one_slash_permitted 0) ∧
      ((¬ ∃ m, maskPart s = some m ∧ '/' ∈ m) → F.parseNet (readChars s ++ .bad c sym :: rest) strict = .err c sym)) ∧
    (F.maxLen < (addrPart s).length →
      F.parseNet (readChars s ++ .bad c sym :: rest) strict = F.parseNet (readChars s) strict) := by
  obtain ⟨h0, hs⟩ := parts_eq s
  constructor
  · intro hl
    rcases hs with ⟨e, e'⟩ | ⟨m, e, e'⟩
    · refine ⟨fun ⟨m, h, _⟩ => absurd (e.symm.trans h) (by simp), fun _ => ?_⟩
      have hb := parseLoop_bad (F := F) c sym rest (addrPart s) [] (List.replicate (F.maxLen + 1) '\x00') 0 rfl h0 (by omega) (by simp; omega)
      rw [List.nil_append] at hb
      rw [e', Fam.parseNet, hb, Res.err_bind]
    · have ha := parseLoop_addrEv (F := F) (.ch '/' :: (readChars m ++ .bad c sym :: rest)) (addrPart s) []
        (List.replicate (F.maxLen + 1) '\x00') 0 rfl h0 (by omega) (by simp; omega)
      have hb := parseLoop_afterBad (F := F) c sym rest (readChars m ++ .bad c sym :: rest) (addrPart s).length
        (addrPart s ++ List.drop (addrPart s).length (List.replicate (F.maxLen + 1) '\x00')) hl m
      have key : F.parseNet (readChars s ++ .bad c sym :: rest) strict =
          if '/' ∈ m then .err .only_one_slash_permitted 0 else .err c sym := by
        have er : readChars s ++ .bad c sym :: rest = readChars (addrPart s) ++ .ch '/' :: (readChars m ++ .bad c sym :: rest) := by
          conv => lhs; rw [e']
          simp [readChars]
        rw [er, Fam.parseNet]
        simp only [List.nil_append, Nat.zero_add] at ha
        rw [ha, Fam.parseLoop, if_pos rfl]
        simp only [Option.isSome_none, Bool.false_eq_true, if_false, Fam.storeChar, Option.isNone_some, Res.ok_bind]
        rw [if_neg (by simp), decide_eq_false (by omega), if_neg (by decide), hb]
        split <;> rfl
      refine ⟨fun ⟨m', h, h'⟩ => ?_, fun h => ?_⟩
      · rw [e] at h; cases h
        rw [key, if_pos h']
      · rw [key, if_neg fun h' => h ⟨m, e, h'⟩]
  · intro hl
    obtain ⟨x, a2, e2⟩ : ∃ x a2, (addrPart s).drop F.maxLen = x :: a2 := by
      cases h : (addrPart s).drop F.maxLen with
      | nil => have := congrArg List.length h; simp at this; omega
      | cons x a2 => exact ⟨x, a2, rfl⟩
    have e3 : addrPart s = (addrPart s).take F.maxLen ++ (x :: a2) := by rw [← e2, List.take_append_drop]
    obtain ⟨tail, ht⟩ : ∃ tail, s = addrPart s ++ tail := by
      rcases hs with ⟨_, e⟩ | ⟨m, _, e⟩
      · exact ⟨[], by rw [List.append_nil]; exact e⟩
      · exact ⟨_, e⟩
    have hs1 : '/' ∉ (addrPart s).take F.maxLen := fun h => h0 (List.mem_of_mem_take h)
    have hx : x ≠ '/' := by
      intro e
      apply h0
      rw [e3, e]
      simp
    have hlen : ((addrPart s).take F.maxLen).length = F.maxLen := by simp; omega
    have key : ∀ evs : List Ev, F.parseLoop (readChars s ++ evs) ⟨0, List.replicate (F.maxLen + 1) '\x00', none⟩ =
        .ok ⟨F.maxLen + 1, (addrPart s).take F.maxLen ++ [x], none⟩ := by
      intro evs
      have er : readChars s ++ evs = readChars ((addrPart s).take F.maxLen) ++ .ch x :: (readChars (a2 ++ tail) ++ evs) := by
        conv => lhs; rw [ht, e3]
        simp [readChars]
      have hp := parseLoop_addrEv (F := F) (.ch x :: (readChars (a2 ++ tail) ++ evs)) ((addrPart s).take F.maxLen) []
        (List.replicate (F.maxLen + 1) '\x00') 0 rfl hs1 (by omega) (by simp)
      simp only [List.nil_append, Nat.zero_add] at hp
      rw [er, hp, Fam.parseLoop, if_neg hx]
      simp only [Fam.storeChar, Option.isNone_none, if_true]
      rw [List.drop_replicate, show F.maxLen + 1 - ((addrPart s).take F.maxLen).length = 1 by omega,
        show ((addrPart s).take F.maxLen ++ List.replicate 1 '\x00') = (addrPart s).take F.maxLen ++ '\x00' :: [] from rfl,
        wr_append _ '\x00' x [] _ rfl]
      simp only [Res.ok_bind]
      rw [decide_eq_true (by omega), if_pos rfl, hlen]
    have k2 := key []
    rw [List.append_nil] at k2
    rw [Fam.parseNet, Fam.parseNet, key, k2]

/-- The errors of the network parser, given those of its parts. -/
theorem parseNet_err_iff (L : F.Law WF val) {Bad : List Char → ErrorCode → Nat → Prop}
    {Good : Option (List Char) → Nat → Nat → Prop} {Wrong : List Char → ErrorCode → Prop} {Host : List Char → Nat → Prop}
    (hlast : ∀ arr x, arr.length = F.maxLen → F.parseArray (arr ++ [x]) = F.parseArray (arr ++ ['\x00']))
    (hcut : ∀ a : List Char, a.length ≤ F.maxLen → F.parseArray (addrArray F a) = F.parseArray (addrArray F (cstr a)))
    (hA : ∀ arr x, F.parseArray arr = .ok x → WF x) (hu : ∀ arr, F.parseArray arr ≠ .ub)
    (hbad : ∀ m code v, m ≠ [] → Bad m code v → F.parseNetmask (readChars m) = .err code v)
    (hgood : ∀ o p v, Good o p v → ∃ b, F.parseNetmask (readChars (o.getD [])) = .ok (F.ofBytes b, p, v) ∧
      8 * b.length = F.maxPrefix ∧ beValue b = 2 ^ F.maxPrefix - 2 ^ (F.maxPrefix - p) ∧ p ≤ F.maxPrefix)
    (hne : ∀ m p v, Good (some m) p v → m ≠ [] ∧ '/' ∉ m) (hnone : ∃ p v, Good none p v)
    (htot : ∀ m, m ≠ [] → (∃ code v, Bad m code v) ∨ (∃ p v, Good (some m) p v) ∨ F.parseNetmask (readChars m) = .ub)
    (hwrong : ∀ a code, a.length ≤ F.maxLen → (∀ c ∈ a, c ≠ '\x00') →
      (Wrong a code ↔ ∃ v, F.parseArray (addrArray F a) = .err code v))
    (hhost : ∀ a p, a.length ≤ F.maxLen → (∀ c ∈ a, c ≠ '\x00') →
      (Host a p ↔ ∃ x, F.parseArray (addrArray F a) = .ok x ∧ ∃ i, i < F.maxPrefix - p ∧ (F.v x).testBit i = true))
    (s : List Char) (strict : Bool) (code : ErrorCode) (v : Nat) :
    F.parseNet (readChars s) strict = .err code v ↔ NetFault F.maxLen Bad Good Wrong Host strict s code v := by
  have hal : (addrRead F.maxLen s).length ≤ F.maxLen := by
    rw [addrRead, cutNul_eq]
    exact Nat.le_trans (cstr_length_le _) (by simp)
  have han : ∀ c ∈ addrRead F.maxLen s, c ≠ '\x00' := by
    rw [addrRead, cutNul_eq]
    exact fun c hc => (cstr_mem hc).2
  -- what follows an accepted mask
  have tail : ∀ o p w, maskRead F.maxLen s = o → Good o p w →
      (parseTail F (addrArray F (addrRead F.maxLen s)) (readChars (o.getD [])) strict = .err code v ↔
        v = w ∧ (Wrong (addrRead F.maxLen s) code ∨
          (Host (addrRead F.maxLen s) p ∧ strict = true ∧ code = .has_host_bits_set))) := by
    intro o p w ho hg
    obtain ⟨b, g1, g2, g3, g4⟩ := hgood o p w hg
    rw [hwrong _ _ hal han, hhost _ _ hal han]
    cases hp : F.parseArray (addrArray F (addrRead F.maxLen s)) with
    | ub => exact absurd hp (hu _)
    | err e u =>
      rw [parseTail, g1, Res.ok_bind, hp]
      simp only [withValue, Res.err_bind]
      constructor
      · intro h; cases h; exact ⟨rfl, .inl ⟨_, rfl⟩⟩
      · rintro ⟨rfl, ⟨_, h⟩ | ⟨⟨_, h, _⟩, _⟩⟩
        · cases h; rfl
        · cases h
    | ok x =>
      rw [parseTail_eq L _ _ strict x b p w g1 g2 g3 g4 hp]
      obtain ⟨⟨f1, f2⟩, n, f3, _⟩ := fromAddress_spec L x (hA _ _ hp) p g4
      constructor
      · intro h
        cases strict with
        | false => rw [f3] at h; cases h
        | true =>
          by_cases hb : ∃ i, i < F.maxPrefix - p ∧ (F.v x).testBit i = true
          · rw [f1.2 hb] at h
            cases h
            exact ⟨rfl, .inr ⟨⟨x, rfl, hb⟩, rfl, rfl⟩⟩
          · obtain ⟨n, f, _⟩ := f2 hb
            rw [f] at h
            cases h
      · rintro ⟨rfl, ⟨_, h⟩ | ⟨⟨x', h, hb⟩, rfl, rfl⟩⟩
        · cases h
        · cases h
          rw [f1.2 hb]
          rfl
  rcases parseNet_shape hlast hcut s strict with ⟨hm, hr⟩ | ⟨m, hm, hr⟩
  · obtain ⟨p, w, hg⟩ := hnone
    have ht := tail none p w hm hg
    rw [hr]
    rw [show readChars ((none : Option (List Char)).getD []) = [] from rfl] at ht
    constructor
    · intro h
      obtain ⟨rfl, h | ⟨h1, h2, rfl⟩⟩ := ht.1 h
      · exact .address p v code (hm ▸ hg) h
      · exact .host p v (hm ▸ hg) h1 h2
    · intro h
      cases h with
      | noMask h => rw [hm] at h; cases h
      | slash m h _ => rw [hm] at h; cases h
      | mask m _ _ h => rw [hm] at h; cases h
      | address p' _ _ hg' h =>
        rw [hm] at hg'
        exact (tail none p' v hm hg').2 ⟨rfl, .inl h⟩
      | host p' _ hg' h1 h2 =>
        rw [hm] at hg'
        exact (tail none p' v hm hg').2 ⟨rfl, .inr ⟨h1, h2, rfl⟩⟩
  · rw [hr]
    have good : ∀ p w, Good (maskRead F.maxLen s) p w → m ≠ [] ∧ '/' ∉ m := fun p w h => hne m p w (hm ▸ h)
    by_cases hm0 : m = []
    · subst hm0
      rw [if_pos rfl]
      constructor
      · intro h; cases h; exact .noMask hm
      · intro h
        cases h with
        | noMask => rfl
        | slash m h h' => rw [hm] at h; cases h; simp at h'
        | mask m _ _ h h' => rw [hm] at h; cases h; exact absurd rfl h'
        | address p' _ _ hg' h => exact absurd rfl (good _ _ hg').1
        | host p' _ hg' h1 h2 => exact absurd rfl (good _ _ hg').1
    · rw [if_neg hm0]
      by_cases hsl : '/' ∈ m
      · rw [if_pos hsl]
        constructor
        · intro h; cases h; exact .slash m hm hsl
        · intro h
          cases h with
          | noMask h => rw [hm] at h; cases h; exact absurd rfl hm0
          | slash m h h' => rfl
          | mask m _ _ h _ h' => rw [hm] at h; cases h; exact absurd hsl h'
          | address p' _ _ hg' h => exact absurd hsl (good _ _ hg').2
          | host p' _ hg' h1 h2 => exact absurd hsl (good _ _ hg').2
      · rw [if_neg hsl]
        have hgt : ∀ p w, Good (maskRead F.maxLen s) p w →
            (parseTail F (addrArray F (addrRead F.maxLen s)) (readChars m) strict = .err code v ↔
              v = w ∧ (Wrong (addrRead F.maxLen s) code ∨
                (Host (addrRead F.maxLen s) p ∧ strict = true ∧ code = .has_host_bits_set))) :=
          fun p w h => tail (some m) p w hm (hm ▸ h)
        constructor
        · intro h
          rcases htot m hm0 with ⟨e, u, hb⟩ | ⟨p, w, hg⟩ | hub
          · have := hbad m e u hm0 hb
            rw [parseTail, this] at h
            cases h
            exact .mask m _ _ hm hm0 hsl hb
          · obtain ⟨rfl, h | ⟨h1, h2, rfl⟩⟩ := (hgt p w (hm ▸ hg)).1 h
            · exact .address p v code (hm ▸ hg) h
            · exact .host p v (hm ▸ hg) h1 h2
          · rw [parseTail, hub] at h
            cases h
        · intro h
          cases h with
          | noMask h => rw [hm] at h; cases h; exact absurd rfl hm0
          | slash m h h' => rw [hm] at h; cases h; exact absurd h' hsl
          | mask m' _ _ h _ _ h' =>
            rw [hm] at h
            cases h
            rw [parseTail, hbad m code v hm0 h']
            rfl
          | address p' _ _ hg' h => exact (hgt p' v hg').2 ⟨rfl, .inl h⟩
          | host p' _ hg' h1 h2 => exact (hgt p' v hg').2 ⟨rfl, .inr ⟨h1, h2, rfl⟩⟩

end

/-! ### IPv4 -/

theorem not_decText_iff (m : List Char) (hm : m ≠ []) (h : ∀ n, ¬ DecText m n) : ¬ ∃ ds, DigitText 10 m ds := by
  rintro ⟨ds, hd⟩
  exact h _ ⟨hm, ds, hd, rfl⟩

theorem digitsLoop_none (m : List Char) (hm : m ≠ []) (h : ∀ n, ¬ DecText m n) : digitsLoop (readChars m) 0 = .ok none := by
  rcases digitsLoop_rel m 0 with ⟨ds, h1, _⟩ | ⟨_, h2⟩
  · exact absurd ⟨ds, h1⟩ (not_decText_iff m hm h)
  · rwa [Nat.zero_mod] at h2

theorem dotted_ne_nil (a b c d : BitVec 8) : dotted a b c d ≠ [] := by
  intro e
  have := v4FromEvents_dotted a b c d
  rw [e] at this
  cases this

theorem dotted_no_dec (a b c d : BitVec 8) : ∀ n, ¬ DecText (dotted a b c d) n := by
  rintro n ⟨_, ds, h, _⟩
  exact not_decText_dotted a b c d ⟨ds, h⟩

theorem isMask_zero_of {a b c d : BitVec 8} (h : cat4 a b c d = 0#32) : IsMask 32 0 (beValue [a, b, c, d]) := by
  rw [isMask_iff 32 0 _ (by decide), ← cat4_toNat, h]
  rfl

/-- The dotted texts as masks. -/
theorem v4MaskText_dotted (a b c d : BitVec 8) (hx : cat4 a b c d ≠ 0#32) :
    (∃ p, ((p ≤ 32 ∧ IsMask 32 p (beValue [a, b, c, d])) ∨ (1 ≤ p ∧ p ≤ 31 ∧ IsHostMask 32 p (beValue [a, b, c, d]))) ∧
      v4MaskText true (readChars (dotted a b c d)) = .ok p) ∨
    ((¬ ∃ p, (p ≤ 32 ∧ IsMask 32 p (beValue [a, b, c, d])) ∨ (1 ≤ p ∧ p ≤ 31 ∧ IsHostMask 32 p (beValue [a, b, c, d]))) ∧
      v4MaskText true (readChars (dotted a b c d)) = .err .netmask_pattern_mixes_zeroes_and_ones 3) := by
  have h := prefixFromMask_rel (cat4 a b c d) hx
  rw [cat4_toNat] at h
  have e : v4MaskText true (readChars (dotted a b c d)) = prefixFromMask (cat4 a b c d) := by
    rw [v4MaskText, v4FromEvents_dotted]
    simp only [v4ToUint_le, Res.ok_bind]
  rw [e]
  exact h

theorem maskFault4_run {m : List Char} {code : ErrorCode} {v : Nat} (hm : m ≠ []) (h : MaskFault4 m code v) :
    v4ParseNetmask true (readChars m) = .err code v := by
  cases h with
  | large _ n h1 h2 =>
    rw [v4ParseNetmask, digitsLoop_dec _ _ h1, Res.ok_bind]
    exact if_pos h2
  | text _ e _ h1 h2 =>
    rw [v4ParseNetmask, digitsLoop_none m hm h1, Res.ok_bind, v4MaskText, (C74_v4 m hm e v).2 h2]
    rfl
  | mixed a b c d h1 h2 =>
    have hx : cat4 a b c d ≠ 0#32 := fun e => h1 0 (by decide) (isMask_zero_of e)
    rw [v4ParseNetmask, digitsLoop_none _ hm (dotted_no_dec a b c d), Res.ok_bind]
    rcases v4MaskText_dotted a b c d hx with ⟨p, g1, _⟩ | ⟨_, g⟩
    · rcases g1 with ⟨g1, g2⟩ | ⟨_, g1, g2⟩
      · exact absurd g2 (h1 p g1)
      · exact absurd g2 (h2 p (by omega))
    · rw [g]; rfl

theorem maskGood4_ne {m : List Char} {p v : Nat} (h : MaskGood4 (some m) p v) : m ≠ [] ∧ '/' ∉ m := by
  cases h with
  | number _ n h _ => exact ⟨h.1, decText_noslash _ _ h⟩
  | mask a b c d => exact ⟨dotted_ne_nil a b c d, dotted_noslash a b c d⟩
  | hostmask a b c d => exact ⟨dotted_ne_nil a b c d, dotted_noslash a b c d⟩

theorem maskGood4_run {o : Option (List Char)} {p v : Nat} (h : MaskGood4 o p v) :
    ∃ b, v4ParseNetmask true (readChars (o.getD [])) = .ok (b, p, v) ∧
      8 * b.length = 32 ∧ beValue b = 2 ^ 32 - 2 ^ (32 - p) ∧ p ≤ 32 := by
  have hdot : ∀ (a b c d : BitVec 8) (p : Nat), 1 ≤ p → p ≤ 32 →
      (IsMask 32 p (beValue [a, b, c, d]) ∨ (p ≤ 31 ∧ IsHostMask 32 p (beValue [a, b, c, d]))) →
      ∃ m, v4ParseNetmask true (readChars (dotted a b c d)) = .ok (m, p, 3) ∧
        8 * m.length = 32 ∧ beValue m = 2 ^ 32 - 2 ^ (32 - p) ∧ p ≤ 32 := by
    intro a b c d p h1 h2 h3
    have hmt : MaskText4 (dotted a b c d) p :=
      .inr ⟨a, b, c, d, rfl, h3.elim (fun h => .inl ⟨h2, h⟩) (fun h => .inr ⟨h1, h.1, h.2⟩)⟩
    have hx : cat4 a b c d ≠ 0#32 := by
      intro e
      have e0 : beValue [a, b, c, d] = 0 := by rw [← cat4_toNat, e]; rfl
      rcases h3 with h3 | ⟨h3, h4⟩
      · rw [isMask_iff 32 p _ h2, e0] at h3
        have : 2 ^ (32 - p) < 2 ^ 32 := Nat.pow_lt_pow_right (by decide) (by omega)
        omega
      · rw [isHostMask_iff, e0] at h4
        have : 2 ^ 1 ≤ 2 ^ (32 - p) := Nat.pow_le_pow_right (by decide) (by omega)
        omega
    rw [v4ParseNetmask, digitsLoop_none _ (dotted_ne_nil a b c d) (dotted_no_dec a b c d), Res.ok_bind]
    rcases v4MaskText_dotted a b c d hx with ⟨q, g1, g2⟩ | ⟨g1, _⟩
    · obtain rfl : q = p := maskText4_unique (dotted a b c d) q p (.inr ⟨a, b, c, d, rfl, g1⟩) hmt
      obtain ⟨m, m1, m2, m3⟩ := v4FromPrefix_val q h2
      exact ⟨m, by simp only [g2, m1, Res.ok_bind], by rw [m2], m3, h2⟩
    · exact absurd ⟨p, h3.elim (fun h => .inl ⟨h2, h⟩) (fun h => .inr ⟨h1, h.1, h.2⟩)⟩ g1
  cases h with
  | none => exact ⟨[255, 255, 255, 255], fam4_parseNetmask_nil, rfl, by decide, by decide⟩
  | number m n h1 h2 =>
    have hne : readChars m ≠ [] := by simpa [readChars] using h1.1
    obtain ⟨b, m1, m2, m3⟩ := v4FromPrefix_val (n % 2 ^ 64) h2
    refine ⟨b, ?_, by rw [m2], m3, h2⟩
    rw [Option.getD_some, v4ParseNetmask, digitsLoop_dec _ _ h1, Res.ok_bind]
    simp only [if_neg (Nat.not_lt.2 h2), if_neg hne, m1, Res.ok_bind]
  | mask a b c d _ h1 h2 h3 => exact hdot a b c d p h1 h2 (.inl h3)
  | hostmask a b c d _ h1 h2 h3 => exact hdot a b c d p h1 (by omega) (.inr ⟨h2, h3⟩)

theorem mask4_total (m : List Char) (hm : m ≠ []) :
    (∃ code v, MaskFault4 m code v) ∨ (∃ p v, MaskGood4 (some m) p v) ∨ v4ParseNetmask true (readChars m) = .ub := by
  by_cases hd : ∃ n, DecText m n
  · obtain ⟨n, hd⟩ := hd
    by_cases h : n % 2 ^ 64 ≤ 32
    · exact .inr (.inl ⟨_, _, .number m n hd h⟩)
    · exact .inl ⟨_, _, .large m n hd (by omega)⟩
  · have hd : ∀ n, ¬ DecText m n := fun n h => hd ⟨n, h⟩
    cases hp : v4FromEvents (readChars m) with
    | ub => exact absurd hp (v4FromEvents_ne_ub _)
    | err e v => exact .inl ⟨_, _, .text m e v hd ((C74_v4 m hm e v).1 hp)⟩
    | ok r =>
      obtain ⟨a, b, c, d, e1, rfl⟩ := (v4Parse_ok_iff m r).1 hp
      by_cases hx : cat4 a b c d = 0#32
      · right; right
        rw [v4ParseNetmask, digitsLoop_none _ hm hd, Res.ok_bind, v4MaskText, v4FromEvents_dotted]
        simp only [v4ToUint_le, Res.ok_bind]
        rw [hx, prefixFromMask_zero]
        rfl
      · have hcv : beValue [a, b, c, d] ≠ 0 := by
          rw [← cat4_toNat]
          exact fun e => hx (BitVec.eq_of_toNat_eq (by rw [e]; rfl))
        by_cases h : ∃ p, (p ≤ 32 ∧ IsMask 32 p (beValue [a, b, c, d])) ∨ (1 ≤ p ∧ p ≤ 31 ∧ IsHostMask 32 p (beValue [a, b, c, d]))
        · obtain ⟨p, ⟨h1, h2⟩ | ⟨h1, h2, h3⟩⟩ := h
          · refine .inr (.inl ⟨p, 3, .mask a b c d p ?_ h1 h2⟩)
            rcases Nat.eq_zero_or_pos p with rfl | hp
            · exact absurd ((isMask_iff 32 0 _ h1).1 h2) hcv
            · exact hp
          · exact .inr (.inl ⟨p, 3, .hostmask a b c d p h1 h2 h3⟩)
        · refine .inl ⟨_, _, .mixed a b c d (fun p hp hq => h ⟨p, .inl ⟨hp, hq⟩⟩) (fun p hp hq => ?_)⟩
          rcases Nat.eq_zero_or_pos p with rfl | hp0
          · -- the host mask of length 0 is the netmask of length 32
            refine h ⟨32, .inl ⟨by decide, (isMask_iff 32 32 _ (by decide)).2 ?_⟩⟩
            exact (isHostMask_iff 32 0 _).1 hq
          · by_cases h32 : p = 32
            · subst h32
              exact hcv ((isHostMask_iff 32 32 _).1 hq)
            · exact h ⟨p, .inr ⟨hp0, by omega, hq⟩⟩

theorem fam4_last : ∀ arr x, arr.length = (fam4 true).maxLen →
    (fam4 true).parseArray (arr ++ [x]) = (fam4 true).parseArray (arr ++ ['\x00']) := by
  intro arr x _
  show v4ParseArray _ = v4ParseArray _
  rw [v4ParseArray, mkFixed_last]; rfl

theorem fam4_parseArray (a : List Char) (hl : a.length ≤ 15) :
    (fam4 true).parseArray (addrArray (fam4 true) a) = v4Parse (cstr a) := by
  obtain ⟨f, g1, g2⟩ := mkFixed_nul 15 a hl
  show v4ParseArray _ = _
  rw [v4ParseArray, show addrArray (fam4 true) a = a ++ List.replicate (15 + 1 - a.length) '\x00' from rfl, g1, Res.ok_bind, g2]
  rfl

theorem addrFault4_iff (a : List Char) (code : ErrorCode) : AddrFault4 a code ↔ ∃ v, v4Parse a = .err code v := by
  unfold AddrFault4 v4Parse
  by_cases ha : a = []
  · subst ha
    simp only [C74_v4_empty, true_and, ne_eq, not_true_eq_false, false_and, or_false]
    constructor
    · rintro rfl; exact ⟨0, rfl⟩
    · rintro ⟨v, h⟩; cases h; rfl
  · simp only [ha, false_and, ne_eq, not_false_eq_true, true_and, false_or]
    exact exists_congr fun v => (C74_v4 a ha code v).symm

/-! ### IPv6 -/

theorem maskFault6_run {m : List Char} {code : ErrorCode} {v : Nat} (hm : m ≠ []) (h : MaskFault6 m code v) :
    v6ParseNetmask (readChars m) = .err code v := by
  cases h with
  | large n h1 h2 =>
    rw [v6ParseNetmask, digitsLoop_dec _ _ h1, Res.ok_bind]
    exact if_pos h2
  | text h1 => rw [v6ParseNetmask, digitsLoop_none m hm h1, Res.ok_bind]

theorem maskGood6_run {o : Option (List Char)} {p v : Nat} (h : MaskGood6 o p v) :
    ∃ b, v6ParseNetmask (readChars (o.getD [])) = .ok (b, p, v) ∧
      8 * b.length = 128 ∧ beValue b = 2 ^ 128 - 2 ^ (128 - p) ∧ p ≤ 128 := by
  cases h with
  | none =>
    obtain ⟨b, m1, m2, m3⟩ := v6FromPrefix_val 128 (by decide)
    refine ⟨b, ?_, by rw [m2], m3, by decide⟩
    show v6ParseNetmask [] = _
    rw [v6ParseNetmask, digitsLoop, Res.ok_bind]
    simp only [m1, Res.ok_bind, if_true]
    rfl
  | number m n h1 h2 =>
    have hne : readChars m ≠ [] := by simpa [readChars] using h1.1
    obtain ⟨b, m1, m2, m3⟩ := v6FromPrefix_val (n % 2 ^ 64) h2
    refine ⟨b, ?_, by rw [m2], m3, h2⟩
    rw [Option.getD_some, v6ParseNetmask, digitsLoop_dec _ _ h1, Res.ok_bind]
    simp only [if_neg (Nat.not_lt.2 h2), if_neg hne, m1, Res.ok_bind]

theorem mask6_total (m : List Char) : (∃ code v, MaskFault6 m code v) ∨ ∃ p v, MaskGood6 (some m) p v := by
  by_cases hd : ∃ n, DecText m n
  · obtain ⟨n, hd⟩ := hd
    by_cases h : n % 2 ^ 64 ≤ 128
    · exact .inr ⟨_, _, .number m n hd h⟩
    · exact .inl ⟨_, _, .large m n hd (by omega)⟩
  · exact .inl ⟨_, _, .text m fun n h => hd ⟨n, h⟩⟩

theorem fam6_last (c : Cfg) : ∀ arr x, arr.length = (fam6 c).maxLen →
    (fam6 c).parseArray (arr ++ [x]) = (fam6 c).parseArray (arr ++ ['\x00']) := by
  intro arr x _
  show v6ParseArray _ _ _ = v6ParseArray _ _ _
  rw [v6ParseArray, mkFixed_last]; rfl

theorem fam6_parseArray (c : Cfg) (a : List Char) (hl : a.length ≤ 41 + c.M) :
    (fam6 c).parseArray (addrArray (fam6 c) a) = v6Parse c.spaces c.M (cstr a) := by
  obtain ⟨f, g1, g2⟩ := mkFixed_nul (41 + c.M) a hl
  show v6ParseArray _ _ _ = _
  rw [v6ParseArray, show addrArray (fam6 c) a = a ++ List.replicate (41 + c.M + 1 - a.length) '\x00' from rfl, g1, Res.ok_bind, g2]
  rfl

theorem addrFault6_iff (spaces : Bool) (M : Nat) (a : List Char) (code : ErrorCode) :
    AddrFault6 spaces M a code ↔ ∃ v, v6Parse spaces M a = .err code v := by
  unfold AddrFault6 v6Parse
  by_cases ha : a = []
  · subst ha
    simp only [C75_v6_empty, true_and, ne_eq, not_true_eq_false, false_and, or_false]
    constructor
    · rintro rfl; exact ⟨0, rfl⟩
    · rintro ⟨v, h⟩; cases h; rfl
  · simp only [ha, false_and, ne_eq, not_false_eq_true, true_and, false_or]
    exact exists_congr fun v => (C75_v6 spaces M a ha code v).symm

end Ip
