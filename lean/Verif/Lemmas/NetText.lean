import Verif.Lemmas.NetSpec
/-
The network parser on complete texts.
-/
set_option autoImplicit false

namespace Ip
open Spec

theorem parts_eq (s : List Char) :
    '/' ∉ addrPart s ∧ ((maskPart s = none ∧ s = addrPart s) ∨ ∃ m, maskPart s = some m ∧ s = addrPart s ++ '/' :: m) := by
  induction s with
  | nil => simp [addrPart, maskPart]
  | cons c s ih =>
    by_cases h : c = '/'
    · subst h
      simp [addrPart, maskPart]
    · have e1 : addrPart (c :: s) = c :: addrPart s := by simp [addrPart, h]
      have e2 : maskPart (c :: s) = maskPart s := by simp [maskPart, h]
      rw [e1, e2]
      obtain ⟨h1, h2⟩ := ih
      refine ⟨?_, ?_⟩
      · simp only [List.mem_cons, not_or]
        exact ⟨fun e => h e.symm, h1⟩
      · rcases h2 with ⟨h2, h3⟩ | ⟨m, h2, h3⟩
        · exact .inl ⟨h2, by rw [← h3]⟩
        · exact .inr ⟨m, h2, by rw [List.cons_append, ← h3]⟩

theorem parts_of_noslash (a : List Char) (ha : '/' ∉ a) : addrPart a = a ∧ maskPart a = none := by
  induction a with
  | nil => exact ⟨rfl, rfl⟩
  | cons c a ih =>
    simp only [List.mem_cons, not_or] at ha
    obtain ⟨h1, h2⟩ := ih ha.2
    have hc : c ≠ '/' := fun e => ha.1 e.symm
    exact ⟨by simpa [addrPart, hc] using h1, by simpa [maskPart, hc] using h2⟩

theorem parts_of_slash (a m : List Char) (ha : '/' ∉ a) :
    addrPart (a ++ '/' :: m) = a ∧ maskPart (a ++ '/' :: m) = some m := by
  induction a with
  | nil => exact ⟨by simp [addrPart], by simp [maskPart]⟩
  | cons c a ih =>
    simp only [List.mem_cons, not_or] at ha
    obtain ⟨h1, h2⟩ := ih ha.2
    have hc : c ≠ '/' := fun e => ha.1 e.symm
    exact ⟨by simpa [addrPart, hc] using h1, by simpa [maskPart, hc] using h2⟩

theorem digitText_chars (t : List Char) (ds : List Nat) (h : DigitText 10 t ds) : ∀ c ∈ t, '0'.toNat ≤ c.toNat := by
  induction t generalizing ds with
  | nil => intro c hc; simp at hc
  | cons x xs ih =>
    intro c hc
    cases ds with
    | nil => exact h.elim
    | cons d ds =>
      rcases List.mem_cons.mp hc with rfl | hc
      · exact (dec_digit _ d h.1 h.2.1).1.1
      · exact ih ds h.2.2 c hc

theorem decText_noslash (t : List Char) (v : Nat) (h : DecText t v) : '/' ∉ t := by
  obtain ⟨_, ds, h, _⟩ := h
  intro hc
  have := digitText_chars t ds h _ hc
  revert this; decide

theorem dotted_noslash (a b c d : BitVec 8) : '/' ∉ dotted a b c d := by
  intro h
  rcases dotted_chars a b c d _ h with h | h
  · revert h; decide
  · revert h; decide

theorem decText_unique (t : List Char) (v v' : Nat) (h : DecText t v) (h' : DecText t v') : v = v' := by
  obtain ⟨_, ds, h1, rfl⟩ := h
  obtain ⟨_, ds', h2, rfl⟩ := h'
  rw [DigitText_unique 10 t ds ds' h1 h2]

theorem maskText4_ne (t : List Char) (p : Nat) (h : MaskText4 t p) : t ≠ [] ∧ '/' ∉ t ∧ p ≤ 32 := by
  rcases h with ⟨h, hp⟩ | ⟨a, b, c, d, rfl, h⟩
  · exact ⟨h.1, decText_noslash t p h, hp⟩
  · refine ⟨?_, dotted_noslash a b c d, by omega⟩
    intro e
    have := (dotted_length a b c d).2
    rw [e] at this
    simp at this

theorem maskText6_ne (t : List Char) (p : Nat) (h : MaskText6 t p) : t ≠ [] ∧ '/' ∉ t ∧ p ≤ 128 :=
  ⟨h.1.1, decText_noslash t p h.1, h.2⟩

theorem maskText6_unique (t : List Char) (p q : Nat) (h : MaskText6 t p) (h' : MaskText6 t q) : p = q :=
  decText_unique t p q h.1 h'.1

theorem maskText4_unique (t : List Char) (p q : Nat) (h : MaskText4 t p) (h' : MaskText4 t q) : p = q := by
  have clash : ∀ p q x, p ≤ 32 → IsMask 32 p x → 1 ≤ q → q ≤ 31 → IsHostMask 32 q x → False := by
    intro p q x hp h1 hq1 hq2 h2
    have a := h1 31
    have b := h2 31
    have c := h1 0
    have d := h2 0
    have b' : x.testBit 31 = false := by rw [b]; exact decide_eq_false (by omega)
    have d' : x.testBit 0 = true := by rw [d]; exact decide_eq_true (by omega)
    rw [b'] at a
    rw [d'] at c
    have a' := decide_eq_false_iff_not.mp a.symm
    have c' := decide_eq_true_iff.mp c.symm
    omega
  rcases h with ⟨h, hp⟩ | ⟨a, b, c, d, e, h⟩
  · rcases h' with ⟨h', _⟩ | ⟨a, b, c, d, rfl, _⟩
    · exact decText_unique t p q h h'
    · obtain ⟨_, ds, h, _⟩ := h
      exact absurd ⟨ds, h⟩ (not_decText_dotted a b c d)
  · rcases h' with ⟨h', _⟩ | ⟨a', b', c', d', e', h'⟩
    · obtain ⟨_, ds, h', _⟩ := h'
      rw [e] at h'
      exact absurd ⟨ds, h'⟩ (not_decText_dotted a b c d)
    · have hv : ([a, b, c, d] : List (BitVec 8)) = [a', b', c', d'] := by
        have h1 := (v4Parse_ok_iff t [a, b, c, d]).mpr ⟨a, b, c, d, rfl, e⟩
        have h2 := (v4Parse_ok_iff t [a', b', c', d']).mpr ⟨a', b', c', d', rfl, e'⟩
        rw [h1] at h2
        cases h2; rfl
      rw [← hv] at h'
      rcases h with ⟨p1, h⟩ | ⟨p1, p2, h⟩ <;> rcases h' with ⟨q1, h'⟩ | ⟨q1, q2, h'⟩
      · exact mask_inj 32 p q p1 q1 ((isMask_unique 32 p _ p1 h).symm.trans (isMask_unique 32 q _ q1 h'))
      · exact (clash p q _ p1 h q1 q2 h').elim
      · exact (clash q p _ q1 h' p1 p2 h).elim
      · have e1 := (isHostMask_iff 32 p _).mp h
        have e2 := (isHostMask_iff 32 q _).mp h'
        have a1 := Nat.two_pow_pos (32 - p)
        have a2 := Nat.two_pow_pos (32 - q)
        have := Nat.pow_right_injective (Nat.le_refl 2) (show 2 ^ (32 - p) = 2 ^ (32 - q) by omega)
        omega

section
variable {A U : Type} {F : Fam A U} {WF : A → Prop} {val : U → Nat}

/-- The complete reading of a text, when the address part is accepted. -/
theorem parseNet_reading (L : F.Law WF val) (s : List Char) (hl : (addrPart s).length ≤ F.maxLen) (strict : Bool)
    (x : A) (hx : F.parseArray (addrArray F (addrPart s)) = .ok x) (b : List (BitVec 8)) (p cv : Nat)
    (hm : (maskPart s = none ∧ F.parseNetmask [] = .ok (F.ofBytes b, p, cv)) ∨
      ∃ m, maskPart s = some m ∧ m ≠ [] ∧ '/' ∉ m ∧ F.parseNetmask (readChars m) = .ok (F.ofBytes b, p, cv))
    (h2 : 8 * b.length = F.maxPrefix) (h3 : beValue b = 2 ^ F.maxPrefix - 2 ^ (F.maxPrefix - p)) (hp : p ≤ F.maxPrefix) :
    F.parseNet (readChars s) strict = withValue cv (F.fromAddress x p strict) := by
  obtain ⟨h0, hs⟩ := parts_eq s
  rcases hm with ⟨g1, g2⟩ | ⟨m, g1, g2, g3, g4⟩
  · rcases hs with ⟨_, e⟩ | ⟨m, e, _⟩
    · conv => lhs; rw [e]
      rw [parseNet_noslash F _ h0 hl strict]
      exact parseTail_eq L _ _ strict x b p cv g2 h2 h3 hp hx
    · rw [g1] at e; cases e
  · rcases hs with ⟨e, _⟩ | ⟨m', e, e'⟩
    · rw [g1] at e; cases e
    · rw [g1] at e; cases e
      conv => lhs; rw [e']
      rw [parseNet_slash F _ m h0 hl strict, if_neg g2, if_neg g3]
      exact parseTail_eq L _ _ strict x b p cv g4 h2 h3 hp hx

/-- If the address part or the mask part is rejected, so is the text. -/
theorem parseNet_reject (s : List Char) (hl : (addrPart s).length ≤ F.maxLen) (strict : Bool)
    (hn : ∃ b p cv, F.parseNetmask [] = .ok (b, p, cv))
    (h : (∃ e v, F.parseArray (addrArray F (addrPart s)) = .err e v) ∨
      ∃ m, maskPart s = some m ∧ (m = [] ∨ '/' ∈ m ∨ ∃ e v, F.parseNetmask (readChars m) = .err e v))
    (hu : ∀ m, maskPart s = some m → F.parseNetmask (readChars m) ≠ .ub) :
    ∃ e v, F.parseNet (readChars s) strict = .err e v := by
  obtain ⟨h0, hs⟩ := parts_eq s
  obtain ⟨b, p, cv, hn⟩ := hn
  rcases hs with ⟨e, e'⟩ | ⟨m, e, e'⟩
  · rw [e', parseNet_noslash F _ h0 hl strict, parseTail, hn, Res.ok_bind]
    rcases h with ⟨c, v, h⟩ | ⟨m, h, _⟩
    · rw [h]; exact ⟨c, cv, rfl⟩
    · rw [e] at h; cases h
  · rw [e', parseNet_slash F _ m h0 hl strict]
    by_cases hm : m = []
    · rw [if_pos hm]; exact ⟨_, _, rfl⟩
    · rw [if_neg hm]
      by_cases hm2 : '/' ∈ m
      · rw [if_pos hm2]; exact ⟨_, _, rfl⟩
      · rw [if_neg hm2, parseTail]
        cases hp : F.parseNetmask (readChars m) with
        | ub => exact absurd hp (hu m e)
        | err c v => exact ⟨c, v, rfl⟩
        | ok r =>
          rw [Res.ok_bind]
          rcases h with ⟨c, v, h⟩ | ⟨m', h, h'⟩
          · rw [h]; exact ⟨c, _, rfl⟩
          · rw [e] at h; cases h
            rcases h' with h' | h' | ⟨c, v, h'⟩
            · exact absurd h' hm
            · exact absurd h' hm2
            · rw [hp] at h'; cases h'

theorem parseLoop_keepMask : ∀ (evs : List Ev) (st st' : Fam.ParseSt), st.netmask.isSome → F.parseLoop evs st = .ok st' →
    st'.netmask = st.netmask
  | [], st, st', _, h => by cases h; rfl
  | .bad _ _ :: _, st, st', _, h => by cases h
  | .ch c :: rest, st, st', hs, h => by
    rw [Fam.parseLoop] at h
    split at h
    · cases h
    · have e : F.storeChar c st = .ok (st, decide (st.symbol > F.maxLen)) := by
        rw [Fam.storeChar, if_neg (by cases hn : st.netmask <;> simp_all)]
      rw [e, Res.ok_bind] at h
      split at h
      · cases h; rfl
      · exact parseLoop_keepMask rest st st' hs h

/-- The netmask is what follows the first slash, if the address before it fits. -/
theorem parseLoop_netmask : ∀ (evs : List Ev) (i : Nat) (addr : List Char) (st' : Fam.ParseSt), i ≤ F.maxLen →
    F.parseLoop evs ⟨i, addr, none⟩ = .ok st' →
    st'.netmask = none ∨ ∃ a r, evs = readChars a ++ Ev.ch '/' :: r ∧ '/' ∉ a ∧ i + a.length ≤ F.maxLen ∧ st'.netmask = some r
  | [], i, addr, st', _, h => by cases h; exact .inl rfl
  | .bad code sym :: _, i, addr, st', _, h => by cases h
  | .ch c :: rest, i, addr, st', hi, h => by
    rw [Fam.parseLoop] at h
    split at h
    · rename_i hc
      simp only [Option.isSome_none, Bool.false_eq_true, if_false] at h
      split at h
      · cases h
      · simp only [Fam.storeChar, Option.isNone_some, Bool.false_eq_true, if_false, Res.ok_bind] at h
        rw [decide_eq_false (by omega)] at h
        simp only [Bool.false_eq_true, if_false] at h
        exact .inr ⟨[], rest, by simp [hc, readChars], by simp, by simpa using hi, parseLoop_keepMask rest _ st' rfl h⟩
    · rename_i hc
      simp only [Fam.storeChar, Option.isNone_none, if_true] at h
      obtain ⟨r, h1, h⟩ := Res.bind_eq_ok.1 h
      obtain ⟨b, _, h1⟩ := Res.bind_eq_ok.1 h1
      cases h1
      simp only at h
      split at h
      · cases h; exact .inl rfl
      · rename_i hl
        rcases parseLoop_netmask rest (i + 1) b st' (by simpa using hl) h with h | ⟨a, r, h1, h2, h3, h4⟩
        · exact .inl h
        · exact .inr ⟨c :: a, r, by rw [h1]; rfl, by simp [h2, Ne.symm hc], by simp; omega, h4⟩

/-- Undefined behaviour of the network parser can only come from the netmask. -/
theorem parseNet_ub (L : F.Law WF val) (hA : ∀ arr x, F.parseArray arr = .ok x → WF x)
    (hM : ∀ evs m p cv, F.parseNetmask evs = .ok (m, p, cv) → ∃ b, m = F.ofBytes b ∧ p ≤ F.maxPrefix ∧
      8 * b.length = F.maxPrefix ∧ beValue b = 2 ^ F.maxPrefix - 2 ^ (F.maxPrefix - p))
    (hU : ∀ arr, F.parseArray arr ≠ .ub) (evs : List Ev) (strict : Bool) (h : F.parseNet evs strict = .ub) :
    ∃ r, (r = [] ∨ ∃ a, evs = readChars a ++ Ev.ch '/' :: r ∧ '/' ∉ a ∧ a.length ≤ F.maxLen) ∧ F.parseNetmask r = .ub := by
  have hsafe := parseLoop_safe F evs ⟨0, List.replicate (F.maxLen + 1) '\x00', none⟩ (by simp) (Nat.zero_le _)
  rw [Fam.parseNet] at h
  cases hp : F.parseLoop evs ⟨0, List.replicate (F.maxLen + 1) '\x00', none⟩ with
  | ub => exact absurd hp hsafe.1
  | err e v => rw [hp] at h; cases h
  | ok st =>
    rw [hp, Res.ok_bind] at h
    have h' : parseTail F st.address (st.netmask.getD []) strict = .ub := h
    have hr : st.netmask.getD [] = [] ∨
        ∃ a, evs = readChars a ++ Ev.ch '/' :: st.netmask.getD [] ∧ '/' ∉ a ∧ a.length ≤ F.maxLen := by
      rcases parseLoop_netmask evs _ _ st (Nat.zero_le _) hp with h | ⟨a, r, h1, h2, h3, h4⟩
      · exact .inl (by rw [h]; rfl)
      · exact .inr ⟨a, by rw [h4]; exact h1, h2, by omega⟩
    generalize st.netmask.getD [] = r at h' hr
    refine ⟨r, hr, ?_⟩
    cases hm : F.parseNetmask r with
    | ub => rfl
    | err e v => rw [parseTail, hm] at h'; cases h'
    | ok q =>
      exfalso
      obtain ⟨m, p, cv⟩ := q
      obtain ⟨b, rfl, b1, b2, b3⟩ := hM r m p cv hm
      cases ha : F.parseArray st.address with
      | ub => exact hU _ ha
      | err e v => rw [parseTail, hm, Res.ok_bind, ha] at h'; cases h'
      | ok x =>
        rw [parseTail_eq L _ _ strict x b p cv hm b2 b3 b1 ha] at h'
        have h' := withValue_ub _ _ h'
        obtain ⟨_, _, _, _, _, _, k⟩ := fromAddress_eq L x (hA _ _ ha) p b1 strict
        rw [k] at h'
        split at h'
        · cases h'
        · split at h' <;> cases h'

/-- Reading an address longer than the buffer: the text after `maxLen` characters is ignored. -/
theorem parseNet_truncates (hA : ∀ arr x, arr.length = F.maxLen → F.parseArray (arr ++ [x]) = F.parseArray (arr ++ ['\x00']))
    (s : List Char) (hl : F.maxLen < (addrPart s).length) (strict : Bool) :
    F.parseNet (readChars s) strict = F.parseNet (readChars (s.take F.maxLen)) strict := by
  obtain ⟨h0, hs⟩ := parts_eq s
  obtain ⟨tail, ht⟩ : ∃ tail, s = addrPart s ++ tail := by
    rcases hs with ⟨_, e⟩ | ⟨m, _, e⟩
    · exact ⟨[], by rw [List.append_nil]; exact e⟩
    · exact ⟨_, e⟩
  generalize addrPart s = a at h0 ht hl
  subst ht
  clear hs
  have e1 : (a ++ tail).take F.maxLen = a.take F.maxLen := List.take_append_of_le_length (by omega)
  obtain ⟨x, rest, e2⟩ : ∃ x rest, a.drop F.maxLen = x :: rest := by
    cases h : a.drop F.maxLen with
    | nil => have := congrArg List.length h; simp at this; omega
    | cons x rest => exact ⟨x, rest, rfl⟩
  have e3 : a = a.take F.maxLen ++ (x :: rest) := by rw [← e2, List.take_append_drop]
  have hs1 : '/' ∉ a.take F.maxLen := fun h => h0 (List.mem_of_mem_take h)
  have hx : x ≠ '/' := by
    intro e
    apply h0
    rw [e3, e]
    simp
  have hlen : (a.take F.maxLen).length = F.maxLen := by simp; omega
  rw [e1, parseNet_noslash F _ hs1 (by omega) strict]
  generalize a.take F.maxLen = t at *
  have e4 : a ++ tail = t ++ (x :: (rest ++ tail)) := by rw [e3]; simp
  rw [e4]
  have hp := parseLoop_addr F (x :: (rest ++ tail)) t [] (List.replicate (F.maxLen + 1) '\x00') 0 rfl hs1 (by omega) (by simp; omega)
  rw [Fam.parseNet]
  simp only [List.nil_append, Nat.zero_add] at hp
  rw [hp]
  simp only [readChars, List.map_cons, Fam.parseLoop, if_neg hx, Fam.storeChar, Option.isNone_none, if_true]
  rw [List.drop_replicate, show F.maxLen + 1 - t.length = 1 by omega]
  rw [show (t ++ List.replicate 1 '\x00') = t ++ '\x00' :: [] from rfl, wr_append t '\x00' x [] t.length rfl]
  simp only [Res.ok_bind]
  rw [decide_eq_true (by omega), if_pos rfl]
  simp only [Res.ok_bind, Option.getD_none]
  show parseTail F (t ++ [x]) [] strict = _
  rw [parseTail, parseTail, addrArray, show F.maxLen + 1 - t.length = 1 by omega, hA t x hlen]
  rfl
end

theorem mkFixed_last (t : List Char) (x : Char) : mkFixed (t ++ [x]) = mkFixed (t ++ ['\x00']) := by
  simp [mkFixed]

/-- The characters of the address part after a NUL are ignored. -/
theorem mkFixed_nul (n : Nat) (a : List Char) (hl : a.length ≤ n) :
    ∃ f, mkFixed (a ++ List.replicate (n + 1 - a.length) '\x00') = .ok f ∧ f.contents = cstr a := by
  obtain ⟨f, h1, _, _, h4⟩ := mkFixed_eq (a ++ List.replicate (n + 1 - a.length) '\x00')
  refine ⟨f, h1, ?_⟩
  rw [h4]
  have e : (a ++ List.replicate (n + 1 - a.length) '\x00').length - 1 = n := by simp; omega
  rw [e, show n + 1 - a.length = (n - a.length) + 1 by omega, List.replicate_succ, cstr_take _ _ _ hl]

theorem noChar_colons (x : Char) (hx : x ≠ ':') (ts : List (List Char)) (h : ∀ t ∈ ts, x ∉ t) : x ∉ colons ts := by
  induction ts with
  | nil => simp [colons]
  | cons t ts ih =>
    by_cases hts : ts = []
    · subst hts; simpa [colons] using h
    · rw [colons_cons _ _ hts]
      simp only [List.mem_append, List.mem_cons, not_or]
      exact ⟨h t (by simp), hx, ih (fun u hu => h u (by simp [hu]))⟩

theorem HexNum_noslash {t : List Char} {v : Nat} (h : HexNum t v) : '/' ∉ t := by
  intro hd
  obtain ⟨d, hd⟩ := h.digits '/' hd
  have := (hexVal_of_HexDigit hd).2
  simp [hexVal] at this

theorem FmtText.noslash {vs : List Nat} (hv : vs.length = 8) (hlt : ∀ v ∈ vs, v < 65536) {fmt : Format} {s : List Char}
    (h : FmtText vs fmt s) : '/' ∉ s := by
  have hs : ∀ us : List Nat, (∀ u ∈ us, u ∈ vs) → '/' ∉ colons (us.map hexShort) := by
    intro us hus
    apply noChar_colons _ (by decide)
    intro t ht
    rw [List.mem_map] at ht
    obtain ⟨v, hv, rfl⟩ := ht
    exact HexNum_noslash (hexShort_HexNum v (hlt v (hus v hv)))
  cases h with
  | full =>
    apply noChar_colons _ (by decide)
    intro t ht
    rw [List.mem_map] at ht
    obtain ⟨v, hv, rfl⟩ := ht
    exact HexNum_noslash (hex4_HexNum v (hlt v hv))
  | compact => exact hs vs (fun _ h => h)
  | compressed x hx =>
    rcases hx.canonical hv with ⟨p, l, _, _, _, e⟩ | ⟨_, e⟩
    · rw [e]
      simp only [List.mem_append, List.mem_cons, not_or]
      exact ⟨hs _ fun u hu => List.mem_of_mem_take hu, by decide, by decide, hs _ fun u hu => List.mem_of_mem_drop hu⟩
    · rw [e]; exact hs vs (fun _ h => h)

theorem fam4_parseNetmask_nil : (fam4 true).parseNetmask [] = .ok ((fam4 true).ofBytes [255, 255, 255, 255], 32, 0) := by
  decide

theorem fam6_parseNetmask_nil (c : Cfg) :
    (fam6 c).parseNetmask [] = .ok ((fam6 c).ofBytes (List.replicate 16 255#8), 128, 0) := by
  show (v6ParseNetmask [] >>= _) = _
  rw [show v6ParseNetmask [] = .ok (List.replicate 16 255#8, 128, 0) by decide]
  rfl

end Ip
