import Verif.Lemmas.NetmaskText
import Verif.Lemmas.Events
import Verif.Props.V6Text
/-
Parsing of networks: the loop of `parse_address_with_prefix` and the text of netmasks.
-/
set_option autoImplicit false

namespace Ip
open Spec

/-! ### Netmask text -/

theorem v4FromPrefix_mask (p : Nat) (h : p ≤ 32) :
    ∃ b, v4FromPrefix true p = .ok b ∧ b.length = 4 ∧ IsMask 32 p (beValue b) := by
  obtain ⟨b, h1, h2, h3⟩ := v4FromPrefix_val p h
  exact ⟨b, h1, h2, h3 ▸ mask_isMask 32 p h⟩

theorem prefixFromUint_zero (v : Nat) : prefixFromUint 0#32 v = .ub := by
  rw [prefixFromUint, countRightZeros, if_pos rfl, Res.ok_bind]
  rfl

theorem not_toNat (x : BitVec 32) : (x ^^^ 0xFFFFFFFF#32).toNat = 2 ^ 32 - 1 - x.toNat := by
  rw [show x ^^^ 0xFFFFFFFF#32 = ~~~x by rw [show 0xFFFFFFFF#32 = BitVec.allOnes 32 by decide, BitVec.xor_allOnes]]
  rw [BitVec.toNat_not]

/-- The prefix length of a dotted mask that is not `0.0.0.0`. -/
theorem prefixFromMask_rel (x : BitVec 32) (hx : x ≠ 0#32) :
    (∃ p, ((p ≤ 32 ∧ IsMask 32 p x.toNat) ∨ (1 ≤ p ∧ p ≤ 31 ∧ IsHostMask 32 p x.toNat)) ∧ prefixFromMask x = .ok p) ∨
    ((¬ ∃ p, (p ≤ 32 ∧ IsMask 32 p x.toNat) ∨ (1 ≤ p ∧ p ≤ 31 ∧ IsHostMask 32 p x.toNat)) ∧
      prefixFromMask x = .err .netmask_pattern_mixes_zeroes_and_ones 3) := by
  rcases prefixFromUint_rel x hx 3 with ⟨p, h1, h2, h3, h4⟩ | ⟨h1, h2⟩
  · exact .inl ⟨p, .inl ⟨h2, (isMask_iff 32 p _ h2).mpr h3⟩, by rw [prefixFromMask, h4]⟩
  · have hpf : prefixFromMask x = prefixFromUint (x ^^^ 0xFFFFFFFF#32) 3 := by rw [prefixFromMask, h2]
    rw [hpf]
    have hy : x ^^^ 0xFFFFFFFF#32 ≠ 0#32 := by
      intro e
      apply h1
      have := congrArg BitVec.toNat e
      rw [not_toNat] at this
      have h0 : (0#32).toNat = 0 := rfl
      have := x.isLt
      exact ⟨32, by omega, by simp only [Nat.sub_self, Nat.pow_zero]; omega⟩
    have hlt := x.isLt
    rcases prefixFromUint_rel (x ^^^ 0xFFFFFFFF#32) hy 3 with ⟨p, g1, g2, g3, g4⟩ | ⟨g1, g2⟩
    · refine .inl ⟨p, .inr ?_, g4⟩
      rw [not_toNat] at g3
      have hle : 2 ^ (32 - p) ≤ 2 ^ 32 := Nat.pow_le_pow_right (by decide) (by omega)
      have hp0 := Nat.two_pow_pos (32 - p)
      have hx0 : x.toNat ≠ 0 := fun e => hx (BitVec.eq_of_toNat_eq (by rw [e]; rfl))
      refine ⟨g1, ?_, (isHostMask_iff 32 p _).mpr (by omega)⟩
      rcases Nat.lt_or_ge p 32 with h | h
      · omega
      · obtain rfl : p = 32 := by omega
        simp only [Nat.sub_self, Nat.pow_zero] at g3
        omega
    · refine .inr ⟨?_, g2⟩
      rintro ⟨p, ⟨e1, e2⟩ | ⟨e1, e2, e3⟩⟩
      · exact h1 ⟨p, e1, isMask_unique 32 p _ e1 e2⟩
      · rw [isHostMask_iff] at e3
        have hp0 := Nat.two_pow_pos (32 - p)
        exact g1 ⟨p, by omega, by rw [not_toNat, e3]; omega⟩

theorem prefixFromMask_zero : prefixFromMask 0#32 = .ub := by
  rw [prefixFromMask, prefixFromUint_zero]

theorem not_decText_dotted (a b c d : BitVec 8) : ¬ ∃ ds, DigitText 10 (dotted a b c d) ds := by
  rintro ⟨ds, h⟩
  have key : ∀ (t : List Char) (ds : List Nat), DigitText 10 t ds → ∀ c ∈ t, '0'.toNat ≤ c.toNat := by
    intro t
    induction t with
    | nil => intro ds _ c hc; simp at hc
    | cons x xs ih =>
      intro ds h c hc
      cases ds with
      | nil => exact h.elim
      | cons d ds =>
        rcases List.mem_cons.mp hc with rfl | hc
        · exact (dec_digit _ d h.1 h.2.1).1.1
        · exact ih ds h.2.2 c hc
  have := key _ _ h '.' (by simp [dotted])
  revert this
  decide

/-- The netmask text of IPv4, except for numbers of 2^64 and above and for `0.0.0.0`. -/
theorem v4ParseNetmask_rel (t : List Char) (ht : t ≠ []) (hv : ∀ v, DecText t v → v < 2 ^ 64)
    (hz : t ≠ dotted 0 0 0 0) :
    (∃ p m cv, MaskText4 t p ∧ v4ParseNetmask true (readChars t) = .ok (m, p, cv) ∧ m.length = 4 ∧
      p ≤ 32 ∧ beValue m = 2 ^ 32 - 2 ^ (32 - p)) ∨
    ((¬ ∃ p, MaskText4 t p) ∧ ∃ e v, v4ParseNetmask true (readChars t) = .err e v) := by
  have hne : readChars t ≠ [] := by simpa [readChars] using ht
  rcases digitsLoop_rel t 0 with ⟨ds, h1, h2⟩ | ⟨h1, h2⟩
  · have hd : DecText t (digitsValue 10 ds) := ⟨ht, ds, h1, rfl⟩
    have hlt : _ < 18446744073709551616 := hv _ hd
    rw [Nat.zero_mod, show ds.foldl (fun acc d => acc * 10 + d) 0 = digitsValue 10 ds from rfl,
      Nat.mod_eq_of_lt hlt] at h2
    rw [v4ParseNetmask, h2, Res.ok_bind]
    by_cases hp : digitsValue 10 ds > 32
    · right
      refine ⟨?_, .invalid_netmask, 0, if_pos hp⟩
      rintro ⟨p, ⟨⟨_, ds', e1, e2⟩, e3⟩ | ⟨a, b, c, d, e1, _⟩⟩
      · rw [DigitText_unique 10 t _ _ e1 h1] at e2; omega
      · rw [e1] at h1; exact not_decText_dotted a b c d ⟨ds, h1⟩
    · left
      obtain ⟨m, m1, m2, m3⟩ := v4FromPrefix_val (digitsValue 10 ds) (by omega)
      refine ⟨_, m, 0, .inl ⟨hd, by omega⟩, ?_, m2, by omega, m3⟩
      simp only [if_neg hp, if_neg hne, m1, Res.ok_bind]
  · rw [Nat.zero_mod] at h2
    rw [v4ParseNetmask, h2, Res.ok_bind, v4MaskText]
    cases hp : v4FromEvents (readChars t) with
    | ub => exact absurd hp (v4FromEvents_ne_ub _)
    | err e v =>
      right
      refine ⟨?_, .invalid_netmask, v, rfl⟩
      rintro ⟨p, ⟨⟨_, ds', e1, e2⟩, e3⟩ | ⟨a, b, c, d, e1, _⟩⟩
      · exact h1 ⟨ds', e1⟩
      · rw [e1, v4FromEvents_dotted] at hp; cases hp
    | ok r =>
      obtain ⟨a, b, c, d, e1, e2⟩ := (v4Parse_ok_iff t r).1 hp
      subst e1
      have hx : cat4 a b c d ≠ 0#32 := by
        intro e
        apply hz
        have e3 := cat4_toNat a b c d
        rw [e] at e3
        have : [a, b, c, d] = [0, 0, 0, 0] := by
          exact beValue_inj [a, b, c, d] [0, 0, 0, 0] rfl (by rw [← e3]; rfl)
        cases this
        exact e2
      simp only [v4ToUint_le, Res.ok_bind]
      have hc := cat4_toNat a b c d
      rcases prefixFromMask_rel (cat4 a b c d) hx with ⟨p, g1, g2⟩ | ⟨g1, g2⟩
      · left
        have hp32 : p ≤ 32 := by rcases g1 with g | g <;> omega
        obtain ⟨m, m1, m2, m3⟩ := v4FromPrefix_val p hp32
        refine ⟨p, m, 3, .inr ⟨a, b, c, d, e2, ?_⟩, ?_, m2, hp32, m3⟩
        · rwa [hc] at g1
        · simp only [g2, m1, Res.ok_bind]
      · right
        refine ⟨?_, .netmask_pattern_mixes_zeroes_and_ones, 3, by simp only [g2, Res.err_bind]⟩
        rintro ⟨p, ⟨⟨_, ds', f1, f2⟩, f3⟩ | ⟨a', b', c', d', f1, f2⟩⟩
        · exact h1 ⟨ds', f1⟩
        · rw [f1, v4FromEvents_dotted] at hp
          cases hp
          rw [← hc] at f2
          exact g1 ⟨p, f2⟩

/-- The prefix length text of IPv6, except for numbers of 2^64 and above. -/
theorem v6ParseNetmask_rel (t : List Char) (ht : t ≠ []) (hv : ∀ v, DecText t v → v < 2 ^ 64) :
    (∃ p m, MaskText6 t p ∧ v6ParseNetmask (readChars t) = .ok (m, p, 0) ∧ m.length = 16 ∧
      p ≤ 128 ∧ beValue m = 2 ^ 128 - 2 ^ (128 - p)) ∨
    ((¬ ∃ p, MaskText6 t p) ∧ v6ParseNetmask (readChars t) = .err .invalid_netmask 0) := by
  have hne : readChars t ≠ [] := by simpa [readChars] using ht
  rcases digitsLoop_rel t 0 with ⟨ds, h1, h2⟩ | ⟨h1, h2⟩
  · have hd : DecText t (digitsValue 10 ds) := ⟨ht, ds, h1, rfl⟩
    have hlt : _ < 18446744073709551616 := hv _ hd
    rw [Nat.zero_mod, show ds.foldl (fun acc d => acc * 10 + d) 0 = digitsValue 10 ds from rfl,
      Nat.mod_eq_of_lt hlt] at h2
    rw [v6ParseNetmask, h2, Res.ok_bind]
    by_cases hp : digitsValue 10 ds > 128
    · right
      refine ⟨?_, if_pos hp⟩
      rintro ⟨p, ⟨_, ds', e1, e2⟩, e3⟩
      rw [DigitText_unique 10 t _ _ e1 h1] at e2; omega
    · left
      obtain ⟨m, m1, m2, m3⟩ := v6FromPrefix_val (digitsValue 10 ds) (by omega)
      refine ⟨_, m, ⟨hd, by omega⟩, ?_, m2, by omega, m3⟩
      simp only [if_neg hp, if_neg hne, m1, Res.ok_bind]
  · rw [Nat.zero_mod] at h2
    right
    refine ⟨?_, by rw [v6ParseNetmask, h2, Res.ok_bind]⟩
    rintro ⟨p, ⟨_, ds', e1, e2⟩, e3⟩
    exact h1 ⟨ds', e1⟩

theorem digitsLoop_ne_ub : ∀ (evs : List Ev) (p : Nat), digitsLoop evs p ≠ .ub
  | [], _ => by simp [digitsLoop]
  | .bad _ _ :: _, _ => by simp [digitsLoop]
  | .ch c :: rest, p => by
    rw [digitsLoop]
    split
    · exact digitsLoop_ne_ub rest _
    · simp

/-- Whatever is read after the slash, an accepted netmask has the stated form. -/
theorem v4ParseNetmask_ok (evs : List Ev) (m : List (BitVec 8)) (p cv : Nat)
    (h : v4ParseNetmask true evs = .ok (m, p, cv)) :
    p ≤ 32 ∧ m.length = 4 ∧ beValue m = 2 ^ 32 - 2 ^ (32 - p) := by
  have key : ∀ q cv', q ≤ 32 → (v4FromPrefix true q >>= fun m => .ok (m, q, cv')) = .ok (m, p, cv) →
      p ≤ 32 ∧ m.length = 4 ∧ beValue m = 2 ^ 32 - 2 ^ (32 - p) := by
    intro q cv' hq h
    obtain ⟨b, h1, h2, h3⟩ := v4FromPrefix_val q hq
    rw [h1, Res.ok_bind] at h
    cases h
    exact ⟨hq, h2, h3⟩
  rw [v4ParseNetmask] at h
  obtain ⟨d, h1, h2⟩ := Res.bind_eq_ok.1 h
  cases d with
  | some q =>
    simp only at h2
    split at h2
    · cases h2
    · exact key _ _ (by split <;> omega) h2
  | none =>
    simp only at h2
    obtain ⟨q, h3, h4⟩ := Res.bind_eq_ok.1 h2
    refine key q 3 ?_ h4
    rw [v4MaskText] at h3
    cases hp : v4FromEvents evs with
    | ub => rw [hp] at h3; cases h3
    | err e v => rw [hp] at h3; cases h3
    | ok r =>
      obtain ⟨a, b, c, d, e1, e2⟩ := v4FromEvents_ok hp
      rw [hp] at h3
      subst e1
      simp only [v4ToUint_le, Res.ok_bind] at h3
      by_cases hx : cat4 a b c d = 0#32
      · rw [hx, prefixFromMask_zero] at h3; cases h3
      · rcases prefixFromMask_rel _ hx with ⟨p', g1, g2⟩ | ⟨g1, g2⟩
        · rw [g2] at h3; cases h3
          rcases g1 with g | g <;> omega
        · rw [g2] at h3; cases h3

theorem v6ParseNetmask_ok (evs : List Ev) (m : List (BitVec 8)) (p cv : Nat)
    (h : v6ParseNetmask evs = .ok (m, p, cv)) :
    p ≤ 128 ∧ m.length = 16 ∧ beValue m = 2 ^ 128 - 2 ^ (128 - p) := by
  rw [v6ParseNetmask] at h
  obtain ⟨d, h1, h2⟩ := Res.bind_eq_ok.1 h
  cases d with
  | some q =>
    simp only at h2
    split at h2
    · cases h2
    · obtain ⟨b, g1, g2⟩ := Res.bind_eq_ok.1 h2
      obtain ⟨b', k1, k2, k3⟩ := v6FromPrefix_val (if evs = [] then 128 else q) (by split <;> omega)
      rw [k1] at g1
      cases g1
      cases g2
      exact ⟨by split <;> omega, k2, k3⟩
  | none => cases h2

/-- Only a dotted mask `0.0.0.0` leads to undefined behaviour. -/
theorem v4ParseNetmask_ub (evs : List Ev) (h : v4ParseNetmask true evs = .ub) : evs = readChars (dotted 0 0 0 0) := by
  rw [v4ParseNetmask] at h
  cases hd : digitsLoop evs 0 with
  | ub => exact absurd hd (digitsLoop_ne_ub _ _)
  | err e v => rw [hd] at h; cases h
  | ok d =>
    rw [hd, Res.ok_bind] at h
    cases d with
    | some q =>
      simp only at h
      split at h
      · cases h
      · obtain ⟨b, k1, k2, k3⟩ := v4FromPrefix_val (if evs = [] then 32 else q) (by split <;> omega)
        rw [k1] at h; cases h
    | none =>
      simp only at h
      cases hp : v4FromEvents evs with
      | ub => exact absurd hp (v4FromEvents_ne_ub _)
      | err e v => rw [v4MaskText, hp] at h; cases h
      | ok r =>
        obtain ⟨a, b, c, d, e1, e2⟩ := v4FromEvents_ok hp
        subst e1
        rw [v4MaskText, hp] at h
        simp only [v4ToUint_le, Res.ok_bind] at h
        by_cases hx : cat4 a b c d = 0#32
        · have e3 := cat4_toNat a b c d
          rw [hx] at e3
          have : [a, b, c, d] = [0, 0, 0, 0] := by
            exact beValue_inj [a, b, c, d] [0, 0, 0, 0] rfl (by rw [← e3]; rfl)
          cases this
          exact e2
        · rcases prefixFromMask_rel _ hx with ⟨p', g1, g2⟩ | ⟨g1, g2⟩
          · rw [g2, Res.ok_bind] at h
            obtain ⟨b, k1, k2, k3⟩ := v4FromPrefix_val p' (by rcases g1 with g | g <;> omega)
            rw [k1] at h; cases h
          · rw [g2] at h; cases h

theorem v6ParseNetmask_ne_ub (evs : List Ev) : v6ParseNetmask evs ≠ .ub := by
  intro h
  rw [v6ParseNetmask] at h
  cases hd : digitsLoop evs 0 with
  | ub => exact absurd hd (digitsLoop_ne_ub _ _)
  | err e v => rw [hd] at h; cases h
  | ok d =>
    rw [hd, Res.ok_bind] at h
    cases d with
    | some q =>
      simp only at h
      split at h
      · cases h
      · obtain ⟨b, k1, k2, k3⟩ := v6FromPrefix_val (if evs = [] then 128 else q) (by split <;> omega)
        rw [k1] at h; cases h
    | none => cases h

/-! ### The loop -/

section
variable {A U : Type} (F : Fam A U)

theorem parseLoop_after (i : Nat) (addr : List Char) (r : List Ev) (hi : i ≤ F.maxLen) : ∀ m : List Char,
    F.parseLoop (readChars m) ⟨i, addr, some r⟩ =
      if '/' ∈ m then .err .only_one_slash_permitted 0 else .ok ⟨i, addr, some r⟩
  | [] => by simp [readChars, Fam.parseLoop]
  | c :: m => by
    have ih := parseLoop_after i addr r hi m
    simp only [readChars, List.map_cons] at ih ⊢
    by_cases hc : c = '/'
    · subst hc
      simp [Fam.parseLoop]
    · rw [Fam.parseLoop, if_neg hc]
      simp only [Fam.storeChar, Option.isNone_some, Bool.false_eq_true, if_false, Res.ok_bind]
      rw [decide_eq_false (by omega), if_neg (by decide), ih]
      have : ('/' ∈ c :: m) ↔ '/' ∈ m := by
        simp [List.mem_cons, Ne.symm hc]
      simp only [this]

theorem parseLoop_addr (tail : List Char) : ∀ (a pre rest : List Char) (i : Nat), i = pre.length → '/' ∉ a →
    i + a.length ≤ F.maxLen → a.length ≤ rest.length →
    F.parseLoop (readChars (a ++ tail)) ⟨i, pre ++ rest, none⟩ =
      F.parseLoop (readChars tail) ⟨i + a.length, pre ++ a ++ rest.drop a.length, none⟩
  | [], pre, rest, i, _, _, _, _ => by simp
  | c :: a, pre, [], i, _, _, _, h => by simp at h
  | c :: a, pre, x :: rest, i, hi, hs, hl, hr => by
    have hc : c ≠ '/' := fun e => hs (by simp [e])
    have ih := parseLoop_addr tail a (pre ++ [c]) rest (i + 1) (by simp [hi]) (fun h => hs (by simp [h]))
      (by simp at hl; omega) (by simpa using hr)
    simp only [List.length_cons] at hl
    simp only [readChars, List.cons_append, List.map_cons] at ih ⊢
    rw [Fam.parseLoop, if_neg hc]
    simp only [Fam.storeChar, Option.isNone_none, if_true, wr_append pre x c rest i hi, Res.ok_bind]
    rw [decide_eq_false (by omega), if_neg (by decide)]
    rw [List.append_assoc] at ih
    simp only [List.cons_append, List.nil_append] at ih
    rw [ih]
    simp [Nat.add_comm, Nat.add_left_comm]

/-- The array `address` after `a` has been stored in it. -/
def addrArray (a : List Char) : List Char := a ++ List.replicate (F.maxLen + 1 - a.length) '\x00'

/-- The second half of `parse_address_with_prefix`. -/
def parseTail (arr : List Char) (evs : List Ev) (strict : Bool) : Res (Net A) := do
  let m ← F.parseNetmask evs
  let a ← withValue m.2.2 (F.parseArray arr)
  let a ← withValue m.2.2 (F.strict a m.1 strict)
  .ok ⟨a, m.1, m.2.1⟩

theorem parseNet_noslash (a : List Char) (ha : '/' ∉ a) (hl : a.length ≤ F.maxLen) (strict : Bool) :
    F.parseNet (readChars a) strict = parseTail F (addrArray F a) [] strict := by
  have h := parseLoop_addr F [] a [] (List.replicate (F.maxLen + 1) '\x00') 0 rfl ha (by omega) (by simp; omega)
  rw [List.append_nil] at h
  rw [Fam.parseNet]
  simp only [List.nil_append] at h
  rw [h]
  simp only [readChars, List.map_nil, Fam.parseLoop, Res.ok_bind, List.drop_replicate, Option.getD_none, parseTail,
    addrArray]

theorem parseNet_slash (a m : List Char) (ha : '/' ∉ a) (hl : a.length ≤ F.maxLen) (strict : Bool) :
    F.parseNet (readChars (a ++ '/' :: m)) strict =
      if m = [] then .err .empty_netmask 0
      else if '/' ∈ m then .err .only_one_slash_permitted 0
      else parseTail F (addrArray F a) (readChars m) strict := by
  have h := parseLoop_addr F ('/' :: m) a [] (List.replicate (F.maxLen + 1) '\x00') 0 rfl ha (by omega) (by simp; omega)
  rw [Fam.parseNet]
  simp only [List.nil_append, Nat.zero_add] at h
  rw [h]
  by_cases hm : m = []
  · subst hm
    simp [readChars, Fam.parseLoop]
  · rw [if_neg hm]
    have hr : readChars m ≠ [] := by simpa [readChars] using hm
    have h2 := parseLoop_after F a.length (a ++ List.drop a.length (List.replicate (F.maxLen + 1) '\x00'))
      (readChars m) hl m
    have e : readChars ('/' :: m) = .ch '/' :: readChars m := rfl
    rw [e, Fam.parseLoop, if_pos rfl]
    simp only [Option.isSome_none, Bool.false_eq_true, if_false, if_neg hr, Fam.storeChar, Option.isNone_some, Res.ok_bind]
    rw [decide_eq_false (by omega), if_neg (by decide), h2]
    by_cases hs : '/' ∈ m
    · rw [if_pos hs, if_pos hs, Res.err_bind]
    · rw [if_neg hs, if_neg hs, Res.ok_bind]
      simp only [List.drop_replicate, Option.getD_some, parseTail, addrArray]

theorem parseLoop_safe : ∀ (evs : List Ev) (st : Fam.ParseSt), st.address.length = F.maxLen + 1 → st.symbol ≤ F.maxLen →
    F.parseLoop evs st ≠ .ub ∧ ∀ st', F.parseLoop evs st = .ok st' → st'.address.length = F.maxLen + 1
  | [], st, h1, _ => by
    simp only [Fam.parseLoop]
    exact ⟨by simp, fun st' h => by cases h; exact h1⟩
  | .bad code sym :: _, st, _, _ => by simp [Fam.parseLoop]
  | .ch c :: rest, st, h1, h2 => by
    have key : ∀ st : Fam.ParseSt, st.address.length = F.maxLen + 1 → st.symbol ≤ F.maxLen →
        (F.storeChar c st >>= fun r => if r.2 then .ok r.1 else F.parseLoop rest r.1) ≠ .ub ∧
        ∀ st', (F.storeChar c st >>= fun r => if r.2 then .ok r.1 else F.parseLoop rest r.1) = .ok st' →
          st'.address.length = F.maxLen + 1 := by
      intro st h1 h2
      have hs : ∃ r, F.storeChar c st = .ok r ∧ r.1.address.length = F.maxLen + 1 ∧
          (r.2 = false → r.1.symbol ≤ F.maxLen) := by
        rw [Fam.storeChar]
        split
        · rw [wr_of_lt _ _ _ (by omega), Res.ok_bind]
          refine ⟨_, rfl, ?_, ?_⟩
          · simp [h1]
          · intro h; simp only [decide_eq_false_iff_not] at h; show st.symbol + 1 ≤ _; omega
        · exact ⟨_, rfl, h1, fun h => h2⟩
      obtain ⟨r, e1, e2, e3⟩ := hs
      rw [e1, Res.ok_bind]
      cases hr : r.2 with
      | true =>
        simp only [if_true]
        exact ⟨by simp, fun st' h => by cases h; exact e2⟩
      | false =>
        simp only [Bool.false_eq_true, if_false]
        exact parseLoop_safe rest r.1 e2 (e3 hr)
    rw [Fam.parseLoop]
    split
    · split
      · simp
      · split
        · simp
        · exact key ⟨st.symbol, st.address, some rest⟩ h1 h2
    · exact key st h1 h2

theorem withValue_ok {α : Type} (v : Nat) (r : Res α) (a : α) (h : withValue v r = .ok a) : r = .ok a := by
  cases r <;> simp_all [withValue]

theorem withValue_ub {α : Type} (v : Nat) (r : Res α) (h : withValue v r = .ub) : r = .ub := by
  cases r <;> simp_all [withValue]

end

section
variable {A U : Type} {F : Fam A U} {WF : A → Prop} {val : U → Nat}

/-- After the address and the mask have been read, parsing continues as `from_address`. -/
theorem parseTail_eq (L : F.Law WF val) (arr : List Char) (evs : List Ev) (strict : Bool) (x : A)
    (m : List (BitVec 8)) (p cv : Nat) (h1 : F.parseNetmask evs = .ok (F.ofBytes m, p, cv))
    (h2 : 8 * m.length = F.maxPrefix) (h3 : beValue m = 2 ^ F.maxPrefix - 2 ^ (F.maxPrefix - p)) (hp : p ≤ F.maxPrefix)
    (h4 : F.parseArray arr = .ok x) : parseTail F arr evs strict = withValue cv (F.fromAddress x p strict) := by
  obtain ⟨m', g1, g2, g3⟩ := L.fromPrefix p hp
  obtain rfl : m' = m := beValue_inj _ _ (by omega) (by rw [g3, h3])
  simp only [parseTail, h1, h4, Res.ok_bind, withValue, Fam.fromAddress, g1]
  cases F.strict x (F.ofBytes m') strict <;> rfl

/-- What an accepted network looks like, for arbitrary input. -/
theorem parseNet_ok (L : F.Law WF val) (hA : ∀ arr x, F.parseArray arr = .ok x → WF x)
    (hM : ∀ evs m p cv, F.parseNetmask evs = .ok (m, p, cv) → ∃ b, m = F.ofBytes b ∧ p ≤ F.maxPrefix ∧
      8 * b.length = F.maxPrefix ∧ beValue b = 2 ^ F.maxPrefix - 2 ^ (F.maxPrefix - p))
    (evs : List Ev) (strict : Bool) (n : Net A) (h : F.parseNet evs strict = .ok n) : NetOk F WF n := by
  rw [Fam.parseNet] at h
  obtain ⟨st, _, h2⟩ := Res.bind_eq_ok.1 h
  have h2' : parseTail F st.address (st.netmask.getD []) strict = .ok n := h2
  obtain ⟨⟨m, p, cv⟩, h3, h4⟩ := Res.bind_eq_ok.1 h2
  obtain ⟨b, rfl, b2, b3, b4⟩ := hM _ _ _ _ h3
  obtain ⟨x, h5, h6⟩ := Res.bind_eq_ok.1 h4
  have hx := hA _ _ (withValue_ok _ _ _ h5)
  rw [parseTail_eq L _ _ strict x b p cv h3 b3 b4 b2 (withValue_ok _ _ _ h5)] at h2'
  exact (fromAddress_ok L x hx p strict n (withValue_ok _ _ _ h2')).1

end

theorem fam4_parseArray_ok (arr : List Char) (x : List (BitVec 8)) (h : (fam4 true).parseArray arr = .ok x) : WF4 x := by
  obtain ⟨s, _, h2⟩ := Res.bind_eq_ok.1 h
  obtain ⟨a, b, c, d, e, _⟩ := v4FromEvents_ok h2
  rw [e]; rfl

theorem fam4_parseNetmask_ok (evs : List Ev) (m : List (BitVec 8)) (p cv : Nat)
    (h : (fam4 true).parseNetmask evs = .ok (m, p, cv)) : ∃ b, m = (fam4 true).ofBytes b ∧ p ≤ (fam4 true).maxPrefix ∧
      8 * b.length = (fam4 true).maxPrefix ∧ beValue b = 2 ^ (fam4 true).maxPrefix - 2 ^ ((fam4 true).maxPrefix - p) := by
  obtain ⟨h1, h2, h3⟩ := v4ParseNetmask_ok evs m p cv h
  exact ⟨m, rfl, h1, by rw [h2]; rfl, h3⟩

theorem fam6_parseArray_ok (c : Cfg) (arr : List Char) (x : V6) (h : (fam6 c).parseArray arr = .ok x) : x.WF c.M := by
  obtain ⟨s, _, h2⟩ := Res.bind_eq_ok.1 h
  exact ((v6FromEvents_safe c.spaces c.M _).2 _ h2).1

theorem fam6_parseNetmask_ok (c : Cfg) (evs : List Ev) (m : V6) (p cv : Nat)
    (h : (fam6 c).parseNetmask evs = .ok (m, p, cv)) : ∃ b, m = (fam6 c).ofBytes b ∧ p ≤ (fam6 c).maxPrefix ∧
      8 * b.length = (fam6 c).maxPrefix ∧ beValue b = 2 ^ (fam6 c).maxPrefix - 2 ^ ((fam6 c).maxPrefix - p) := by
  obtain ⟨⟨b, p', cv'⟩, h1, h2⟩ := Res.bind_eq_ok.1 h
  cases h2
  obtain ⟨g1, g2, g3⟩ := v6ParseNetmask_ok evs b p cv h1
  exact ⟨b, rfl, g1, by rw [g2]; rfl, g3⟩

/-- The stored address text reaches the address parser unchanged. -/
theorem mkFixed_array (n : Nat) (a : List Char) (hl : a.length ≤ n) (hn : ∀ c ∈ a, c ≠ '\x00') :
    ∃ f, mkFixed (a ++ List.replicate (n + 1 - a.length) '\x00') = .ok f ∧ f.contents = a := by
  obtain ⟨f, h1, _, _, h4⟩ := mkFixed_eq (a ++ List.replicate (n + 1 - a.length) '\x00')
  refine ⟨f, h1, ?_⟩
  rw [h4]
  have e : (a ++ List.replicate (n + 1 - a.length) '\x00').length - 1 = n := by simp; omega
  rw [e, cstr_take_zone n a hl hn]

theorem v4_parseArray (a : List Char) (hl : a.length ≤ 15) (hn : ∀ c ∈ a, c ≠ '\x00') :
    (fam4 true).parseArray (addrArray (fam4 true) a) = v4Parse a := by
  obtain ⟨f, h1, h2⟩ := mkFixed_array 15 a hl hn
  show v4ParseArray _ = _
  rw [v4ParseArray, show addrArray (fam4 true) a = a ++ List.replicate (15 + 1 - a.length) '\x00' from rfl, h1, Res.ok_bind, h2]
  rfl

theorem v6_parseArray (c : Cfg) (a : List Char) (hl : a.length ≤ 41 + c.M) (hn : ∀ c ∈ a, c ≠ '\x00') :
    (fam6 c).parseArray (addrArray (fam6 c) a) = v6Parse c.spaces c.M a := by
  obtain ⟨f, h1, h2⟩ := mkFixed_array (41 + c.M) a hl hn
  show v6ParseArray _ _ _ = _
  rw [v6ParseArray, show addrArray (fam6 c) a = a ++ List.replicate (41 + c.M + 1 - a.length) '\x00' from rfl, h1, Res.ok_bind, h2]
  rfl

end Ip
