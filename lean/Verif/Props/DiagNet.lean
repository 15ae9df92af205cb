import Verif.Lemmas.DiagNet
/-
Property C76: what the parsers report for a text that is not a network.
-/
set_option autoImplicit false

namespace Ip
open Spec

/-- C76, IPv4: a text is rejected with `code` and `v` exactly when that is what is wrong with it. -/
theorem C76_v4 (s : List Char) (strict : Bool) (code : ErrorCode) (v : Nat) :
    (fam4 true).parseNet (readChars s) strict = .err code v ↔ NetFault4 strict s code v := by
  refine parseNet_err_iff fam4Law fam4_last ?_ fam4_parseArray_ok ?_ (fun m code v hm h => maskFault4_run hm h)
    (fun o p v h => maskGood4_run h) (fun m p v h => maskGood4_ne h) ⟨_, _, .none⟩ mask4_total ?_ ?_ s strict code v
  · intro a hl
    rw [fam4_parseArray a hl, fam4_parseArray _ (Nat.le_trans (cstr_length_le a) hl), cstr_cstr]
  · intro arr h
    have h : v4ParseArray arr = .ub := h
    obtain ⟨f, f1, _⟩ := mkFixed_eq arr
    rw [v4ParseArray, f1, Res.ok_bind] at h
    exact v4FromEvents_ne_ub _ h
  · intro a code hl hn
    rw [v4_parseArray a hl hn]
    exact addrFault4_iff a code
  · intro a p hl hn
    rw [v4_parseArray a hl hn]
    constructor
    · rintro ⟨x, y, z, w, rfl, h⟩
      exact ⟨_, (v4Parse_ok_iff _ _).2 ⟨x, y, z, w, rfl, rfl⟩, h⟩
    · rintro ⟨r, h1, h2⟩
      obtain ⟨x, y, z, w, rfl, h⟩ := (v4Parse_ok_iff _ _).1 h1
      exact ⟨x, y, z, w, h, h2⟩

/-- `1.2.3.4/24`: host bits. -/
theorem exHost : NetFault4 true "1.2.3.4/24".toList .has_host_bits_set 0 := by
  refine .host 24 0 ?_ ⟨1, 2, 3, 4, by decide, 2, by decide, by decide⟩ rfl
  rw [show maskRead 15 "1.2.3.4/24".toList = some ['2', '4'] by decide]
  exact .number _ 24 ⟨by simp, [2, 4], by simp [DigitText, digitChars], by decide⟩ (by decide)
example := (C76_v4 "1.2.3.4/24".toList true .has_host_bits_set 0).2 exHost
/-- `1.2.3.4/255.0.255.0`: neither a netmask nor a hostmask. -/
example : NetFault4 true (dotted 1 2 3 4 ++ '/' :: dotted 255 0 255 0) .netmask_pattern_mixes_zeroes_and_ones 3 := by
  refine .mask (dotted 255 0 255 0) _ _ (by decide) (by decide) (by decide) (.mixed 255 0 255 0 ?_ ?_)
  · intro p hp h
    rw [isMask_iff 32 p _ hp] at h
    revert h
    exact (by decide : ∀ p, p ≤ 32 → ¬ beValue [255#8, 0#8, 255#8, 0#8] = 2 ^ 32 - 2 ^ (32 - p)) p hp
  · intro p hp h
    rw [isHostMask_iff] at h
    revert h
    exact (by decide : ∀ p, p ≤ 32 → ¬ beValue [255#8, 0#8, 255#8, 0#8] = 2 ^ (32 - p) - 1) p hp
/-- `1.2.3.4/`, `1.2.3.4/24/`, `1.2.3.4/2x`. -/
example : NetFault4 false "1.2.3.4/".toList .empty_netmask 0 := .noMask (by decide)
example : NetFault4 false "1.2.3.4/24/".toList .only_one_slash_permitted 0 := .slash "24/".toList (by decide) (by decide)

/-- C76, IPv6. -/
theorem C76_v6 (c : Cfg) (hc : c.le = true) (s : List Char) (strict : Bool) (code : ErrorCode) (v : Nat) :
    (fam6 c).parseNet (readChars s) strict = .err code v ↔ NetFault6 c.spaces c.M strict s code v := by
  have hmk : ∀ m, (fam6 c).parseNetmask m = (v6ParseNetmask m >>= fun m => .ok (⟨m.1, emptyScope c.M⟩, m.2)) := fun _ => rfl
  refine parseNet_err_iff (fam6Law c hc) (fam6_last c) ?_ (fam6_parseArray_ok c) ?_ ?_ ?_ ?_ ⟨_, _, .none⟩ ?_ ?_ ?_ s strict code v
  · intro a hl
    rw [fam6_parseArray c a hl, fam6_parseArray c _ (Nat.le_trans (cstr_length_le a) hl), cstr_cstr]
  · intro arr h
    have h : v6ParseArray c.spaces c.M arr = .ub := h
    obtain ⟨f, f1, _⟩ := mkFixed_eq arr
    rw [v6ParseArray, f1, Res.ok_bind] at h
    exact (v6FromEvents_safe c.spaces c.M _).1 h
  · intro m code v hm h
    rw [hmk, maskFault6_run hm h]
    rfl
  · intro o p v h
    obtain ⟨b, h1, h2, h3, h4⟩ := maskGood6_run h
    refine ⟨b, ?_, h2, h3, h4⟩
    rw [hmk, h1]
    rfl
  · intro m p v h
    cases h with
    | number _ n h _ => exact ⟨h.1, decText_noslash _ _ h⟩
  · intro m _
    rcases mask6_total m with h | h
    · exact .inl h
    · exact .inr (.inl h)
  · intro a code hl hn
    rw [v6_parseArray c a hl hn]
    exact addrFault6_iff c.spaces c.M a code
  · intro a p hl hn
    rw [v6_parseArray c a hl hn]
    constructor
    · rintro ⟨ip, z, vs, h1, h2, h3, h4, h5⟩
      have hz : ∀ ch ∈ z, ch ≠ '\x00' := by
        intro ch hch
        apply hn ch
        rw [h1, List.mem_append]
        right
        unfold zoneText
        rw [if_neg (by intro e; rw [e] at hch; simp at hch)]
        exact List.mem_cons_of_mem _ hch
      obtain ⟨x, x1, x2, x3, x4⟩ := v6Parse_of_accepts c.spaces c.M a ip z vs ⟨h1, h2, h3, h4⟩ hz
      refine ⟨x, x1, ?_⟩
      rw [← x3] at h5
      exact h5
    · rintro ⟨x, h1, h2⟩
      rcases v6Parse_rel c.spaces c.M a hn with ⟨ip, z, vs, y, ⟨k1, k2, k3, k4⟩, k5, _, k6, _⟩ | ⟨_, e, u, h⟩
      · rw [h1] at k5
        cases k5
        refine ⟨ip, z, vs, k1, k2, k3, k4, ?_⟩
        rw [← k6]
        exact h2
      · rw [h1] at h; cases h

theorem exHost6 : NetFault6 false 16 true "::1/127".toList .has_host_bits_set 0 := by
  refine .host 127 0 ?_ ⟨"::1".toList, [], [0, 0, 0, 0, 0, 0, 0, 1], by decide,
    V6Text.compressed [] [] ['1'] [1] (Or.inl ⟨rfl, rfl⟩) (Or.inr (GroupsV4.one _ _ (group_one '1' 1 rfl))) (by decide),
    by decide, by simp [ZoneOk], 0, by decide, by decide⟩ rfl
  rw [show maskRead (41 + 16) "::1/127".toList = some ['1', '2', '7'] by decide]
  exact .number _ 127 ⟨by simp, [1, 2, 7], by simp [DigitText, digitChars], by decide⟩ (by decide)
example := (C76_v6 exCfg rfl "::1/127".toList true .has_host_bits_set 0).2 exHost6

/-- C76: a text that the reader cannot read further after `s`.  The error of the reader with its symbol, unless
there is a second slash before; but after an address longer than the buffer nothing more is read, and the text is
taken for what the beginning is. -/
theorem C76_symbol (c : Cfg) (s : List Char) (e : ErrorCode) (sym : Nat) (rest : List Ev) (strict : Bool) :
    (((addrPart s).length ≤ 15 →
        ((∃ m, maskPart s = some m ∧ '/' ∈ m) →
          (fam4 true).parseNet (readChars s ++ .bad e sym :: rest) strict = .err .only_one_slash_permitted 0) ∧
        ((¬ ∃ m, maskPart s = some m ∧ '/' ∈ m) →
          (fam4 true).parseNet (readChars s ++ .bad e sym :: rest) strict = .err e sym)) ∧
      (15 < (addrPart s).length →
        (fam4 true).parseNet (readChars s ++ .bad e sym :: rest) strict = (fam4 true).parseNet (readChars s) strict)) ∧
    (((addrPart s).length ≤ 41 + c.M →
        ((∃ m, maskPart s = some m ∧ '/' ∈ m) →
          (fam6 c).parseNet (readChars s ++ .bad e sym :: rest) strict = .err .only_one_slash_permitted 0) ∧
        ((¬ ∃ m, maskPart s = some m ∧ '/' ∈ m) →
          (fam6 c).parseNet (readChars s ++ .bad e sym :: rest) strict = .err e sym)) ∧
      (41 + c.M < (addrPart s).length →
        (fam6 c).parseNet (readChars s ++ .bad e sym :: rest) strict = (fam6 c).parseNet (readChars s) strict)) :=
  ⟨parseNet_bad (F := fam4 true) s e sym rest strict, parseNet_bad (F := fam6 c) s e sym rest strict⟩

example := (C76_symbol exCfg "1.2.3.4/2".toList .unexpected_symbol 233 [] true).1.1 (by decide)

/-- C76: no text has two faults. -/
theorem C76_one (c : Cfg) (hc : c.le = true) (s : List Char) (strict : Bool) (code code' : ErrorCode) (v v' : Nat) :
    (NetFault4 strict s code v → NetFault4 strict s code' v' → code = code' ∧ v = v') ∧
    (NetFault6 c.spaces c.M strict s code v → NetFault6 c.spaces c.M strict s code' v' → code = code' ∧ v = v') := by
  constructor
  · intro h h'
    have a := (C76_v4 s strict code v).2 h
    rw [(C76_v4 s strict code' v').2 h'] at a
    cases a
    exact ⟨rfl, rfl⟩
  · intro h h'
    have a := (C76_v6 c hc s strict code v).2 h
    rw [(C76_v6 c hc s strict code' v').2 h'] at a
    cases a
    exact ⟨rfl, rfl⟩

example := (C76_one exCfg rfl "1.2.3.4/24".toList true .has_host_bits_set .has_host_bits_set 0 0).1 exHost exHost

/-- C76: the exception. -/
theorem C76_exception (c : Cfg) (hc : c.le = true) (s : List Char) (hz : ∀ x ∈ s, x ≠ '\x00') (strict : Bool)
    (code : ErrorCode) (v : Nat) :
    (NetFault4 strict s code v → (fam4 true).parseNetThrow encChar s strict = .thrown (exnOf code v (shown s))) ∧
    (NetFault6 c.spaces c.M strict s code v → (fam6 c).parseNetThrow encChar s strict = .thrown (exnOf code v (shown s))) := by
  constructor
  · intro h
    unfold Fam.parseNetThrow
    rw [show encChar.events s = readChars s from rfl, (C76_v4 s strict code v).2 h]
    exact raise_thrown code v s _ (C73_text_char s hz code v)
  · intro h
    unfold Fam.parseNetThrow
    rw [show encChar.events s = readChars s from rfl, (C76_v6 c hc s strict code v).2 h]
    exact raise_thrown code v s _ (C73_text_char s hz code v)

example := (C76_exception exCfg rfl "1.2.3.4/24".toList (by decide) true .has_host_bits_set 0).1 exHost

/-- C76 (partial): the octet that an error of an IPv4 network names.  Missing: it should be the octet of the
address that is wrong, but it is octet 3 after a dotted mask and octet 0 otherwise. -/
theorem C76_number_partial (s : List Char) (strict : Bool) (code : ErrorCode) (v : Nat)
    (hc : code ∈ octetErrors) (h : (fam4 true).parseNet (readChars s) strict = .err code v) :
    (∃ p, MaskGood4 (maskRead 15 s) p v) ∧ (v = 0 ∨ v = 3) ∧
    ∃ w, V4Fault (addrRead 15 s) code w ∨ V4EndFault (addrRead 15 s) code w := by
  have hv : ∀ o p, MaskGood4 o p v → v = 0 ∨ v = 3 := by
    intro o p h
    cases h <;> simp
  cases (C76_v4 s strict code v).1 h with
  | noMask => simp [octetErrors] at hc
  | slash => simp [octetErrors] at hc
  | mask m _ _ _ _ _ h => cases h <;> simp [octetErrors] at hc
  | host => simp [octetErrors] at hc
  | address p _ _ hg hw =>
    refine ⟨⟨p, hg⟩, hv _ _ hg, ?_⟩
    rcases hw with ⟨_, rfl⟩ | ⟨_, hw⟩
    · simp [octetErrors] at hc
    · exact hw

/-- C76 (partial), IPv6.  Missing: errors that name a part or an octet should name that which is wrong, but all
errors name number 0. -/
theorem C76_number_v6_partial (c : Cfg) (hc : c.le = true) (s : List Char) (strict : Bool) (code : ErrorCode) (v : Nat)
    (h : (fam6 c).parseNet (readChars s) strict = .err code v) : v = 0 := by
  have hg : ∀ o p, MaskGood6 o p v → v = 0 := by
    intro o p h
    cases h <;> rfl
  cases (C76_v6 c hc s strict code v).1 h with
  | noMask => rfl
  | slash => rfl
  | mask m _ _ _ _ _ h => cases h <;> rfl
  | host p _ h => exact hg _ _ h
  | address p _ _ h _ => exact hg _ _ h

example := C76_number_v6_partial exCfg rfl "1::12345/64".toList true .part_is_more_4_chars 0 (by decide +kernel)

/-- C76 refuted for the number of the octet, which is wrong: octets 2 and 1. -/
theorem C76_number_violated :
    (fam4 true).parseNetThrow encChar "1.2.300.0/24".toList true =
      .thrown ⟨.parse, .octet_exceeded_255, "octet 0 of address 1.2.300.0/24 exceeded 255".toList⟩ ∧
    (fam4 true).parseNetThrow encChar "1.300.0.0/255.255.0.0".toList true =
      .thrown ⟨.parse, .octet_exceeded_255, "octet 3 of address 1.300.0.0/255.255.0.0 exceeded 255".toList⟩ ∧
    (fam6 exCfg).parseNetThrow encChar "1::12345/64".toList true =
      .thrown ⟨.parse, .part_is_more_4_chars, "in part 0 of address 1::12345/64 more 4 characters".toList⟩ := by
  decide +kernel

example := C76_number_partial "1.2.300.0/24".toList true .octet_exceeded_255 0 (by decide) (by decide +kernel)

end Ip
