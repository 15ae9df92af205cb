import Verif.Lemmas.Diag6Shape
import Verif.Lemmas.Samples
import Verif.Props.Diag4
/-
C75 (errors of the IPv6 parser).
-/
set_option autoImplicit false

namespace Ip
open Spec

theorem v6Fault_run {spaces : Bool} {M : Nat} {s : List Char} {code : ErrorCode} {v : Nat} (hs : s ≠ [])
    (h : V6Fault spaces M s code v) : v6FromEvents spaces M (readChars s) = .err code v := by
  unfold v6FromEvents
  rw [if_neg (by simpa [readChars] using hs)]
  cases h with
  | zone a z _ h1 h2 =>
    have := zoneFault_run h1 h2 []
    rw [List.append_nil] at this
    rw [splitScope, this]; rfl
  | noZone a z h1 h2 h3 =>
    rw [splitScope_zone h1 h2, if_pos h3]; rfl
  | address _ ps _ _ h1 h2 h3 =>
    obtain ⟨_, g2, rfl⟩ := h2
    rw [splitScope_none spaces M _ (fun c hc e => h1 (e ▸ hc)), Res.ok_bind]
    dsimp only
    rw [partsFault_run h3 g2]; rfl
  | addressZone a z ps _ _ h1 h2 h3 h4 h5 h6 =>
    obtain ⟨_, g2, rfl⟩ := h5
    rw [splitScope_zone h1 h2, if_neg (fun hh => hh.elim h3 h4), Res.ok_bind]
    dsimp only
    rw [partsFault_run h6 g2]; rfl

/-- C75: the error that `ipv6_address::parse` reports for a text of ASCII characters: exactly what is wrong
first, where the zone id is looked at before the address. -/
theorem C75_v6 (spaces : Bool) (M : Nat) (s : List Char) (hs : s ≠ []) (code : ErrorCode) (v : Nat) :
    v6FromEvents spaces M (readChars s) = .err code v ↔ V6Fault spaces M s code v := by
  refine ⟨fun he => ?_, v6Fault_run hs⟩
  have key : ∀ code' v', V6Fault spaces M s code' v' → V6Fault spaces M s code v := by
    intro code' v' h
    rw [v6Fault_run hs h] at he
    cases he
    exact h
  rcases split_percent s with hp | ⟨a, z, rfl, hp⟩
  · have hp' : '%' ∉ s := fun h => hp _ h rfl
    obtain ⟨ps, hps⟩ := isParts_exists s
    rcases parts_cases ps hps.1 hps.2.1 with ⟨b, hb⟩ | ⟨code', v', hf⟩
    · rw [v6FromEvents, if_neg (by simpa [readChars] using hs), splitScope_none spaces M s hp, Res.ok_bind] at he
      dsimp only at he
      rw [hps.2.2, hb, Res.ok_bind] at he
      simp [attachScope, rd, List.replicate_succ] at he
    · exact key _ _ (.address s ps code' v' hp' hps hf)
  · have hp' : '%' ∉ a := fun h => hp _ h rfl
    rcases zone_cases spaces M z with hz | ⟨code', hz⟩
    · by_cases h0 : z = [] ∨ z.head? = some '\x00'
      · exact key _ _ (.noZone a z hp' hz h0)
      · have h1 : z ≠ [] := fun h => h0 (.inl h)
        have h2 : z.head? ≠ some '\x00' := fun h => h0 (.inr h)
        obtain ⟨ps, hps⟩ := isParts_exists a
        rcases parts_cases ps hps.1 hps.2.1 with ⟨b, hb⟩ | ⟨code', v', hf⟩
        · rw [v6FromEvents, if_neg (by simp [readChars]), splitScope_zone hp' hz, if_neg h0, Res.ok_bind] at he
          dsimp only at he
          have hlen := ((ZoneOk_iff spaces M z).1 hz).1
          rw [hps.2.2, hb, Res.ok_bind, attachScope, rd_of_lt _ _ (by simp; omega), Res.ok_bind] at he
          split at he
          · obtain ⟨f, h1, _⟩ := mkFixed_eq (z ++ List.replicate (M + 1 - z.length) '\x00')
            rw [h1] at he; cases he
          · cases he
        · exact key _ _ (.addressZone a z ps code' v' hp' hz h1 h2 hps hf)
    · exact key _ _ (.zone a z code' hp' hz)

example := (C75_v6 false 16 "1:2:3::4::5".toList (by decide) .most_one_double_colon_permitted 7).2
  (.address _ [['1'], ['2'], ['3'], [], ['4'], [], ['5']] _ _ (by decide) ⟨by decide, by decide, rfl⟩
    (.shape _ _ (.hex [['1'], ['2'], ['3'], [], ['4'], []] ['5'] (by decide) (by decide) (by decide) (by decide)) (by decide)
      (.twice 3 5 (by decide) (by decide) (by decide) rfl rfl)))
example := (C75_v6 false 4 "::1%eth0x".toList (by decide) .scope_id_is_too_long 0).2
  (.zone "::1".toList _ _ (by decide) (.long "eth0".toList 'x' [] ⟨by decide, by decide⟩ rfl))

/-- C75: an empty text is reported as such. -/
theorem C75_v6_empty (spaces : Bool) (M : Nat) : v6FromEvents spaces M (readChars []) = .err .empty_address 0 := rfl

/-- C75: a text that the reader cannot read further after `s`: the error of the reader with its symbol, unless
something is wrong with the zone id before; nothing is said of the address. -/
theorem C75_v6_symbol (spaces : Bool) (M : Nat) (s : List Char) (c : ErrorCode) (sym : Nat) (rest : List Ev)
    (code : ErrorCode) (v : Nat) : v6FromEvents spaces M (readChars s ++ .bad c sym :: rest) = .err code v ↔
      (v = 0 ∧ ∃ a z, s = a ++ '%' :: z ∧ '%' ∉ a ∧ ZoneFault spaces M z code) ∨
      ((∀ a z code', s = a ++ '%' :: z → '%' ∉ a → ¬ ZoneFault spaces M z code') ∧ code = c ∧ v = sym) := by
  unfold v6FromEvents
  rw [if_neg (by simp)]
  have one : ∀ (a z a' z' : List Char), '%' ∉ a → '%' ∉ a' → a ++ '%' :: z = a' ++ '%' :: z' → a = a' ∧ z = z' := by
    intro a
    induction a with
    | nil =>
      intro z a' z' _ h2 e
      cases a' with
      | nil => simpa using e
      | cons x a' =>
        simp only [List.nil_append, List.cons_append, List.cons.injEq] at e
        exact absurd (by rw [e.1]; simp) h2
    | cons y a ih =>
      intro z a' z' h1 h2 e
      cases a' with
      | nil =>
        simp only [List.nil_append, List.cons_append, List.cons.injEq] at e
        exact absurd (by simp [e.1]) h1
      | cons x a' =>
        simp only [List.cons_append, List.cons.injEq] at e
        obtain ⟨rfl, e⟩ := e
        obtain ⟨rfl, rfl⟩ := ih z a' z' (fun h => h1 (by simp [h])) (fun h => h2 (by simp [h])) e
        exact ⟨rfl, rfl⟩
  have noFault : ∀ z, ZoneOk spaces M z → ∀ code', ¬ ZoneFault spaces M z code' := by
    intro z hz code' hf
    have e1 := zoneFault_run (ip := []) (by simp) hf []
    rw [scopeLoop_both spaces M [] z [] (by simp) hz, scopeLoop] at e1
    cases e1
  rcases split_percent s with hp | ⟨a, z, rfl, hp⟩
  · rw [splitScope, scopeLoop_ip spaces M _ _ _ s [] hp, scopeLoop]
    constructor
    · intro he
      cases he
      refine .inr ⟨fun a z code' e _ _ => hp '%' (by simp [e]) rfl, rfl, rfl⟩
    · rintro (⟨_, a, z, e, _⟩ | ⟨_, rfl, rfl⟩)
      · exact absurd rfl (hp '%' (by simp [e]))
      · rfl
  · have hp' : '%' ∉ a := fun h => hp _ h rfl
    rcases zone_cases spaces M z with hz | ⟨code', hz⟩
    · rw [splitScope, scopeLoop_both spaces M a z _ hp' hz, scopeLoop]
      constructor
      · intro he
        cases he
        refine .inr ⟨fun a' z' code' e h' hf => ?_, rfl, rfl⟩
        obtain ⟨rfl, rfl⟩ := one _ _ _ _ hp' h' e
        exact noFault z hz code' hf
      · rintro (⟨_, a', z', e, h', hf⟩ | ⟨_, rfl, rfl⟩)
        · obtain ⟨rfl, rfl⟩ := one _ _ _ _ hp' h' e
          exact absurd hf (noFault z hz code)
        · rfl
    · rw [splitScope, zoneFault_run hp' hz]
      constructor
      · intro he
        cases he
        exact .inl ⟨rfl, a, z, rfl, hp', hz⟩
      · rintro (⟨rfl, a', z', e, h', hf⟩ | ⟨h, _⟩)
        · obtain ⟨rfl, rfl⟩ := one _ _ _ _ hp' h' e
          have e1 := zoneFault_run hp' hz []
          rw [zoneFault_run hp' hf []] at e1
          cases e1
          rfl
        · exact absurd hz (h a z code' rfl hp')

example := (C75_v6_symbol false 16 "1:2:3:4:5:6:7:8:9:a:b".toList .unexpected_symbol 0x20AC [] .unexpected_symbol 0x20AC).2
  (.inr ⟨fun a z _ e _ => absurd (by rw [e]; simp : '%' ∈ "1:2:3:4:5:6:7:8:9:a:b".toList) (by decide), rfl, rfl⟩)

/-- C75: at most one thing is wrong first. -/
theorem C75_v6_one (spaces : Bool) (M : Nat) (s : List Char) (hs : s ≠ []) (code code' : ErrorCode) (v v' : Nat)
    (h : V6Fault spaces M s code v) (h' : V6Fault spaces M s code' v') : code = code' ∧ v = v' := by
  have a := v6Fault_run hs h
  rw [v6Fault_run hs h'] at a
  cases a
  exact ⟨rfl, rfl⟩

example := C75_v6_one false 16 ":".toList (by decide) .least_3_parts .least_3_parts 2 2
  (.address _ [[], []] _ _ (by decide) ⟨by decide, by decide, rfl⟩ (.few _ (.hex [[]] [] (by decide) (by decide) (by decide) (by decide)) (by decide)))
  (.address _ [[], []] _ _ (by decide) ⟨by decide, by decide, rfl⟩ (.few _ (.hex [[]] [] (by decide) (by decide) (by decide) (by decide)) (by decide)))

/-- C75: the exception of `ipv6_address::parse` carries the code and the value and says so. -/
theorem C75_v6_exception (c : Cfg) (s : List Char) (hs : s ≠ []) (hz : ∀ x ∈ s, x ≠ '\x00') (code : ErrorCode) (v : Nat)
    (hf : V6Fault c.spaces c.M s code v) : v6ParseThrow c encChar s = .thrown (exnOf code v (shown s)) := by
  unfold v6ParseThrow
  rw [show encChar.events s = readChars s from rfl, v6Fault_run hs hf]
  exact raise_thrown code v s _ (C73_text_char s hz code v)

example := C75_v6_exception exCfg "1::12345".toList (by decide) (by decide) .part_is_more_4_chars 2
  (.address _ [['1'], [], "12345".toList] _ _ (by decide) ⟨by decide, by decide, rfl⟩
    (.split _ _ (.long [['1'], []] "12345".toList [] (by decide) (by decide) (by decide) (.inr (.inr (by decide))))))

theorem V4Fault_code {s : List Char} {code : ErrorCode} {v : Nat} (h : V4Fault s code v ∨ V4EndFault s code v) :
    code ≠ .part_is_more_4_chars ∧ code ≠ .part_has_invalid_symbol := by
  rcases h with h | h
  · cases h with
    | octet done rest _ _ _ h => cases h <;> exact ⟨by decide, by decide⟩
    | more => exact ⟨by decide, by decide⟩
  · cases h <;> exact ⟨by decide, by decide⟩

theorem v6Fault_parts {spaces : Bool} {M : Nat} {s : List Char} {code : ErrorCode} {v : Nat} (h : V6Fault spaces M s code v) :
    (code = .scope_id_is_too_long ∨ code = .invalid_scope_id) ∨ ∃ a ps, AddressOf s a ∧ IsParts a ps ∧ PartsFault ps code v := by
  cases h with
  | zone a z _ h1 h2 => cases h2 <;> simp
  | noZone => simp
  | address _ ps _ _ h1 h2 h3 => exact .inr ⟨s, ps, ⟨h1, .inl rfl⟩, h2, h3⟩
  | addressZone a z ps _ _ h1 h2 h3 h4 h5 h6 => exact .inr ⟨a, ps, ⟨h1, .inr ⟨z, rfl⟩⟩, h5, h6⟩

/-- C75: the number of a part that is too long is right: there is such a part, counted from zero.
Missing: the numbers of parts with invalid symbols and of octets, which are wrong (`C75_number_symbol`,
`C75_number_octet`). -/
theorem C75_number_partial (spaces : Bool) (M : Nat) (s : List Char) (v : Nat)
    (h : v6FromEvents spaces M (readChars s) = .err .part_is_more_4_chars v) :
    ∃ a ps p, AddressOf s a ∧ IsParts a ps ∧ ps[v]? = some p ∧ 4 < p.length := by
  by_cases hs : s = []
  · subst hs; cases h
  rcases v6Fault_parts ((C75_v6 spaces M s hs _ v).1 h) with h | ⟨a, ps, ha, hp, hf⟩
  · simp at h
  · refine ⟨a, ps, ?_⟩
    generalize hc : ErrorCode.part_is_more_4_chars = code at hf
    cases hf with
    | split _ _ hf =>
      cases hf with
      | long d p rest h1 h2 h3 h4 => exact ⟨p, ha, hp, by simp, h3⟩
      | quad d k _ _ _ _ _ _ _ h6 => exact absurd hc.symm (V4Fault_code h6).1
      | _ => cases hc
    | few => cases hc
    | shape R _ _ _ h5 => subst hc; cases h5
    | symbol => cases hc

example := C75_number_partial false 16 "1::12345".toList 2 (by decide +kernel)

/-- C75, refuted: the number in the message on a part with an invalid symbol is never that of a part: it is
the number of all parts, which count from zero. -/
theorem C75_number_symbol (spaces : Bool) (M : Nat) (s : List Char) (v : Nat)
    (h : v6FromEvents spaces M (readChars s) = .err .part_has_invalid_symbol v) :
    ∃ a ps, AddressOf s a ∧ IsParts a ps ∧ ps.length ≤ v := by
  by_cases hs : s = []
  · subst hs; cases h
  rcases v6Fault_parts ((C75_v6 spaces M s hs _ v).1 h) with h | ⟨a, ps, ha, hp, hf⟩
  · simp at h
  · refine ⟨a, ps, ha, hp, ?_⟩
    generalize hc : ErrorCode.part_has_invalid_symbol = code at hf
    cases hf with
    | split _ _ hf =>
      cases hf with
      | quad d k _ _ _ _ _ _ _ h6 => exact absurd hc.symm (V4Fault_code h6).2
      | _ => cases hc
    | few => cases hc
    | shape R _ _ _ h5 => subst hc; cases h5
    | symbol R h1 _ _ _ =>
      cases h1 with
      | hex => simp
      | quad => simp

example := C75_number_symbol false 16 "g::1".toList 3 (by decide +kernel)

/-- C75, refuted: the number in the messages on octets of the dotted last part is not that of the octet but the
number of colons in the address. -/
theorem C75_number_octet (spaces : Bool) (M : Nat) (s : List Char) (code : ErrorCode) (v : Nat)
    (hc : code ∈ octetErrors) (h : v6FromEvents spaces M (readChars s) = .err code v) :
    ∃ a, AddressOf s a ∧ v = a.count ':' := by
  by_cases hs : s = []
  · subst hs; cases h; simp [octetErrors] at hc
  rcases v6Fault_parts ((C75_v6 spaces M s hs _ v).1 h) with h | ⟨a, ps, ha, hp, hf⟩
  · rcases h with rfl | rfl <;> simp [octetErrors] at hc
  · refine ⟨a, ha, ?_⟩
    have hcount : ∀ ps : List (List Char), ps ≠ [] → (∀ p ∈ ps, ':' ∉ p) → (colons ps).count ':' + 1 = ps.length := by
      intro ps h1 h2
      rw [← pieces_length, pieces_colons ps h1 (fun t ht c hc e => h2 t ht (e ▸ hc))]
    have hn := hcount ps hp.1 hp.2.1
    rw [hp.2.2]
    cases hf with
    | split _ _ hf =>
      cases hf with
      | quad d k _ _ _ _ _ _ _ h => simp at hn; omega
      | _ => simp [octetErrors] at hc
    | few => simp [octetErrors] at hc
    | shape R _ _ _ h5 => cases h5 <;> simp [octetErrors] at hc
    | symbol => simp [octetErrors] at hc

example := C75_number_octet false 16 "::1.2.3.256".toList .octet_exceeded_255 2 (by decide) (by decide +kernel)

/-- C75, refuted with the wrong messages: part 0 of "g::1" is reported as part 3 and octet 3 of
"::1.2.3.256" as octet 2. -/
theorem C75_number_violated :
    v6ParseThrow exCfg encChar "g::1".toList =
      .thrown ⟨.parse, .part_has_invalid_symbol, "in part 3 of address g::1 has invalid symbols".toList⟩ ∧
    v6ParseThrow exCfg encChar "::1.2.3.256".toList =
      .thrown ⟨.parse, .octet_exceeded_255, "octet 2 of address ::1.2.3.256 exceeded 255".toList⟩ := by
  decide +kernel

end Ip
