import Verif.Spec.ScopeText
import Verif.Props.Diag6
import Verif.Lemmas.V6Addr
import Verif.Lemmas.NetLaw
/-
C79: zone ids mean the same in the text of an address and in `set_scope_id`.
-/
set_option autoImplicit false

namespace Ip
open Spec

theorem zoneOk_len (spaces : Bool) (M : Nat) (z : List Char) :
    ZoneOk spaces M z ↔ z.length ≤ M ∧ ZoneOk spaces z.length z := by
  unfold ZoneOk
  exact ⟨fun h => ⟨h.1, Nat.le_refl _, h.2⟩, fun h => ⟨h.1, h.2.2⟩⟩

/-- `set_scope_id` with characters, in one equation. -/
theorem scopeChange_eq (spaces : Bool) (M : Nat) (z : List Char) :
    (ZoneOk spaces M z → scopeChange spaces M z.length (readChars z) = mkFixed (z ++ List.replicate (M + 1 - z.length) '\x00')) ∧
    (∀ code, SetFault spaces M z code → scopeChange spaces M z.length (readChars z) = .err code 0) := by
  have loop := setScopeLoop_eq spaces (M + 1) z []
  simp only [List.nil_append, List.length_nil, Nat.sub_zero] at loop
  refine ⟨fun hz => ?_, fun code hf => ?_⟩
  · have hz' := (ZoneOk_iff spaces M z).1 hz
    rw [scopeChange, if_neg (by omega)]
    rcases loop (by omega) with ⟨-, h⟩ | ⟨h, -⟩
    · rw [h]; rfl
    · exact absurd hz'.2 h
  · cases hf with
    | long h => rw [scopeChange, if_pos h]
    | symbol h1 h2 =>
      rw [scopeChange, if_neg (by omega)]
      rcases loop (by omega) with ⟨h, -⟩ | ⟨-, h⟩
      · exact absurd ((ZoneOk_iff spaces z.length z).2 ⟨Nat.le_refl _, h⟩) h2
      · rw [h]; rfl

theorem setFault_cases (spaces : Bool) (M : Nat) (z : List Char) : ZoneOk spaces M z ∨ ∃ code, SetFault spaces M z code := by
  by_cases hl : z.length ≤ M
  · by_cases hz : ZoneOk spaces z.length z
    · exact .inl ((zoneOk_len spaces M z).2 ⟨hl, hz⟩)
    · exact .inr ⟨_, .symbol hl hz⟩
  · exact .inr ⟨_, .long (by omega)⟩

theorem setFault_not (spaces : Bool) (M : Nat) (z : List Char) (code : ErrorCode) (h : SetFault spaces M z code) :
    ¬ ZoneOk spaces M z := by
  cases h with
  | long h => intro hz; exact absurd hz.1 (by omega)
  | symbol h1 h2 => intro hz; exact h2 ((zoneOk_len spaces M z).1 hz).2

theorem setFault_one (spaces : Bool) (M : Nat) (z : List Char) (c d : ErrorCode) (h : SetFault spaces M z c)
    (h' : SetFault spaces M z d) : c = d := by
  cases h with
  | long h => cases h' with
    | long _ => rfl
    | symbol g _ => omega
  | symbol g _ => cases h' with
    | long _ => omega
    | symbol _ _ => rfl

theorem mkFixed_some (arr : List Char) : ∃ f, mkFixed arr = .ok f := by
  obtain ⟨f, h, -⟩ := mkFixed_eq arr
  exact ⟨f, h⟩

/-- C79, errors of `set_scope_id` for all texts: the address does not change, and the error is that the zone id is too
long, or else that it has a character that is not allowed. -/
theorem C79_set_errors (spaces : Bool) (M : Nat) (hM : M ≠ 0) (x : V6) (z : List Char) (code : ErrorCode) (y : V6) :
    v6SetScope spaces M x z.length (readChars z) = .ok (y, some code) ↔ y = x ∧ SetFault spaces M z code := by
  obtain ⟨h1, h2⟩ := scopeChange_eq spaces M z
  rw [v6SetScope, if_neg hM]
  rcases setFault_cases spaces M z with hz | ⟨d, hd⟩
  · obtain ⟨f, hf⟩ := mkFixed_some (z ++ List.replicate (M + 1 - z.length) '\x00')
    rw [h1 hz, hf]
    refine ⟨fun h => (by cases h), fun h => absurd hz (setFault_not spaces M z code h.2)⟩
  · rw [h2 d hd]
    refine ⟨fun h => ?_, fun h => ?_⟩
    · cases h; exact ⟨rfl, hd⟩
    · rw [h.1, setFault_one spaces M z code d h.2 hd]

example := C79_set_errors false 4 (by decide) exScoped "a/".toList .invalid_scope_id exScoped
example : SetFault false 4 "a/".toList .invalid_scope_id := .symbol (by decide) (by unfold ZoneOk; decide)
example : SetFault false 4 "a/bcd".toList .scope_id_is_too_long := .long (by decide)

theorem setScopeLoop_stop (spaces : Bool) (c : ErrorCode) (sym : Nat) (rest : List Ev) : ∀ (z : List Char) (i : Nat) (str : List Char),
    i + z.length ≤ str.length →
    ((∀ x ∈ z, invalidScopeSymbol spaces x = false) → setScopeLoop spaces (readChars z ++ .bad c sym :: rest) i str = .err c sym) ∧
    ((¬ ∀ x ∈ z, invalidScopeSymbol spaces x = false) →
      setScopeLoop spaces (readChars z ++ .bad c sym :: rest) i str = .err .invalid_scope_id 0)
  | [], i, str, _ => ⟨fun _ => rfl, fun h => absurd (fun _ hx => (by cases hx)) h⟩
  | x :: z, i, str, h => by
    simp only [List.length_cons] at h
    cases hx : invalidScopeSymbol spaces x with
    | true =>
      have e : setScopeLoop spaces (readChars (x :: z) ++ .bad c sym :: rest) i str = .err .invalid_scope_id 0 := by
        simp [readChars, setScopeLoop, hx]
      exact ⟨fun hh => (by rw [hh x (List.mem_cons_self ..)] at hx; cases hx), fun _ => e⟩
    | false =>
      have ih := setScopeLoop_stop spaces c sym rest z (i + 1) (str.set i x) (by simp; omega)
      have hw : wr str i x = .ok (str.set i x) := by simp [wr, show i < str.length by omega]
      have e : setScopeLoop spaces (readChars (x :: z) ++ .bad c sym :: rest) i str =
          setScopeLoop spaces (readChars z ++ .bad c sym :: rest) (i + 1) (str.set i x) := by
        show (if invalidScopeSymbol spaces x then _ else (wr str i x >>= _)) = _
        rw [hx, hw]; rfl
      rw [e]
      refine ⟨fun hh => ih.1 fun y hy => hh y (List.mem_cons_of_mem _ hy), fun hh => ih.2 fun h2 => hh fun y hy => ?_⟩
      rcases List.mem_cons.1 hy with rfl | hy
      · exact hx
      · exact h2 y hy

/-- C79, a text that cannot be read to its end: that it is too long is reported first, then a character that is not
allowed before the place where reading stops, then the error of the reader; the address does not change.  `size` counts
the code units, of which each character needs at least one. -/
theorem C79_set_unreadable (spaces : Bool) (M : Nat) (hM : M ≠ 0) (x : V6) (size : Nat) (z : List Char) (hs : z.length < size)
    (c : ErrorCode) (sym : Nat) (rest : List Ev) :
    (M < size → v6SetScope spaces M x size (readChars z ++ .bad c sym :: rest) = .ok (x, some .scope_id_is_too_long)) ∧
    (size ≤ M → ¬ ZoneOk spaces z.length z →
      v6SetScope spaces M x size (readChars z ++ .bad c sym :: rest) = .ok (x, some .invalid_scope_id)) ∧
    (size ≤ M → ZoneOk spaces z.length z → v6SetScope spaces M x size (readChars z ++ .bad c sym :: rest) = .ok (x, some c)) := by
  rw [v6SetScope, if_neg hM, scopeChange]
  refine ⟨fun h => by rw [if_pos h], fun h hz => ?_, fun h hz => ?_⟩
  · obtain ⟨-, k⟩ := setScopeLoop_stop spaces c sym rest z 0 (List.replicate (M + 1) '\x00') (by simp; omega)
    rw [if_neg (by omega), k fun h' => hz ((ZoneOk_iff spaces z.length z).2 ⟨Nat.le_refl _, h'⟩)]
    rfl
  · obtain ⟨k, -⟩ := setScopeLoop_stop spaces c sym rest z 0 (List.replicate (M + 1) '\x00') (by simp; omega)
    rw [if_neg (by omega), k ((ZoneOk_iff spaces z.length z).1 hz).2]
    rfl

example := C79_set_unreadable false 4 (by decide) exScoped 2 ['a'] (by decide) .unexpected_symbol 0xe9 []

/-- The parser on a text with a zone id, in terms of the address before it. -/
theorem v6Parse_zone (spaces : Bool) (M : Nat) (t z : List Char) (a : V6) (ht : '%' ∉ t) (ha : v6Parse spaces M t = .ok a) :
    (ZoneOk spaces M z → z ≠ [] → z.head? ≠ some '\x00' → v6Parse spaces M (t ++ '%' :: z) =
      (mkFixed (z ++ List.replicate (M + 1 - z.length) '\x00') >>= fun f => .ok ⟨a.bytes, f⟩)) ∧
    (ZoneOk spaces M z → (z = [] ∨ z.head? = some '\x00') → v6Parse spaces M (t ++ '%' :: z) = .err .invalid_scope_id 0) ∧
    (∀ code, ZoneFault spaces M z code → v6Parse spaces M (t ++ '%' :: z) = .err code 0) := by
  have hne : t ++ '%' :: z ≠ [] := by simp
  have hev : readChars (t ++ '%' :: z) ≠ [] := by simp [readChars]
  refine ⟨fun hz h1 h2 => ?_, fun hz h1 => ?_, fun code hf => ?_⟩
  · have hb : parseAddr t = .ok a.bytes := by
      unfold v6Parse v6FromEvents at ha
      split at ha
      · cases ha
      · rw [splitScope_none _ _ _ (fun c hc e => ht (e ▸ hc)), Res.ok_bind] at ha
        obtain ⟨bytes, k1, k2⟩ := Res.bind_eq_ok.1 ha
        rw [k1]
        simp only [attachScope, List.replicate_succ, rd, List.getElem?_cons_zero, Res.ok_bind] at k2
        cases k2
        rfl
    rw [v6Parse, v6FromEvents, if_neg hev, splitScope_zone ht hz, if_neg (by simp [h1, h2]), Res.ok_bind, hb, Res.ok_bind]
    cases z with
    | nil => exact absurd rfl h1
    | cons c z =>
      have hc : c ≠ '\x00' := fun e => h2 (by rw [e]; rfl)
      rw [attachScope, List.cons_append]
      simp only [rd, List.getElem?_cons_zero, Res.ok_bind, ne_eq, hc, not_false_eq_true, if_true]
  · exact v6Fault_run hne (.noZone t z ht hz h1)
  · exact v6Fault_run hne (.zone t z code ht hf)

/-- C79: the parser accepts a zone id after an address exactly if `set_scope_id` accepts it, and both give the same
address, down to the bytes of its scope id; `x` is any address with the same bytes, whatever its scope id.  Missing for
the whole claim: the empty zone id, zone ids that begin with NUL, and builds without scope ids (`C79_violated`). -/
theorem C79_same_partial (spaces : Bool) (M : Nat) (hM : M ≠ 0) (t z : List Char) (a : V6) (ht : '%' ∉ t)
    (ha : v6Parse spaces M t = .ok a) (hz : z ≠ []) (h0 : z.head? ≠ some '\x00') (x : V6) (hx : x.bytes = a.bytes) (b : V6) :
    v6Parse spaces M (t ++ '%' :: z) = .ok b ↔ v6SetScope spaces M x z.length (readChars z) = .ok (b, none) := by
  obtain ⟨p1, p2, p3⟩ := v6Parse_zone spaces M t z a ht ha
  obtain ⟨s1, s2⟩ := scopeChange_eq spaces M z
  rw [v6SetScope, if_neg hM]
  by_cases hk : ZoneOk spaces M z
  · obtain ⟨f, hf⟩ := mkFixed_some (z ++ List.replicate (M + 1 - z.length) '\x00')
    rw [p1 hk hz h0, s1 hk, hf, Res.ok_bind, hx]
    exact ⟨fun h => (by cases h; rfl), fun h => (by cases h; rfl)⟩
  · obtain ⟨c, hc⟩ : ∃ c, ZoneFault spaces M z c := (zone_cases spaces M z).resolve_left hk
    obtain ⟨d, hd⟩ : ∃ d, SetFault spaces M z d := (setFault_cases spaces M z).resolve_left hk
    rw [p3 c hc, s2 d hd]
    exact ⟨fun h => (by cases h), fun h => (by cases h)⟩

example := C79_same_partial false 16 (by decide) "fe80::1".toList "eth0".toList
  ⟨[0xfe, 0x80, 0, 0, 0, 0, 0, 0, 0, 0, 0, 0, 0, 0, 0, 1], emptyScope 16⟩ (by decide) (by decide +kernel) (by decide) (by decide) exScoped rfl

/-- C79, errors of both, exactly: the parser reports the first fault from the left, `set_scope_id` looks at the length
first. -/
theorem C79_errors_exact (spaces : Bool) (M : Nat) (hM : M ≠ 0) (t z : List Char) (a : V6) (ht : '%' ∉ t)
    (ha : v6Parse spaces M t = .ok a) (hz : z ≠ []) (h0 : z.head? ≠ some '\x00') (x : V6) (code : ErrorCode) :
    ((∃ v, v6Parse spaces M (t ++ '%' :: z) = .err code v) ↔ ZoneFault spaces M z code) ∧
    ((∃ y, v6SetScope spaces M x z.length (readChars z) = .ok (y, some code)) ↔ SetFault spaces M z code) := by
  obtain ⟨p1, p2, p3⟩ := v6Parse_zone spaces M t z a ht ha
  refine ⟨⟨fun ⟨v, h⟩ => ?_, fun h => ⟨0, p3 code h⟩⟩, ⟨fun ⟨y, h⟩ => ((C79_set_errors spaces M hM x z code y).1 h).2,
    fun h => ⟨x, (C79_set_errors spaces M hM x z code x).2 ⟨rfl, h⟩⟩⟩⟩
  rcases zone_cases spaces M z with hk | ⟨c, hc⟩
  · obtain ⟨f, hf⟩ := mkFixed_some (z ++ List.replicate (M + 1 - z.length) '\x00')
    rw [p1 hk hz h0, hf] at h
    cases h
  · rw [p3 c hc] at h
    cases h
    exact hc

example := C79_errors_exact false 16 (by decide) "fe80::1".toList "a%b".toList
  ⟨[0xfe, 0x80, 0, 0, 0, 0, 0, 0, 0, 0, 0, 0, 0, 0, 0, 1], emptyScope 16⟩ (by decide) (by decide +kernel) (by decide) (by decide) exScoped .invalid_scope_id

/-- The two kinds of faults are the same unless the zone id is too long and has a forbidden character before that. -/
theorem fault_same (spaces : Bool) (M : Nat) (z : List Char) (code : ErrorCode) (h : z.length ≤ M ∨ ZoneOk spaces M (z.take M)) :
    ZoneFault spaces M z code ↔ SetFault spaces M z code := by
  have fwd : ∀ code, ZoneFault spaces M z code → SetFault spaces M z code := by
    intro code hf
    cases hf with
    | long pre c post h1 h2 => exact .long (by simp; omega)
    | symbol pre c post h1 h2 h3 =>
      have bad : ∀ n zz, c ∈ zz → ¬ ZoneOk spaces n zz := fun n zz hc hk =>
        h3 ⟨Nat.le_refl _, fun y hy => by rw [List.mem_singleton.1 hy]; exact hk.2 c hc⟩
      rcases h with h | h
      · exact .symbol h (bad _ _ (by simp))
      · refine absurd h (bad _ _ ?_)
        rw [List.take_append]
        refine List.mem_append_right _ ?_
        obtain ⟨k, hk⟩ : ∃ k, M - pre.length = k + 1 := ⟨M - pre.length - 1, by omega⟩
        rw [hk, List.take_succ_cons]
        exact List.mem_cons_self ..
  refine ⟨fwd code, fun hs => ?_⟩
  rcases zone_cases spaces M z with hk | ⟨c, hc⟩
  · exact absurd hk (setFault_not spaces M z code hs)
  · rw [setFault_one spaces M z code c hs (fwd c hc)]
    exact hc

/-- C79, errors: both report the same code, unless the zone id is too long and one of its first `M` characters is not
allowed.  Missing for the whole claim: those zone ids (`C79_violated`). -/
theorem C79_errors_partial (spaces : Bool) (M : Nat) (hM : M ≠ 0) (t z : List Char) (a : V6) (ht : '%' ∉ t)
    (ha : v6Parse spaces M t = .ok a) (hz : z ≠ []) (h0 : z.head? ≠ some '\x00') (h : z.length ≤ M ∨ ZoneOk spaces M (z.take M))
    (x : V6) (code : ErrorCode) :
    (∃ v, v6Parse spaces M (t ++ '%' :: z) = .err code v) ↔
      ∃ y, v6SetScope spaces M x z.length (readChars z) = .ok (y, some code) := by
  obtain ⟨h1, h2⟩ := C79_errors_exact spaces M hM t z a ht ha hz h0 x code
  rw [h1, h2, fault_same spaces M z code h]

example := C79_errors_partial false 16 (by decide) "fe80::1".toList "a%b".toList
  ⟨[0xfe, 0x80, 0, 0, 0, 0, 0, 0, 0, 0, 0, 0, 0, 0, 0, 1], emptyScope 16⟩ (by decide) (by decide +kernel) (by decide) (by decide)
  (.inl (by decide)) exScoped .invalid_scope_id

/-- C79, where the claim fails: `set_scope_id` accepts the empty zone id and one that begins with NUL, the parser rejects
both; a zone id that is too long and has a forbidden character gets different errors; without scope ids `set_scope_id`
ignores what the parser rejects. -/
theorem C79_violated (a : V6) :
    (v6SetScope false 4 a 0 (readChars []) = .ok (⟨a.bytes, emptyScope 4⟩, none) ∧
      v6Parse false 4 "::%".toList = .err .invalid_scope_id 0) ∧
    (v6SetScope false 4 a 2 (readChars ['\x00', 'x']) = .ok (⟨a.bytes, emptyScope 4⟩, none) ∧
      v6Parse false 4 (':' :: ':' :: '%' :: ['\x00', 'x']) = .err .invalid_scope_id 0) ∧
    (v6SetScope false 4 a 5 (readChars "a/bcd".toList) = .ok (a, some .scope_id_is_too_long) ∧
      v6Parse false 4 "::%a/bcd".toList = .err .invalid_scope_id 0) ∧
    (v6SetScope false 0 a 1 (readChars ['1']) = .ok (a, none) ∧ v6Parse false 0 "::%1".toList = .err .scope_id_is_too_long 0) := by
  refine ⟨⟨rfl, by decide⟩, ⟨rfl, by decide⟩, ⟨rfl, by decide⟩, ⟨rfl, by decide⟩⟩

end Ip
