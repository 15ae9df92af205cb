import Verif.Model.Scope
import Verif.Props.Report
import Verif.Props.Compare
import Verif.Props.Containers

set_option autoImplicit false

namespace Ip
open Spec

theorem scopeMk_eq (s : FStr) (h : s.WF) : ∃ has v, scopeValue s = .ok (has, v) ∧ Scope.mk' s = .ok ⟨s, v, has⟩ := by
  obtain ⟨has, v, h1, _⟩ := C18_scope_value_partial s h
  exact ⟨has, v, h1, by unfold Scope.mk'; rw [h1]; rfl⟩

/-- C65: the object returned by `get_scope_id` of an IPv6 address has the text of the scope id, has a string exactly if that
is not empty, and a number exactly if `scopeValue` (C18) finds one; for IPv4 it is empty and has no number. -/
theorem C65_get_scope (M : Nat) (a : V6) (ha : a.WF M) :
    (∃ s, v6GetScope M a = .ok s ∧ anyScopeObject M (.v6 a) = .ok s ∧ s.getString = .ok a.scope.contents ∧
      (s.hasString = true ↔ a.scope.contents ≠ []) ∧ scopeValue a.scope = .ok (s.hasUint32, s.getUint32) ∧
      (s.hasUint32 = true → s.hasString = true)) ∧
    ∀ b, ∃ s, anyScopeObject M (.v4 b) = .ok s ∧ s.getString = .ok [] ∧ s.hasString = false ∧ s.hasUint32 = false ∧
      s.getUint32 = 0 := by
  refine ⟨?_, fun b => ⟨⟨emptyScope M, 0#32, false⟩, rfl, rfl, rfl, rfl, rfl⟩⟩
  have key : ∀ f : FStr, f.WF → ∃ s, Scope.mk' f = .ok s ∧ s.getString = .ok f.contents ∧
      (s.hasString = true ↔ f.contents ≠ []) ∧ scopeValue f = .ok (s.hasUint32, s.getUint32) ∧
      (s.hasUint32 = true → s.hasString = true) := by
    intro f hf
    obtain ⟨has, v, h1, h2⟩ := scopeMk_eq f hf
    obtain ⟨k1, _, k2, _⟩ := C63_fixed_string f hf
    have k3 : (!f.empty) = true ↔ f.contents ≠ [] := by
      rw [Bool.not_eq_true', ← Bool.not_eq_true, k2]
    refine ⟨_, h2, k1, k3, h1, fun h => ?_⟩
    obtain ⟨has', v', g1, g2, _⟩ := C18_scope_value_partial f hf
    rw [h1] at g1
    cases g1
    exact k3.2 (g2.1 h).1
  unfold anyScopeObject v6GetScope
  obtain ⟨s, h1, h2, h3, h4, h5⟩ := key a.scope ha.2.1
  have e : (if M = 0 then ⟨[], 0⟩ else a.scope) = a.scope := by
    split
    · rename_i h0
      obtain ⟨_, hw, hl⟩ := ha
      unfold FStr.WF at hw
      have hd : a.scope.data = [] := by rw [← List.length_eq_zero_iff]; omega
      have hn : a.scope.length = 0 := by omega
      generalize a.scope = t at *
      cases t
      simp only at hd hn
      rw [hd, hn]
    · rfl
  simp only [e]
  exact ⟨s, h1, h1, h2, h3, h4, h5⟩

example := C65_get_scope 16 exScoped exScoped_ok

/-- C65: scopes compare as their texts do, with and without `operator<=>`; scopes that are equal have the same number. -/
theorem C65_compare (ss : Bool) (val : Char → Int) (hv : ∀ x y, val x = val y → x = y) (f g : FStr) (hf : f.WF) (hg : g.WF) :
    ∃ s t r, Scope.mk' f = .ok s ∧ Scope.mk' g = .ok t ∧ Scope.cmpOps' ss val s t = .ok r ∧
      Describes r (ScopeLt val f.contents g.contents) (f.contents = g.contents) (ScopeLt val g.contents f.contents) ∧
      (r.eq = true → s.hasUint32 = t.hasUint32 ∧ s.getUint32 = t.getUint32) := by
  obtain ⟨x, v, h1, h2⟩ := scopeMk_eq f hf
  obtain ⟨y, w, k1, k2⟩ := scopeMk_eq g hg
  obtain ⟨r, hr, hd⟩ := C55_fixed_string ss val hv f g hf hg
  refine ⟨_, _, r, h2, k2, hr, hd, fun he => ?_⟩
  have e := hd.eq.1 he
  obtain ⟨x', v', a1, a2, a3, a4⟩ := C18_scope_value_partial f hf
  obtain ⟨y', w', b1, b2, b3, b4⟩ := C18_scope_value_partial g hg
  rw [h1] at a1; cases a1
  rw [k1] at b1; cases b1
  have hxy : x = y := by
    rw [Bool.eq_iff_iff, a2, b2, e]
  refine ⟨hxy, ?_⟩
  show v = w
  by_cases hx : x = true
  · obtain ⟨_, ds, hds⟩ := a2.1 hx
    exact BitVec.eq_of_toNat_eq ((a4 ds hds).trans (b4 ds (e ▸ hds)).symm)
  · have hx : x = false := by simpa using hx
    rw [a3 hx, b3 (hxy ▸ hx)]

example := C65_compare false exCfg.val exCfg_val exScoped.scope ex32.addr.scope exScoped_ok.2.1 ex32_good.1.2.1

/-- C65 (partial): setting the scope id from an array in any character type, with any number of NUL characters behind
the text, has the outcome of setting it from a string with that text.  Missing: texts with NUL inside, see
`C65_embedded_nul`; texts that cannot be read, see `C65_unreadable`. -/
theorem C65_array_partial {U : Type} (enc : Enc U) (L : enc.Law) (c : Cfg) (hM : c.M ≠ 0) (a : V6) (ha : a.WF c.M) (us : List U)
    (k : Nat) (hl : us.length + k ≤ c.M) (cs : List Char) (he : enc.events us = readChars cs) (hz : ∀ x ∈ cs, x ≠ '\x00') :
    (∀ a', v6ScopeArrayThrow c enc a (us ++ List.replicate k enc.zero) = .ret a' ↔ v6SetScopeThrow c enc a us = .ret a') ∧
    (∀ code, (∃ e, v6ScopeArrayThrow c enc a (us ++ List.replicate k enc.zero) = .thrown e ∧ e.code = code ∧ e.cls = .parse) ↔
      ∃ e, v6SetScopeThrow c enc a us = .thrown e ∧ e.code = code ∧ e.cls = .parse) ∧
    v6ScopeArrayThrow c enc a (us ++ List.replicate k enc.zero) ≠ .ub := by
  obtain ⟨f, h1, h2⟩ := (makeFixed_pad L us k).1 cs he hz
  have hcs : cs.length ≤ us.length := by
    have := L.events_length _ us (Nat.le_refl _)
    rw [he] at this
    simpa [readChars] using this
  have e1 : v6ScopeArrayThrow c enc a (us ++ List.replicate k enc.zero) = v6SetScopeThrow c encChar a cs := by
    unfold v6ScopeArrayThrow
    rw [if_neg hM, h1, ← h2]
  have e2 : v6SetScope c.spaces c.M a us.length (readChars cs) = v6SetScope c.spaces c.M a cs.length (readChars cs) := by
    unfold v6SetScope scopeChange
    rw [if_neg hM, if_neg hM, if_neg (by omega), if_neg (by omega)]
  obtain ⟨_, _, s1⟩ := C50_values enc L c true 0 true us
  obtain ⟨_, _, s2⟩ := C50_values encChar encChar_law c true 0 true cs
  obtain ⟨p1, p2⟩ := s1 a
  obtain ⟨q1, q2⟩ := s2 a
  rw [he, e2] at p1 p2
  rw [e1]
  refine ⟨fun a' => (q1 a').trans (p1 a').symm, fun code => (q2 code).trans (p2 code).symm, fun hub => ?_⟩
  obtain ⟨b, e, h3, _, _, h4, h5⟩ := C17_set_scope_partial c.spaces c.M hM a ha cs hz
  cases e with
  | none =>
    rw [(q1 b).2 h3] at hub
    cases hub
  | some code =>
    by_cases hZ : ZoneOk c.spaces c.M cs
    · exact absurd (h4 hZ).1 (by simp)
    · rw [(h5 hZ).2] at h3
      obtain ⟨x, hx, _⟩ := (q2 code).2 h3
      rw [hx] at hub
      cases hub

example := C65_array_partial encChar encChar_law exCfg (by decide) exScoped exScoped_ok "eth0".toList 3 (by decide) "eth0".toList (by decide +kernel) (by decide)

/-- C65: a text with a malformed or non ASCII character makes both overloads fail. -/
theorem C65_unreadable {U : Type} (enc : Enc U) (L : enc.Law) (c : Cfg) (hM : c.M ≠ 0) (a : V6) (us : List U) (k : Nat)
    (cs : List Char) (code : ErrorCode) (sym : Nat) (he : enc.events us = readChars cs ++ [.bad code sym])
    (hz : ∀ x ∈ cs, x ≠ '\x00') :
    (∃ w, v6ScopeArrayThrow c enc a (us ++ List.replicate k enc.zero) = .thrown ⟨.parse, code, w⟩) ∧
    ∃ e, v6SetScopeThrow c enc a us = .thrown e := by
  have h1 := (makeFixed_pad L us k).2 cs code sym he hz
  constructor
  · unfold v6ScopeArrayThrow
    rw [if_neg hM, h1]
    obtain ⟨w, h⟩ := raise_eq (α := V6) L code sym (us ++ List.replicate k enc.zero)
    have hc : (raiseCase code).1 = .parse := raiseCase_parse code (L.badIn us.length us (Nat.le_refl _) code sym (by rw [he]; simp))
    exact ⟨w, by simp only; rw [h, hc]⟩
  · have hl := L.events_length _ us (Nat.le_refl _)
    have loop : ∀ (cs : List Char) (i : Nat) (str : List Char), i + cs.length < str.length →
        ∃ e v, setScopeLoop c.spaces (readChars cs ++ [.bad code sym]) i str = .err e v := by
      intro cs
      induction cs with
      | nil => intro i str _; exact ⟨code, sym, rfl⟩
      | cons x cs ih =>
        intro i str hi
        simp only [List.length_cons] at hi
        show ∃ e v, (if invalidScopeSymbol c.spaces x then _ else _) = _
        split
        · exact ⟨_, _, rfl⟩
        · have hw : wr str i x = .ok (str.set i x) := by unfold wr; rw [if_pos (by omega)]
          rw [hw, Res.ok_bind]
          exact ih (i + 1) _ (by rw [List.length_set]; omega)
    have hx : ∃ e v, scopeChange c.spaces c.M us.length (enc.events us) = .err e v := by
      unfold scopeChange
      split
      · exact ⟨_, _, rfl⟩
      · rename_i hlt
        rw [he] at hl ⊢
        simp only [readChars, List.length_append, List.length_map, List.length_cons, List.length_nil] at hl
        obtain ⟨e, v, h⟩ := loop cs 0 (List.replicate (c.M + 1) '\x00') (by simp; omega)
        exact ⟨e, v, by rw [h]; rfl⟩
    obtain ⟨e, v, hx⟩ := hx
    unfold v6SetScopeThrow
    rw [if_neg hM, hx]
    obtain ⟨w, hw⟩ := raise_eq (α := V6) L e v us
    exact ⟨_, hw⟩

example := C65_unreadable encUtf32 encUtf32_law exCfg (by decide) exScoped [0x31, 0x100] 2 ['1'] .unexpected_symbol 0x100 (by decide +kernel) (by decide)

/-- C65: with `error_code`, and without exceptions, the array overloads report what the throwing one does and keep the address
when it throws, whatever the array and the old value of the variable. -/
theorem C65_array_reports {U : Type} (enc : Enc U) (L : enc.Law) (c : Cfg) (hM : c.M ≠ 0) (a : V6) (us : List U) :
    Reports (v6ScopeArrayThrow c enc a us) a (v6ScopeArrayCode c enc a us) ∧
    Quiet (v6ScopeArrayThrow c enc a us) a (v6ScopeArrayQuiet c enc a us) := by
  have hq := makeFixedCode_eq enc us none
  constructor
  · intro code
    obtain ⟨g1, g2, g3⟩ := makeFixedCode_eq enc us code
    unfold v6ScopeArrayThrow v6ScopeArrayCode
    rw [if_neg hM, if_neg hM]
    cases h : makeFixed enc us with
    | ok f =>
      rw [g1 f h]
      exact (C60_set_scope encChar encChar_law c hM a f.contents).1 none
    | err e v =>
      obtain ⟨f, hf⟩ := g2 e v h
      obtain ⟨w, hw⟩ := raise_eq (α := V6) L e v us
      rw [hf]
      simp only
      rw [hw]
      simp
    | ub => exact absurd h g3
  · obtain ⟨g1, g2, g3⟩ := hq
    unfold v6ScopeArrayThrow v6ScopeArrayQuiet
    rw [if_neg hM, if_neg hM]
    cases h : makeFixed enc us with
    | ok f =>
      rw [g1 f h]
      have := (C60_set_scope encChar encChar_law c hM a f.contents).1 none
      refine ⟨fun a' ha => ?_, fun e he => ?_⟩
      · have := this.1 a' ha
        show quiet (v6ScopeCode c a f.contents.length (readChars f.contents)) = _
        unfold quiet
        rw [show v6ScopeCode c a f.contents.length (readChars f.contents) none = _ from this]
        rfl
      · have := this.2.1 e he
        show quiet (v6ScopeCode c a f.contents.length (readChars f.contents)) = _
        unfold quiet
        rw [show v6ScopeCode c a f.contents.length (readChars f.contents) none = _ from this]
        rfl
    | err e v =>
      obtain ⟨f, hf⟩ := g2 e v h
      obtain ⟨w, hw⟩ := raise_eq (α := V6) L e v us
      rw [hf]
      simp only
      rw [hw]
      refine ⟨fun _ h => (by cases h), fun _ _ => rfl⟩
    | ub => exact absurd h g3

example := C65_array_reports encChar encChar_law exCfg (by decide) exScoped "a b".toList

/-- C65: the array overload of `ip_address` never changes an IPv4 address or the version, and sets the scope id of an IPv6
address as `ipv6_address` does. -/
theorem C65_any_array {U : Type} (enc : Enc U) (c : Cfg) (us : List U) :
    (∀ b, anyScopeArrayThrow c enc (.v4 b) us = .ret (.v4 b)) ∧
    ∀ a r, anyScopeArrayThrow c enc (.v6 a) us = .ret r ↔ ∃ a', r = .v6 a' ∧ v6ScopeArrayThrow c enc a us = .ret a' := by
  refine ⟨fun b => rfl, fun a r => ?_⟩
  show (v6ScopeArrayThrow c enc a us).map AnyAddr.v6 = _ ↔ _
  cases v6ScopeArrayThrow c enc a us <;> simp [Thr.map, eq_comm]

/-- C65, negation: an array with NUL inside sets the text before it, where the string overload fails. -/
theorem C65_embedded_nul :
    v6ScopeArrayThrow exCfg encChar exScoped ['1', '\x00', '%'] = .ret ⟨exScoped.bytes, ⟨'1' :: List.replicate 15 '\x00', 1⟩⟩ ∧
    ∃ w, v6SetScopeThrow exCfg encChar exScoped ['1', '\x00', '%'] = .thrown ⟨.parse, .invalid_scope_id, w⟩ := by
  refine ⟨by decide +kernel, ?_⟩
  have e : scopeChange exCfg.spaces exCfg.M 3 (encChar.events ['1', '\x00', '%']) = .err .invalid_scope_id 0 := by decide +kernel
  obtain ⟨w, hw⟩ := raise_eq (α := V6) encChar_law .invalid_scope_id 0 ['1', '\x00', '%']
  refine ⟨w, ?_⟩
  unfold v6SetScopeThrow
  rw [if_neg (by decide)]
  show (match scopeChange exCfg.spaces exCfg.M 3 (encChar.events ['1', '\x00', '%']) with
    | .ok f => (.ret ⟨exScoped.bytes, f⟩ : Thr V6) | .err code value => raise encChar code value _ | .ub => .ub) = _
  rw [e]
  exact hw

example : v6ScopeArrayThrow exCfg encUtf16 exScoped [0x65, 0x31, 0] =
    .ret ⟨exScoped.bytes, ⟨'e' :: '1' :: List.replicate 14 '\x00', 2⟩⟩ := by decide +kernel
example : encUtf16.events [0x65, 0x31] = readChars ['e', '1'] := by decide +kernel

end Ip
