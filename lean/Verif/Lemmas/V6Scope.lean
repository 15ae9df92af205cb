import Verif.Lemmas.V6Grammar
/-
`split_scope_id` and the whole of `ip_from_string`.
-/
set_option autoImplicit false

namespace Ip
open Spec

/-- A valid IPv6 object: 16 bytes and a valid fixed string of capacity `M`. -/
def V6.WF (M : Nat) (a : V6) : Prop := a.bytes.length = 16 ∧ a.scope.WF ∧ a.scope.data.length = M

theorem invalid_iff (spaces : Bool) (c : Char) : invalidScopeSymbol spaces c = false ↔
    c ≠ '%' ∧ c ≠ '/' ∧
    (spaces = false → c ≠ ' ' ∧ c ≠ '\t' ∧ c ≠ '\n' ∧ c ≠ '\x0b' ∧ c ≠ '\x0c' ∧ c ≠ '\r') := by
  have e : (decide ('\t'.toNat ≤ c.toNat) && decide (c.toNat ≤ '\r'.toNat)) = false ↔
      c ≠ '\t' ∧ c ≠ '\n' ∧ c ≠ '\x0b' ∧ c ≠ '\x0c' ∧ c ≠ '\r' := by
    have h9 : '\t'.toNat = 9 := rfl
    have h13 : '\r'.toNat = 13 := rfl
    rw [h9, h13]
    have k : ∀ x : Char, c = x ↔ c.toNat = x.toNat := fun x => ⟨fun h => by rw [h], fun h => Char.ext (by
      have : c.val.toNat = x.val.toNat := h
      exact UInt32.toNat_inj.1 this)⟩
    simp only [ne_eq, k]
    have n9 : '\t'.toNat = 9 := rfl
    have n10 : '\n'.toNat = 10 := rfl
    have n11 : '\x0b'.toNat = 11 := rfl
    have n12 : '\x0c'.toNat = 12 := rfl
    have n13 : '\r'.toNat = 13 := rfl
    rw [n9, n10, n11, n12, n13, Bool.and_eq_false_iff, decide_eq_false_iff_not, decide_eq_false_iff_not]
    omega
  simp only [invalidScopeSymbol, Bool.or_eq_false_iff, decide_eq_false_iff_not, Bool.and_eq_false_iff] at e ⊢
  cases spaces
  · simp only [Bool.not_false, Bool.true_eq_false, false_or, forall_const, ne_eq] at e ⊢
    rw [e]
    constructor
    · rintro ⟨⟨a, b⟩, c, d⟩; exact ⟨a, b, c, d⟩
    · rintro ⟨a, b, c, d⟩; exact ⟨⟨a, b⟩, c, d⟩
  · simp

theorem ZoneOk_iff (spaces : Bool) (M : Nat) (z : List Char) :
    ZoneOk spaces M z ↔ z.length ≤ M ∧ ∀ c ∈ z, invalidScopeSymbol spaces c = false := by
  unfold ZoneOk
  constructor
  · rintro ⟨h1, h2⟩; exact ⟨h1, fun c hc => (invalid_iff spaces c).2 (h2 c hc)⟩
  · rintro ⟨h1, h2⟩; exact ⟨h1, fun c hc => (invalid_iff spaces c).1 (h2 c hc)⟩

/-- An address whose scope id can be stored through the interface: valid, no terminator and no
forbidden symbol among the scope characters. -/
def V6.Good (spaces : Bool) (M : Nat) (a : V6) : Prop :=
  a.WF M ∧ ZoneOk spaces M a.scope.contents ∧ ∀ c ∈ a.scope.contents, c ≠ '\x00'

/-- Invariant of the loop of `split_scope_id`. -/
structure ScopeInv (spaces : Bool) (M : Nat) (st : ScopeSt) : Prop where
  len : st.buf.length = M + 1
  idx : st.index ≤ M
  sym : ∀ c ∈ st.buf, c = '\x00' ∨ invalidScopeSymbol spaces c = false

theorem scopeStep_inv {spaces : Bool} {M : Nat} {st : ScopeSt} (h : ScopeInv spaces M st) (c : Char) :
    scopeStep spaces M st c ≠ .ub ∧ ∀ st', scopeStep spaces M st c = .ok st' → ScopeInv spaces M st' := by
  have hl := h.len
  have hi := h.idx
  have hy := h.sym
  unfold scopeStep
  split
  · exact ⟨by simp, by rintro _ ⟨⟩; exact ⟨hl, hi, hy⟩⟩
  · split
    · split
      · exact ⟨by simp, by simp⟩
      · split
        · exact ⟨by simp, by simp⟩
        · rename_i hnv
          rw [wr_of_lt _ _ _ (by omega)]
          simp only [Res.ok_bind]
          refine ⟨by simp, ?_⟩
          rintro _ ⟨⟩
          refine ⟨by simp [hl], by simp only; omega, ?_⟩
          intro d hd
          rcases List.mem_or_eq_of_mem_set hd with hd | rfl
          · exact hy d hd
          · right; simpa using hnv
    · exact ⟨by simp, by rintro _ ⟨⟩; exact ⟨hl, hi, hy⟩⟩

theorem scopeLoop_inv (spaces : Bool) (M : Nat) : ∀ (evs : List Ev) (st : ScopeSt), ScopeInv spaces M st →
    scopeLoop spaces M st evs ≠ .ub ∧ ∀ st', scopeLoop spaces M st evs = .ok st' → ScopeInv spaces M st'
  | [], st, h => by simp only [scopeLoop]; exact ⟨by simp, by rintro _ ⟨⟩; exact h⟩
  | .bad code sym :: rest, st, h => by simp [scopeLoop]
  | .ch c :: rest, st, h => by
    obtain ⟨h1, h2⟩ := scopeStep_inv (spaces := spaces) h c
    simp only [scopeLoop]
    cases hs : scopeStep spaces M st c with
    | ub => exact absurd hs h1
    | err => simp
    | ok st1 => rw [Res.ok_bind]; exact scopeLoop_inv spaces M rest st1 (h2 st1 hs)

theorem scopeInit_inv (spaces : Bool) (M : Nat) :
    ScopeInv spaces M ⟨[], false, List.replicate (M + 1) '\x00', 0⟩ :=
  ⟨by simp, by simp, by simp⟩

theorem splitScope_ne_ub (spaces : Bool) (M : Nat) (evs : List Ev) :
    splitScope spaces M evs ≠ .ub ∧ ∀ ip buf, splitScope spaces M evs = .ok (ip, buf) →
      buf.length = M + 1 ∧ ∀ c ∈ buf, c = '\x00' ∨ invalidScopeSymbol spaces c = false := by
  obtain ⟨h1, h2⟩ := scopeLoop_inv spaces M evs _ (scopeInit_inv spaces M)
  unfold splitScope
  cases hs : scopeLoop spaces M ⟨[], false, List.replicate (M + 1) '\x00', 0⟩ evs with
  | ub => exact absurd hs h1
  | err => simp
  | ok st =>
    have hi := (h2 st hs).len
    have hy := (h2 st hs).sym
    simp only [Res.ok_bind]
    split
    · rw [rd_of_lt _ _ (by omega), Res.ok_bind]
      split
      · simp
      · exact ⟨by simp, by rintro _ _ ⟨⟩; exact ⟨hi, hy⟩⟩
    · exact ⟨by simp, by rintro _ _ ⟨⟩; exact ⟨hi, hy⟩⟩

theorem attachScope_ok (M : Nat) (bytes : List (BitVec 8)) (buf : List Char) (h : buf.length = M + 1)
    (hb : bytes.length = 16) :
    ∃ a, attachScope M bytes buf = .ok a ∧ a.bytes = bytes ∧ a.WF M ∧ a.scope.contents = cstr (buf.take M) := by
  unfold attachScope
  rw [rd_of_lt _ _ (by omega), Res.ok_bind]
  split
  · obtain ⟨f, h1, h2, h3, h4⟩ := mkFixed_eq buf
    rw [h1, Res.ok_bind]
    refine ⟨_, rfl, rfl, ⟨hb, h2, by rw [h3, h]; rfl⟩, ?_⟩
    rw [h4, h]; rfl
  · rename_i h0
    refine ⟨_, rfl, rfl, ⟨hb, by simp [FStr.WF, emptyScope], by simp [emptyScope]⟩, ?_⟩
    simp only [emptyScope, FStr.contents, List.take_zero]
    match buf, h with
    | c :: buf, h =>
      simp at h0
      subst h0
      cases M with
      | zero => simp [cstr]
      | succ M => simp [cstr]

theorem ParseOk.length {cs : List Char} {vs : List Nat} (h : ParseOk cs vs) : vs.length = 8 := by
  obtain ⟨P, hi, lo, sk, his, los, hs, hb, h1, h2, rfl⟩ := h
  obtain ⟨a, b, c⟩ := hb.sizes
  have e1 := h1.length
  have e2 := h2.length
  rw [List.length_take] at e1
  rw [List.length_drop] at e2
  simp
  omega

/-- The parser never reaches undefined behaviour and successful results are valid objects. -/
theorem v6FromEvents_safe (spaces : Bool) (M : Nat) (evs : List Ev) :
    v6FromEvents spaces M evs ≠ .ub ∧ ∀ a, v6FromEvents spaces M evs = .ok a → a.Good spaces M := by
  unfold v6FromEvents
  split
  · simp
  · obtain ⟨h1, h2⟩ := splitScope_ne_ub spaces M evs
    cases hs : splitScope spaces M evs with
    | ub => exact absurd hs h1
    | err => simp
    | ok s =>
      obtain ⟨ip, buf⟩ := s
      obtain ⟨hb, hy⟩ := h2 ip buf hs
      rw [Res.ok_bind]
      rcases parseAddr_rel ip with ⟨vs, g1, g2⟩ | ⟨_, e, v, g2⟩
      · simp only [g2, Res.ok_bind]
        obtain ⟨a, a1, a2, a3, a4⟩ := attachScope_ok M (groupBytes vs) buf hb
          (by rw [groupBytes_length, g1.length])
        rw [a1]
        refine ⟨by simp, ?_⟩
        rintro _ ⟨⟩
        have hz : ∀ c ∈ a.scope.contents, c ≠ '\x00' := by
          intro c hc
          rw [a4] at hc
          simpa using List.all_eq_true.1 List.all_takeWhile c hc
        refine ⟨a3, (ZoneOk_iff _ _ _).2 ⟨?_, ?_⟩, hz⟩
        · rw [FStr.contents, List.length_take, a3.2.2]; omega
        · intro c hc
          rcases hy c (by
            rw [a4] at hc
            exact List.mem_of_mem_take ((List.takeWhile_sublist _).subset hc)) with h | h
          · exact absurd h (hz c hc)
          · exact h
      · simp [g2]

theorem scopeLoop_ip (spaces : Bool) (M : Nat) (rest : List Ev) (buf : List Char) (index : Nat) :
    ∀ (cs : List Char) (ip : List Char), (∀ c ∈ cs, c ≠ '%') →
    scopeLoop spaces M ⟨ip, false, buf, index⟩ (readChars cs ++ rest) =
      scopeLoop spaces M ⟨ip ++ cs, false, buf, index⟩ rest
  | [], ip, _ => by simp [readChars]
  | c :: cs, ip, h => by
    have ih := scopeLoop_ip spaces M rest buf index cs (ip ++ [c]) (fun d hd => h d (by simp [hd]))
    simp only [readChars, List.map_cons, List.cons_append, scopeLoop, scopeStep] at ih ⊢
    rw [if_pos ⟨trivial, h c (by simp)⟩, Res.ok_bind, ih]
    simp

theorem scopeLoop_zone (spaces : Bool) (M : Nat) (ip : List Char) :
    ∀ (z w : List Char), w.length ≤ M →
    (w.length + z.length ≤ M ∧ (∀ c ∈ z, invalidScopeSymbol spaces c = false) ∧
      scopeLoop spaces M ⟨ip, true, w ++ List.replicate (M + 1 - w.length) '\x00', w.length⟩ (readChars z) =
        .ok ⟨ip, true, (w ++ z) ++ List.replicate (M + 1 - (w ++ z).length) '\x00', (w ++ z).length⟩) ∨
    (¬ (w.length + z.length ≤ M ∧ ∀ c ∈ z, invalidScopeSymbol spaces c = false) ∧
      ∃ e v, scopeLoop spaces M ⟨ip, true, w ++ List.replicate (M + 1 - w.length) '\x00', w.length⟩ (readChars z) =
        .err e v)
  | [], w, h => by
    left
    exact ⟨by simpa using h, by simp, by simp [readChars, scopeLoop]⟩
  | c :: z, w, h => by
    simp only [readChars, List.map_cons, scopeLoop, scopeStep]
    rw [if_neg (by simp)]
    simp only [if_true]
    by_cases hM : w.length ≥ M
    · right
      rw [if_pos hM]
      exact ⟨by simp; omega, ⟨_, _, rfl⟩⟩
    · rw [if_neg hM]
      by_cases hi : invalidScopeSymbol spaces c = true
      · right
        rw [if_pos hi]
        refine ⟨?_, ⟨_, _, rfl⟩⟩
        rintro ⟨_, hh⟩
        rw [hh c (by simp)] at hi
        cases hi
      · rw [if_neg hi]
        have e : M + 1 - w.length = (M - w.length) + 1 := by omega
        rw [e, List.replicate_succ, wr_append _ _ _ _ _ rfl, Res.ok_bind, Res.ok_bind]
        have ih := scopeLoop_zone spaces M ip z (w ++ [c]) (by simp; omega)
        have e2 : M + 1 - (w ++ [c]).length = M - w.length := by simp
        rw [e2] at ih
        have e3 : w ++ c :: z = w ++ [c] ++ z := by simp
        simp only [List.append_assoc, List.cons_append, List.nil_append, List.length_append,
          List.length_cons, List.length_nil, Nat.zero_add] at ih ⊢
        rcases ih with ⟨a, b, d⟩ | ⟨a, b⟩
        · left
          refine ⟨by omega, ?_, ?_⟩
          · intro x hx
            rcases List.mem_cons.1 hx with rfl | hx
            · simpa using hi
            · exact b x hx
          · rw [readChars] at d
            rw [d]
        · right
          refine ⟨?_, b⟩
          rintro ⟨h1, h2⟩
          exact a ⟨by omega, fun x hx => h2 x (by simp [hx])⟩

/-- Splitting at the first percent sign. -/
theorem split_percent (s : List Char) : (∀ c ∈ s, c ≠ '%') ∨
    ∃ ip z, s = ip ++ '%' :: z ∧ ∀ c ∈ ip, c ≠ '%' := by
  induction s with
  | nil => left; simp
  | cons c s ih =>
    by_cases hc : c = '%'
    · right; exact ⟨[], s, by rw [hc]; rfl, by simp⟩
    · rcases ih with h | ⟨ip, z, rfl, h⟩
      · left
        intro d hd
        rcases List.mem_cons.1 hd with rfl | hd
        · exact hc
        · exact h d hd
      · right
        refine ⟨c :: ip, z, rfl, ?_⟩
        intro d hd
        rcases List.mem_cons.1 hd with rfl | hd
        · exact hc
        · exact h d hd

/-- What `split_scope_id` does on a text without percent sign. -/
theorem splitScope_none (spaces : Bool) (M : Nat) (s : List Char) (h : ∀ c ∈ s, c ≠ '%') :
    splitScope spaces M (readChars s) = .ok (s, List.replicate (M + 1) '\x00') := by
  have := scopeLoop_ip spaces M [] (List.replicate (M + 1) '\x00') 0 s [] h
  rw [List.append_nil, List.nil_append] at this
  simp [splitScope, this, scopeLoop]

/-- What `split_scope_id` does on a text with a percent sign. -/
theorem splitScope_some (spaces : Bool) (M : Nat) (ip z : List Char) (h : ∀ c ∈ ip, c ≠ '%') :
    (ZoneOk spaces M z ∧ z ≠ [] ∧ z.head? ≠ some '\x00' ∧
      splitScope spaces M (readChars (ip ++ '%' :: z)) = .ok (ip, z ++ List.replicate (M + 1 - z.length) '\x00')) ∨
    (¬ (ZoneOk spaces M z ∧ z ≠ [] ∧ z.head? ≠ some '\x00') ∧
      ∃ e v, splitScope spaces M (readChars (ip ++ '%' :: z)) = .err e v) := by
  have h1 := scopeLoop_ip spaces M (.ch '%' :: readChars z) (List.replicate (M + 1) '\x00') 0 ip [] h
  have e1 : readChars (ip ++ '%' :: z) = readChars ip ++ (.ch '%' :: readChars z) := by simp [readChars]
  have h2 : scopeLoop spaces M ⟨[] ++ ip, false, List.replicate (M + 1) '\x00', 0⟩ (.ch '%' :: readChars z) =
      scopeLoop spaces M ⟨ip, true, [] ++ List.replicate (M + 1 - ([] : List Char).length) '\x00', ([] : List Char).length⟩ (readChars z) := by
    simp [scopeLoop, scopeStep]
  rw [splitScope, e1, h1, h2]
  rcases scopeLoop_zone spaces M ip z [] (by simp) with ⟨a, b, c⟩ | ⟨a, e, v, b⟩
  · rw [c, Res.ok_bind]
    simp only [if_true, List.nil_append]
    simp only [List.length_nil, Nat.zero_add] at a
    have hz : ZoneOk spaces M z := (ZoneOk_iff spaces M z).2 ⟨a, b⟩
    match z with
    | [] =>
      right
      refine ⟨by simp, ?_⟩
      simp only [List.nil_append, List.length_nil, Nat.sub_zero, List.replicate_succ]
      exact ⟨_, _, rfl⟩
    | c :: z =>
      simp only [List.cons_append, rd, List.getElem?_cons_zero, Res.ok_bind]
      by_cases hc : c = '\x00'
      · right
        rw [if_pos hc]
        exact ⟨by simp [hc], ⟨_, _, rfl⟩⟩
      · left
        rw [if_neg hc]
        exact ⟨hz, by simp, by simp [hc], rfl⟩
  · right
    rw [b]
    refine ⟨?_, ⟨_, _, rfl⟩⟩
    rintro ⟨hz, _, _⟩
    exact a (by simpa using (ZoneOk_iff spaces M z).1 hz)

/-- Everything the parser accepts among texts without NUL characters. -/
def Accepts (spaces : Bool) (M : Nat) (s ip z : List Char) (vs : List Nat) : Prop :=
  s = ip ++ zoneText z ∧ V6Text ip vs ∧ ('.' ∈ ip → ip.count ':' ≤ 6) ∧ ZoneOk spaces M z

theorem cstr_take_zone (M : Nat) (z : List Char) (hz : z.length ≤ M) (hn : ∀ c ∈ z, c ≠ '\x00') :
    cstr ((z ++ List.replicate (M + 1 - z.length) '\x00').take M) = z := by
  rw [show M + 1 - z.length = (M - z.length) + 1 by omega, List.replicate_succ, cstr_take _ _ _ hz,
    cstr_eq_self z hn]

theorem v6Parse_rel (spaces : Bool) (M : Nat) (s : List Char) (hn : ∀ c ∈ s, c ≠ '\x00') :
    (∃ ip z vs a, Accepts spaces M s ip z vs ∧ v6Parse spaces M s = .ok a ∧ a.WF M ∧
      a.bytes = groupBytes vs ∧ a.scope.contents = z) ∨
    ((¬ ∃ ip z vs, Accepts spaces M s ip z vs) ∧ ∃ e v, v6Parse spaces M s = .err e v) := by
  unfold v6Parse v6FromEvents
  by_cases hs : s = []
  · right
    subst hs
    refine ⟨?_, ⟨.empty_address, 0, by simp [readChars]⟩⟩
    rintro ⟨ip, z, vs, h1, h2, _, _⟩
    have hip : ip = [] := (List.append_eq_nil_iff.1 h1.symm).1
    have hp := (ParseOk_of_text h2 (by rw [hip]; simp))
    obtain ⟨P, hi, lo, sk, his, los, hsp, _⟩ := hp
    subst hip
    cases hsp with
    | hex d k q1 q2 q3 q4 q5 q6 =>
      have := congrArg List.length q1
      rw [List.length_append, pieces_length] at this
      simp only [List.count_nil, List.length_cons, List.length_nil] at this
      omega
    | quad d k w x y z q1 q2 q3 q4 q5 q6 q7 =>
      have := congrArg List.length q1
      rw [List.length_append, pieces_length] at this
      simp only [List.count_nil, List.length_cons, List.length_nil] at this
      omega
  · have hr : readChars s ≠ [] := by simpa [readChars] using hs
    rw [if_neg hr]
    have uniq : ∀ ip z vs, Accepts spaces M s ip z vs → (∀ c ∈ ip, c ≠ '%') := by
      intro ip z vs h c hc
      exact (V6Text.chars h.2.1 c hc).2
    rcases split_percent s with hp | ⟨ip, z, rfl, hp⟩
    · rw [splitScope_none spaces M s hp, Res.ok_bind]
      simp only
      rcases parseAddr_rel s with ⟨vs, g1, g2⟩ | ⟨g1, e, v, g2⟩
      · left
        rw [g2, Res.ok_bind]
        obtain ⟨t1, t2⟩ := g1.text hn
        obtain ⟨a, a1, a2, a3, a4⟩ := attachScope_ok M (groupBytes vs) (List.replicate (M + 1) '\x00') (by simp)
          (by rw [groupBytes_length, g1.length])
        refine ⟨s, [], vs, a, ⟨by simp [zoneText], t1, t2, by simp [ZoneOk]⟩, a1, a3, a2, ?_⟩
        rw [a4]
        exact cstr_take_zone M [] (by simp) (by simp)
      · right
        rw [g2]
        refine ⟨?_, ⟨_, _, rfl⟩⟩
        rintro ⟨ip, z, vs, h1, h2, h3, h4⟩
        have hz : z = [] := by
          by_cases hz : z = []
          · exact hz
          · exfalso
            rw [zoneText, if_neg hz] at h1
            exact hp '%' (by rw [h1]; simp) rfl
        rw [hz, zoneText, if_pos rfl, List.append_nil] at h1
        rw [← h1] at h2 h3
        exact g1 ⟨vs, ParseOk_of_text h2 h3⟩
    · have hnip : ∀ c ∈ ip, c ≠ '\x00' := fun c hc => hn c (by simp [hc])
      have hnz : ∀ c ∈ z, c ≠ '\x00' := fun c hc => hn c (by simp [hc])
      have split_uniq : ∀ ip' z', (∀ c ∈ ip', c ≠ '%') → ip ++ '%' :: z = ip' ++ zoneText z' →
          ip' = ip ∧ z' = z ∧ z ≠ [] := by
        intro ip' z' hp' he
        have hz' : z' ≠ [] := by
          rintro rfl
          rw [zoneText, if_pos rfl, List.append_nil] at he
          exact hp' '%' (by rw [← he]; simp) rfl
        rw [zoneText, if_neg hz'] at he
        have key : ∀ (a b : List Char), (∀ c ∈ a, c ≠ '%') → (∀ c ∈ b, c ≠ '%') → ∀ x y : List Char,
            a ++ '%' :: x = b ++ '%' :: y → a = b ∧ x = y := by
          intro a
          induction a with
          | nil =>
            intro b _ hb x y h
            cases b with
            | nil => simpa using h
            | cons d b => simp at h; exact absurd h.1.symm (hb d (by simp))
          | cons d a ih =>
            intro b ha hb x y h
            cases b with
            | nil => simp at h; exact absurd h.1 (ha d (by simp))
            | cons d' b =>
              simp at h
              obtain ⟨rfl, h⟩ := h
              obtain ⟨rfl, rfl⟩ := ih b (fun c hc => ha c (by simp [hc])) (fun c hc => hb c (by simp [hc])) x y h
              exact ⟨rfl, rfl⟩
        obtain ⟨rfl, rfl⟩ := key ip ip' hp hp' z z' he
        exact ⟨rfl, rfl, hz'⟩
      rcases splitScope_some spaces M ip z hp with ⟨z1, z2, z3, z4⟩ | ⟨z1, e, v, z2⟩
      · rw [z4, Res.ok_bind]
        simp only
        rcases parseAddr_rel ip with ⟨vs, g1, g2⟩ | ⟨g1, e, v, g2⟩
        · left
          rw [g2, Res.ok_bind]
          obtain ⟨t1, t2⟩ := g1.text hnip
          have hzl : z.length ≤ M := z1.1
          obtain ⟨a, a1, a2, a3, a4⟩ := attachScope_ok M (groupBytes vs) (z ++ List.replicate (M + 1 - z.length) '\x00')
            (by simp; omega) (by rw [groupBytes_length, g1.length])
          refine ⟨ip, z, vs, a, ⟨by rw [zoneText, if_neg z2], t1, t2, z1⟩, a1, a3, a2, ?_⟩
          rw [a4]
          exact cstr_take_zone M z hzl hnz
        · right
          rw [g2]
          refine ⟨?_, ⟨_, _, rfl⟩⟩
          rintro ⟨ip', z', vs, hA⟩
          obtain ⟨rfl, rfl, _⟩ := split_uniq ip' z' (uniq _ _ _ hA) hA.1
          exact g1 ⟨vs, ParseOk_of_text hA.2.1 hA.2.2.1⟩
      · right
        rw [z2]
        refine ⟨?_, ⟨_, _, rfl⟩⟩
        rintro ⟨ip', z', vs, hA⟩
        obtain ⟨rfl, rfl, hz⟩ := split_uniq ip' z' (uniq _ _ _ hA) hA.1
        refine z1 ⟨hA.2.2.2, hz, ?_⟩
        intro hh
        match z', hh with
        | c :: z', hh =>
          simp at hh
          exact hnz c (by simp) hh

end Ip
