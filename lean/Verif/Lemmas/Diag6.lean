import Verif.Spec.Diag6
import Verif.Lemmas.V6Parse
import Verif.Lemmas.V6Scope
import Verif.Lemmas.Diag4
/-
Facts on the errors reported by the IPv6 parser.
-/
set_option autoImplicit false

namespace Ip
open Spec

theorem upToNul_eq (p : List Char) : upToNul p = cstr p := rfl

theorem map_upToNul (ps : List (List Char)) : ps.map upToNul = ps.map cstr := rfl

/-! ### The loop of `split_parts` -/

theorem partsStep_ok {st st' : PartsSt} {c : Char} (h : partsStep st c = .ok st') :
    st'.prev = c ∧ st'.dbl = (st.dbl || (c = ':' && st.prev = ':')) := by
  unfold partsStep at h
  dsimp only at h
  split at h
  · cases h
  · split at h
    · split at h
      · cases h
      · obtain ⟨l1, _, h⟩ := Res.bind_eq_ok.1 h
        obtain ⟨l2, _, h⟩ := Res.bind_eq_ok.1 h
        cases h
        exact ⟨rfl, rfl⟩
    · split at h
      · cases h
      · obtain ⟨l1, _, h⟩ := Res.bind_eq_ok.1 h
        obtain ⟨l2, _, h⟩ := Res.bind_eq_ok.1 h
        cases h
        exact ⟨rfl, rfl⟩

theorem partsLoop_chars : ∀ (p : List Char) (st : PartsSt) (d : List (List Char)) (cur : List Char), PartsRel st d cur →
    d.length ≤ 8 → ':' ∉ p → cur.length + p.length ≤ 16 →
    ∃ st', PartsRel st' d (cur ++ p) ∧ st'.dbl = st.dbl ∧ (p ≠ [] → st'.prev ≠ ':') ∧ (p = [] → st' = st) ∧
      ∀ rest, partsLoop st (p ++ rest) = partsLoop st' rest
  | [], st, d, cur, h, _, _, _ => ⟨st, by simpa using h, rfl, by simp, fun _ => rfl, fun _ => rfl⟩
  | c :: p, st, d, cur, h, hd, hp, hl => by
    simp only [List.length_cons] at hl
    have hc : c ≠ ':' := fun e => hp (by simp [e])
    obtain ⟨st1, e1, r1⟩ := (partsStep_rel c h).2.2.2.1 hd hc (by omega)
    obtain ⟨k1, k2⟩ := partsStep_ok e1
    obtain ⟨st2, r2, g1, g2, g3, g4⟩ := partsLoop_chars p st1 d (cur ++ [c]) r1 hd (fun hm => hp (by simp [hm]))
      (by simp; omega)
    refine ⟨st2, by simpa using r2, ?_, fun _ => ?_, by simp, fun rest => ?_⟩
    · rw [g1, k2]; simp [hc]
    · by_cases hp' : p = []
      · rw [g3 hp', k1]; exact hc
      · exact g2 hp'
    · rw [List.cons_append, partsLoop, e1, Res.ok_bind, g4]

/-- The parts, each followed by a colon. -/
def ended (d : List (List Char)) : List Char := d.flatMap fun p => p ++ [':']

theorem ended_snoc (d : List (List Char)) (p : List Char) : ended (d ++ [p]) = ended d ++ (p ++ [':']) := by
  unfold ended; rw [List.flatMap_append]; simp

theorem colons_ended (d : List (List Char)) (p : List Char) (rest : List (List Char)) :
    colons (d ++ p :: rest) = ended d ++ colons (p :: rest) := by
  induction d with
  | nil => rfl
  | cons q d ih =>
    rw [List.cons_append, colons_cons _ _ (by simp), ih]
    simp [ended]

theorem snoc_induction {α : Type} {P : List α → Prop} (h0 : P []) (h1 : ∀ d p, P d → P (d ++ [p])) (l : List α) : P l := by
  rw [← List.reverse_reverse l]
  generalize l.reverse = r
  induction r with
  | nil => exact h0
  | cons a r ih => rw [List.reverse_cons]; exact h1 _ _ ih

theorem partsLoop_ended (d : List (List Char)) (hs : Short d) (hc : ∀ p ∈ d, ':' ∉ p) (hl : d.length ≤ 9) :
    ∃ st, PartsRel st d [] ∧ (d ≠ [] → st.prev = ':') ∧ (d = [] → st.prev ≠ ':') ∧ (st.dbl = true ↔ [] ∈ d.tail) ∧
      ∀ rest, partsLoop partsInit (ended d ++ rest) = partsLoop st rest := by
  induction d using snoc_induction with
  | h0 => exact ⟨partsInit, partsInit_rel, by simp, fun _ => by decide, by simp [partsInit], fun _ => rfl⟩
  | h1 d p ih =>
    have hl' : d.length + 1 ≤ 9 := by simpa using hl
    obtain ⟨st, r, g1, g2, g3, g4⟩ := ih (fun q hq => hs q (by simp [hq])) (fun q hq => hc q (by simp [hq])) (by omega)
    have hp4 := hs p (by simp)
    obtain ⟨st1, r1, k1, k2, k3, k4⟩ := partsLoop_chars p st d [] r (by omega) (hc p (by simp)) (by simp; omega)
    obtain ⟨st2, e2, r2⟩ := (partsStep_rel ':' r1).2.2.2.2 (by omega) rfl (by simpa using hp4)
    obtain ⟨m1, m2⟩ := partsStep_ok e2
    refine ⟨st2, by simpa using r2, fun _ => m1, by simp, ?_, fun rest => ?_⟩
    · have hprev : st1.prev = ':' ↔ d ≠ [] ∧ p = [] := by
        constructor
        · intro h
          by_cases hp : p = []
          · refine ⟨fun hd => ?_, hp⟩
            rw [k3 hp] at h
            exact g2 hd h
          · exact absurd h (k2 hp)
        · rintro ⟨hd, hp⟩
          rw [k3 hp]; exact g1 hd
      rw [m2, k1]
      simp only [decide_true, Bool.true_and, Bool.or_eq_true, decide_eq_true_eq, hprev, g3]
      cases d with
      | nil => simp
      | cons q d => simp [eq_comm]
    · rw [ended_snoc]
      simp only [List.append_assoc, List.cons_append, List.nil_append]
      rw [g4, k4, partsLoop, e2, Res.ok_bind]

theorem partsStep_nine {st : PartsSt} {d : List (List Char)} {cur : List Char} (h : PartsRel st d cur) (hd : d.length = 9)
    (c : Char) (rest : List Char) : partsLoop st (c :: rest) =
      .err (if (st.dbl || (c = ':' && st.prev = ':')) = true then .expected_at_most_7_other_parts_with_double_colon
        else .most_8_colons_permitted) 9 := by
  have hc := h.count
  rw [partsLoop]
  simp only [partsStep]
  rw [if_pos (by omega), hc, hd]; rfl

theorem partsStep_long {st : PartsSt} {d : List (List Char)} {cur : List Char} (h : PartsRel st d cur) (hd : d.length ≤ 8)
    (c : Char) (hc : c = ':' ∧ 4 < cur.length ∨ c ≠ ':' ∧ 15 < cur.length) (rest : List Char) :
    partsLoop st (c :: rest) = .err .part_is_more_4_chars d.length := by
  have h1 := h.count
  have h2 := h.symbol
  rw [partsLoop]
  simp only [partsStep]
  rw [if_neg (by omega)]
  rcases hc with ⟨hc, hl⟩ | ⟨hc, hl⟩
  · rw [if_neg (by simp [hc]), if_pos (by omega), h1]; rfl
  · rw [if_pos hc, if_pos (by omega), h1]; rfl

/-- `split_parts` up to the last part. -/
theorem splitParts_last (d : List (List Char)) (k : List Char) (hs : Short d) (hc : ∀ p ∈ d ++ [k], ':' ∉ p)
    (hl : d.length ≤ 8) (hk : k.length ≤ 16) :
    ∃ st, PartsRel st d k ∧ splitParts (colons (d ++ [k])) = partsFinish st := by
  obtain ⟨st, r, _, _, _, g⟩ := partsLoop_ended d hs (fun p hp => hc p (by simp [hp])) (by omega)
  obtain ⟨st1, r1, _, _, _, k4⟩ := partsLoop_chars k st d [] r (by omega) (hc k (by simp)) (by simp; omega)
  refine ⟨st1, by simpa using r1, ?_⟩
  rw [splitParts, colons_ended, g]
  have := k4 []
  rw [List.append_nil] at this
  rw [show colons [k] = k from rfl, this, partsLoop, Res.ok_bind]

/-! ### The end of `split_parts` -/

theorem partsFinish_le {st : PartsSt} {d : List (List Char)} {k : List Char} (h : PartsRel st d k) (hd : d.length ≤ 8) :
    partsFinish st = (do let pc ← lastParts st (decide ('.' ∈ k)); collectParts pc) := by
  obtain ⟨rest, hlast⟩ := h.last
  have hcnt := h.count
  have hdot : hasDotLoop st.last st.symbol 0 = .ok (decide ('.' ∈ k)) := by
    rw [hlast, h.symbol]
    exact hasDotLoop_eq ('\x00' :: rest) k []
  simp only [partsFinish]
  rw [if_neg (by omega), hdot, Res.ok_bind]

theorem lastParts_quad {st : PartsSt} {d : List (List Char)} {k : List Char} (h : PartsRel st d k) (hd : d.length ≤ 6)
    (hk : k.length ≤ 16) (code : ErrorCode) (v : Nat) (he : v4Parse (cstr k) = .err code v) :
    lastParts st true = .err code d.length := by
  obtain ⟨rest, hlast⟩ := h.last
  have hcnt := h.count
  have hv : v4ParseArray st.last = v4Parse (cstr k) := by
    rw [v4ParseArray_eq, h.lastLen, hlast, cstr_take _ _ _ (by omega)]
  simp only [lastParts, if_true]
  rw [if_neg (by omega), hv, he, hcnt]
  rfl

/-- The number of parts that `split_parts` stores. -/
theorem lastParts_resolved {st : PartsSt} {d : List (List Char)} {k : List Char} {R : List (List Char)} (h : PartsRel st d k)
    (hR : Resolved (d ++ [k]) R) : ∃ parts, lastParts st (decide ('.' ∈ k)) = .ok (parts, R.length) := by
  obtain ⟨D, F, p1, p2, p3, p5⟩ := h.parts
  have hDl : D.length = d.length := by simpa using congrArg List.length p2
  obtain ⟨rest, hlast⟩ := h.last
  have hcnt := h.count
  have hsym := h.symbol
  generalize hps : d ++ [k] = ps at hR
  cases hR with
  | hex d' k' q1 q2 q3 q4 =>
    obtain ⟨rfl, rfl⟩ := append_singleton_inj hps
    simp only [q4, decide_false, lastParts, Bool.false_eq_true, if_false]
    rw [if_neg (by omega)]
    obtain ⟨parts, s1, _⟩ := storePart_rel h (by omega) (by omega)
    rw [s1, Res.ok_bind]
    exact ⟨parts, by simp [hcnt]⟩
  | quad d' k' w x y z q1 q2 q3 q4 q5 =>
    obtain ⟨rfl, rfl⟩ := append_singleton_inj hps
    have hv : v4ParseArray st.last = v4Parse (cstr k) := by
      rw [v4ParseArray_eq, h.lastLen, hlast, cstr_take _ _ _ (by omega)]
    simp only [q4, decide_true, lastParts, if_true]
    rw [if_neg (by omega), hv, (v4Parse_ok_iff _ _).2 ⟨w, x, y, z, rfl, (upToNul_eq k).symm.trans q5⟩]
    match F, p3 with
    | [], p3 => simp at p3; omega
    | [_], p3 => simp at p3; omega
    | r0 :: r1 :: F, p3 =>
      simp only [withValue, Res.ok_bind, v4ToUint_le]
      have g1 : rd st.parts st.count = .ok r0 := by rw [p1]; exact rd_append _ _ _ _ (by omega)
      rw [g1, Res.ok_bind, toHex_eq _ _ (p5 r0 (by simp)), Res.ok_bind, p1,
        wr_append _ _ _ _ _ (by omega), Res.ok_bind]
      have g2 := rd_append (D ++ [hex4 (((cat4 w x y z >>> 16) &&& 0xFFFF#32).setWidth 16).toNat ++ ['\x00']]) r1 F
        (st.count + 1) (by simp; omega)
      have g3 := wr_append (D ++ [hex4 (((cat4 w x y z >>> 16) &&& 0xFFFF#32).setWidth 16).toNat ++ ['\x00']]) r1
        (hex4 ((cat4 w x y z &&& 0xFFFF#32).setWidth 16).toNat ++ ['\x00']) F (st.count + 1) (by simp; omega)
      simp only [List.append_assoc, List.cons_append, List.nil_append] at g2 g3
      rw [g2, Res.ok_bind, toHex_eq _ _ (p5 r1 (by simp)), Res.ok_bind, g3, Res.ok_bind]
      have hlen : (d.map upToNul ++ [hex4 (w.toNat * 256 + x.toNat), hex4 (y.toNat * 256 + z.toNat)]).length = st.count + 2 := by
        simp [hcnt]
      rw [hlen]
      exact ⟨_, rfl⟩

theorem cstr_head (p : List Char) : cstr p = [] ↔ p = [] ∨ p.head? = some '\x00' := by
  cases p with
  | nil => simp [cstr]
  | cons c p => simp [cstr, List.takeWhile_cons]

theorem row_head (r : List Char) (hr : r.length = 5) (p : List Char) (h : cstr (r.take 4) = cstr p) :
    ∃ c rest, r = c :: rest ∧ (c = '\x00' ↔ cstr p = []) := by
  obtain ⟨a, b, c, d, e, rfl⟩ := len5 r hr
  refine ⟨a, _, rfl, ?_⟩
  rw [← h, cstr_head]
  simp

theorem partsFinish_nine {st : PartsSt} {d : List (List Char)} {p q : List Char} (h : PartsRel st (p :: q :: d) [])
    (hd : d.length = 7) :
    partsFinish st = .err (if upToNul p = [] ∧ upToNul q ≠ [] then .leading_colon_only_permitted_as_part_of_double_colon
      else .trailing_colon_only_permitted_as_part_of_double_colon) 9 := by
  obtain ⟨D, F, p1, p2, p3, p5⟩ := h.parts
  obtain ⟨rest, hlast⟩ := h.last
  have hcnt : st.count = 9 := by rw [h.count]; simp [hd]
  match D, p2 with
  | r0 :: r1 :: D, p2 =>
    simp only [List.map_cons, List.cons.injEq] at p2
    obtain ⟨a2, a3, _⟩ := p2
    obtain ⟨c0, t0, rfl, z0⟩ := row_head r0 (p5 r0 (by simp)) p a2
    obtain ⟨c1, t1, rfl, z1⟩ := row_head r1 (p5 r1 (by simp)) q a3
    simp only [partsFinish]
    rw [if_pos (by omega), p1, hlast, hcnt]
    have hz : (c0 = '\x00' ∧ c1 ≠ '\x00') ↔ (upToNul p = [] ∧ upToNul q ≠ []) := by
      rw [ne_eq, z0, z1]; rfl
    simp only [rd2, rd, List.cons_append, List.getElem?_cons_zero, List.getElem?_cons_succ, List.nil_append, Res.ok_bind,
      if_true]
    by_cases hc : upToNul p = [] ∧ upToNul q ≠ []
    · rw [if_pos hc, if_pos (hz.2 hc)]
    · rw [if_neg hc, if_neg (fun h => hc (hz.1 h))]
  | [], p2 => simp at p2
  | [_], p2 => simp at p2

theorem splitFault_run {ps : List (List Char)} {code : ErrorCode} {v : Nat} (h : SplitFault ps code v)
    (hc : ∀ p ∈ ps, ':' ∉ p) : splitParts (colons ps) = .err code v := by
  cases h with
  | long d p rest h1 h2 h3 h4 =>
    obtain ⟨st, r, _, _, _, g⟩ := partsLoop_ended d h1 (fun x hx => hc x (by simp [hx])) (by omega)
    have hp := hc p (by simp)
    by_cases h16 : 16 < p.length
    · have hsplit : p = p.take 16 ++ p.drop 16 := (List.take_append_drop 16 p).symm
      obtain ⟨c, q, hq⟩ : ∃ c q, p.drop 16 = c :: q := by
        cases hx : p.drop 16 with
        | nil => have := congrArg List.length hx; simp at this; omega
        | cons c q => exact ⟨c, q, rfl⟩
      obtain ⟨st1, r1, _, _, _, k4⟩ := partsLoop_chars (p.take 16) st d [] r (by omega)
        (fun hm => hp (List.mem_of_mem_take hm)) (by simp only [List.length_nil, List.length_take]; omega)
      have hcc : c ≠ ':' := by
        intro e
        exact hp (List.mem_of_mem_drop (i := 16) (by rw [hq, e]; simp))
      have hcol : ∃ tail, colons (p :: rest) = p ++ tail := by
        cases rest with
        | nil => exact ⟨[], by simp [colons]⟩
        | cons _ _ => exact ⟨_, colons_cons _ _ (by simp)⟩
      obtain ⟨tail, hcol⟩ := hcol
      rw [splitParts, colons_ended, g, hcol, hsplit, hq]
      simp only [List.append_assoc, List.cons_append]
      rw [k4, partsStep_long r1 h2 c (.inr ⟨hcc, by simp only [List.nil_append, List.length_take]; omega⟩)]
      rfl
    · by_cases hr : rest = []
      · subst hr
        obtain ⟨st1, r1, e1⟩ := splitParts_last d p h1 hc h2 (by omega)
        rw [e1, partsFinish_le r1 h2]
        have hdot : '.' ∉ p := by
          rcases h4 with h | h | h
          · exact absurd rfl h
          · omega
          · exact h
        simp only [hdot, decide_false, lastParts, Bool.false_eq_true, if_false]
        rw [if_pos (by rw [r1.symbol]; exact h3), r1.count]
        rfl
      · obtain ⟨st1, r1, _, _, _, k4⟩ := partsLoop_chars p st d [] r (by omega) hp (by simp; omega)
        rw [splitParts, colons_ended, g, colons_cons _ _ hr, k4,
          partsStep_long r1 h2 ':' (.inl ⟨rfl, by simpa using h3⟩)]
        rfl
  | colons d p rest h1 h2 h3 h4 =>
    obtain ⟨st, r, g1, _, g3, g⟩ := partsLoop_ended d h1 (fun x hx => hc x (by simp [hx])) (by omega)
    obtain ⟨c, q, rfl⟩ : ∃ c q, p = c :: q := by
      cases p with
      | nil => exact absurd rfl h3
      | cons c q => exact ⟨c, q, rfl⟩
    have hcc : c ≠ ':' := fun e => hc (c :: q) (by simp) (by simp [e])
    have hcol : ∃ tail, colons ((c :: q) :: rest) = c :: tail := by
      cases rest with
      | nil => exact ⟨_, rfl⟩
      | cons _ _ => exact ⟨_, colons_cons _ _ (by simp)⟩
    obtain ⟨tail, hcol⟩ := hcol
    have hdbl : st.dbl = false := by
      cases hb : st.dbl with
      | false => rfl
      | true => exact absurd (g3.1 hb) h4
    rw [splitParts, colons_ended, g, hcol, partsStep_nine r h2]
    simp [hdbl, hcc]
  | parts d p rest h1 h2 h3 h4 =>
    obtain ⟨st, r, g1, _, g3, g⟩ := partsLoop_ended d h1 (fun x hx => hc x (by simp [hx])) (by omega)
    have hcol : ∃ c tail, colons (p :: rest) = c :: tail ∧ (p = [] → c = ':') := by
      cases p with
      | nil =>
        have hr : rest ≠ [] := by
          rcases h3 with h | h
          · exact absurd rfl h
          · exact h
        exact ⟨':', _, colons_cons _ _ hr, fun _ => rfl⟩
      | cons c q =>
        cases rest with
        | nil => exact ⟨c, _, rfl, by simp⟩
        | cons _ _ => exact ⟨c, _, colons_cons _ _ (by simp), by simp⟩
    obtain ⟨c, tail, hcol, hpc⟩ := hcol
    rw [splitParts, colons_ended, g, hcol, partsStep_nine r h2]
    have hprev : st.prev = ':' := g1 (by intro e; simp [e] at h2)
    rw [if_pos]
    · rfl
    · rcases h4 with h | h
      · simp [g3.2 h]
      · simp [hprev, hpc h]
  | leading p q d h1 h2 h3 h4 =>
    obtain ⟨st, r, _, _, _, g⟩ := partsLoop_ended (p :: q :: d) h1 (fun x hx => hc x (List.mem_append_left _ hx)) (by simp; omega)
    have := g []
    rw [List.append_nil] at this
    rw [splitParts, colons_ended, show colons [[]] = [] from rfl, g, partsLoop, Res.ok_bind, partsFinish_nine r h2,
      if_pos ⟨h3, h4⟩]
  | trailing p q d h1 h2 h3 =>
    obtain ⟨st, r, _, _, _, g⟩ := partsLoop_ended (p :: q :: d) h1 (fun x hx => hc x (List.mem_append_left _ hx)) (by simp; omega)
    rw [splitParts, colons_ended, show colons [[]] = [] from rfl, g, partsLoop, Res.ok_bind, partsFinish_nine r h2,
      if_neg (fun hh => hh.2 (h3 hh.1))]
  | quadLate d k h1 h2 h3 h4 h5 =>
    obtain ⟨st1, r1, e1⟩ := splitParts_last d k h1 hc h3 h4
    rw [e1, partsFinish_le r1 h3]
    simp only [h5, decide_true, lastParts, if_true]
    rw [if_pos (by rw [r1.count]; omega), r1.count]
    rfl
  | quad d k _ v' h1 h2 h3 h4 h5 h6 =>
    obtain ⟨st1, r1, e1⟩ := splitParts_last d k h1 hc (by omega) h3
    rw [e1, partsFinish_le r1 (by omega)]
    simp only [h4, decide_true]
    have he : v4Parse (cstr k) = .err code v' := by
      rw [← upToNul_eq, v4Parse, v4FromEvents, if_neg (by simpa [readChars] using h5)]
      rcases h6 with hf | hf
      · have := v4Fault_run hf []
        rw [List.append_nil] at this
        rw [this]; rfl
      · obtain ⟨st, h1, h2⟩ := v4EndFault_run hf
        rw [h1, Res.ok_bind, h2]
    rw [lastParts_quad r1 h2 h3 code v' he]
    rfl
  | quadEmpty d k h1 h2 h3 h4 h5 =>
    obtain ⟨st1, r1, e1⟩ := splitParts_last d k h1 hc (by omega) h3
    rw [e1, partsFinish_le r1 (by omega)]
    simp only [h4, decide_true]
    rw [lastParts_quad r1 h2 h3 .empty_address 0 (by rw [← upToNul_eq, h5]; rfl)]
    rfl

theorem few_run {ps R : List (List Char)} (h : Resolved ps R) (hl : R.length < 3) (hc : ∀ p ∈ ps, ':' ∉ p) :
    splitParts (colons ps) = .err .least_3_parts R.length := by
  have key : ∀ d k, ps = d ++ [k] → Short d → d.length ≤ 8 → k.length ≤ 16 → splitParts (colons ps) = .err .least_3_parts R.length := by
    intro d k e h1 h2 h3
    subst e
    obtain ⟨st1, r1, e1⟩ := splitParts_last d k h1 hc h2 h3
    obtain ⟨parts, e2⟩ := lastParts_resolved r1 h
    rw [e1, partsFinish_le r1 h2, e2, Res.ok_bind]
    simp only [collectParts]
    rw [if_pos hl]
  cases h with
  | hex d k q1 q2 q3 q4 => exact key d k rfl q1 q2 (by omega)
  | quad d k w x y z q1 q2 q3 q4 q5 => exact key d k rfl q1 (by omega) q3

/-- Either something is wrong with the parts already, or the last part is resolved. -/
theorem split_cases (ps : List (List Char)) (hne : ps ≠ []) : (∃ code v, SplitFault ps code v) ∨ ∃ R, Resolved ps R := by
  -- parts of at most four characters in front
  have front : ∀ (n : Nat) (qs : List (List Char)), (∃ d p rest, qs = d ++ p :: rest ∧ Short d ∧ d.length < n ∧ 4 < p.length) ∨
      (∃ d rest, qs = d ++ rest ∧ Short d ∧ d.length = n) ∨ (Short qs ∧ qs.length < n) := by
    intro n
    induction n with
    | zero => intro qs; exact .inr (.inl ⟨[], qs, rfl, by simp [Short], rfl⟩)
    | succ n ih =>
      intro qs
      cases qs with
      | nil => exact .inr (.inr ⟨by simp [Short], by simp⟩)
      | cons q qs =>
        by_cases hq : 4 < q.length
        · exact .inl ⟨[], q, qs, rfl, by simp [Short], by simp, hq⟩
        · have hq' : q.length ≤ 4 := by omega
          have hsh : ∀ d, Short d → Short (q :: d) := by
            intro d hd p hp
            rcases List.mem_cons.1 hp with rfl | hp
            · exact hq'
            · exact hd p hp
          rcases ih qs with ⟨d, p, rest, rfl, h1, h2, h3⟩ | ⟨d, rest, rfl, h1, h2⟩ | ⟨h1, h2⟩
          · exact .inl ⟨q :: d, p, rest, rfl, hsh d h1, by simp; omega, h3⟩
          · exact .inr (.inl ⟨q :: d, rest, rfl, hsh d h1, by simp; omega⟩)
          · exact .inr (.inr ⟨hsh qs h1, by simp; omega⟩)
  -- what a last part can be
  have last : ∀ (d : List (List Char)) (k : List Char), Short d → d.length ≤ 8 →
      (∃ code v, SplitFault (d ++ [k]) code v) ∨ ∃ R, Resolved (d ++ [k]) R := by
    intro d k h1 h2
    by_cases h16 : 16 < k.length
    · exact .inl ⟨_, _, .long d k [] h1 h2 (by omega) (.inr (.inl h16))⟩
    · by_cases hdot : '.' ∈ k
      · by_cases h7 : 7 ≤ d.length
        · exact .inl ⟨_, _, .quadLate d k h1 h7 h2 (by omega) hdot⟩
        · by_cases hz : upToNul k = []
          · exact .inl ⟨_, _, .quadEmpty d k h1 (by omega) (by omega) hdot hz⟩
          · cases hp : v4Parse (upToNul k) with
            | ub => exact absurd hp (v4FromEvents_ne_ub _)
            | ok r =>
              obtain ⟨w, x, y, z, _, hq⟩ := (v4Parse_ok_iff _ _).1 hp
              exact .inr ⟨_, .quad d k w x y z h1 (by omega) (by omega) hdot hq⟩
            | err code v =>
              refine .inl ⟨code, d.length, .quad d k code v h1 (by omega) (by omega) hdot hz ?_⟩
              rw [v4Parse, v4FromEvents, if_neg (by simpa [readChars] using hz)] at hp
              rcases v4Loop_split (upToNul k) with ⟨st, g1, g2, g3, _⟩ | ⟨code', v', g1, _⟩
              · have g3 := g3 []
                rw [List.append_nil] at g3
                rw [g3, v4Loop, Res.ok_bind] at hp
                exact .inr (v4Finish_fault g1 g2 hp)
              · have g2 := v4Fault_run g1 []
                rw [List.append_nil] at g2
                rw [g2] at hp
                cases hp
                exact .inl g1
      · by_cases h4 : 4 < k.length
        · exact .inl ⟨_, _, .long d k [] h1 h2 h4 (.inr (.inr hdot))⟩
        · exact .inr ⟨_, .hex d k h1 h2 (by omega) hdot⟩
  rcases front 9 ps with ⟨d, p, rest, rfl, h1, h2, h3⟩ | ⟨d, rest, rfl, h1, h2⟩ | ⟨h1, h2⟩
  · by_cases hr : rest = []
    · subst hr; exact last d p h1 (by omega)
    · exact .inl ⟨_, _, .long d p rest h1 (by omega) h3 (.inl hr)⟩
  · cases rest with
    | nil =>
      rw [List.append_nil]
      rcases List.eq_nil_or_concat d with rfl | ⟨d', k, rfl⟩
      · simp at h2
      · rw [List.concat_eq_append] at h1 h2 ⊢
        exact last d' k (fun x hx => h1 x (by simp [hx])) (by simp at h2; omega)
    | cons p rest =>
      by_cases hpr : p = [] ∧ rest = []
      · obtain ⟨rfl, rfl⟩ := hpr
        match d, h2 with
        | a :: b :: d, h2 =>
          have h7 : d.length = 7 := by simpa using h2
          by_cases hz : upToNul a = [] ∧ upToNul b ≠ []
          · exact .inl ⟨_, _, .leading a b d h1 h7 hz.1 hz.2⟩
          · refine .inl ⟨_, _, .trailing a b d h1 h7 fun ha => ?_⟩
            by_cases hb : upToNul b = []
            · exact hb
            · exact absurd ⟨ha, hb⟩ hz
      · have hpr' : p ≠ [] ∨ rest ≠ [] := by
          by_cases hp : p = []
          · exact .inr fun hr => hpr ⟨hp, hr⟩
          · exact .inl hp
        by_cases hg : [] ∈ d.tail ∨ p = []
        · exact .inl ⟨_, _, .parts d p rest h1 h2 hpr' hg⟩
        · exact .inl ⟨_, _, .colons d p rest h1 h2 (fun e => hg (.inr e)) (fun e => hg (.inl e))⟩
  · rcases List.eq_nil_or_concat ps with rfl | ⟨d', k, rfl⟩
    · exact absurd rfl hne
    · rw [List.concat_eq_append] at h1 h2 ⊢
      exact last d' k (fun x hx => h1 x (by simp [hx])) (by simp at h2; omega)

end Ip
