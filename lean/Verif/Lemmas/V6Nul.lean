import Verif.Lemmas.V6Text
import Verif.Spec.V6Nul
/-
The IPv6 parser on texts with NUL characters.
-/
set_option autoImplicit false

namespace Ip
open Spec

theorem cutNul_eq : ∀ t : List Char, cutNul t = cstr t
  | [] => rfl
  | c :: t => by
    have ih := cutNul_eq t
    by_cases h : c = '\x00'
    · simp [cutNul, cstr, h]
    · have : cstr (c :: t) = c :: cstr t := by simp [cstr, h]
      rw [this, cutNul, if_neg h, ih]

theorem cstr_mem {t : List Char} {c : Char} (h : c ∈ cstr t) : c ∈ t ∧ c ≠ '\x00' := by
  induction t with
  | nil => simp [cstr] at h
  | cons d t ih =>
    by_cases hd : d = '\x00'
    · simp [cstr, hd] at h
    · have e : cstr (d :: t) = d :: cstr t := by simp [cstr, hd]
      rw [e] at h
      rcases List.mem_cons.1 h with rfl | h
      · exact ⟨by simp, hd⟩
      · exact ⟨List.mem_cons_of_mem _ (ih h).1, (ih h).2⟩

theorem cstr_cstr (t : List Char) : cstr (cstr t) = cstr t :=
  cstr_eq_self _ fun _ h => (cstr_mem h).2

theorem cstr_length_le (t : List Char) : (cstr t).length ≤ t.length :=
  (List.takeWhile_sublist _).length_le

theorem colons_mem : ∀ (ts : List (List Char)) (c : Char), c ∈ colons ts → c = ':' ∨ ∃ t ∈ ts, c ∈ t
  | [], _, h => by simp [colons] at h
  | [t], c, h => Or.inr ⟨t, by simp, by simpa [colons] using h⟩
  | t :: u :: ts, c, h => by
    rw [colons_cons _ _ (by simp)] at h
    rcases List.mem_append.1 h with h | h
    · exact Or.inr ⟨t, by simp, h⟩
    · rcases List.mem_cons.1 h with h | h
      · exact Or.inl h
      · rcases colons_mem (u :: ts) c h with h | ⟨x, hx, h⟩
        · exact Or.inl h
        · exact Or.inr ⟨x, List.mem_cons_of_mem _ hx, h⟩

theorem pieces_last (s : List Char) : ∃ d k, pieces s = d ++ [k] :=
  ⟨_, _, (List.dropLast_concat_getLast (pieces_ne_nil s)).symm⟩

/-- The groups of a text, in terms of `pieces`. -/
theorem cutGroups_iff (ip cut : List Char) : CutGroups ip cut ↔
    ∃ d k, pieces ip = d ++ [k] ∧ pieces cut = (d ++ [k]).map cstr ∧ (∀ t ∈ d, t.length ≤ 4) ∧
      ('.' ∈ k → k.length ≤ 16 ∧ '.' ∈ cstr k) ∧ ('.' ∉ k → k.length ≤ 4) := by
  have hm : ∀ l : List (List Char), l.map cutNul = l.map cstr := fun l => by simp [cutNul_eq]
  have key : ∀ (d : List (List Char)) (k : List Char), (∀ t ∈ d ++ [k], ':' ∉ t) →
      pieces (colons (d ++ [k])) = d ++ [k] ∧ pieces (colons ((d ++ [k]).map cstr)) = (d ++ [k]).map cstr := by
    intro d k h
    refine ⟨pieces_colons _ (by simp) ?_, pieces_colons _ (by simp) ?_⟩
    · rintro t ht c hc rfl
      exact h t ht hc
    · rintro t ht c hc rfl
      obtain ⟨u, hu, rfl⟩ := List.mem_map.1 ht
      exact h u hu (cstr_mem hc).1
  constructor
  · rintro ⟨d, k, h1, rfl, rfl, h2, h3, h4⟩
    rw [hm]
    rw [cutNul_eq] at h3
    exact ⟨d, k, (key d k h1).1, (key d k h1).2, h2, h3, h4⟩
  · rintro ⟨d, k, h1, h2, h3, h4, h5⟩
    refine ⟨d, k, ?_, by rw [← h1, colons_pieces], by rw [hm, ← h2, colons_pieces], h3, by rwa [cutNul_eq], h5⟩
    intro t ht hc
    rw [← h1] at ht
    exact pieces_mem_noColon ip t ht _ hc rfl

theorem Spec.CutGroups.noNul {ip cut : List Char} (h : CutGroups ip cut) : ∀ c ∈ cut, c ≠ '\x00' := by
  obtain ⟨gs, g, _, _, rfl, _⟩ := h
  intro c hc
  rcases colons_mem _ c hc with rfl | ⟨t, ht, hc⟩
  · decide
  · obtain ⟨u, _, rfl⟩ := List.mem_map.1 ht
    rw [cutNul_eq] at hc
    exact (cstr_mem hc).2

theorem SplitOk.cut {cs : List Char} {P : List (List Char)} (h : SplitOk cs P) :
    ∃ cut, CutGroups cs cut ∧ SplitOk cut P := by
  have mk : ∀ (d : List (List Char)) (k : List Char), pieces cs = d ++ [k] →
      pieces (colons ((d ++ [k]).map cstr)) = (d ++ [k]).map cstr := by
    intro d k h1
    refine pieces_colons _ (by simp) ?_
    rintro t ht c hc rfl
    obtain ⟨u, hu, rfl⟩ := List.mem_map.1 ht
    rw [← h1] at hu
    exact pieces_mem_noColon cs u hu _ (cstr_mem hc).1 rfl
  have len4 : ∀ d : List (List Char), (∀ p ∈ d, p.length ≤ 4) → ∀ p ∈ d.map cstr, p.length ≤ 4 := by
    intro d h p hp
    obtain ⟨u, hu, rfl⟩ := List.mem_map.1 hp
    exact Nat.le_trans (cstr_length_le u) (h u hu)
  have idem : ∀ d : List (List Char), (d.map cstr).map cstr = d.map cstr := by
    intro d; simp [cstr_cstr]
  cases h with
  | hex d k q1 q2 q3 q4 q5 q6 =>
    refine ⟨_, (cutGroups_iff _ _).2 ⟨d, k, q1, mk d k q1, q2, fun h => absurd h q4, fun _ => q3⟩, ?_⟩
    have := SplitOk.hex (cs := colons ((d ++ [k]).map cstr)) (d.map cstr) (cstr k)
      (by rw [mk d k q1]; simp) (len4 d q2) (Nat.le_trans (cstr_length_le k) q3)
      (fun h => q4 (cstr_mem h).1) (by simpa using q5) (by simpa using q6)
    rwa [show d.map cstr ++ [cstr k] = (d ++ [k]).map cstr by simp, idem] at this
  | quad d k w x y z q1 q2 q3 q4 q5 q6 q7 =>
    refine ⟨_, (cutGroups_iff _ _).2 ⟨d, k, q1, mk d k q1, q2,
      fun _ => ⟨q3, by rw [q5]; exact dot_mem_dotted w x y z⟩, fun h => absurd q4 h⟩, ?_⟩
    have := SplitOk.quad (cs := colons ((d ++ [k]).map cstr)) (d.map cstr) (cstr k) w x y z
      (by rw [mk d k q1]; simp) (len4 d q2) (Nat.le_trans (cstr_length_le k) q3)
      (by rw [q5]; exact dot_mem_dotted w x y z) (by rw [cstr_cstr, q5]) (by simpa using q6) (by simpa using q7)
    rwa [idem] at this

theorem SplitOk.of_cut {cs cut : List Char} {P : List (List Char)} (h : CutGroups cs cut) (hs : SplitOk cut P) :
    SplitOk cs P := by
  obtain ⟨d, k, h1, h2, h3, h4, h5⟩ := (cutGroups_iff _ _).1 h
  have idem : ∀ d : List (List Char), (d.map cstr).map cstr = d.map cstr := by
    intro d; simp [cstr_cstr]
  cases hs with
  | hex e m q1 q2 q3 q4 q5 q6 =>
    have q1' := q1
    rw [h2, List.map_append, List.map_singleton] at q1
    obtain ⟨e1, e2⟩ := append_singleton_inj q1
    have hk : '.' ∉ k := fun h => q4 (by rw [← e2]; exact (h4 h).2)
    have := SplitOk.hex (cs := cs) d k h1 h3 (h5 hk) hk
      (by rw [← e1] at q5; simpa using q5) (by rw [← e1] at q6; simpa using q6)
    rwa [show (e ++ [m]).map cstr = (d ++ [k]).map cstr by
      rw [← q1', h2, idem]]
  | quad e m w x y z q1 q2 q3 q4 q5 q6 q7 =>
    rw [h2, List.map_append, List.map_singleton] at q1
    obtain ⟨e1, e2⟩ := append_singleton_inj q1
    have hk : '.' ∈ k := by rw [← e2] at q4; exact (cstr_mem q4).1
    have := SplitOk.quad (cs := cs) d k w x y z h1 h3 (h4 hk).1 hk
      (by rw [← e2, cstr_cstr] at q5; exact q5)
      (by rw [← e1] at q6; simpa using q6) (by rw [← e1] at q7; simpa using q7)
    rwa [← e1, idem]

/-- What the address part of the parser accepts, for all texts. -/
theorem parseOk_iff (cs : List Char) (vs : List Nat) : ParseOk cs vs ↔
    ∃ cut, CutGroups cs cut ∧ V6Text cut vs ∧ ('.' ∈ cut → cut.count ':' ≤ 6) := by
  constructor
  · rintro ⟨P, hi, lo, sk, his, los, hs, h⟩
    obtain ⟨cut, hc, hs'⟩ := hs.cut
    obtain ⟨t1, t2⟩ := ParseOk.text ⟨P, hi, lo, sk, his, los, hs', h⟩ hc.noNul
    exact ⟨cut, hc, t1, t2⟩
  · rintro ⟨cut, hc, t1, t2⟩
    obtain ⟨P, hi, lo, sk, his, los, hs, h⟩ := ParseOk_of_text t1 t2
    exact ⟨P, hi, lo, sk, his, los, hs.of_cut hc, h⟩

theorem cstr_take_zone' (M : Nat) (z : List Char) (hz : z.length ≤ M) :
    cstr ((z ++ List.replicate (M + 1 - z.length) '\x00').take M) = cstr z := by
  rw [show M + 1 - z.length = (M - z.length) + 1 by omega, List.replicate_succ, cstr_take _ _ _ hz]

theorem split_percent_unique : ∀ (a b : List Char), '%' ∉ a → '%' ∉ b → ∀ x y : List Char,
    a ++ '%' :: x = b ++ '%' :: y → a = b ∧ x = y := by
  intro a
  induction a with
  | nil =>
    intro b _ hb x y h
    cases b with
    | nil => simpa using h
    | cons d b => simp at h; exact absurd (List.mem_cons.2 (Or.inl h.1)) hb
  | cons d a ih =>
    intro b ha hb x y h
    cases b with
    | nil => simp at h; exact absurd (by simp [h.1]) ha
    | cons d' b =>
      simp at h
      obtain ⟨rfl, h⟩ := h
      obtain ⟨rfl, rfl⟩ := ih b (fun hc => ha (by simp [hc])) (fun hc => hb (by simp [hc])) x y h
      exact ⟨rfl, rfl⟩

theorem parseOk_ne_nil {vs : List Nat} : ¬ ParseOk [] vs := by
  rintro ⟨P, hi, lo, sk, his, los, hsp, _⟩
  cases hsp with
  | hex d k q1 q2 q3 q4 q5 q6 =>
    have := congrArg List.length q1
    rw [List.length_append, pieces_length] at this
    simp only [List.count_nil, List.length_cons, List.length_nil] at this
    omega
  | quad d k w x y z q1 q2 q3 q4 q5 q6 q7 =>
    have := congrArg List.length q1
    rw [List.length_append, pieces_length] at this
    simp only [List.count_nil, List.length_cons, List.length_nil] at this
    omega

/-- The parser on all texts. -/
theorem v6Parse_all (spaces : Bool) (M : Nat) (s : List Char) :
    (∃ z vs a, TakenText spaces M s z vs ∧ v6Parse spaces M s = .ok a ∧ a.WF M ∧ a.bytes = groupBytes vs ∧
      a.scope.contents = cutNul z) ∨
    ((¬ ∃ z vs, TakenText spaces M s z vs) ∧ ∃ e v, v6Parse spaces M s = .err e v) := by
  have taken : ∀ z vs, TakenText spaces M s z vs → ∃ ip, s = ip ++ zoneText z ∧ '%' ∉ ip ∧ ParseOk ip vs ∧
      ZoneOk spaces M z ∧ z.head? ≠ some '\x00' := by
    rintro z vs ⟨ip, cut, h1, h2, h3, h4, h5, h6, h7⟩
    exact ⟨ip, h1, h2, (parseOk_iff ip vs).2 ⟨cut, h3, h4, h5⟩, h6, h7⟩
  unfold v6Parse v6FromEvents
  by_cases hs : s = []
  · right
    subst hs
    refine ⟨?_, ⟨.empty_address, 0, by simp [readChars]⟩⟩
    rintro ⟨z, vs, h⟩
    obtain ⟨ip, h1, _, h2, _⟩ := taken z vs h
    rw [(List.append_eq_nil_iff.1 h1.symm).1] at h2
    exact parseOk_ne_nil h2
  · have hr : readChars s ≠ [] := by simpa [readChars] using hs
    rw [if_neg hr]
    rcases split_percent s with hp | ⟨ip, z, rfl, hp⟩
    · rw [splitScope_none spaces M s hp, Res.ok_bind]
      simp only
      rcases parseAddr_rel s with ⟨vs, g1, g2⟩ | ⟨g1, e, v, g2⟩
      · left
        rw [g2, Res.ok_bind]
        obtain ⟨cut, c1, c2, c3⟩ := (parseOk_iff s vs).1 g1
        obtain ⟨a, a1, a2, a3, a4⟩ := attachScope_ok M (groupBytes vs) (List.replicate (M + 1) '\x00') (by simp)
          (by rw [groupBytes_length, g1.length])
        refine ⟨[], vs, a, ⟨s, cut, by simp [zoneText], fun h => hp '%' h rfl, c1, c2, c3, by simp [ZoneOk], by simp⟩,
          a1, a3, a2, ?_⟩
        rw [a4]
        exact cstr_take_zone' M [] (by simp)
      · right
        rw [g2]
        refine ⟨?_, ⟨_, _, rfl⟩⟩
        rintro ⟨z, vs, h⟩
        obtain ⟨ip, h1, _, h2, _⟩ := taken z vs h
        have hz : z = [] := by
          by_cases hz : z = []
          · exact hz
          · exfalso
            rw [zoneText, if_neg hz] at h1
            exact hp '%' (by rw [h1]; simp) rfl
        rw [hz, zoneText, if_pos rfl, List.append_nil] at h1
        subst h1
        exact g1 ⟨vs, h2⟩
    · have hp' : '%' ∉ ip := fun h => hp '%' h rfl
      have uniq : ∀ ip' z', '%' ∉ ip' → ip ++ '%' :: z = ip' ++ zoneText z' → ip' = ip ∧ z' = z ∧ z ≠ [] := by
        intro ip' z' hq he
        have hz' : z' ≠ [] := by
          rintro rfl
          rw [zoneText, if_pos rfl, List.append_nil] at he
          exact hq (by rw [← he]; simp)
        rw [zoneText, if_neg hz'] at he
        obtain ⟨rfl, rfl⟩ := split_percent_unique ip ip' hp' hq z z' he
        exact ⟨rfl, rfl, hz'⟩
      rcases splitScope_some spaces M ip z hp with ⟨z1, z2, z3, z4⟩ | ⟨z1, e, v, z2⟩
      · rw [z4, Res.ok_bind]
        simp only
        rcases parseAddr_rel ip with ⟨vs, g1, g2⟩ | ⟨g1, e, v, g2⟩
        · left
          rw [g2, Res.ok_bind]
          obtain ⟨cut, c1, c2, c3⟩ := (parseOk_iff ip vs).1 g1
          have hzl : z.length ≤ M := z1.1
          obtain ⟨a, a1, a2, a3, a4⟩ := attachScope_ok M (groupBytes vs) (z ++ List.replicate (M + 1 - z.length) '\x00')
            (by simp; omega) (by rw [groupBytes_length, g1.length])
          refine ⟨z, vs, a, ⟨ip, cut, by rw [zoneText, if_neg z2], hp', c1, c2, c3, z1, z3⟩, a1, a3, a2, ?_⟩
          rw [a4, cutNul_eq]
          exact cstr_take_zone' M z hzl
        · right
          rw [g2]
          refine ⟨?_, ⟨_, _, rfl⟩⟩
          rintro ⟨z', vs, h⟩
          obtain ⟨ip', h1, h2, h3, _⟩ := taken z' vs h
          obtain ⟨rfl, rfl, _⟩ := uniq ip' z' h2 h1
          exact g1 ⟨vs, h3⟩
      · right
        rw [z2]
        refine ⟨?_, ⟨_, _, rfl⟩⟩
        rintro ⟨z', vs, h⟩
        obtain ⟨ip', h1, h2, _, h4, h5⟩ := taken z' vs h
        obtain ⟨rfl, rfl, h6⟩ := uniq ip' z' h2 h1
        exact z1 ⟨h4, h6, h5⟩

theorem Spec.CutGroups.unique {ip cut cut' : List Char} (h : CutGroups ip cut) (h' : CutGroups ip cut') : cut = cut' := by
  obtain ⟨d, k, h1, h2, _⟩ := (cutGroups_iff _ _).1 h
  obtain ⟨d', k', g1, g2, _⟩ := (cutGroups_iff _ _).1 h'
  rw [← colons_pieces cut, ← colons_pieces cut', h2, g2, ← h1, ← g1]

/-- A text is taken in one way only. -/
theorem Spec.TakenText.unique {spaces : Bool} {M : Nat} {s z z' : List Char} {vs vs' : List Nat}
    (h : TakenText spaces M s z vs) (h' : TakenText spaces M s z' vs') : z = z' ∧ groupBytes vs = groupBytes vs' := by
  obtain ⟨ip, cut, h1, h2, h3, h4, h5, _⟩ := h
  obtain ⟨ip', cut', g1, g2, g3, g4, g5, _⟩ := h'
  obtain ⟨rfl, rfl⟩ := zone_split_unique ip ip' z z' (by rintro c hc rfl; exact h2 hc)
    (by rintro c hc rfl; exact g2 hc) (by rw [← h1, ← g1])
  obtain rfl := h3.unique g3
  exact ⟨rfl, V6Text_unique h4 g4 g5⟩

/-- Texts without NUL are cut nowhere. -/
theorem takenText_noNul {spaces : Bool} {M : Nat} {ip z : List Char} {vs : List Nat} (h : V6Text ip vs)
    (hz : ZoneOk spaces M z) (hn : '\x00' ∉ z) (hd : '.' ∈ ip → ip.count ':' ≤ 6) :
    TakenText spaces M (ip ++ zoneText z) z vs := by
  have hp := ParseOk_of_text h hd
  obtain ⟨cut, c1, c2, c3⟩ := (parseOk_iff ip vs).1 hp
  refine ⟨ip, cut, rfl, fun hm => (V6Text.chars h '%' hm).2 rfl, c1, c2, c3, hz, ?_⟩
  intro hh
  match z, hh with
  | c :: z, hh => simp at hh; exact hn (by simp [hh])

end Ip
