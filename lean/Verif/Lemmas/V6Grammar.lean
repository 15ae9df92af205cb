import Verif.Lemmas.V6Parse
/-
What the address part of the parser accepts is the RFC 4291 grammar.
-/
set_option autoImplicit false

namespace Ip
open Spec

theorem cstr_eq_self (t : List Char) (h : ∀ c ∈ t, c ≠ '\x00') : cstr t = t := by
  induction t with
  | nil => rfl
  | cons c cs ih =>
    have hc : c ≠ '\x00' := h c (by simp)
    have := ih (fun d hd => h d (by simp [hd]))
    unfold cstr at this ⊢
    simp only [List.takeWhile_cons]
    rw [this]
    simp [hc]

theorem pieces_mem : ∀ (s : List Char), ∀ p ∈ pieces s, ∀ c ∈ p, c ∈ s
  | [] => by simp [pieces]
  | c :: cs => by
    have ih := pieces_mem cs
    simp only [pieces]
    split
    · intro p hp
      rcases List.mem_cons.1 hp with rfl | hp
      · simp
      · intro d hd; exact List.mem_cons_of_mem _ (ih p hp d hd)
    · cases h : pieces cs with
      | nil => exact absurd h (pieces_ne_nil _)
      | cons q qs =>
        intro p hp
        rcases List.mem_cons.1 hp with rfl | hp
        · intro d hd
          rcases List.mem_cons.1 hd with rfl | hd
          · simp
          · exact List.mem_cons_of_mem _ (ih q (by simp [h]) d hd)
        · intro d hd; exact List.mem_cons_of_mem _ (ih p (by simp [h, hp]) d hd)

theorem pieces_length : ∀ (s : List Char), (pieces s).length = s.count ':' + 1
  | [] => rfl
  | c :: cs => by
    have ih := pieces_length cs
    simp only [pieces]
    by_cases hc : c = ':'
    · simp [hc, ih]
    · rw [if_neg hc, List.count_cons_of_ne (by simpa using hc)]
      cases h : pieces cs with
      | nil => exact absurd h (pieces_ne_nil _)
      | cons q qs => rw [h] at ih; simpa using ih

theorem map_cstr_self (ts : List (List Char)) (h : ∀ t ∈ ts, ∀ c ∈ t, c ≠ '\x00') : ts.map cstr = ts := by
  induction ts with
  | nil => rfl
  | cons t ts ih =>
    rw [List.map_cons, cstr_eq_self t (h t (by simp)), ih (fun x hx => h x (by simp [hx]))]

/-- Correspondence of colon separated pieces and parts: a final dotted quad becomes two parts. -/
inductive TailParts : List (List Char) → List (List Char) → Prop
  | hex (q : List (List Char)) : TailParts q q
  | quad (q : List (List Char)) (a b c d : BitVec 8) :
      TailParts (q ++ [dotted a b c d])
        (q ++ [hex4 (a.toNat * 256 + b.toNat), hex4 (c.toNat * 256 + d.toNat)])

theorem digitChar_HexDigit (n : Nat) (h : n < 16) : HexDigit n.digitChar n := by
  have k : ∀ m : Fin 16, hexLower[m.val]? = some m.val.digitChar := by decide
  exact Or.inl (k ⟨n, h⟩)

theorem hex4_HexNum (v : Nat) (h : v < 65536) : HexNum (hex4 v) v := by
  have d : ∀ m, HexDigit (m % 16).digitChar (m % 16) := fun m => digitChar_HexDigit _ (Nat.mod_lt _ (by omega))
  have h1 := HexNum.snoc [] _ 0 _ HexNum.nil (d (v / 4096))
  have h2 := HexNum.snoc _ _ _ _ h1 (d (v / 256))
  have h3 := HexNum.snoc _ _ _ _ h2 (d (v / 16))
  have h4 := HexNum.snoc _ _ _ _ h3 (d v)
  have e : 16 * (16 * (16 * (16 * 0 + v / 4096 % 16) + v / 256 % 16) + v / 16 % 16) + v % 16 = v := by omega
  rw [e] at h4
  simpa [hex4] using h4

theorem pair_lt (a b : BitVec 8) : a.toNat * 256 + b.toNat < 65536 := by
  have := a.isLt; have := b.isLt; omega

theorem Groups_of {ts : List (List Char)} {vs : List Nat} (h : HexAll ts vs) (hne : ts ≠ [])
    (hl : ∀ t ∈ ts, t ≠ [] ∧ t.length ≤ 4) : Groups (colons ts) vs := by
  induction h with
  | nil => exact absurd rfl hne
  | cons t v ts vs h1 h2 ih =>
    have hg : Group t v := ⟨List.length_pos_iff.2 (hl t (by simp)).1, (hl t (by simp)).2, h1⟩
    by_cases hts : ts = []
    · subst hts; cases h2; exact Groups.one t v hg
    · rw [colons_cons _ _ hts]
      exact Groups.cons t v _ vs hg (ih hts (fun x hx => hl x (by simp [hx])))

theorem GroupsV4_of_Groups {s : List Char} {vs : List Nat} (h : Groups s vs) : GroupsV4 s vs := by
  induction h with
  | one t v h => exact GroupsV4.one t v h
  | cons t v s vs h _ ih => exact GroupsV4.cons t v s vs h ih

theorem HexAll.append_inv {a b : List (List Char)} {vs : List Nat} (h : HexAll (a ++ b) vs) :
    ∃ x y, vs = x ++ y ∧ HexAll a x ∧ HexAll b y := by
  induction a generalizing vs with
  | nil => exact ⟨[], vs, rfl, HexAll.nil, h⟩
  | cons t ts ih =>
    cases h with
    | cons _ v _ vs h1 h2 =>
      obtain ⟨x, y, rfl, h3, h4⟩ := ih h2
      exact ⟨v :: x, y, rfl, HexAll.cons _ _ _ _ h1 h3, h4⟩

theorem HexAll.append {a b : List (List Char)} {x y : List Nat} (h : HexAll a x) (h' : HexAll b y) :
    HexAll (a ++ b) (x ++ y) := by
  induction h with
  | nil => exact h'
  | cons t v ts vs h1 _ ih => exact HexAll.cons _ _ _ _ h1 ih

theorem GroupsV4_quad (a b c d : BitVec 8) {ts : List (List Char)} {vs : List Nat} (h : HexAll ts vs)
    (hl : ∀ t ∈ ts, t ≠ [] ∧ t.length ≤ 4) :
    GroupsV4 (colons (ts ++ [dotted a b c d])) (vs ++ [a.toNat * 256 + b.toNat, c.toNat * 256 + d.toNat]) := by
  induction h with
  | nil => exact GroupsV4.quad a b c d
  | cons t v ts vs h1 h2 ih =>
    have hg : Group t v := ⟨List.length_pos_iff.2 (hl t (by simp)).1, (hl t (by simp)).2, h1⟩
    rw [List.cons_append, colons_cons _ _ (by simp)]
    exact GroupsV4.cons t v _ _ hg (ih (fun x hx => hl x (by simp [hx])))

theorem GroupsV4_of {Q B : List (List Char)} {vs : List Nat} (ht : TailParts Q B) (h : HexAll B vs)
    (hne : Q ≠ []) (hl : ∀ t ∈ B, t ≠ [] ∧ t.length ≤ 4) : GroupsV4 (colons Q) vs := by
  cases ht with
  | hex => exact GroupsV4_of_Groups (Groups_of h hne hl)
  | quad q a b c d =>
    obtain ⟨x, y, rfl, h1, h2⟩ := h.append_inv
    have e := h2.unique (HexAll.cons _ _ _ _ (hex4_HexNum _ (pair_lt a b)) (HexAll.cons _ _ _ _ (hex4_HexNum _ (pair_lt c d)) HexAll.nil))
    rw [e]
    exact GroupsV4_quad a b c d h1 (fun t ht => hl t (by simp [ht]))

theorem Group.noColon {t : List Char} {v : Nat} (h : Group t v) : ∀ c ∈ t, c ≠ ':' ∧ c ≠ '.' ∧ c ≠ '\x00' ∧ c ≠ '%' := by
  intro c hc
  obtain ⟨d, hd⟩ := h.2.2.digits c hc
  have := (hexVal_of_HexDigit hd).2
  refine ⟨?_, ?_, ?_, ?_⟩ <;> (rintro rfl; revert this; simp [hexVal])

theorem dotted_chars (a b c d : BitVec 8) : ∀ x ∈ dotted a b c d, isDig x = true ∨ x = '.' := by
  intro ch hch
  simp only [dotted, List.mem_append, List.mem_cons] at hch
  rcases hch with h | h | h | h | h | h | h
  all_goals first | exact Or.inl (dec_isDig h) | exact Or.inr h

theorem dotted_noColon (a b c d : BitVec 8) : ∀ x ∈ dotted a b c d, x ≠ ':' ∧ x ≠ '\x00' ∧ x ≠ '%' := by
  intro x hx
  rcases dotted_chars a b c d x hx with h | rfl
  · refine ⟨?_, ?_, ?_⟩ <;> (rintro rfl; revert h; decide)
  · decide

theorem Groups_inv {s : List Char} {vs : List Nat} (h : Groups s vs) :
    HexAll (pieces s) vs ∧ (∀ t ∈ pieces s, t ≠ [] ∧ t.length ≤ 4 ∧ ∀ c ∈ t, c ≠ ':' ∧ c ≠ '.' ∧ c ≠ '\x00' ∧ c ≠ '%') := by
  induction h with
  | one t v hg =>
    rw [pieces_noColon t (fun c hc => (Group.noColon hg c hc).1)]
    refine ⟨HexAll.cons _ _ _ _ hg.2.2 HexAll.nil, ?_⟩
    intro x hx
    rw [List.mem_singleton.1 hx]
    exact ⟨List.length_pos_iff.1 hg.1, hg.2.1, Group.noColon hg⟩
  | cons t v s vs hg _ ih =>
    rw [pieces_colon, pieces_noColon t (fun c hc => (Group.noColon hg c hc).1)]
    refine ⟨HexAll.cons _ _ _ _ hg.2.2 ih.1, ?_⟩
    intro x hx
    rcases List.mem_cons.1 hx with rfl | hx
    · exact ⟨List.length_pos_iff.1 hg.1, hg.2.1, Group.noColon hg⟩
    · exact ih.2 x hx

/-- Shape of the pieces of `GroupsV4` texts. -/
inductive GShape : List (List Char) → List (List Char) → Prop
  | hex (q : List (List Char)) : q ≠ [] → (∀ t ∈ q, t ≠ [] ∧ t.length ≤ 4 ∧ ∀ c ∈ t, c ≠ ':' ∧ c ≠ '.' ∧ c ≠ '\x00' ∧ c ≠ '%') → GShape q q
  | quad (q : List (List Char)) (a b c d : BitVec 8) :
      (∀ t ∈ q, t ≠ [] ∧ t.length ≤ 4 ∧ ∀ c ∈ t, c ≠ ':' ∧ c ≠ '.' ∧ c ≠ '\x00' ∧ c ≠ '%') →
      GShape (q ++ [dotted a b c d])
        (q ++ [hex4 (a.toNat * 256 + b.toNat), hex4 (c.toNat * 256 + d.toNat)])

theorem GroupsV4_inv {s : List Char} {vs : List Nat} (h : GroupsV4 s vs) :
    ∃ B, GShape (pieces s) B ∧ HexAll B vs := by
  induction h with
  | one t v hg =>
    have := Groups_inv (Groups.one t v hg)
    exact ⟨_, GShape.hex _ (pieces_ne_nil _) this.2, this.1⟩
  | quad a b c d =>
    rw [pieces_noColon _ (fun x hx => (dotted_noColon a b c d x hx).1)]
    exact ⟨_, GShape.quad [] a b c d (by simp), HexAll.cons _ _ _ _ (hex4_HexNum _ (pair_lt a b))
      (HexAll.cons _ _ _ _ (hex4_HexNum _ (pair_lt c d)) HexAll.nil)⟩
  | cons t v s vs hg _ ih =>
    obtain ⟨B, h1, h2⟩ := ih
    rw [pieces_colon, pieces_noColon t (fun c hc => (Group.noColon hg c hc).1)]
    refine ⟨t :: B, ?_, HexAll.cons _ _ _ _ hg.2.2 h2⟩
    have ht : t ≠ [] ∧ t.length ≤ 4 ∧ ∀ c ∈ t, c ≠ ':' ∧ c ≠ '.' ∧ c ≠ '\x00' ∧ c ≠ '%' := ⟨List.length_pos_iff.1 hg.1, hg.2.1, Group.noColon hg⟩
    generalize pieces s = Q at h1
    cases h1 with
    | hex _ q1 q2 =>
      refine GShape.hex _ (by simp) ?_
      intro x hx
      rcases List.mem_cons.1 hx with rfl | hx
      · exact ht
      · exact q2 x hx
    | quad q a b c d q2 =>
      refine GShape.quad (t :: q) a b c d ?_
      intro x hx
      rcases List.mem_cons.1 hx with rfl | hx
      · exact ht
      · exact q2 x hx

theorem split_at (P : List (List Char)) (k : Nat) (h : emptyAt P k) :
    P = P.take k ++ [] :: P.drop (k + 1) := by
  obtain ⟨hk, he⟩ := List.getElem?_eq_some_iff.1 h
  conv => lhs; rw [← List.take_append_drop k P, List.drop_eq_getElem_cons hk, he]

theorem not_emptyAt_of_mem {P : List (List Char)} (h : ∀ t ∈ P, t ≠ []) (i : Nat) : ¬ emptyAt P i :=
  fun he => h [] (List.mem_of_getElem? he) rfl

theorem mem_ne_of_index {P : List (List Char)} {a b : Nat} (h : ∀ j, a ≤ j → j < b → ¬ emptyAt P j) :
    ∀ t ∈ (P.take b).drop a, t ≠ [] := by
  rintro t ht rfl
  obtain ⟨i, hi⟩ := List.getElem?_of_mem ht
  rw [List.getElem?_drop, List.getElem?_take] at hi
  split at hi
  · rename_i hlt
    exact h (a + i) (by omega) hlt hi
  · cases hi

theorem hex4_ne (v : Nat) : hex4 v ≠ [] := by simp [hex4]

theorem tail_split {cs : List Char} {P A B : List (List Char)} (h : SplitOk cs P)
    (hn : ∀ c ∈ cs, c ≠ '\x00') (hP : P = A ++ [] :: B) (hB : B ≠ []) :
    ∃ Q, pieces cs = A ++ [] :: Q ∧ TailParts Q B ∧ Q ≠ [] := by
  cases h with
  | hex d k q1 q2 q3 q4 q5 q6 =>
    have hid : (d ++ [k]).map cstr = d ++ [k] := by
      apply map_cstr_self
      intro t ht c hc
      exact hn c (pieces_mem cs t (by rw [q1]; exact ht) c hc)
    rw [hid] at hP
    exact ⟨B, by rw [q1, hP], TailParts.hex B, hB⟩
  | quad d k w x y z q1 q2 q3 q4 q5 q6 q7 =>
    have hid : d.map cstr = d := by
      apply map_cstr_self
      intro t ht c hc
      exact hn c (pieces_mem cs t (by rw [q1]; simp [ht]) c hc)
    have hk : cstr k = k := cstr_eq_self k (fun c hc => hn c (pieces_mem cs k (by rw [q1]; simp) c hc))
    rw [hid] at hP
    rw [hk] at q5
    -- B has at least two elements
    have hBl : 2 ≤ B.length := by
      match B, hB with
      | [b], _ =>
        exfalso
        have e : d ++ [hex4 (w.toNat * 256 + x.toNat)] ++ [hex4 (y.toNat * 256 + z.toNat)] = (A ++ [[]]) ++ [b] := by
          simpa using hP
        have e1 := (append_singleton_inj e).1
        exact hex4_ne _ (append_singleton_inj e1).2
      | b :: b' :: B, _ => simp
    have hdB : ∃ D, B = D ++ [hex4 (w.toNat * 256 + x.toNat), hex4 (y.toNat * 256 + z.toNat)] ∧ d = A ++ [] :: D := by
      have hl : (A ++ [] :: B.take (B.length - 2)).length = d.length := by
        have := congrArg List.length hP
        simp at this ⊢
        omega
      have e : d ++ [hex4 (w.toNat * 256 + x.toNat), hex4 (y.toNat * 256 + z.toNat)] =
          (A ++ [] :: B.take (B.length - 2)) ++ B.drop (B.length - 2) := by
        rw [hP, List.append_assoc, List.cons_append, List.take_append_drop]
      obtain ⟨e1, e2⟩ := List.append_inj e hl.symm
      refine ⟨B.take (B.length - 2), ?_, e1⟩
      rw [e2, List.take_append_drop]
    obtain ⟨D, rfl, rfl⟩ := hdB
    refine ⟨D ++ [k], by rw [q1]; simp, ?_, by simp⟩
    rw [q5]
    exact TailParts.quad D w x y z

theorem SplitOk.len4 {cs : List Char} {P : List (List Char)} (h : SplitOk cs P) : ∀ p ∈ P, p.length ≤ 4 := by
  have hc : ∀ t : List Char, (cstr t).length ≤ t.length := fun t => List.Sublist.length_le (List.takeWhile_sublist _)
  cases h with
  | hex d k q1 q2 q3 =>
    intro p hp
    rw [List.mem_map] at hp
    obtain ⟨t, ht, rfl⟩ := hp
    have := hc t
    rcases List.mem_append.1 ht with ht | ht
    · have := q2 t ht; omega
    · have e := List.mem_singleton.1 ht; subst e; omega
  | quad d k w x y z q1 q2 q3 =>
    intro p hp
    simp only [List.mem_append, List.mem_map, List.mem_cons, List.not_mem_nil, or_false] at hp
    rcases hp with ⟨t, ht, rfl⟩ | rfl | rfl
    · have := hc t; have := q2 t ht; omega
    · simp [hex4]
    · simp [hex4]

theorem TailParts_of_SplitOk {cs : List Char} {P : List (List Char)} (h : SplitOk cs P)
    (hn : ∀ c ∈ cs, c ≠ '\x00') : TailParts (pieces cs) P := by
  cases h with
  | hex d k q1 q2 q3 q4 q5 q6 =>
    have hid : (d ++ [k]).map cstr = d ++ [k] := by
      apply map_cstr_self
      intro t ht c hc
      exact hn c (pieces_mem cs t (by rw [q1]; exact ht) c hc)
    rw [hid, q1]; exact TailParts.hex _
  | quad d k w x y z q1 q2 q3 q4 q5 q6 q7 =>
    have hid : d.map cstr = d := by
      apply map_cstr_self
      intro t ht c hc
      exact hn c (pieces_mem cs t (by rw [q1]; simp [ht]) c hc)
    have hk : cstr k = k := cstr_eq_self k (fun c hc => hn c (pieces_mem cs k (by rw [q1]; simp) c hc))
    rw [hk] at q5
    rw [hid, q1, q5]
    exact TailParts.quad d w x y z

theorem ParseOk.text {cs : List Char} {vs : List Nat} (h : ParseOk cs vs) (hn : ∀ c ∈ cs, c ≠ '\x00') :
    V6Text cs vs ∧ ('.' ∈ cs → cs.count ':' ≤ 6) := by
  obtain ⟨P, hi, lo, sk, his, los, hs, hb, h1, h2, rfl⟩ := h
  have h4 := hs.len4
  constructor
  · generalize hx : (hi, lo, sk) = x at hb
    cases hb with
    | full g1 g2 =>
      simp only [Prod.mk.injEq] at hx
      obtain ⟨rfl, rfl, rfl⟩ := hx
      have hP : P.take 8 = P := by rw [← g1]; simp
      rw [hP] at h1
      have h2' : los = [] := by
        rw [Nat.sub_zero, List.drop_length] at h2
        cases h2; rfl
      have hne : ∀ t ∈ P, t ≠ [] := by
        rintro t ht rfl
        obtain ⟨i, hi⟩ := List.getElem?_of_mem ht
        exact g2 i (by have := (List.getElem?_eq_some_iff.1 hi).1; omega) hi
      have := GroupsV4_of (TailParts_of_SplitOk hs hn) h1 (pieces_ne_nil _) (fun t ht => ⟨hne t ht, h4 t ht⟩)
      rw [colons_pieces] at this
      have hl := h1.length
      rw [h2']
      simpa using V6Text.full cs his this (by omega)
    | comp k hi' lo' g1 g2 g3 g4 g5 g6 g7 =>
      simp only [Prod.mk.injEq] at hx
      obtain ⟨rfl, rfl, rfl⟩ := hx
      have hsp := split_at P k g3
      have hB : P.drop (k + 1) ≠ [] := by
        intro he
        have := congrArg List.length he
        rw [List.length_drop, List.length_nil] at this
        omega
      obtain ⟨Q, e1, e2, e3⟩ := tail_split hs hn hsp hB
      have hA : P.take k ≠ [] := by
        intro he
        have := congrArg List.length he
        rw [List.length_take, List.length_nil] at this
        omega
      have hcs : cs = colons (P.take k) ++ ':' :: ':' :: colons Q := by
        rw [← colons_pieces cs, e1, colons_append _ _ hA (by simp), colons_cons _ _ e3]
        rfl
      have hL : hi = his.length := by
        have hl := h1.length
        rw [List.length_take] at hl
        rcases g5 with ⟨_, _, c⟩ | ⟨_, c⟩ <;> omega
      have hR : lo = los.length := by
        have hl := h2.length
        rw [List.length_drop] at hl
        rcases g6 with ⟨_, _, c⟩ | ⟨_, c⟩ <;> omega
      rw [hcs, hL, hR]
      refine V6Text.compressed _ his _ los ?_ ?_ (by omega)
      · rcases g5 with ⟨a, rfl, rfl⟩ | ⟨a, rfl⟩
        · left
          have : P.take 1 = [[]] := by
            unfold emptyAt at a
            match P, a with
            | p :: ps, a => simpa using a
          rw [this]
          rw [List.take_zero] at h1
          cases h1
          exact ⟨rfl, rfl⟩
        · right
          refine Groups_of h1 hA ?_
          intro t ht
          refine ⟨?_, h4 t (List.mem_of_mem_take ht)⟩
          have hh : ∀ j, 0 ≤ j → j < hi → ¬ emptyAt P j := by
            intro j _ hj
            by_cases hj0 : j = 0
            · rw [hj0]; exact a
            · exact g4 j (by omega) (by omega) (by omega)
          exact mem_ne_of_index hh t (by simpa using ht)
      · rcases g6 with ⟨a, b, rfl⟩ | ⟨a, b⟩
        · left
          have hd : P.drop (k + 1) = [[]] := by
            unfold emptyAt at a
            have hk1 : k + 1 = P.length - 1 := by omega
            rw [hk1]
            obtain ⟨hlt, hh⟩ := List.getElem?_eq_some_iff.1 a
            rw [List.drop_eq_getElem_cons hlt, hh]
            simp; omega
          have hQ : Q = [[]] := by
            rw [hd] at e2
            generalize hz : ([[]] : List (List Char)) = Z at e2
            cases e2 with
            | hex => rfl
            | quad q a b c d =>
              exfalso
              have := congrArg List.length hz
              simp at this
          rw [hQ]
          rw [Nat.sub_zero, List.drop_length] at h2
          cases h2
          exact ⟨rfl, rfl⟩
        · right
          have hd : P.length - lo = k + 1 := by omega
          rw [hd] at h2
          refine GroupsV4_of e2 h2 e3 ?_
          intro t ht
          refine ⟨?_, h4 t (List.mem_of_mem_drop ht)⟩
          have hh : ∀ j, k + 1 ≤ j → j < P.length → ¬ emptyAt P j := by
            intro j hj1 hj2
            by_cases hj0 : j = P.length - 1
            · rw [hj0]; exact a
            · exact g4 j (by omega) (by omega) (by omega)
          exact mem_ne_of_index hh t (by simpa using ht)
  · intro hdot
    have hl := pieces_length cs
    cases hs with
    | hex d k q1 q2 q3 q4 q5 q6 =>
      exfalso
      -- a dot in one of the first pieces is not a hexadecimal digit
      have hin : ∃ p ∈ d, '.' ∈ p := by
        have : ∀ s : List Char, '.' ∈ s → ∃ p ∈ pieces s, '.' ∈ p := by
          intro s
          induction s with
          | nil => simp
          | cons c s ih =>
            intro hm
            simp only [pieces]
            split
            · rename_i hc
              rcases List.mem_cons.1 hm with hm | hm
              · rw [hc] at hm; exact absurd hm (by decide)
              · obtain ⟨p, h1, h2⟩ := ih hm; exact ⟨p, by simp [h1], h2⟩
            · cases hp : pieces s with
              | nil => exact absurd hp (pieces_ne_nil _)
              | cons q qs =>
                rcases List.mem_cons.1 hm with hm | hm
                · exact ⟨c :: q, by simp, by rw [hm]; simp⟩
                · obtain ⟨p, h1, h2⟩ := ih hm
                  rw [hp] at h1
                  rcases List.mem_cons.1 h1 with rfl | h1
                  · exact ⟨c :: p, by simp, by simp [h2]⟩
                  · exact ⟨p, by simp [h1], h2⟩
        obtain ⟨p, h1, h2⟩ := this cs hdot
        rw [q1] at h1
        rcases List.mem_append.1 h1 with h1 | h1
        · exact ⟨p, h1, h2⟩
        · rw [List.mem_singleton.1 h1] at h2; exact absurd h2 q4
      obtain ⟨p, hp, hpd⟩ := hin
      have hid : (d ++ [k]).map cstr = d ++ [k] := by
        apply map_cstr_self
        intro t ht c hc
        exact hn c (pieces_mem cs t (by rw [q1]; exact ht) c hc)
      rw [hid] at h1 h2 hb
      have hno : ∀ ts ws, HexAll ts ws → p ∉ ts := by
        intro ts ws hh
        induction hh with
        | nil => simp
        | cons t v ts vs a b ih =>
          intro hm
          rcases List.mem_cons.1 hm with rfl | hm
          · obtain ⟨dd, hd⟩ := a.digits '.' hpd
            have := (hexVal_of_HexDigit hd).2
            revert this; simp [hexVal]
          · exact ih hm
      have hpne : p ≠ [] := by rintro rfl; simp at hpd
      obtain ⟨i, hi'⟩ := List.getElem?_of_mem (List.mem_append_left [k] hp)
      have hnot1 := hno _ _ h1
      have hnot2 := hno _ _ h2
      -- position of p is neither in the high nor in the low part, so it is an empty part
      have hil : ¬ i < hi := by
        intro hlt
        apply hnot1
        have : ((d ++ [k]).take hi)[i]? = some p := by rw [List.getElem?_take, if_pos hlt, hi']
        exact List.mem_of_getElem? this
      have hir : i < (d ++ [k]).length - lo := by
        by_cases hlt : i < (d ++ [k]).length - lo
        · exact hlt
        · exfalso
          apply hnot2
          have : ((d ++ [k]).drop ((d ++ [k]).length - lo))[i - ((d ++ [k]).length - lo)]? = some p := by
            rw [List.getElem?_drop, show (d ++ [k]).length - lo + (i - ((d ++ [k]).length - lo)) = i by omega, hi']
          exact List.mem_of_getElem? this
      have hie : ¬ emptyAt (d ++ [k]) i := by
        intro he; unfold emptyAt at he; rw [hi'] at he; simp at he; exact hpne he
      generalize hx : (hi, lo, sk) = x at hb
      cases hb with
      | full g1 g2 =>
        simp only [Prod.mk.injEq] at hx
        omega
      | comp k' hi' lo' g1 g2 g3 g4 g5 g6 g7 =>
        simp only [Prod.mk.injEq] at hx
        obtain ⟨rfl, rfl, rfl⟩ := hx
        have hik : i ≠ k' := by rintro rfl; exact hie g3
        rcases g5 with ⟨a, a1, a2⟩ | ⟨a, a1⟩
        · have hi0 : i ≠ 0 := by rintro rfl; exact hie a
          rcases g6 with ⟨b, b1, b2⟩ | ⟨b, b1⟩
          · have : i ≠ (d ++ [k]).length - 1 := by rintro rfl; exact hie b
            omega
          · omega
        · rcases g6 with ⟨b, b1, b2⟩ | ⟨b, b1⟩
          · have : i ≠ (d ++ [k]).length - 1 := by rintro rfl; exact hie b
            omega
          · omega
    | quad d k w x y z q1 q2 q3 q4 q5 q6 q7 =>
      rw [q1] at hl
      simp at hl
      omega

theorem mem_pieces : ∀ (s : List Char), ∀ c ∈ s, c = ':' ∨ ∃ p ∈ pieces s, c ∈ p
  | [] => by simp
  | x :: s => by
    intro c hm
    simp only [pieces]
    split
    · rename_i hc
      rcases List.mem_cons.1 hm with hm | hm
      · exact Or.inl (by rw [hm, hc])
      · rcases mem_pieces s c hm with h | ⟨p, h1, h2⟩
        · exact Or.inl h
        · exact Or.inr ⟨p, by simp [h1], h2⟩
    · cases hp : pieces s with
      | nil => exact absurd hp (pieces_ne_nil _)
      | cons q qs =>
        rcases List.mem_cons.1 hm with hm | hm
        · exact Or.inr ⟨x :: q, by simp, by rw [hm]; simp⟩
        · rcases mem_pieces s c hm with h | ⟨p, h1, h2⟩
          · exact Or.inl h
          · right
            rw [hp] at h1
            rcases List.mem_cons.1 h1 with rfl | h1
            · exact ⟨x :: p, by simp, by simp [h2]⟩
            · exact ⟨p, by simp [h1], h2⟩

theorem GShape.chars {Q B : List (List Char)} (h : GShape Q B) :
    ∀ t ∈ Q, ∀ c ∈ t, c ≠ '\x00' ∧ c ≠ '%' := by
  cases h with
  | hex _ q1 q2 => intro t ht c hc; exact ((q2 t ht).2.2 c hc).2.2
  | quad q a b c d q2 =>
    intro t ht x hx
    rcases List.mem_append.1 ht with ht | ht
    · exact ((q2 t ht).2.2 x hx).2.2
    · rw [List.mem_singleton.1 ht] at hx
      exact (dotted_noColon a b c d x hx).2

theorem GShape.parts_ne {Q B : List (List Char)} (h : GShape Q B) : ∀ t ∈ B, t ≠ [] := by
  cases h with
  | hex _ q1 q2 => intro t ht; exact (q2 t ht).1
  | quad q a b c d q2 =>
    intro t ht
    simp only [List.mem_append, List.mem_cons, List.not_mem_nil, or_false] at ht
    rcases ht with ht | rfl | rfl
    · exact (q2 t ht).1
    · exact hex4_ne _
    · exact hex4_ne _

theorem GShape.parts_nonempty {Q B : List (List Char)} (h : GShape Q B) : B ≠ [] := by
  cases h with
  | hex _ q1 q2 => exact q1
  | quad q a b c d q2 => simp

theorem V6Text.chars {s : List Char} {vs : List Nat} (h : V6Text s vs) : ∀ c ∈ s, c ≠ '\x00' ∧ c ≠ '%' := by
  have key : ∀ s : List Char, (∀ t ∈ pieces s, ∀ c ∈ t, c ≠ '\x00' ∧ c ≠ '%') → ∀ c ∈ s, c ≠ '\x00' ∧ c ≠ '%' := by
    intro s hs c hc
    rcases mem_pieces s c hc with rfl | ⟨p, h1, h2⟩
    · decide
    · exact hs p h1 c h2
  cases h with
  | full s vs h1 h2 =>
    obtain ⟨B, h3, _⟩ := GroupsV4_inv h1
    exact key s h3.chars
  | compressed sh hi sl lo h1 h2 h3 =>
    have a1 : ∀ c ∈ sh, c ≠ '\x00' ∧ c ≠ '%' := by
      rcases h1 with ⟨rfl, _⟩ | h1
      · simp
      · exact key sh (fun t ht c hc => (((Groups_inv h1).2 t ht).2.2 c hc).2.2)
    have a2 : ∀ c ∈ sl, c ≠ '\x00' ∧ c ≠ '%' := by
      rcases h2 with ⟨rfl, _⟩ | h2
      · simp
      · obtain ⟨B, h3, _⟩ := GroupsV4_inv h2
        exact key sl h3.chars
    intro c hc
    simp only [List.mem_append, List.mem_cons] at hc
    rcases hc with hc | rfl | rfl | hc
    · exact a1 c hc
    · decide
    · decide
    · exact a2 c hc

theorem dot_mem_dotted (a b c d : BitVec 8) : '.' ∈ dotted a b c d := by simp [dotted]

theorem map_cstr_good (q : List (List Char))
    (h : ∀ t ∈ q, t ≠ [] ∧ t.length ≤ 4 ∧ ∀ c ∈ t, c ≠ ':' ∧ c ≠ '.' ∧ c ≠ '\x00' ∧ c ≠ '%') : q.map cstr = q :=
  map_cstr_self q (fun t ht c hc => ((h t ht).2.2 c hc).2.2.1)

theorem cstr_dotted (a b c d : BitVec 8) : cstr (dotted a b c d) = dotted a b c d :=
  cstr_eq_self _ (fun x hx => (dotted_noColon a b c d x hx).2.1)

/-- The parts of a text whose pieces are `A`, then (unless `A` stands for the whole text) the shape
`Q`, `B`. -/
theorem SplitOk_of {cs : List Char} (A Q B : List (List Char)) (hp : pieces cs = A ++ Q) (h : GShape Q B)
    (hA : ∀ t ∈ A, t.length ≤ 4 ∧ ∀ c ∈ t, c ≠ '\x00') (h3 : 3 ≤ A.length + B.length) (h9 : A.length + B.length ≤ 9)
    (h6 : '.' ∈ cs → cs.count ':' ≤ 6) : SplitOk cs (A ++ B) := by
  have hAc : A.map cstr = A := map_cstr_self A (fun t ht => (hA t ht).2)
  have hl := pieces_length cs
  cases h with
  | hex _ q1 q2 =>
    obtain ⟨d, k, rfl⟩ : ∃ d k, Q = d ++ [k] := ⟨Q.dropLast, Q.getLast q1, (List.dropLast_concat_getLast q1).symm⟩
    have := SplitOk.hex (cs := cs) (A ++ d) k (by rw [hp]; simp)
      (by
        intro p hp
        rcases List.mem_append.1 hp with hp | hp
        · exact (hA p hp).1
        · exact (q2 p (by simp [hp])).2.1)
      (q2 k (by simp)).2.1
      (fun hd => ((q2 k (by simp)).2.2 '.' hd).2.1 rfl)
      (by simp at h3 ⊢; omega) (by simp at h9 ⊢; omega)
    rw [List.append_assoc, List.map_append, hAc, map_cstr_good _ q2] at this
    exact this
  | quad q a b c d q2 =>
    have hdot : '.' ∈ cs := pieces_mem cs (dotted a b c d) (by rw [hp]; simp) '.' (dot_mem_dotted a b c d)
    have h6 := h6 hdot
    rw [hp] at hl
    simp only [List.length_append, List.length_singleton] at hl
    have := SplitOk.quad (cs := cs) (A ++ q) (dotted a b c d) a b c d (by rw [hp]; simp)
      (by
        intro p hp
        rcases List.mem_append.1 hp with hp | hp
        · exact (hA p hp).1
        · exact (q2 p hp).2.1)
      (by have := (dotted_length a b c d).1; omega)
      (dot_mem_dotted a b c d) (cstr_dotted a b c d)
      (by simp at h3 ⊢; omega) (by simp; omega)
    rw [List.map_append, hAc, map_cstr_good _ q2, List.append_assoc] at this
    exact this

theorem emptyAt_append_left (A B : List (List Char)) (i : Nat) (h : i < A.length) :
    emptyAt (A ++ B) i ↔ emptyAt A i := by
  unfold emptyAt; rw [List.getElem?_append_left h]

theorem emptyAt_append_right (A B : List (List Char)) (i : Nat) (h : A.length ≤ i) :
    emptyAt (A ++ B) i ↔ emptyAt B (i - A.length) := by
  unfold emptyAt; rw [List.getElem?_append_right h]

theorem BoundIx_of (A B : List (List Char)) (hi lo : Nat)
    (hA : A = [[]] ∧ hi = 0 ∨ A ≠ [] ∧ (∀ t ∈ A, t ≠ []) ∧ hi = A.length)
    (hB : B = [[]] ∧ lo = 0 ∨ B ≠ [] ∧ (∀ t ∈ B, t ≠ []) ∧ lo = B.length) (h7 : hi + lo ≤ 7) :
    BoundIx (A ++ [] :: B) (hi, lo, 8 - (hi + lo)) := by
  have hAl : 1 ≤ A.length := by
    rcases hA with ⟨rfl, _⟩ | ⟨h, _⟩
    · simp
    · exact List.length_pos_iff.2 h
  have hBl : 1 ≤ B.length := by
    rcases hB with ⟨rfl, _⟩ | ⟨h, _⟩
    · simp
    · exact List.length_pos_iff.2 h
  have hlen : (A ++ [] :: B).length = A.length + 1 + B.length := by simp; omega
  have hk : emptyAt (A ++ [] :: B) A.length := by
    rw [emptyAt_append_right _ _ _ (Nat.le_refl _)]
    simp [emptyAt]
  have hright : ∀ i, A.length < i → (emptyAt (A ++ [] :: B) i ↔ emptyAt B (i - A.length - 1)) := by
    intro i h
    rw [emptyAt_append_right _ _ _ (by omega)]
    unfold emptyAt
    obtain ⟨m, hm⟩ : ∃ m, i - A.length = m + 1 := ⟨i - A.length - 1, by omega⟩
    rw [hm]
    simp
  refine BoundIx.comp A.length hi lo hAl (by omega) hk ?_ ?_ ?_ h7
  · intro j j1 j2 j3
    by_cases hj : j < A.length
    · rw [emptyAt_append_left _ _ _ hj]
      rcases hA with ⟨rfl, _⟩ | ⟨_, h, _⟩
      · simp at hj; omega
      · exact not_emptyAt_of_mem h j
    · rw [hright j (by omega)]
      rcases hB with ⟨rfl, _⟩ | ⟨_, h, _⟩
      · rw [hlen, List.length_singleton] at j2; omega
      · exact not_emptyAt_of_mem h _
  · rw [emptyAt_append_left _ _ _ hAl]
    rcases hA with ⟨rfl, rfl⟩ | ⟨_, h, rfl⟩
    · left; simp [emptyAt]
    · right; exact ⟨not_emptyAt_of_mem h 0, rfl⟩
  · rw [hright _ (by omega)]
    rcases hB with ⟨rfl, rfl⟩ | ⟨_, h, rfl⟩
    · left
      refine ⟨?_, by rw [hlen]; simp, rfl⟩
      rw [hlen]; simp [emptyAt]
    · right
      exact ⟨not_emptyAt_of_mem h _, by omega⟩

theorem ParseOk_of_text {cs : List Char} {vs : List Nat} (h : V6Text cs vs)
    (h6 : '.' ∈ cs → cs.count ':' ≤ 6) : ParseOk cs vs := by
  cases h with
  | full s vs h1 h2 =>
    obtain ⟨B, h3, h4⟩ := GroupsV4_inv h1
    have hB : B.length = 8 := by rw [← h4.length, h2]
    have hs := SplitOk_of (cs := cs) [] (pieces cs) B rfl h3 (by simp) (by simp [hB]) (by simp [hB]) h6
    rw [List.nil_append] at hs
    refine ⟨B, 8, 0, 0, vs, [], hs, BoundIx.full hB (fun j _ => not_emptyAt_of_mem h3.parts_ne j), ?_, ?_, by simp⟩
    · rw [← hB, List.take_length]; exact h4
    · rw [Nat.sub_zero, List.drop_length]; exact HexAll.nil
  | compressed sh hi sl lo h1 h2 h3 =>
    have hp : pieces (sh ++ ':' :: ':' :: sl) = pieces sh ++ [] :: pieces sl := by
      rw [pieces_colon]; simp [pieces]
    -- high part
    have hA : (pieces sh = [[]] ∧ hi = [] ∨ pieces sh ≠ [] ∧ (∀ t ∈ pieces sh, t ≠ []) ∧ hi.length = (pieces sh).length ∧
        HexAll (pieces sh) hi) ∧ (∀ t ∈ pieces sh, t.length ≤ 4 ∧ ∀ c ∈ t, c ≠ '\x00') := by
      rcases h1 with ⟨rfl, rfl⟩ | h1
      · exact ⟨Or.inl ⟨rfl, rfl⟩, by simp [pieces]⟩
      · have := Groups_inv h1
        exact ⟨Or.inr ⟨pieces_ne_nil _, fun t ht => (this.2 t ht).1, this.1.length, this.1⟩,
          fun t ht => ⟨(this.2 t ht).2.1, fun c hc => ((this.2 t ht).2.2 c hc).2.2.1⟩⟩
    have hAlen : hi.length ≤ (pieces sh).length ∧ 1 ≤ (pieces sh).length ∧ (pieces sh).length ≤ hi.length + 1 ∧
        (hi.length = 0 ∨ hi.length = (pieces sh).length) := by
      rcases hA.1 with ⟨a, b⟩ | ⟨a, b, c, d⟩
      · rw [a, b]; simp
      · have := List.length_pos_iff.2 a; omega
    have hAix : pieces sh = [[]] ∧ hi.length = 0 ∨ pieces sh ≠ [] ∧ (∀ t ∈ pieces sh, t ≠ []) ∧ hi.length = (pieces sh).length := by
      rcases hA.1 with ⟨a, b⟩ | ⟨a, b, c, d⟩
      · left; exact ⟨a, by rw [b]; rfl⟩
      · right; exact ⟨a, b, c⟩
    have hhi : ∀ B, HexAll ((pieces sh ++ [] :: B).take hi.length) hi := by
      intro B
      rcases hA.1 with ⟨a, b⟩ | ⟨a, b, c, d⟩
      · rw [b]; exact HexAll.nil
      · rw [c, List.take_left' rfl]; exact d
    have hA' : ∀ t ∈ pieces sh ++ [[]], t.length ≤ 4 ∧ ∀ c ∈ t, c ≠ '\x00' := by
      intro t ht
      rcases List.mem_append.1 ht with ht | ht
      · exact hA.2 t ht
      · rw [List.mem_singleton.1 ht]; simp
    rcases h2 with ⟨rfl, rfl⟩ | h2
    · -- nothing after the double colon
      have hs : SplitOk (sh ++ [':', ':']) (pieces sh ++ [] :: [[]]) := by
        have := SplitOk.hex (cs := sh ++ [':', ':']) (pieces sh ++ [[]]) [] (by rw [hp]; simp [pieces])
          (fun t ht => (hA' t ht).1) (by simp) (by simp) (by simp; omega) (by simp; simp at h3; omega)
        have hm : (pieces sh ++ [[]] ++ [[]]).map cstr = pieces sh ++ [[]] ++ [[]] := by
          apply map_cstr_self
          intro t ht
          rcases List.mem_append.1 ht with ht | ht
          · exact (hA' t ht).2
          · rw [List.mem_singleton.1 ht]; simp
        rw [hm] at this
        simpa using this
      refine ⟨_, hi.length, 0, 8 - (hi.length + 0), hi, [], hs,
        BoundIx_of (pieces sh) [[]] hi.length 0 hAix (Or.inl ⟨rfl, rfl⟩) (by simpa using h3), hhi _, ?_, by simp⟩
      rw [Nat.sub_zero, List.drop_length]; exact HexAll.nil
    · obtain ⟨B, g1, g2⟩ := GroupsV4_inv h2
      have hBl := g2.length
      have hBpos : 1 ≤ B.length := List.length_pos_iff.2 g1.parts_nonempty
      have hs := SplitOk_of (cs := sh ++ ':' :: ':' :: sl) (pieces sh ++ [[]]) (pieces sl) B
        (by rw [hp]; simp) g1 hA' (by simp; omega) (by simp; omega) h6
      simp only [List.append_assoc, List.cons_append, List.nil_append] at hs
      refine ⟨_, hi.length, lo.length, 8 - (hi.length + lo.length), hi, lo, hs,
        BoundIx_of (pieces sh) B hi.length lo.length hAix
          (Or.inr ⟨g1.parts_nonempty, g1.parts_ne, hBl⟩) h3, hhi _, ?_, rfl⟩
      have : (pieces sh ++ [] :: B).length - lo.length = (pieces sh ++ [[]]).length := by
        simp; omega
      rw [this, show pieces sh ++ [] :: B = (pieces sh ++ [[]]) ++ B by simp, List.drop_left' rfl]
      exact g2

end Ip
