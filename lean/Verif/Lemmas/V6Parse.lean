import Verif.Lemmas.V6Bound
/-
`parse_part`, `parse_parts` and the address part of `ip_from_string`.
-/
set_option autoImplicit false

namespace Ip
open Spec

theorem hexVal_of_HexDigit {c : Char} {d : Nat} (h : HexDigit c d) : d < 16 ∧ hexVal c = some d := by
  have hd : d < 16 := by
    rcases h with h | h
    · exact (List.getElem?_eq_some_iff.1 h).1
    · exact (List.getElem?_eq_some_iff.1 h).1
  refine ⟨hd, ?_⟩
  have k : ∀ d : Fin 16, (hexLower[d.val]?).bind hexVal = some d.val ∧
      (hexUpper[d.val]?).bind hexVal = some d.val := by decide
  obtain ⟨k1, k2⟩ := k ⟨d, hd⟩
  rcases h with h | h
  · simp only [h, Option.bind_some] at k1; exact k1
  · simp only [h, Option.bind_some] at k2; exact k2

theorem hexDigit_table (d : Nat) (h : d < 16) :
    (d < 10 → hexLower[d]? = some (Char.ofNat (d + 48))) ∧
    (10 ≤ d → hexLower[d]? = some (Char.ofNat (d + 87)) ∧ hexUpper[d]? = some (Char.ofNat (d + 55))) := by
  have k : ∀ d : Fin 16, (d.val < 10 → hexLower[d.val]? = some (Char.ofNat (d.val + 48))) ∧
      (10 ≤ d.val → hexLower[d.val]? = some (Char.ofNat (d.val + 87)) ∧
        hexUpper[d.val]? = some (Char.ofNat (d.val + 55))) := by decide
  exact k ⟨d, h⟩

theorem HexDigit_of_hexVal {c : Char} {d : Nat} (h : hexVal c = some d) : HexDigit c d := by
  have hc : Char.ofNat c.toNat = c := Char.ofNat_toNat c
  simp only [hexVal] at h
  have e0 : '0'.toNat = 48 := rfl
  have e9 : '9'.toNat = 57 := rfl
  have eA : 'A'.toNat = 65 := rfl
  have eF : 'F'.toNat = 70 := rfl
  have ea : 'a'.toNat = 97 := rfl
  have ef : 'f'.toNat = 102 := rfl
  rw [e0, e9, eA, eF, ea, ef] at h
  split at h
  · simp only [Option.some.injEq] at h
    left
    rw [(hexDigit_table d (by omega)).1 (by omega), show d + 48 = c.toNat by omega, hc]
  · split at h
    · simp only [Option.some.injEq] at h
      right
      rw [((hexDigit_table d (by omega)).2 (by omega)).2, show d + 55 = c.toNat by omega, hc]
    · split at h
      · simp only [Option.some.injEq] at h
        left
        rw [((hexDigit_table d (by omega)).2 (by omega)).1, show d + 87 = c.toNat by omega, hc]
      · cases h

theorem _root_.Ip.Spec.HexNum.digits {t : List Char} {v : Nat} (h : HexNum t v) : ∀ c ∈ t, ∃ d, HexDigit c d := by
  induction h with
  | nil => simp
  | snoc t c v d _ hd ih =>
    intro x hx
    rcases List.mem_append.1 hx with hx | hx
    · exact ih x hx
    · rw [List.mem_singleton.1 hx]; exact ⟨d, hd⟩

theorem _root_.Ip.Spec.HexNum.lt {t : List Char} {v : Nat} (h : HexNum t v) : v < 16 ^ t.length := by
  induction h with
  | nil => simp
  | snoc t c v d _ hd ih =>
    have := (hexVal_of_HexDigit hd).1
    rw [List.length_append, List.length_singleton, Nat.pow_succ]
    omega

theorem _root_.Ip.Spec.HexNum.unique {t : List Char} {v v' : Nat} (h : HexNum t v) (h' : HexNum t v') : v = v' := by
  induction h generalizing v' with
  | nil =>
    generalize hx : ([] : List Char) = x at h'
    cases h' with
    | nil => rfl
    | snoc => simp at hx
  | snoc t c v d _ hd ih =>
    generalize hx : t ++ [c] = x at h'
    cases h' with
    | nil => simp at hx
    | snoc t2 c2 v2 d2 h2 hd2 =>
      obtain ⟨rfl, rfl⟩ := append_singleton_inj hx
      have e1 := (hexVal_of_HexDigit hd).2
      have e2 := (hexVal_of_HexDigit hd2).2
      rw [e1] at e2
      have := ih h2
      simp at e2
      omega

theorem pow16_eq (n : Nat) (h : n ≤ 3) : pow16 n = .ok (BitVec.ofNat 16 (16 ^ n)) := by
  match n, h with
  | 0, _ => rfl
  | 1, _ => rfl
  | 2, _ => rfl
  | 3, _ => rfl

theorem parsePartLoop_rel (f : FStr) (hw : f.WF) (h4 : f.length ≤ 4) (cv : Nat) :
    ∀ (q pre : List Char) (V : Nat), f.contents = pre ++ q → HexNum pre V →
    (∃ W, HexNum (pre ++ q) W ∧
      parsePartLoop f cv q.length pre.length (BitVec.ofNat 16 (V * 16 ^ q.length)) = .ok (BitVec.ofNat 16 W)) ∨
    ((¬ ∃ W, HexNum (pre ++ q) W) ∧
      ∃ e v, parsePartLoop f cv q.length pre.length (BitVec.ofNat 16 (V * 16 ^ q.length)) = .err e v)
  | [], pre, V, hc, hV => by
    left
    exact ⟨V, by simpa using hV, by simp [parsePartLoop]⟩
  | c :: q, pre, V, hc, hV => by
    have hlen : f.length = pre.length + (q.length + 1) := by
      have := congrArg List.length hc
      rw [FStr.contents_length f hw] at this
      simpa using this
    obtain ⟨c', r1, r2⟩ := FStr.contents_drop f hw pre.length (by omega)
    have hcc : c' = c := by
      rw [hc, List.drop_left' rfl] at r2
      simp at r2
      exact r2.symm
    subst hcc
    simp only [List.length_cons, parsePartLoop, r1, Res.ok_bind]
    rw [pow16_eq _ (by omega), Res.ok_bind, show f.length - pre.length - 1 = q.length by omega]
    cases hh : hexVal c' with
    | none =>
      right
      refine ⟨?_, ⟨_, _, rfl⟩⟩
      rintro ⟨W, hW⟩
      obtain ⟨d, hd⟩ := hW.digits c' (by simp)
      rw [(hexVal_of_HexDigit hd).2] at hh
      cases hh
    | some d =>
      have hd := HexDigit_of_hexVal hh
      have ih := parsePartLoop_rel f hw h4 cv q (pre ++ [c']) (16 * V + d) (by simpa using hc)
        (HexNum.snoc pre c' V d hV hd)
      have e : BitVec.ofNat 16 (V * 16 ^ (q.length + 1)) + BitVec.ofNat 16 d * BitVec.ofNat 16 (16 ^ q.length) =
          BitVec.ofNat 16 ((16 * V + d) * 16 ^ q.length) := by
        rw [← BitVec.ofNat_mul, ← BitVec.ofNat_add]
        congr 1
        rw [Nat.pow_succ, Nat.add_mul]
        congr 1
        rw [Nat.mul_comm (16 ^ q.length) 16, ← Nat.mul_assoc, Nat.mul_comm V 16]
      simp only [List.append_assoc, List.cons_append, List.nil_append, List.length_append,
        List.length_singleton] at ih
      simp only [e]
      exact ih

theorem parsePart_rel (f : FStr) (hw : f.WF) (h4 : f.length ≤ 4) (cv : Nat) :
    (∃ W, HexNum f.contents W ∧ parsePart f cv = .ok (BitVec.ofNat 16 W)) ∨
    ((¬ ∃ W, HexNum f.contents W) ∧ ∃ e v, parsePart f cv = .err e v) := by
  have := parsePartLoop_rel f hw h4 cv f.contents [] 0 rfl HexNum.nil
  rw [FStr.contents_length f hw] at this
  simpa [parsePart] using this

/-- Values of a list of parts (an empty part has value 0). -/
inductive HexAll : List (List Char) → List Nat → Prop
  | nil : HexAll [] []
  | cons (t : List Char) (v : Nat) (ts : List (List Char)) (vs : List Nat) :
      HexNum t v → HexAll ts vs → HexAll (t :: ts) (v :: vs)

theorem HexAll.length {ts : List (List Char)} {vs : List Nat} (h : HexAll ts vs) : vs.length = ts.length := by
  induction h with
  | nil => rfl
  | cons _ _ _ _ _ _ ih => simp [ih]

theorem HexAll.unique {ts : List (List Char)} {vs vs' : List Nat} (h : HexAll ts vs) (h' : HexAll ts vs') :
    vs = vs' := by
  induction h generalizing vs' with
  | nil => cases h'; rfl
  | cons t v ts vs h1 h2 ih =>
    cases h' with
    | cons _ v2 _ vs2 g1 g2 => rw [ih g2, h1.unique g1]

theorem group_hi (v : Nat) (h : v < 65536) : (BitVec.ofNat 16 v >>> 8).setWidth 8 = BitVec.ofNat 8 (v / 256) := by
  apply BitVec.eq_of_toNat_eq
  rw [BitVec.toNat_setWidth, BitVec.toNat_ushiftRight, BitVec.toNat_ofNat, BitVec.toNat_ofNat,
    Nat.shiftRight_eq_div_pow]
  omega

theorem group_lo (v : Nat) : (BitVec.ofNat 16 v &&& 0xFF#16).setWidth 8 = BitVec.ofNat 8 (v % 256) := by
  apply BitVec.eq_of_toNat_eq
  have e : (BitVec.ofNat 16 v).toNat &&& (0xFF#16).toNat = (BitVec.ofNat 16 v).toNat % 2 ^ 8 :=
    Nat.and_two_pow_sub_one_eq_mod _ 8
  rw [BitVec.toNat_setWidth, BitVec.toNat_and, e, BitVec.toNat_ofNat, BitVec.toNat_ofNat]
  omega

theorem parsePartsLoop_rel {fs : List FStr} {P : List (List Char)} (h : FsRel fs P) (cv : Nat) :
    ∀ (ts : List (List Char)) (i : Nat) (w rest : List (BitVec 8)),
    (∀ j, j < ts.length → P[i + j]? = ts[j]?) → 2 * ts.length ≤ rest.length →
    (∃ vs, HexAll ts vs ∧ parsePartsLoop fs cv ts.length i (w ++ rest) w.length =
      .ok (w ++ groupBytes vs ++ rest.drop (2 * ts.length), w.length + 2 * ts.length)) ∨
    ((¬ ∃ vs, HexAll ts vs) ∧ ∃ e v, parsePartsLoop fs cv ts.length i (w ++ rest) w.length = .err e v)
  | [], i, w, rest, _, _ => by
    left
    exact ⟨[], HexAll.nil, by simp [parsePartsLoop, groupBytes]⟩
  | t :: ts, i, w, rest, hP, hr => by
    obtain ⟨f, r1, r2, r3, r4, r5⟩ := h.part i t (by have := hP 0 (by simp); simpa using this)
    have hl4 : f.length ≤ 4 := by unfold FStr.WF at r3; omega
    simp only [List.length_cons, parsePartsLoop, r1, Res.ok_bind]
    rcases parsePart_rel f r3 hl4 cv with ⟨W, hW, he⟩ | ⟨hno, e, v, he⟩
    · rw [he, Res.ok_bind]
      rw [r2] at hW
      have hlt : W < 65536 := by
        have h1 := hW.lt
        have h2 : 16 ^ t.length ≤ 16 ^ 4 := Nat.pow_le_pow_right (by omega) (by omega)
        have h3 : 16 ^ 4 = 65536 := rfl
        omega
      rw [group_hi W hlt, group_lo W]
      match rest, hr with
      | [], hr => simp at hr
      | [_], hr => simp at hr; omega
      | x :: y :: rest, hr =>
        rw [wr_append _ _ _ _ _ rfl, Res.ok_bind]
        have e2 := wr_append (w ++ [BitVec.ofNat 8 (W / 256)]) y (BitVec.ofNat 8 (W % 256)) rest (w.length + 1)
          (by simp)
        simp only [List.append_assoc, List.cons_append, List.nil_append] at e2
        rw [e2, Res.ok_bind]
        have ih := parsePartsLoop_rel h cv ts (i + 1)
          (w ++ [BitVec.ofNat 8 (W / 256), BitVec.ofNat 8 (W % 256)]) rest
          (by
            intro j hj
            have := hP (j + 1) (by simp; omega)
            rw [show i + 1 + j = i + (j + 1) by omega, this]
            simp)
          (by simp only [List.length_cons] at hr; omega)
        simp only [List.append_assoc, List.cons_append, List.nil_append, List.length_append,
          List.length_cons, List.length_nil] at ih
        rcases ih with ⟨vs, i1, i2⟩ | ⟨i1, i2⟩
        · left
          refine ⟨W :: vs, HexAll.cons t W ts vs hW i1, ?_⟩
          rw [i2]
          have : 2 * (ts.length + 1) = 2 * ts.length + 1 + 1 := by omega
          rw [this]
          simp only [groupBytes, List.drop_succ_cons, List.append_assoc, List.cons_append]
          congr 2
          omega
        · right
          refine ⟨?_, i2⟩
          rintro ⟨vs, hvs⟩
          cases hvs with
          | cons _ v _ vs _ h2 => exact i1 ⟨vs, h2⟩
    · right
      rw [he]
      refine ⟨?_, ⟨_, _, rfl⟩⟩
      rintro ⟨vs, hvs⟩
      cases hvs with
      | cons _ v _ vs h1 _ => exact hno ⟨v, by rw [r2]; exact h1⟩

theorem groupBytes_append (a b : List Nat) : groupBytes (a ++ b) = groupBytes a ++ groupBytes b := by
  induction a with
  | nil => rfl
  | cons v vs ih => simp [groupBytes, ih]

theorem groupBytes_zeros (n : Nat) : groupBytes (List.replicate n 0) = List.replicate (2 * n) 0#8 := by
  induction n with
  | zero => rfl
  | succ n ih =>
    rw [List.replicate_succ, groupBytes, ih, show 2 * (n + 1) = 2 * n + 1 + 1 by omega,
      List.replicate_succ, List.replicate_succ]

theorem groupBytes_length (a : List Nat) : (groupBytes a).length = 2 * a.length := by
  induction a with
  | nil => rfl
  | cons v vs ih => simp [groupBytes, ih]; omega

/-- What the address part of the parser accepts, and the groups it yields. -/
def ParseOk (cs : List Char) (vs : List Nat) : Prop :=
  ∃ P hi lo sk his los, SplitOk cs P ∧ BoundIx P (hi, lo, sk) ∧ HexAll (P.take hi) his ∧
    HexAll (P.drop (P.length - lo)) los ∧ vs = his ++ List.replicate sk 0 ++ los

theorem SplitOk.length {cs : List Char} {P : List (List Char)} (h : SplitOk cs P) :
    3 ≤ P.length ∧ P.length ≤ 9 := by
  cases h with
  | hex d k => simp; omega
  | quad d k => simp; omega

theorem BoundIx.sizes {P : List (List Char)} {hi lo sk : Nat} (h : BoundIx P (hi, lo, sk)) :
    hi + sk + lo = 8 ∧ hi ≤ P.length ∧ lo ≤ P.length := by
  generalize hx : (hi, lo, sk) = x at h
  cases h with
  | full h1 h2 =>
    simp only [Prod.mk.injEq] at hx
    omega
  | comp k hi' lo' h1 h2 h3 h4 h5 h6 h7 =>
    simp only [Prod.mk.injEq] at hx
    obtain ⟨rfl, rfl, rfl⟩ := hx
    rcases h5 with ⟨_, _, h5⟩ | ⟨_, h5⟩ <;> rcases h6 with ⟨_, _, h6⟩ | ⟨_, h6⟩ <;> omega

theorem SplitOk.unique {cs : List Char} {P Q : List (List Char)} (h : SplitOk cs P) (h' : SplitOk cs Q) : P = Q := by
  cases h with
  | hex d k q1 q2 q3 q4 q5 q6 =>
    cases h' with
    | hex d' k' p1 => rw [← q1, ← p1]
    | quad d' k' w x y z p1 p2 p3 p4 =>
      obtain ⟨rfl, rfl⟩ := append_singleton_inj (q1 ▸ p1 : d ++ [k] = d' ++ [k'])
      exact absurd p4 q4
  | quad d k w x y z q1 q2 q3 q4 q5 =>
    cases h' with
    | hex d' k' p1 p2 p3 p4 =>
      obtain ⟨rfl, rfl⟩ := append_singleton_inj (q1 ▸ p1 : d ++ [k] = d' ++ [k'])
      exact absurd q4 p4
    | quad d' k' w' x' y' z' p1 p2 p3 p4 p5 =>
      obtain ⟨rfl, rfl⟩ := append_singleton_inj (q1 ▸ p1 : d ++ [k] = d' ++ [k'])
      have e1 := (v4Parse_ok_iff _ _).2 ⟨w, x, y, z, rfl, q5⟩
      have e2 := (v4Parse_ok_iff _ _).2 ⟨w', x', y', z', rfl, p5⟩
      rw [e1] at e2
      simp at e2
      obtain ⟨rfl, rfl, rfl, rfl⟩ := e2
      rfl

theorem BoundIx.unique {P : List (List Char)} {x y : Nat × Nat × Nat} (h : BoundIx P x) (h' : BoundIx P y) : x = y := by
  cases h with
  | full h1 h2 =>
    cases h' with
    | full => rfl
    | comp k hi lo g1 g2 g3 => exact absurd g3 (h2 k (by omega))
  | comp k hi lo h1 h2 h3 h4 h5 h6 h7 =>
    cases h' with
    | full g1 g2 => exact absurd h3 (g2 k (by omega))
    | comp k' hi' lo' g1 g2 g3 g4 g5 g6 g7 =>
      have hk : k = k' := by
        by_cases hk : k = k'
        · exact hk
        · exact absurd g3 (h4 k' g1 g2 (fun h => hk h.symm))
      subst hk
      have e1 : hi = hi' := by
        rcases h5 with ⟨a, b, c⟩ | ⟨a, b⟩ <;> rcases g5 with ⟨d, e, f⟩ | ⟨d, e⟩
        · omega
        · exact absurd a d
        · exact absurd d a
        · omega
      have e2 : lo = lo' := by
        rcases h6 with ⟨a, b, c⟩ | ⟨a, b⟩ <;> rcases g6 with ⟨d, e, f⟩ | ⟨d, e⟩
        · omega
        · exact absurd a d
        · exact absurd d a
        · omega
      rw [e1, e2]

theorem parseAddr_rel (cs : List Char) :
    (∃ vs, ParseOk cs vs ∧ parseAddr cs = .ok (groupBytes vs)) ∨
    ((¬ ∃ vs, ParseOk cs vs) ∧ ∃ e v, parseAddr cs = .err e v) := by
  rcases splitParts_rel cs with ⟨P, fs, h1, h2, h3⟩ | ⟨h1, e, v, h2⟩
  · obtain ⟨l3, l9⟩ := h1.length
    rcases partsBound_rel h3 l3 l9 with ⟨⟨hi, lo, sk⟩, b1, b2⟩ | ⟨b1, e, v, b2⟩
    · obtain ⟨s1, s2, s3⟩ := b1.sizes
      simp only [parseAddr, h2, Res.ok_bind, b2, parseParts]
      have l1 : (P.take hi).length = hi := by simp; omega
      have l2 : (P.drop (P.length - lo)).length = lo := by simp; omega
      rcases parsePartsLoop_rel h3 P.length (P.take hi) 0 [] (List.replicate 16 0#8)
          (by intro j hj; rw [l1] at hj; rw [Nat.zero_add, List.getElem?_take, if_pos hj])
          (by rw [l1]; simp; omega) with ⟨his, a1, a2⟩ | ⟨a1, e, v, a2⟩
      · rw [l1] at a2
        simp only [List.nil_append, List.length_nil, Nat.zero_add, List.drop_replicate] at a2
        rw [a2, Res.ok_bind, if_neg (by omega)]
        have hl := a1.length
        rw [l1] at hl
        have e1 : (groupBytes his ++ List.replicate (16 - 2 * hi) 0#8, 2 * hi).2 + (sk <<< 1) =
            (groupBytes his ++ List.replicate (2 * sk) 0#8).length := by
          simp [groupBytes_length, hl, Nat.shiftLeft_eq]; omega
        have e2 : List.replicate (16 - 2 * hi) 0#8 = List.replicate (2 * sk) 0#8 ++ List.replicate (2 * lo) 0#8 := by
          rw [List.replicate_append_replicate]; congr 1; omega
        rw [e1, e2]
        simp only
        rw [← List.append_assoc]
        rcases parsePartsLoop_rel h3 P.length (P.drop (P.length - lo)) (P.length - lo)
            (groupBytes his ++ List.replicate (2 * sk) 0#8) (List.replicate (2 * lo) 0#8)
            (by intro j hj; rw [List.getElem?_drop])
            (by rw [l2]; simp) with ⟨los, c1, c2⟩ | ⟨c1, e, v, c2⟩
        · left
          rw [l2] at c2
          refine ⟨_, ⟨P, hi, lo, sk, his, los, h1, b1, a1, c1, rfl⟩, ?_⟩
          rw [c2, Res.ok_bind]
          simp [groupBytes_append, groupBytes_zeros]
        · right
          rw [l2] at c2
          rw [c2]
          refine ⟨?_, ⟨_, _, rfl⟩⟩
          rintro ⟨vs, P', hi', lo', sk', his', los', q1, q2, q3, q4, q5⟩
          have := h1.unique q1; subst this
          have := b1.unique q2; cases this
          exact c1 ⟨_, q4⟩
      · right
        rw [l1] at a2
        simp only [List.nil_append, List.length_nil] at a2
        rw [a2]
        refine ⟨?_, ⟨_, _, rfl⟩⟩
        rintro ⟨vs, P', hi', lo', sk', his', los', q1, q2, q3, q4, q5⟩
        have := h1.unique q1; subst this
        have := b1.unique q2; cases this
        exact a1 ⟨_, q3⟩
    · right
      simp only [parseAddr, h2, Res.ok_bind, b2, Res.err_bind]
      refine ⟨?_, ⟨_, _, rfl⟩⟩
      rintro ⟨vs, P', hi', lo', sk', his', los', q1, q2, q3, q4, q5⟩
      have := h1.unique q1; subst this
      exact b1 ⟨_, q2⟩
  · right
    simp only [parseAddr, h2, Res.err_bind]
    refine ⟨?_, ⟨_, _, rfl⟩⟩
    rintro ⟨vs, P', hi', lo', sk', his', los', q1, q2, q3, q4, q5⟩
    exact h1 ⟨_, q1⟩

end Ip
