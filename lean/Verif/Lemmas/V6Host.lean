import Verif.Model.V6Host
import Verif.Spec.V6Host
import Verif.Lemmas.V6Grammar
import Verif.Lemmas.V6Parse
import Verif.Lemmas.FamHom
import Verif.Lemmas.V4Uint
/-
The parser of IPv6 addresses on big endian hosts: the last four bytes are reversed when the text ends with a
dotted quad.
-/
set_option autoImplicit false

namespace Ip
open Spec

theorem v6FromEventsOn_true (spaces : Bool) (M : Nat) : v6FromEventsOn true spaces M = v6FromEvents spaces M := rfl
theorem v6ParseArrayOn_true (spaces : Bool) (M : Nat) : v6ParseArrayOn true spaces M = v6ParseArray spaces M := rfl
theorem fam6On_le (c : Cfg) (h : c.le = true) : fam6On c = fam6 c := by
  unfold fam6On
  rw [h]
  rfl

theorem bind_congr_at {α β : Type} {x : Res α} {f g : α → Res β} (h : ∀ a, x = .ok a → f a = g a) : (x >>= f) = (x >>= g) := by
  cases x with
  | ok a => exact h a rfl
  | err => rfl
  | ub => rfl

theorem Res_assoc {α β γ : Type} (x : Res α) (f : α → Res β) (g : β → Res γ) :
    ((x >>= f) >>= g) = x >>= fun a => f a >>= g := by cases x <;> rfl

/-! ### The last piece -/

/-- The last piece of a text is what follows the last colon. -/
theorem pieces_shape : ∀ (cs : List Char) (d : List (List Char)) (k : List Char), pieces cs = d ++ [k] →
    ':' ∉ k ∧ (cs = k ∨ ∃ pre, cs = pre ++ ':' :: k)
  | [], d, k, h => by
    cases d with
    | nil =>
      have : k = [] := by simpa [pieces] using h.symm
      subst this
      exact ⟨by simp, .inl rfl⟩
    | cons a d => simp [pieces] at h
  | c :: cs, d, k, h => by
    by_cases hc : c = ':'
    · rw [pieces, if_pos hc] at h
      cases d with
      | nil =>
        simp only [List.nil_append, List.cons.injEq] at h
        exact absurd h.2 (pieces_ne_nil _)
      | cons a d =>
        simp only [List.cons_append, List.cons.injEq] at h
        obtain ⟨g1, g2⟩ := pieces_shape cs d k h.2
        refine ⟨g1, .inr ?_⟩
        rcases g2 with rfl | ⟨pre, rfl⟩
        · exact ⟨[], by rw [hc]; rfl⟩
        · exact ⟨c :: pre, rfl⟩
    · rw [pieces, if_neg hc] at h
      cases hp : pieces cs with
      | nil => exact absurd hp (pieces_ne_nil _)
      | cons p ps =>
        rw [hp] at h
        dsimp only at h
        cases d with
        | nil =>
          simp only [List.nil_append, List.cons.injEq] at h
          obtain ⟨rfl, rfl⟩ := h
          obtain ⟨g1, g2⟩ := pieces_shape cs [] p (by rw [hp]; rfl)
          refine ⟨by simp only [List.mem_cons, not_or]; exact ⟨fun e => hc e.symm, g1⟩, ?_⟩
          rcases g2 with rfl | ⟨pre, rfl⟩
          · exact .inl rfl
          · exact .inr ⟨c :: pre, by
              exfalso
              have key : ∀ (pre k : List Char), 2 ≤ (pieces (pre ++ ':' :: k)).length := by
                intro pre k
                induction pre with
                | nil =>
                  rw [List.nil_append, pieces, if_pos rfl, List.length_cons]
                  have := List.length_pos_iff.2 (pieces_ne_nil k)
                  omega
                | cons x xs ih =>
                  rw [List.cons_append, pieces]
                  split
                  · rw [List.length_cons]; omega
                  · cases hq : pieces (xs ++ ':' :: k) with
                    | nil => exact absurd hq (pieces_ne_nil _)
                    | cons q qs => rw [hq] at ih; simpa using ih
              have := key pre p
              rw [hp] at this
              simp at this⟩
        | cons a d =>
          simp only [List.cons_append, List.cons.injEq] at h
          obtain ⟨g1, g2⟩ := pieces_shape cs (p :: d) k (by rw [hp, h.2]; rfl)
          refine ⟨g1, ?_⟩
          rcases g2 with rfl | ⟨pre, rfl⟩
          · exfalso
            have key : ∀ (cs : List Char), ':' ∉ cs → pieces cs = [cs] := by
              intro cs
              induction cs with
              | nil => intro _; rfl
              | cons x xs ih =>
                intro hx
                simp only [List.mem_cons, not_or] at hx
                rw [pieces, if_neg (fun h => hx.1 h.symm), ih hx.2]
            rw [key cs g1] at hp
            simp only [List.cons.injEq] at hp
            rw [← hp.2] at h
            simp at h
          · exact .inr ⟨c :: pre, rfl⟩

theorem pieces_last_rev (cs : List Char) (d : List (List Char)) (k : List Char) (h : pieces cs = d ++ [k]) :
    k.reverse = cs.reverse.takeWhile fun c => decide (c ≠ ':') := by
  obtain ⟨h1, h2⟩ := pieces_shape cs d k h
  have e : ∀ x ∈ k.reverse, decide (x ≠ ':') = true := by
    intro x hx
    rw [List.mem_reverse] at hx
    exact decide_eq_true fun e => h1 (e ▸ hx)
  rcases h2 with rfl | ⟨pre, rfl⟩
  · have := List.takeWhile_append_of_pos (p := fun c => decide (c ≠ ':')) (l₂ := []) e
    simpa using this.symm
  · rw [List.reverse_append, List.reverse_cons, List.append_assoc, List.takeWhile_append_of_pos e]
    simp

/-- Membership in the last piece. -/
theorem dot_last (cs : List Char) (d : List (List Char)) (k : List Char) (h : pieces cs = d ++ [k]) :
    '.' ∈ k ↔ '.' ∈ cs.reverse.takeWhile fun c => decide (c ≠ ':') := by
  rw [← pieces_last_rev cs d k h, List.mem_reverse]

/-! ### The loops over parts -/

theorem parsePartsLoop_add (fs : List FStr) (cv b : Nat) : ∀ (a i : Nat) (r : List (BitVec 8)) (ix : Nat),
    parsePartsLoop fs cv (a + b) i r ix = parsePartsLoop fs cv a i r ix >>= fun x => parsePartsLoop fs cv b (i + a) x.1 x.2
  | 0, i, r, ix => by rw [Nat.zero_add]; rfl
  | a + 1, i, r, ix => by
    rw [show a + 1 + b = (a + b) + 1 by omega]
    simp only [parsePartsLoop, Res_assoc, parsePartsLoop_add fs cv b a]
    rw [show i + 1 + a = i + (a + 1) by omega]

theorem parsePartsLoop_same (X Y Z : List FStr) (cv : Nat) : ∀ (a i : Nat) (r : List (BitVec 8)) (ix : Nat), i + a ≤ X.length →
    parsePartsLoop (X ++ Y) cv a i r ix = parsePartsLoop (X ++ Z) cv a i r ix
  | 0, _, _, _, _ => rfl
  | a + 1, i, r, ix, h => by
    have e : rd (X ++ Y) i = rd (X ++ Z) i := by
      simp only [rd, List.getElem?_append_left (show i < X.length by omega)]
    simp only [parsePartsLoop, e, parsePartsLoop_same X Y Z cv a (i + 1) _ _ (by omega)]

theorem parsePartsLoop_sizes (fs : List FStr) (cv : Nat) : ∀ (a i : Nat) (r : List (BitVec 8)) (ix : Nat) (x : List (BitVec 8) × Nat),
    parsePartsLoop fs cv a i r ix = .ok x → x.1.length = r.length ∧ x.2 = ix + 2 * a
  | 0, _, _, _, x, h => by cases h; exact ⟨rfl, rfl⟩
  | a + 1, i, r, ix, x, h => by
    simp only [parsePartsLoop] at h
    obtain ⟨p, _, h⟩ := Res.bind_eq_ok.1 h
    obtain ⟨v, _, h⟩ := Res.bind_eq_ok.1 h
    obtain ⟨r1, h1, h⟩ := Res.bind_eq_ok.1 h
    obtain ⟨r2, h2, h⟩ := Res.bind_eq_ok.1 h
    obtain ⟨g1, g2⟩ := parsePartsLoop_sizes fs cv a _ _ _ _ h
    rw [g1, g2, wr_ok_length h2, wr_ok_length h1]
    exact ⟨rfl, by omega⟩

/-- The last two parts, written at the end of the address. -/
theorem parsePartsLoop_two (X F : List FStr) (g1 g2 : FStr) (cv v1 v2 : Nat) (r : List (BitVec 8)) (hr : r.length = 16)
    (h1 : v1 < 65536) (h2 : v2 < 65536) (p1 : parsePart g1 cv = .ok (BitVec.ofNat 16 v1)) (p2 : parsePart g2 cv = .ok (BitVec.ofNat 16 v2)) :
    parsePartsLoop (X ++ g1 :: g2 :: F) cv 2 X.length r 12 =
      .ok (r.take 12 ++ [BitVec.ofNat 8 (v1 / 256), BitVec.ofNat 8 (v1 % 256), BitVec.ofNat 8 (v2 / 256), BitVec.ofNat 8 (v2 % 256)], 16) := by
  have e1 : rd (X ++ g1 :: g2 :: F) X.length = .ok g1 := rd_append _ _ _ _ rfl
  have e2 : rd (X ++ g1 :: g2 :: F) (X.length + 1) = .ok g2 := by
    have := rd_append (X ++ [g1]) g2 F (X.length + 1) (by simp)
    simpa using this
  match r, hr with
  | [a0, a1, a2, a3, a4, a5, a6, a7, a8, a9, a10, a11, a12, a13, a14, a15], _ =>
    simp only [parsePartsLoop, e1, e2, p1, p2, Res.ok_bind, group_hi _ h1, group_hi _ h2, group_lo]
    rfl

theorem parsePart_hex4 (g : FStr) (hw : g.WF) (v cv : Nat) (hv : v < 65536) (hc : g.contents = hex4 v) :
    parsePart g cv = .ok (BitVec.ofNat 16 v) := by
  have hl : g.length ≤ 4 := by
    have := congrArg List.length hc
    rw [FStr.contents_length g hw] at this
    simp [hex4] at this
    omega
  rcases parsePart_rel g hw hl cv with ⟨W, h1, h2⟩ | ⟨h1, _⟩
  · rw [hc] at h1
    rw [h2, h1.unique (hex4_HexNum v hv)]
  · exact absurd ⟨v, by rw [hc]; exact hex4_HexNum v hv⟩ h1

/-! ### Bounds -/

theorem boundLoop_alike {fs fs' : List FStr} (count : Nat) : ∀ (n i skip : Nat),
    (∀ j, i ≤ j → j < i + n → ∃ f f', rd fs j = .ok f ∧ rd fs' j = .ok f' ∧ (f.length = 0 ↔ f'.length = 0)) →
    boundLoop fs count n i skip = boundLoop fs' count n i skip
  | 0, _, _, _ => rfl
  | n + 1, i, skip, h => by
    obtain ⟨f, f', e1, e2, e3⟩ := h i (by omega) (by omega)
    simp only [boundLoop, e1, e2, Res.ok_bind, e3]
    rw [boundLoop_alike count n (i + 1) i (fun j h1 h2 => h j (by omega) (by omega)),
      boundLoop_alike count n (i + 1) skip (fun j h1 h2 => h j (by omega) (by omega))]

theorem partsBound_alike {fs fs' : List FStr} (count : Nat) (hc : 1 ≤ count)
    (h : ∀ j, j < count → ∃ f f', rd fs j = .ok f ∧ rd fs' j = .ok f' ∧ (f.length = 0 ↔ f'.length = 0)) :
    partsBound fs count = partsBound fs' count := by
  obtain ⟨f0, f0', a1, a2, a3⟩ := h 0 (by omega)
  obtain ⟨fl, fl', b1, b2, b3⟩ := h (count - 1) (by omega)
  have e := boundLoop_alike (fs := fs) (fs' := fs') count (count - 1 - 1) 1 0 (fun j _ h2 => h j (by omega))
  simp only [partsBound, e, a1, a2, b1, b2, Res.ok_bind, a3, b3]

/-! ### A dotted quad at the end -/

theorem mkFixedAll_append : ∀ (A B : List (List Char)) (a b : List FStr), mkFixedAll A = .ok a → mkFixedAll B = .ok b →
    mkFixedAll (A ++ B) = .ok (a ++ b)
  | [], B, a, b, h1, h2 => by cases h1; exact h2
  | x :: A, B, a, b, h1, h2 => by
    simp only [mkFixedAll] at h1
    obtain ⟨f, g1, h1⟩ := Res.bind_eq_ok.1 h1
    obtain ⟨fs, g2, h1⟩ := Res.bind_eq_ok.1 h1
    cases h1
    simp only [List.cons_append, mkFixedAll, g1, Res.ok_bind, mkFixedAll_append A B fs b g2 h2]

/-- `base-v6.hpp:85-103` after the last part is stored. -/
def afterParts (pc : List (List Char) × Nat) : Res (List (BitVec 8)) := do
  let pc ← collectParts pc
  let b ← partsBound pc.1 pc.2
  parseParts pc.1 pc.2 b.1 b.2.1 b.2.2

theorem mkFixed_hex4 (v : Nat) : ∃ g, mkFixed (hex4 v ++ ['\x00']) = .ok g ∧ g.WF ∧ g.data.length = 4 ∧ g.contents = hex4 v := by
  obtain ⟨g, h1, h2, h3, h4⟩ := mkFixed_eq (hex4 v ++ ['\x00'])
  refine ⟨g, h1, h2, by simpa [hex4] using h3, ?_⟩
  rw [h4]
  have : (hex4 v ++ ['\x00']).take ((hex4 v ++ ['\x00']).length - 1) = hex4 v := by simp [hex4]
  rw [this, cstr_hex4]

/-- Two groups stored last are the last four bytes, whatever the groups before. -/
theorem afterParts_two (D F : List (List Char)) (h5 : ∀ r ∈ D ++ F, r.length = 5) (h6 : D.length ≤ 6) :
    ∃ y : Res (List (BitVec 8)), (∀ r, y = .ok r → r.length = 16) ∧ ∀ v1 v2, v1 < 65536 → v2 < 65536 →
      afterParts (D ++ (hex4 v1 ++ ['\x00']) :: (hex4 v2 ++ ['\x00']) :: F, D.length + 2) =
        y >>= fun r => .ok (r.take 12 ++
          [BitVec.ofNat 8 (v1 / 256), BitVec.ofNat 8 (v1 % 256), BitVec.ofNat 8 (v2 / 256), BitVec.ofNat 8 (v2 % 256)]) := by
  by_cases hD : D.length = 0
  · refine ⟨.err .least_3_parts 2, by simp, fun v1 v2 _ _ => ?_⟩
    simp [afterParts, collectParts, hD]
  obtain ⟨fD, d1, d2, d3⟩ := mkFixedAll_eq D (fun r hr => h5 r (by simp [hr]))
  obtain ⟨fF, f1, _, f3⟩ := mkFixedAll_eq F (fun r hr => h5 r (by simp [hr]))
  have lD : fD.length = D.length := by simpa using congrArg List.length d2
  have all : ∀ v1 v2, ∃ g1 g2, (g1.WF ∧ g1.contents = hex4 v1) ∧ (g2.WF ∧ g2.contents = hex4 v2) ∧
      mkFixedAll (D ++ (hex4 v1 ++ ['\x00']) :: (hex4 v2 ++ ['\x00']) :: F) = .ok (fD ++ g1 :: g2 :: fF) ∧
      FsRel (fD ++ g1 :: g2 :: fF) (D.map (fun r => cstr (r.take 4)) ++ [hex4 v1, hex4 v2]) := by
    intro v1 v2
    obtain ⟨g1, a1, a2, a3, a4⟩ := mkFixed_hex4 v1
    obtain ⟨g2, b1, b2, b3, b4⟩ := mkFixed_hex4 v2
    refine ⟨g1, g2, ⟨a2, a4⟩, ⟨b2, b4⟩, mkFixedAll_append _ _ _ _ d1 (by simp only [mkFixedAll, a1, b1, f1, Res.ok_bind]),
      ⟨fF.map FStr.contents, by simp [d2, a4, b4]⟩, ?_⟩
    intro f hf
    simp only [List.mem_append, List.mem_cons] at hf
    rcases hf with hf | rfl | rfl | hf
    · exact d3 f hf
    · exact ⟨a2, a3⟩
    · exact ⟨b2, b3⟩
    · exact f3 f hf
  have notEmpty : ∀ v1 v2 j, emptyAt (D.map (fun r => cstr (r.take 4)) ++ [hex4 v1, hex4 v2]) j →
      j < D.length := by
    intro v1 v2 j hj
    by_contra hge
    rw [emptyAt, List.getElem?_append_right (by simp; omega)] at hj
    simp only [List.length_map] at hj
    rcases Nat.lt_or_ge (j - D.length) 2 with h | h
    · obtain h | h : j - D.length = 0 ∨ j - D.length = 1 := by omega
      · rw [h] at hj; simp [hex4] at hj
      · rw [h] at hj; simp [hex4] at hj
    · rw [List.getElem?_eq_none (by simpa using h)] at hj
      cases hj
  obtain ⟨e1, e2, _, _, _, relE⟩ := all 0 0
  refine ⟨partsBound (fD ++ e1 :: e2 :: fF) (D.length + 2) >>= fun b =>
    if b.2.1 = 0 then parsePartsLoop (fD ++ []) (D.length + 2) 6 0 (List.replicate 16 0#8) 0 >>= fun x => .ok x.1
    else parsePartsLoop (fD ++ []) (D.length + 2) b.1 0 (List.replicate 16 0#8) 0 >>= fun ri =>
      parsePartsLoop (fD ++ []) (D.length + 2) (b.2.1 - 2) (D.length + 2 - b.2.1) ri.1 (ri.2 + (b.2.2 <<< 1)) >>= fun x => .ok x.1,
    ?_, ?_⟩
  · intro r h
    obtain ⟨b, _, h⟩ := Res.bind_eq_ok.1 h
    split at h
    · obtain ⟨x, hx, h⟩ := Res.bind_eq_ok.1 h
      cases h
      rw [(parsePartsLoop_sizes _ _ _ _ _ _ _ hx).1, List.length_replicate]
    · obtain ⟨ri, hri, h⟩ := Res.bind_eq_ok.1 h
      obtain ⟨x, hx, h⟩ := Res.bind_eq_ok.1 h
      cases h
      rw [(parsePartsLoop_sizes _ _ _ _ _ _ _ hx).1, (parsePartsLoop_sizes _ _ _ _ _ _ _ hri).1, List.length_replicate]
  · intro v1 v2 h1 h2
    obtain ⟨g1, g2, ⟨w1, c1⟩, ⟨w2, c2⟩, hall, rel⟩ := all v1 v2
    have hb : partsBound (fD ++ g1 :: g2 :: fF) (D.length + 2) = partsBound (fD ++ e1 :: e2 :: fF) (D.length + 2) := by
      refine partsBound_alike _ (by omega) fun j hj => ?_
      obtain ⟨f, p1, p2⟩ := rel.part_empty j (by simpa using hj)
      obtain ⟨f', q1, q2⟩ := relE.part_empty j (by simpa using hj)
      refine ⟨f, f', p1, q1, ?_⟩
      rw [p2, q2]
      constructor
      · intro h
        have := notEmpty _ _ _ h
        rw [emptyAt, List.getElem?_append_left (by simpa using this)] at h ⊢
        exact h
      · intro h
        have := notEmpty _ _ _ h
        rw [emptyAt, List.getElem?_append_left (by simpa using this)] at h ⊢
        exact h
    have two := fun (r : List (BitVec 8)) (hr : r.length = 16) => parsePartsLoop_two fD fF g1 g2 (D.length + 2) v1 v2 r hr h1 h2
      (parsePart_hex4 g1 w1 v1 _ h1 c1) (parsePart_hex4 g2 w2 v2 _ h2 c2)
    rw [afterParts, collectParts, if_neg (by simp; omega)]
    simp only [hall, Res.ok_bind, hb, Res_assoc]
    refine bind_congr_at fun b hok => ?_
    have hP : (D.map (fun r => cstr (r.take 4)) ++ [hex4 v1, hex4 v2]).length = D.length + 2 := by simp
    have hB : BoundIx (D.map (fun r => cstr (r.take 4)) ++ [hex4 v1, hex4 v2]) b := by
      rcases partsBound_rel rel (by rw [hP]; omega) (by rw [hP]; omega) with ⟨x, q1, q2⟩ | ⟨_, e, v, q2⟩
      · rw [hP, hb, hok] at q2
        cases q2
        exact q1
      · rw [hP, hb, hok] at q2
        cases q2
    cases hB with
    | full hl _ =>
      have hm : D.length = 6 := by omega
      rw [if_pos rfl, Res_assoc]
      simp only [parseParts]
      have e8 := parsePartsLoop_add (fD ++ g1 :: g2 :: fF) (D.length + 2) 2 6 0 (List.replicate 16 0#8) 0
      rw [show parsePartsLoop (fD ++ g1 :: g2 :: fF) (D.length + 2) 8 0 (List.replicate 16 0#8) 0 = _ from e8, Res_assoc,
        parsePartsLoop_same fD _ [] _ 6 0 _ _ (by omega)]
      refine bind_congr_at fun x hx => ?_
      obtain ⟨s1, s2⟩ := parsePartsLoop_sizes _ _ _ _ _ _ _ hx
      have := two x.1 (by rw [s1]; rfl)
      rw [lD, hm] at this
      rw [s2, hm]
      rw [show 0 + 2 * 6 = 12 from rfl, show 0 + 6 = 6 from rfl, this]
      rfl
    | comp k hi lo k1 k2 k3 k4 k5 k6 k7 =>
      have hk := notEmpty _ _ _ k3
      rw [hP] at k2 k6
      have hlo : lo = D.length + 2 - k - 1 := by
        rcases k6 with ⟨k6, _⟩ | ⟨_, k6⟩
        · have := notEmpty _ _ _ k6; omega
        · exact k6
      have hhi : hi ≤ k := by
        rcases k5 with ⟨_, _, k5⟩ | ⟨_, k5⟩ <;> omega
      rw [if_neg (by dsimp only; omega)]
      simp only [parseParts, Res_assoc]
      rw [parsePartsLoop_same fD _ [] _ hi 0 _ _ (by omega)]
      refine bind_congr_at fun ri hri => ?_
      rw [if_neg (by omega)]
      obtain ⟨s1, s2⟩ := parsePartsLoop_sizes _ _ _ _ _ _ _ hri
      rw [show lo = (lo - 2) + 2 by omega, parsePartsLoop_add, Res_assoc, parsePartsLoop_same fD _ [] _ (lo - 2) _ _ _ (by omega)]
      rw [show lo - 2 + 2 = lo by omega]
      refine bind_congr_at fun x hx => ?_
      obtain ⟨t1, t2⟩ := parsePartsLoop_sizes _ _ _ _ _ _ _ hx
      have := two x.1 (by rw [t1, s1]; rfl)
      rw [lD] at this
      have ex : x.2 = 12 := by
        rw [t2, s2, Nat.shiftLeft_eq]
        omega
      rw [ex, show D.length + 2 - lo + (lo - 2) = D.length by omega, this]
      rfl

theorem mirrorEnd_quad (r : List (BitVec 8)) (h : r.length = 16) (w x y z : BitVec 8) :
    mirrorEnd (r.take 12 ++ [w, x, y, z]) = r.take 12 ++ [z, y, x, w] := by
  match r, h with
  | [a0, a1, a2, a3, a4, a5, a6, a7, a8, a9, a10, a11, a12, a13, a14, a15], _ => rfl

theorem image_same {α : Type} (f : α → α) (x : Res α) (h : ∀ a, x = .ok a → f a = a) : x.image f = x := by
  cases x with
  | ok a => exact congrArg Res.ok (h a rfl)
  | err => rfl
  | ub => rfl

theorem group_bytes_hi (a b : BitVec 8) : BitVec.ofNat 8 ((a.toNat * 256 + b.toNat) / 256) = a := by
  have := a.isLt; have := b.isLt
  apply BitVec.eq_of_toNat_eq; rw [BitVec.toNat_ofNat]; omega

theorem group_bytes_lo (a b : BitVec 8) : BitVec.ofNat 8 ((a.toNat * 256 + b.toNat) % 256) = b := by
  have := a.isLt; have := b.isLt
  apply BitVec.eq_of_toNat_eq; rw [BitVec.toNat_ofNat]; omega

/-- The address part on a big endian host. -/
theorem parseAddrOn_false (cs : List Char) : parseAddrOn false cs =
    (parseAddr cs).image fun b => if '.' ∈ cs.reverse.takeWhile fun c => decide (c ≠ ':') then mirrorEnd b else b := by
  obtain ⟨h1, h2⟩ := partsLoop_rel cs partsInit [] [] partsInit_rel
  have hpp : prefixPiece [] (pieces cs) = pieces cs := by
    cases hp : pieces cs with
    | nil => exact absurd hp (pieces_ne_nil _)
    | cons p ps => rfl
  cases ha : absLoop [] [] cs with
  | none =>
    obtain ⟨e, v, he⟩ := h1 ha
    simp only [parseAddrOn, parseAddr, splitPartsOn, splitParts, he, Res.err_bind]
    rfl
  | some dk =>
    obtain ⟨d, k⟩ := dk
    obtain ⟨st, he, h⟩ := h2 d k ha
    obtain ⟨g1, g2, g3⟩ := absLoop_pieces cs [] [] d k ha
    have hp : pieces cs = d ++ [k] := by rw [← hpp]; simpa using g1
    have hk := dot_last cs d k hp
    simp only [← hk]
    obtain ⟨D, F, p1, p2, p3, p5⟩ := h.parts
    have hDl : D.length = d.length := by simpa using congrArg List.length p2
    obtain ⟨rest, hlast⟩ := h.last
    have hll := h.lastLen
    have hcnt := h.count
    have hsym := h.symbol
    have hk16 : k.length ≤ 16 := g3 (by simp)
    simp only [parseAddrOn, parseAddr, splitPartsOn, splitParts, he, Res.ok_bind]
    by_cases hc : st.count > 8
    · have e : partsFinishOn false st = partsFinish st := by
        simp only [partsFinishOn, partsFinish, if_pos hc]
      rw [e]
      refine (image_same _ _ fun a h => ?_).symm
      exfalso
      obtain ⟨pc, h, _⟩ := Res.bind_eq_ok.1 h
      simp only [partsFinish, if_pos hc] at h
      obtain ⟨_, _, h⟩ := Res.bind_eq_ok.1 h
      obtain ⟨_, _, h⟩ := Res.bind_eq_ok.1 h
      obtain ⟨_, _, h⟩ := Res.bind_eq_ok.1 h
      split at h
      · cases h
      · split at h <;> cases h
    · have hdot : hasDotLoop st.last st.symbol 0 = .ok (decide ('.' ∈ k)) := by
        rw [hlast, hsym]
        exact hasDotLoop_eq ('\x00' :: rest) k []
      simp only [partsFinishOn, partsFinish, if_neg hc, hdot, Res.ok_bind]
      by_cases hd : '.' ∈ k
      · simp only [hd, decide_true, if_true, Res_assoc]
        show (lastPartsOn false st true >>= afterParts) = (lastParts st true >>= afterParts).image mirrorEnd
        simp only [lastPartsOn, lastParts, if_true]
        by_cases h8 : st.count + 1 ≥ 8
        · simp only [if_pos h8]; rfl
        · simp only [if_neg h8]
          cases hv : v4ParseArray st.last with
          | ub => rfl
          | err e v => rfl
          | ok r =>
            rw [v4ParseArray_eq] at hv
            obtain ⟨w, x, y, z, rfl, _⟩ := (v4Parse_ok_iff _ _).1 hv
            match F, p3 with
            | [], p3 => simp at p3; omega
            | [_], p3 => simp at p3; omega
            | r0 :: r1 :: F, p3 =>
              obtain ⟨yy, y1, y2⟩ := afterParts_two D F (fun r hr => p5 r (by
                simp only [List.mem_append, List.mem_cons] at hr ⊢
                rcases hr with hr | hr
                · exact .inl hr
                · exact .inr (.inr (.inr hr)))) (by omega)
              have key : ∀ u : BitVec 32,
                  ((do
                    let r ← rd st.parts st.count
                    let r ← toHex (((u >>> 16) &&& 0xFFFF#32).setWidth 16) r
                    let parts ← wr st.parts st.count r
                    let r ← rd parts (st.count + 1)
                    let r ← toHex ((u &&& 0xFFFF#32).setWidth 16) r
                    let parts ← wr parts (st.count + 1) r
                    Res.ok (parts, st.count + 2)) : Res (List (List Char) × Nat)) =
                  .ok (D ++ (hex4 (((u >>> 16) &&& 0xFFFF#32).setWidth 16).toNat ++ ['\x00']) ::
                    (hex4 ((u &&& 0xFFFF#32).setWidth 16).toNat ++ ['\x00']) :: F, D.length + 2) := by
                intro u
                have g1 : rd st.parts st.count = .ok r0 := by rw [p1]; exact rd_append _ _ _ _ (by omega)
                rw [g1, Res.ok_bind, toHex_eq _ _ (p5 r0 (by simp)), Res.ok_bind, p1,
                  wr_append _ _ _ _ _ (by omega), Res.ok_bind]
                have g2 := rd_append (D ++ [hex4 (((u >>> 16) &&& 0xFFFF#32).setWidth 16).toNat ++ ['\x00']]) r1 F
                  (st.count + 1) (by simp; omega)
                have g3 := wr_append (D ++ [hex4 (((u >>> 16) &&& 0xFFFF#32).setWidth 16).toNat ++ ['\x00']]) r1
                  (hex4 ((u &&& 0xFFFF#32).setWidth 16).toNat ++ ['\x00']) F (st.count + 1) (by simp; omega)
                simp only [List.append_assoc, List.cons_append, List.nil_append] at g2 g3
                rw [g2, Res.ok_bind, toHex_eq _ _ (p5 r1 (by simp)), Res.ok_bind, g3, Res.ok_bind, hcnt, hDl]
              have bw := w.isLt; have bx := x.isLt; have by' := y.isLt; have bz := z.isLt
              simp only [withValue, Res.ok_bind, v4ToUint_le, v4ToUint_be, key]
              rw [cat4_hi, cat4_lo, cat4_hi, cat4_lo, y2 _ _ (by omega) (by omega), y2 _ _ (by omega) (by omega), image_of_bind]
              refine bind_congr_at fun r hr => ?_
              simp only [group_bytes_hi, group_bytes_lo]
              exact congrArg Res.ok (mirrorEnd_quad r (y1 r hr) w x y z).symm
      · have e : lastPartsOn false st false = lastParts st false := by
          simp only [lastPartsOn, lastParts, Bool.false_eq_true, if_false]
        simp only [hd, decide_false, if_false, e]
        exact (image_same _ _ fun a _ => rfl).symm

/-! ### The whole text -/

theorem scopeLoop_host (spaces : Bool) (M : Nat) : ∀ (evs : List Ev) (st st' : ScopeSt), scopeLoop spaces M st evs = .ok st' →
    (st.scope = true → st'.ip = st.ip) ∧
    (st.scope = false → st'.ip.map Ev.ch = st.ip.map Ev.ch ++ evs.takeWhile fun e => decide (e ≠ .ch '%'))
  | [], st, st', h => by cases h; exact ⟨fun _ => rfl, fun _ => by simp⟩
  | .bad _ _ :: _, st, st', h => by cases h
  | .ch c :: evs, st, st', h => by
    simp only [scopeLoop] at h
    obtain ⟨s1, h1, h⟩ := Res.bind_eq_ok.1 h
    obtain ⟨g1, g2⟩ := scopeLoop_host spaces M evs s1 st' h
    unfold scopeStep at h1
    split at h1
    · rename_i hs
      cases h1
      refine ⟨fun e => absurd (hs.1.symm.trans e) Bool.false_ne_true, fun _ => ?_⟩
      rw [g2 hs.1, List.takeWhile_cons_of_pos (by simpa using hs.2)]
      simp
    · rename_i hs
      split at h1
      · rename_i hsc
        split at h1
        · cases h1
        · split at h1
          · cases h1
          · obtain ⟨buf, _, h1⟩ := Res.bind_eq_ok.1 h1
            cases h1
            exact ⟨fun _ => g1 hsc, fun e => by rw [e] at hsc; cases hsc⟩
      · rename_i hsc
        cases h1
        have hc : c = '%' := by
          by_contra hne
          exact hs ⟨by simpa using hsc, hne⟩
        refine ⟨fun e => absurd e hsc, fun _ => ?_⟩
        rw [g1 rfl, List.takeWhile_cons_of_neg (by simp [hc])]
        simp

theorem splitScope_ip (spaces : Bool) (M : Nat) (evs : List Ev) (x : List Char × List Char) (h : splitScope spaces M evs = .ok x) :
    x.1.map Ev.ch = evs.takeWhile fun e => decide (e ≠ .ch '%') := by
  unfold splitScope at h
  obtain ⟨st, h1, h⟩ := Res.bind_eq_ok.1 h
  have := (scopeLoop_host spaces M evs _ _ h1).2 rfl
  simp only [List.map_nil, List.nil_append] at this
  split at h
  · obtain ⟨c0, _, h⟩ := Res.bind_eq_ok.1 h
    split at h
    · cases h
    · cases h; exact this
  · cases h; exact this

theorem dottedEnd_iff (spaces : Bool) (M : Nat) (evs : List Ev) (x : List Char × List Char) (h : splitScope spaces M evs = .ok x) :
    DottedEnd evs ↔ '.' ∈ x.1.reverse.takeWhile fun c => decide (c ≠ ':') := by
  rw [DottedEnd, ← splitScope_ip spaces M evs x h, ← List.map_reverse, List.takeWhile_map, List.mem_map]
  have e : ((fun e => decide (e ≠ Ev.ch ':')) ∘ Ev.ch) = fun c => decide (c ≠ ':') := by
    funext c
    simp
  rw [e]
  constructor
  · rintro ⟨c, h1, h2⟩
    cases h2
    exact h1
  · exact fun h => ⟨_, h, rfl⟩

/-- The parser on big endian hosts. -/
theorem v6FromEventsOn_false (spaces : Bool) (M : Nat) (evs : List Ev) : v6FromEventsOn false spaces M evs =
    (v6FromEvents spaces M evs).image fun a => if DottedEnd evs then ⟨mirrorEnd a.bytes, a.scope⟩ else a := by
  unfold v6FromEventsOn v6FromEvents
  by_cases h0 : evs = []
  · rw [if_pos h0, if_pos h0]; rfl
  rw [if_neg h0, if_neg h0, image_of_bind]
  refine bind_congr_at fun x hx => ?_
  have hd := dottedEnd_iff spaces M evs x hx
  rw [parseAddrOn_false, bind_of_image, image_of_bind]
  refine bind_congr_at fun b _ => ?_
  simp only [hd]
  unfold attachScope
  rw [image_of_bind]
  refine bind_congr_at fun c0 _ => ?_
  by_cases hq : '.' ∈ x.1.reverse.takeWhile fun c => decide (c ≠ ':')
  · simp only [hq, if_true]
    split
    · rw [image_of_bind]; rfl
    · rfl
  · simp only [hq, if_false]
    exact (image_same _ _ fun a _ => rfl).symm

theorem v6FromEventsOn_image (le spaces : Bool) (M : Nat) (evs : List Ev) : v6FromEventsOn le spaces M evs =
    (v6FromEvents spaces M evs).image fun a => if le = false ∧ DottedEnd evs then ⟨mirrorEnd a.bytes, a.scope⟩ else a := by
  cases le with
  | false => simpa using v6FromEventsOn_false spaces M evs
  | true =>
    rw [v6FromEventsOn_true]
    exact (image_same _ _ fun a _ => by simp).symm

/-! ### Networks -/

theorem mkFixed_chars (arr : List Char) (f : FStr) (h : mkFixed arr = .ok f) (x : Char) (hx : x ∈ f.contents) : x ∈ arr := by
  obtain ⟨g, g1, _, _, g4⟩ := mkFixed_eq arr
  rw [g1] at h
  cases h
  rw [g4, cstr] at hx
  exact List.mem_of_mem_take ((List.takeWhile_sublist _).mem hx)

theorem readChars_chars (s : List Char) (x : Char) (h : Ev.ch x ∈ readChars s) : x ∈ s := by
  simpa [readChars] using h

theorem not_dotted {evs : List Ev} (h : .ch '.' ∉ evs) : ¬ DottedEnd evs := by
  intro hd
  exact h ((List.takeWhile_sublist _).mem (List.mem_reverse.1 ((List.takeWhile_sublist _).mem hd)))

theorem v6ParseArrayOn_plain (le spaces : Bool) (M : Nat) (arr : List Char) (h : '.' ∉ arr) :
    v6ParseArrayOn le spaces M arr = v6ParseArray spaces M arr := by
  unfold v6ParseArrayOn v6ParseArray
  refine bind_congr_at fun f hf => ?_
  rw [v6FromEventsOn_image]
  refine image_same _ _ fun a _ => if_neg fun hd => ?_
  exact not_dotted (fun hm => h (mkFixed_chars arr f hf '.' (readChars_chars _ _ hm))) hd.2

theorem wr_chars {a b : List Char} {i : Nat} {x y : Char} (h : wr a i x = .ok b) (hy : y ∈ b) : y ∈ a ∨ y = x := by
  unfold wr at h
  split at h
  · cases h
    exact List.mem_or_eq_of_mem_set hy
  · cases h

theorem storeChar_chars {A U : Type} (F : Fam A U) (x : Char) (st : Fam.ParseSt) (r : Fam.ParseSt × Bool) (h : F.storeChar x st = .ok r)
    (y : Char) (hy : y ∈ r.1.address) : y ∈ st.address ∨ y = x := by
  unfold Fam.storeChar at h
  split at h
  · obtain ⟨b, hb, h⟩ := Res.bind_eq_ok.1 h
    cases h
    exact wr_chars hb hy
  · cases h
    exact .inl hy

theorem parseLoop_chars {A U : Type} (F : Fam A U) (y : Char) : ∀ (evs : List Ev) (st st' : Fam.ParseSt), F.parseLoop evs st = .ok st' →
    y ∈ st'.address → y ∈ st.address ∨ .ch y ∈ evs
  | [], st, st', h, hy => by cases h; exact .inl hy
  | .bad _ _ :: _, st, st', h, _ => by cases h
  | .ch x :: rest, st, st', h, hy => by
    have step : ∀ (st1 : Fam.ParseSt), st1.address = st.address →
        (F.storeChar x st1 >>= fun r => if r.2 then Res.ok r.1 else F.parseLoop rest r.1) = .ok st' →
        y ∈ st.address ∨ .ch y ∈ .ch x :: rest := by
      intro st1 e h
      obtain ⟨r, hr, h⟩ := Res.bind_eq_ok.1 h
      have back : y ∈ r.1.address → y ∈ st.address ∨ .ch y ∈ .ch x :: rest := by
        intro hm
        rcases storeChar_chars F x st1 r hr y hm with hm | rfl
        · exact .inl (e ▸ hm)
        · exact .inr (by simp)
      split at h
      · cases h
        exact back hy
      · rcases parseLoop_chars F y rest r.1 st' h hy with hm | hm
        · exact back hm
        · exact .inr (List.mem_cons_of_mem _ hm)
    unfold Fam.parseLoop at h
    by_cases hx : x = '/'
    · rw [if_pos hx] at h
      split at h
      · cases h
      · split at h
        · cases h
        · exact step ⟨st.symbol, st.address, some rest⟩ rfl h
    · rw [if_neg hx] at h
      exact step st rfl h

section
variable {A U : Type} (F : Fam A U) (g : List Char → Res A)

theorem withArray_parseLoop (evs : List Ev) (st : Fam.ParseSt) : Fam.parseLoop { F with parseArray := g } evs st = F.parseLoop evs st := by
  induction evs generalizing st with
  | nil => rfl
  | cons e rest ih =>
    cases e with
    | bad => rfl
    | ch x =>
      simp only [Fam.parseLoop]
      simp only [ih]
      rfl

theorem withArray_parseNet (evs : List Ev) (strict : Bool) (h : ∀ arr, '.' ∉ arr → g arr = F.parseArray arr) (hd : .ch '.' ∉ evs) :
    Fam.parseNet { F with parseArray := g } evs strict = F.parseNet evs strict := by
  simp only [Fam.parseNet, withArray_parseLoop]
  refine bind_congr_at fun st hst => bind_congr_at fun m _ => ?_
  rw [h st.address]
  intro hm
  rcases parseLoop_chars F '.' evs _ st hst hm with hm | hm
  · exact absurd (List.eq_of_mem_replicate hm) (by decide)
  · exact hd hm

end

/-- Texts of networks without dots are read by the same rules on all hosts. -/
theorem fam6On_parseNet (c : Cfg) (evs : List Ev) (strict : Bool) (h : .ch '.' ∉ evs) :
    (fam6On c).parseNet evs strict = (fam6 c).parseNet evs strict :=
  withArray_parseNet (fam6 c) (v6ParseArrayOn c.le c.spaces c.M) evs strict (fun arr ha => v6ParseArrayOn_plain c.le c.spaces c.M arr ha) h

end Ip
