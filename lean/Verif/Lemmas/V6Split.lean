import Verif.Model.V6
import Verif.Lemmas.V4
import Verif.Lemmas.V4Uint
import Verif.Lemmas.Bytes
import Verif.Spec.V6
/-
`split_parts`: the buffer level code computes the colon separated pieces of the text.
-/
set_option autoImplicit false

namespace Ip
open Spec

/-- The characters before the first NUL. -/
def cstr (t : List Char) : List Char := t.takeWhile (· ≠ '\x00')

/-- The pieces between colons. -/
def pieces : List Char → List (List Char)
  | [] => [[]]
  | c :: cs =>
    if c = ':' then [] :: pieces cs
    else match pieces cs with
      | [] => [[c]]
      | p :: ps => (c :: p) :: ps

theorem pieces_ne_nil (s : List Char) : pieces s ≠ [] := by
  cases s with
  | nil => simp [pieces]
  | cons c cs =>
    simp only [pieces]
    split
    · simp
    · split <;> simp

theorem pieces_colon (y : List Char) : ∀ x, pieces (x ++ ':' :: y) = pieces x ++ pieces y
  | [] => by simp [pieces]
  | c :: cs => by
    have ih := pieces_colon y cs
    simp only [List.cons_append, pieces, ih]
    split
    · simp
    · cases h : pieces cs with
      | nil => exact absurd h (pieces_ne_nil _)
      | cons p ps => simp

theorem pieces_noColon : ∀ (t : List Char), (∀ c ∈ t, c ≠ ':') → pieces t = [t]
  | [], _ => rfl
  | c :: cs, h => by
    simp only [pieces, if_neg (h c (by simp)), pieces_noColon cs (fun d hd => h d (by simp [hd]))]

theorem pieces_mem_noColon : ∀ (s : List Char), ∀ p ∈ pieces s, ∀ c ∈ p, c ≠ ':'
  | [] => by simp [pieces]
  | c :: cs => by
    have ih := pieces_mem_noColon cs
    simp only [pieces]
    split
    · intro p hp
      rcases List.mem_cons.1 hp with rfl | hp
      · simp
      · exact ih p hp
    · cases h : pieces cs with
      | nil => exact absurd h (pieces_ne_nil _)
      | cons q qs =>
        rename_i hc
        intro p hp
        rcases List.mem_cons.1 hp with rfl | hp
        · intro d hd
          rcases List.mem_cons.1 hd with rfl | hd
          · exact hc
          · exact ih q (by simp [h]) d hd
        · exact ih p (by simp [h, hp])

theorem colons_cons (t : List Char) (ts : List (List Char)) (h : ts ≠ []) :
    colons (t :: ts) = t ++ ':' :: colons ts := by
  cases ts with
  | nil => exact absurd rfl h
  | cons _ _ => rfl

theorem colons_append (ts us : List (List Char)) (ht : ts ≠ []) (hu : us ≠ []) :
    colons (ts ++ us) = colons ts ++ ':' :: colons us := by
  induction ts with
  | nil => exact absurd rfl ht
  | cons t ts ih =>
    by_cases h : ts = []
    · subst h; rw [List.cons_append, List.nil_append, colons_cons _ _ hu]; rfl
    · rw [List.cons_append, colons_cons _ _ (by simp [h]), ih h, colons_cons _ _ h]; simp

theorem colons_pieces : ∀ (s : List Char), colons (pieces s) = s
  | [] => rfl
  | c :: cs => by
    have ih := colons_pieces cs
    simp only [pieces]
    split
    · rename_i h; rw [colons_cons _ _ (pieces_ne_nil _), ih, h]; rfl
    · cases h : pieces cs with
      | nil => exact absurd h (pieces_ne_nil _)
      | cons p ps =>
        rw [h] at ih
        by_cases hp : ps = []
        · subst hp; simp only [colons] at ih ⊢; rw [ih]
        · rw [colons_cons _ _ hp] at ih ⊢; rw [← ih]; simp

theorem pieces_colons : ∀ (ts : List (List Char)), ts ≠ [] → (∀ t ∈ ts, ∀ c ∈ t, c ≠ ':') →
    pieces (colons ts) = ts
  | [], h, _ => absurd rfl h
  | [t], _, h => pieces_noColon t (h t (by simp))
  | t :: u :: us, _, h => by
    rw [colons_cons _ _ (by simp), pieces_colon, pieces_noColon t (h t (by simp)),
      pieces_colons (u :: us) (by simp) (fun x hx => h x (by simp [hx]))]
    rfl

/-- List level version of the loop: finished pieces and current piece. -/
def absLoop (done : List (List Char)) (cur : List Char) : List Char → Option (List (List Char) × List Char)
  | [] => some (done, cur)
  | c :: cs =>
    if done.length > 8 then none
    else if c ≠ ':' then
      if cur.length > 15 then none else absLoop done (cur ++ [c]) cs
    else if cur.length > 4 then none else absLoop (done ++ [cur]) [] cs

/-- Relation between the buffers and the list level state. -/
structure PartsRel (st : PartsSt) (done : List (List Char)) (cur : List Char) : Prop where
  parts : ∃ D F, st.parts = D ++ F ∧ D.map (fun r => cstr (r.take 4)) = done.map cstr ∧
    F.length = 9 - done.length ∧ ∀ r ∈ D ++ F, r.length = 5
  last : ∃ rest, st.last = cur ++ '\x00' :: rest
  lastLen : st.last.length = 17
  count : st.count = done.length
  symbol : st.symbol = cur.length
  le : done.length ≤ 9

theorem wr2_append {α : Type} (p : List (List α)) (r r' : List α) (q : List (List α)) (i j : Nat) (x : α)
    (h : i = p.length) (hr : wr r j x = .ok r') : wr2 (p ++ r :: q) i j x = .ok (p ++ r' :: q) := by
  unfold wr2
  rw [rd_append _ _ _ _ h, Res.ok_bind, hr, Res.ok_bind, wr_append _ _ _ _ _ h]

theorem len5 {α : Type} (r : List α) (h : r.length = 5) : ∃ a b c d e, r = [a, b, c, d, e] := by
  match r, h with
  | [a, b, c, d, e], _ => exact ⟨a, b, c, d, e, rfl⟩

theorem storePart_eq (D F : List (List Char)) (r : List Char) (count : Nat) (last : List Char)
    (hr : r.length = 5) (hc : count = D.length) (hl : 4 ≤ last.length) :
    ∃ r', storePart (D ++ r :: F) count last = .ok (D ++ r' :: F) ∧ r'.length = 5 ∧
      r'.take 4 = last.take 4 := by
  obtain ⟨a, b, c, d, e, rfl⟩ := len5 r hr
  match last, hl with
  | l0 :: l1 :: l2 :: l3 :: ls, _ =>
    refine ⟨[l0, l1, l2, l3, e], ?_, rfl, rfl⟩
    unfold storePart
    simp only [rd, List.getElem?_cons_zero, List.getElem?_cons_succ, Res.ok_bind]
    rw [wr2_append D _ [l0, b, c, d, e] F count 0 l0 hc rfl, Res.ok_bind,
      wr2_append D _ [l0, l1, c, d, e] F count 1 l1 hc rfl, Res.ok_bind,
      wr2_append D _ [l0, l1, l2, d, e] F count 2 l2 hc rfl, Res.ok_bind,
      wr2_append D _ [l0, l1, l2, l3, e] F count 3 l3 hc rfl]

theorem cstr_take (rest : List Char) : ∀ (cur : List Char) (n : Nat), cur.length ≤ n →
    cstr ((cur ++ '\x00' :: rest).take n) = cstr cur
  | [], 0, _ => rfl
  | [], n + 1, _ => by simp [cstr]
  | c :: cs, 0, h => by simp at h
  | c :: cs, n + 1, h => by
    have := cstr_take rest cs n (by simpa using h)
    simp only [cstr, List.cons_append, List.take_succ_cons, List.takeWhile_cons] at this ⊢
    rw [this]

theorem storePart_rel {st : PartsSt} {done : List (List Char)} {cur : List Char}
    (h : PartsRel st done cur) (hd : done.length ≤ 8) (hc : cur.length ≤ 4) :
    ∃ parts, storePart st.parts st.count st.last = .ok parts ∧
      ∃ D F, parts = D ++ F ∧ D.map (fun r => cstr (r.take 4)) = (done ++ [cur]).map cstr ∧
        F.length = 9 - (done ++ [cur]).length ∧ ∀ r ∈ D ++ F, r.length = 5 := by
  obtain ⟨D, F, h1, h2, h3, h4⟩ := h.parts
  obtain ⟨rest, hl⟩ := h.last
  have hDl : D.length = done.length := by simpa using congrArg List.length h2
  match F, h3 with
  | [], h3 => simp at h3; omega
  | r :: F, h3 =>
    obtain ⟨r', e1, e2, e3⟩ := storePart_eq D F r st.count st.last (h4 r (by simp))
      (by rw [h.count, hDl]) (by rw [h.lastLen]; omega)
    refine ⟨_, by rw [h1]; exact e1, D ++ [r'], F, by simp, ?_, ?_, ?_⟩
    · rw [List.map_append, List.map_append, h2]
      simp only [List.map_cons, List.map_nil, e3, hl, cstr_take rest cur 4 hc]
    · simp at h3 ⊢; omega
    · intro x hx
      simp only [List.append_assoc, List.cons_append, List.nil_append, List.mem_append,
        List.mem_cons] at hx
      rcases hx with hx | rfl | hx
      · exact h4 x (by simp [hx])
      · exact e2
      · exact h4 x (by simp [hx])

theorem partsStep_rel {st : PartsSt} {done : List (List Char)} {cur : List Char} (c : Char)
    (h : PartsRel st done cur) :
    (done.length > 8 → ∃ e v, partsStep st c = .err e v) ∧
    (done.length ≤ 8 → c ≠ ':' → cur.length > 15 → ∃ e v, partsStep st c = .err e v) ∧
    (done.length ≤ 8 → c = ':' → cur.length > 4 → ∃ e v, partsStep st c = .err e v) ∧
    (done.length ≤ 8 → c ≠ ':' → cur.length ≤ 15 →
      ∃ st', partsStep st c = .ok st' ∧ PartsRel st' done (cur ++ [c])) ∧
    (done.length ≤ 8 → c = ':' → cur.length ≤ 4 →
      ∃ st', partsStep st c = .ok st' ∧ PartsRel st' (done ++ [cur]) []) := by
  have hcnt := h.count
  have hsym := h.symbol
  refine ⟨?_, ?_, ?_, ?_, ?_⟩
  · intro hd
    simp only [partsStep, hcnt, if_pos hd]
    exact ⟨_, _, rfl⟩
  · intro hd hc hl
    simp only [partsStep, hcnt, hsym]
    rw [if_neg (by omega), if_pos hc, if_pos hl]
    exact ⟨_, _, rfl⟩
  · intro hd hc hl
    simp only [partsStep, hcnt, hsym]
    rw [if_neg (by omega), if_neg (by simp [hc]), if_pos hl]
    exact ⟨_, _, rfl⟩
  · intro hd hc hl
    obtain ⟨rest, hlast⟩ := h.last
    have hll := h.lastLen
    rw [hlast] at hll
    match rest, hlast, hll with
    | [], _, hll => simp at hll; omega
    | x :: rest, hlast, hll =>
      have e1 : wr st.last st.symbol c = .ok (cur ++ c :: x :: rest) := by
        rw [hlast]; exact wr_append _ _ _ _ _ hsym
      have e2 : wr (cur ++ c :: x :: rest) (st.symbol + 1) '\x00' = .ok (cur ++ c :: '\x00' :: rest) := by
        have := wr_append (cur ++ [c]) x '\x00' rest (st.symbol + 1) (by simp [hsym])
        simpa using this
      simp only [partsStep]
      rw [if_neg (by omega), if_pos hc, if_neg (by omega), e1, Res.ok_bind, e2, Res.ok_bind]
      refine ⟨_, rfl, ⟨h.parts, ⟨rest, by simp⟩, ?_, hcnt, by simp [hsym], h.le⟩⟩
      simp at hll ⊢; omega
  · intro hd hc hl
    obtain ⟨parts, e1, D, F, e2⟩ := storePart_rel h hd hl
    have hll := h.lastLen
    have e3 : ∃ rest, wr st.last 0 '\x00' = .ok ('\x00' :: rest) ∧ rest.length = 16 := by
      match hm : st.last, hll with
      | a :: rest, hm' => exact ⟨rest, rfl, by simpa using hm'⟩
    obtain ⟨rest, e3, hr⟩ := e3
    simp only [partsStep]
    rw [if_neg (by omega), if_neg (by simp [hc]), if_neg (by omega), e1, Res.ok_bind, e3, Res.ok_bind]
    exact ⟨_, rfl, ⟨⟨D, F, e2⟩, ⟨rest, rfl⟩, by simp [hr], by simp [hcnt], rfl, by simp; omega⟩⟩

theorem partsLoop_rel : ∀ (cs : List Char) (st : PartsSt) (done : List (List Char)) (cur : List Char),
    PartsRel st done cur →
    (absLoop done cur cs = none → ∃ e v, partsLoop st cs = .err e v) ∧
    (∀ d k, absLoop done cur cs = some (d, k) → ∃ st', partsLoop st cs = .ok st' ∧ PartsRel st' d k)
  | [], st, done, cur, h => by
    simp only [absLoop, partsLoop]
    exact ⟨by simp, by rintro d k ⟨⟩; exact ⟨_, rfl, h⟩⟩
  | c :: cs, st, done, cur, h => by
    obtain ⟨h1, h2, h3, h4, h5⟩ := partsStep_rel c h
    simp only [absLoop, partsLoop]
    split
    · rename_i hd
      obtain ⟨e, v, he⟩ := h1 hd
      rw [he]
      exact ⟨fun _ => ⟨e, v, rfl⟩, by simp⟩
    · rename_i hd
      split
      · rename_i hc
        split
        · rename_i hl
          obtain ⟨e, v, he⟩ := h2 (by omega) hc hl
          rw [he]
          exact ⟨fun _ => ⟨e, v, rfl⟩, by simp⟩
        · rename_i hl
          obtain ⟨st', he, hr⟩ := h4 (by omega) hc (by omega)
          rw [he, Res.ok_bind]
          exact partsLoop_rel cs st' _ _ hr
      · rename_i hc
        split
        · rename_i hl
          obtain ⟨e, v, he⟩ := h3 (by omega) (by simpa using hc) hl
          rw [he]
          exact ⟨fun _ => ⟨e, v, rfl⟩, by simp⟩
        · rename_i hl
          obtain ⟨st', he, hr⟩ := h5 (by omega) (by simpa using hc) (by omega)
          rw [he, Res.ok_bind]
          exact partsLoop_rel cs st' _ _ hr

theorem partsInit_rel : PartsRel partsInit [] [] := by
  refine ⟨⟨[], List.replicate 9 (List.replicate 5 '\x00'), rfl, rfl, rfl, ?_⟩, ⟨List.replicate 16 '\x00', rfl⟩,
    rfl, rfl, rfl, by simp⟩
  intro r hr
  simp only [List.nil_append] at hr
  rw [List.eq_of_mem_replicate hr]; rfl

/-- `pieces` with a prefix of the first piece. -/
def prefixPiece (cur : List Char) : List (List Char) → List (List Char)
  | [] => [cur]
  | p :: ps => (cur ++ p) :: ps

theorem absLoop_pieces : ∀ (cs : List Char) (done : List (List Char)) (cur : List Char)
    (d : List (List Char)) (k : List Char), absLoop done cur cs = some (d, k) →
    done ++ prefixPiece cur (pieces cs) = d ++ [k] ∧ ((∀ p ∈ done, p.length ≤ 4) → ∀ p ∈ d, p.length ≤ 4) ∧
      (cur.length ≤ 16 → k.length ≤ 16)
  | [], done, cur, d, k, h => by
    simp only [absLoop, Option.some.injEq, Prod.mk.injEq] at h
    obtain ⟨rfl, rfl⟩ := h
    simp [pieces, prefixPiece]
  | c :: cs, done, cur, d, k, h => by
    simp only [absLoop] at h
    split at h
    · cases h
    · split at h
      · rename_i hc
        split at h
        · cases h
        · rename_i hl
          obtain ⟨h1, h2, h3⟩ := absLoop_pieces cs done (cur ++ [c]) d k h
          refine ⟨?_, h2, fun _ => h3 (by simp; omega)⟩
          rw [← h1]
          simp only [pieces, if_neg hc]
          cases hp : pieces cs with
          | nil => exact absurd hp (pieces_ne_nil _)
          | cons p ps => simp [prefixPiece]
      · rename_i hc
        have hc : c = ':' := by simpa using hc
        split at h
        · cases h
        · rename_i hl
          obtain ⟨h1, h2, h3⟩ := absLoop_pieces cs (done ++ [cur]) [] d k h
          refine ⟨?_, ?_, fun _ => h3 (by simp)⟩
          · rw [← h1]
            simp only [pieces, if_pos hc]
            cases hp : pieces cs with
            | nil => exact absurd hp (pieces_ne_nil _)
            | cons p ps => simp [prefixPiece]
          · intro hd
            apply h2
            intro p hp
            rcases List.mem_append.1 hp with hp | hp
            · exact hd p hp
            · have hp := List.mem_singleton.1 hp
              rw [hp]; omega

theorem absLoop_complete : ∀ (cs : List Char) (done : List (List Char)) (cur : List Char)
    (d : List (List Char)) (k : List Char), done ++ prefixPiece cur (pieces cs) = d ++ [k] →
    (∀ p ∈ d, p.length ≤ 4) → k.length ≤ 16 → d.length ≤ 8 → absLoop done cur cs = some (d, k)
  | [], done, cur, d, k, h, _, _, _ => by
    simp only [pieces, prefixPiece, List.append_nil] at h
    obtain ⟨rfl, h⟩ := List.append_inj' h (by simp)
    simp at h
    simp [absLoop, h]
  | c :: cs, done, cur, d, k, h, h4, hk, hd => by
    have hlen : done.length ≤ d.length := by
      have := congrArg List.length h
      simp only [List.length_append, List.length_singleton] at this
      have : 1 ≤ (prefixPiece cur (pieces (c :: cs))).length := by
        unfold prefixPiece; split <;> simp
      omega
    simp only [absLoop]
    rw [if_neg (by omega)]
    split
    · rename_i hc
      have h' : done ++ prefixPiece (cur ++ [c]) (pieces cs) = d ++ [k] := by
        rw [← h]
        simp only [pieces, if_neg hc]
        cases hp : pieces cs with
        | nil => exact absurd hp (pieces_ne_nil _)
        | cons p ps => simp [prefixPiece]
      have hl : cur.length ≤ 15 := by
        cases hp : pieces cs with
        | nil => exact absurd hp (pieces_ne_nil _)
        | cons p ps =>
          rw [hp] at h'
          simp only [prefixPiece] at h'
          have hm : (cur ++ [c] ++ p) ∈ d ++ [k] := by rw [← h']; simp
          rcases List.mem_append.1 hm with hm | hm
          · have := h4 _ hm; simp at this; omega
          · have hm := List.mem_singleton.1 hm
            have := hk; rw [← hm] at this; simp at this; omega
      rw [if_neg (by omega)]
      exact absLoop_complete cs done (cur ++ [c]) d k h' h4 hk hd
    · rename_i hc
      have hc : c = ':' := by simpa using hc
      have h' : done ++ [cur] ++ prefixPiece [] (pieces cs) = d ++ [k] := by
        rw [← h]
        simp only [pieces, if_pos hc]
        cases hp : pieces cs with
        | nil => exact absurd hp (pieces_ne_nil _)
        | cons p ps => simp [prefixPiece]
      have hl : cur.length ≤ 4 := by
        have hlen : done.length < d.length := by
          have := congrArg List.length h'
          have h1 : 1 ≤ (prefixPiece [] (pieces cs)).length := by
            unfold prefixPiece; split <;> simp
          simp only [List.length_append, List.length_singleton] at this
          omega
        have hg := congrArg (fun l => l[done.length]?) h'
        simp only [List.append_assoc, List.getElem?_append_right (Nat.le_refl _), Nat.sub_self,
          List.cons_append, List.getElem?_cons_zero, List.getElem?_append_left hlen] at hg
        exact h4 cur (List.mem_of_getElem? hg.symm)
      rw [if_neg (by omega)]
      exact absLoop_complete cs (done ++ [cur]) [] d k h' h4 hk hd

theorem hasDotLoop_eq (rest : List Char) : ∀ (cur pre : List Char),
    hasDotLoop (pre ++ cur ++ rest) cur.length pre.length = .ok (decide ('.' ∈ cur))
  | [], pre => by simp [hasDotLoop]
  | c :: cs, pre => by
    have ih := hasDotLoop_eq rest cs (pre ++ [c])
    simp only [List.append_assoc, List.cons_append, List.nil_append, List.length_append,
      List.length_cons, List.length_nil, Nat.zero_add] at ih
    simp only [List.length_cons, hasDotLoop, List.append_assoc, List.cons_append]
    rw [rd_append _ _ _ _ rfl, Res.ok_bind]
    by_cases hc : c = '.'
    · simp [hc]
    · rw [if_neg hc, ih]
      simp only [List.mem_cons, Ne.symm hc, false_or]

theorem mkFixed_eq (arr : List Char) :
    ∃ f, mkFixed arr = .ok f ∧ f.WF ∧ f.data.length = arr.length - 1 ∧
      f.contents = cstr (arr.take (arr.length - 1)) :=
  FStr.ofEvents_eq (arr.length - 1) (arr.take (arr.length - 1)) (by simp)

theorem rd_hexDigits (n : Nat) (h : n < 16) : rd hexDigits n = .ok n.digitChar := by
  have : ∀ m : Fin 16, rd hexDigits m.val = .ok m.val.digitChar := by decide
  exact this ⟨n, h⟩

theorem nibble (v : BitVec 16) (j : Nat) : ((v >>> j) &&& 0x0f#16).toNat = v.toNat / 2 ^ j % 16 := by
  rw [BitVec.toNat_and, BitVec.toNat_ushiftRight, Nat.shiftRight_eq_div_pow]
  exact Nat.and_two_pow_sub_one_eq_mod _ 4

theorem toHex_eq (v : BitVec 16) (r : List Char) (hr : r.length = 5) :
    toHex v r = .ok (hex4 v.toNat ++ ['\x00']) := by
  obtain ⟨a, b, c, d, e, rfl⟩ := len5 r hr
  unfold toHex
  simp only [toHexLoop, nibble]
  rw [rd_hexDigits _ (Nat.mod_lt _ (by omega)), rd_hexDigits _ (Nat.mod_lt _ (by omega)),
    rd_hexDigits _ (Nat.mod_lt _ (by omega)), rd_hexDigits _ (Nat.mod_lt _ (by omega))]
  simp [wr, hex4]

theorem mkFixedAll_eq : ∀ (rows : List (List Char)), (∀ r ∈ rows, r.length = 5) →
    ∃ fs, mkFixedAll rows = .ok fs ∧ fs.map FStr.contents = rows.map (fun r => cstr (r.take 4)) ∧
      ∀ f ∈ fs, f.WF ∧ f.data.length = 4
  | [], _ => ⟨[], rfl, rfl, by simp⟩
  | r :: rows, h => by
    obtain ⟨fs, h1, h2, h3⟩ := mkFixedAll_eq rows (fun x hx => h x (by simp [hx]))
    obtain ⟨f, e1, e2, e3, e4⟩ := mkFixed_eq r
    have hr := h r (by simp)
    refine ⟨f :: fs, by simp [mkFixedAll, e1, h1], ?_, ?_⟩
    · simp only [List.map_cons, h2, e4, hr]
    · intro x hx
      rcases List.mem_cons.1 hx with rfl | hx
      · exact ⟨e2, by rw [e3, hr]⟩
      · exact h3 x hx

theorem digitChar_ne_nul (n : Nat) (h : n < 16) : n.digitChar ≠ '\x00' := by
  have : ∀ m : Fin 16, m.val.digitChar ≠ '\x00' := by decide
  exact this ⟨n, h⟩

theorem cstr_hex4 (v : Nat) : cstr (hex4 v) = hex4 v := by
  have h : ∀ m, (m % 16).digitChar ≠ '\x00' := fun m => digitChar_ne_nul _ (Nat.mod_lt _ (by omega))
  simp [cstr, hex4, h]

theorem v4ParseArray_eq (arr : List Char) :
    v4ParseArray arr = v4Parse (cstr (arr.take (arr.length - 1))) := by
  obtain ⟨f, e1, _, _, e4⟩ := mkFixed_eq arr
  simp only [v4ParseArray, e1, Res.ok_bind, e4]
  rfl

/-- What `split_parts` accepts and the parts it returns. -/
inductive SplitOk (cs : List Char) : List (List Char) → Prop
  | hex (d : List (List Char)) (k : List Char) : pieces cs = d ++ [k] → (∀ p ∈ d, p.length ≤ 4) →
      k.length ≤ 4 → '.' ∉ k → 2 ≤ d.length → d.length ≤ 8 → SplitOk cs ((d ++ [k]).map cstr)
  | quad (d : List (List Char)) (k : List Char) (w x y z : BitVec 8) : pieces cs = d ++ [k] →
      (∀ p ∈ d, p.length ≤ 4) → k.length ≤ 16 → '.' ∈ k → cstr k = dotted w x y z → 1 ≤ d.length →
      d.length ≤ 6 →
      SplitOk cs (d.map cstr ++ [hex4 (w.toNat * 256 + x.toNat), hex4 (y.toNat * 256 + z.toNat)])

/-- The fixed strings returned hold the parts `P`, followed by unused ones. -/
def FsRel (fs : List FStr) (P : List (List Char)) : Prop :=
  (∃ g, fs.map FStr.contents = P ++ g) ∧ ∀ f ∈ fs, f.WF ∧ f.data.length = 4

theorem collect_rel (D F : List (List Char)) (n : Nat) (h5 : ∀ r ∈ D ++ F, r.length = 5)
    (hn : n = D.length) (h3 : 3 ≤ n) :
    ∃ fs, collectParts (D ++ F, n) = .ok (fs, n) ∧ FsRel fs (D.map (fun r => cstr (r.take 4))) := by
  obtain ⟨fs, e1, e2, e3⟩ := mkFixedAll_eq (D ++ F) h5
  refine ⟨fs, ?_, ⟨F.map (fun r => cstr (r.take 4)), by rw [e2, List.map_append]⟩, e3⟩
  simp only [collectParts]
  rw [if_neg (by omega), e1, Res.ok_bind]

theorem cat4_hi (w x y z : BitVec 8) :
    (((cat4 w x y z >>> 16) &&& 0xFFFF#32).setWidth 16).toNat = w.toNat * 256 + x.toNat := by
  have h := cat4_toNat w x y z
  simp only [beValue, List.length_cons, List.length_nil] at h
  have := w.isLt; have := x.isLt; have := y.isLt; have := z.isLt
  rw [BitVec.toNat_setWidth, BitVec.toNat_and, BitVec.toNat_ushiftRight, Nat.shiftRight_eq_div_pow]
  have e : (cat4 w x y z).toNat / 2 ^ 16 &&& (0xFFFF#32).toNat = (cat4 w x y z).toNat / 2 ^ 16 % 2 ^ 16 :=
    Nat.and_two_pow_sub_one_eq_mod _ 16
  rw [e, h]
  omega

theorem cat4_lo (w x y z : BitVec 8) :
    ((cat4 w x y z &&& 0xFFFF#32).setWidth 16).toNat = y.toNat * 256 + z.toNat := by
  have h := cat4_toNat w x y z
  simp only [beValue, List.length_cons, List.length_nil] at h
  have := w.isLt; have := x.isLt; have := y.isLt; have := z.isLt
  rw [BitVec.toNat_setWidth, BitVec.toNat_and]
  have e : (cat4 w x y z).toNat &&& (0xFFFF#32).toNat = (cat4 w x y z).toNat % 2 ^ 16 :=
    Nat.and_two_pow_sub_one_eq_mod _ 16
  rw [e, h]
  omega

theorem append_singleton_inj {α : Type} {a b : List α} {x y : α} (h : a ++ [x] = b ++ [y]) : a = b ∧ x = y := by
  obtain ⟨h1, h2⟩ := List.append_inj' h rfl
  exact ⟨h1, by simpa using h2⟩

theorem partsFinish_rel {st : PartsSt} {d : List (List Char)} {k : List Char} {cs : List Char}
    (h : PartsRel st d k) (hp : pieces cs = d ++ [k]) (h4 : ∀ p ∈ d, p.length ≤ 4) (hk : k.length ≤ 16) :
    (∃ P fs, SplitOk cs P ∧ partsFinish st = .ok (fs, P.length) ∧ FsRel fs P) ∨
    ((¬ ∃ P, SplitOk cs P) ∧ ∃ e v, partsFinish st = .err e v) := by
  obtain ⟨D, F, p1, p2, p3, p5⟩ := h.parts
  have hDl : D.length = d.length := by simpa using congrArg List.length p2
  obtain ⟨rest, hlast⟩ := h.last
  have hll := h.lastLen
  have hcnt := h.count
  have hsym := h.symbol
  have hle := h.le
  by_cases hc : st.count > 8
  · right
    have hno : ¬ ∃ P, SplitOk cs P := by
      rintro ⟨P, hP⟩
      cases hP with
      | hex d' k' q1 q2 q3 q4 q5 q6 =>
        obtain ⟨rfl, rfl⟩ := append_singleton_inj (q1 ▸ hp : d' ++ [k'] = d ++ [k])
        omega
      | quad d' k' w x y z q1 q2 q3 q4 q5 q6 q7 =>
        obtain ⟨rfl, rfl⟩ := append_singleton_inj (q1 ▸ hp : d' ++ [k'] = d ++ [k])
        omega
    refine ⟨hno, ?_⟩
    have hd9 : d.length = 9 := by omega
    have e0 : ∃ c, rd2 st.parts 0 0 = .ok c := by
      rw [p1]
      match D, hDl with
      | r :: D', _ =>
        obtain ⟨a, b, c, d, e, rfl⟩ := len5 r (p5 r (by simp))
        exact ⟨a, rfl⟩
      | [], hDl => simp at hDl; omega
    have e1 : ∃ c, rd2 st.parts 1 0 = .ok c := by
      rw [p1]
      match D, hDl with
      | r0 :: r :: D', _ =>
        obtain ⟨a, b, c, d, e, rfl⟩ := len5 r (p5 r (by simp))
        exact ⟨a, rfl⟩
      | [_], hDl => simp at hDl; omega
      | [], hDl => simp at hDl; omega
    obtain ⟨c0, e0⟩ := e0
    obtain ⟨c1, e1⟩ := e1
    have e2 := rd_of_lt st.last 0 (by omega)
    simp only [partsFinish]
    rw [if_pos hc, e0, Res.ok_bind, e1, Res.ok_bind, e2, Res.ok_bind]
    split
    · exact ⟨_, _, rfl⟩
    · split <;> exact ⟨_, _, rfl⟩
  · have hdot : hasDotLoop st.last st.symbol 0 = .ok (decide ('.' ∈ k)) := by
      rw [hlast, hsym]
      exact hasDotLoop_eq ('\x00' :: rest) k []
    simp only [partsFinish]
    rw [if_neg hc, hdot, Res.ok_bind]
    by_cases hd : '.' ∈ k
    · simp only [hd, decide_true, lastParts, if_true]
      by_cases h8 : st.count + 1 ≥ 8
      · right
        rw [if_pos h8]
        refine ⟨?_, ⟨_, _, rfl⟩⟩
        rintro ⟨P, hP⟩
        cases hP with
        | hex d' k' q1 q2 q3 q4 q5 q6 =>
          obtain ⟨rfl, rfl⟩ := append_singleton_inj (q1 ▸ hp : d' ++ [k'] = d ++ [k])
          exact q4 hd
        | quad d' k' w x y z q1 q2 q3 q4 q5 q6 q7 =>
          obtain ⟨rfl, rfl⟩ := append_singleton_inj (q1 ▸ hp : d' ++ [k'] = d ++ [k])
          omega
      · rw [if_neg h8]
        have hv : v4ParseArray st.last = v4Parse (cstr k) := by
          rw [v4ParseArray_eq, hll, hlast, cstr_take _ _ _ (by omega)]
        rw [hv]
        cases hpar : v4Parse (cstr k) with
        | ub => exact absurd hpar (v4FromEvents_ne_ub _)
        | err e v =>
          right
          refine ⟨?_, ⟨_, _, rfl⟩⟩
          rintro ⟨P, hP⟩
          cases hP with
          | hex d' k' q1 q2 q3 q4 q5 q6 =>
            obtain ⟨rfl, rfl⟩ := append_singleton_inj (q1 ▸ hp : d' ++ [k'] = d ++ [k])
            exact q4 hd
          | quad d' k' w x y z q1 q2 q3 q4 q5 q6 q7 =>
            obtain ⟨rfl, rfl⟩ := append_singleton_inj (q1 ▸ hp : d' ++ [k'] = d ++ [k])
            rw [(v4Parse_ok_iff _ _).2 ⟨w, x, y, z, rfl, q5⟩] at hpar
            cases hpar
        | ok r =>
          obtain ⟨w, x, y, z, rfl, hquad⟩ := (v4Parse_ok_iff _ _).1 hpar
          match F, p3 with
          | [], p3 => simp at p3; omega
          | [_], p3 => simp at p3; omega
          | r0 :: r1 :: F, p3 =>
            simp only [withValue, Res.ok_bind, v4ToUint_le]
            have g1 : rd st.parts st.count = .ok r0 := by rw [p1]; exact rd_append _ _ _ _ (by omega)
            rw [g1, Res.ok_bind, toHex_eq _ _ (p5 r0 (by simp)), Res.ok_bind, p1,
              wr_append _ _ _ _ _ (by omega), Res.ok_bind]
            have g2 := rd_append (D ++ [hex4 (((cat4 w x y z >>> 16) &&& 0xFFFF#32).setWidth 16).toNat ++ ['\x00']]) r1 F
              (st.count + 1) (by simp; omega)
            have g3 := wr_append (D ++ [hex4 (((cat4 w x y z >>> 16) &&& 0xFFFF#32).setWidth 16).toNat ++ ['\x00']]) r1
              (hex4 ((cat4 w x y z &&& 0xFFFF#32).setWidth 16).toNat ++ ['\x00']) F (st.count + 1) (by simp; omega)
            simp only [List.append_assoc, List.cons_append, List.nil_append] at g2 g3
            rw [g2, Res.ok_bind, toHex_eq _ _ (p5 r1 (by simp)), Res.ok_bind, g3, Res.ok_bind,
              cat4_hi, cat4_lo]
            by_cases h1 : d.length = 0
            · right
              refine ⟨?_, ⟨.least_3_parts, 2, ?_⟩⟩
              · rintro ⟨P, hP⟩
                cases hP with
                | hex d' k' q1 q2 q3 q4 q5 q6 =>
                  obtain ⟨rfl, rfl⟩ := append_singleton_inj (q1 ▸ hp : d' ++ [k'] = d ++ [k])
                  exact q4 hd
                | quad d' k' w x y z q1 q2 q3 q4 q5 q6 q7 =>
                  obtain ⟨rfl, rfl⟩ := append_singleton_inj (q1 ▸ hp : d' ++ [k'] = d ++ [k])
                  omega
              · simp [collectParts, hcnt, h1]
            · left
              have hrows : ∀ r ∈ (D ++ [hex4 (w.toNat * 256 + x.toNat) ++ ['\x00'], hex4 (y.toNat * 256 + z.toNat) ++ ['\x00']]) ++ F,
                  r.length = 5 := by
                intro r hr
                simp only [List.append_assoc, List.cons_append, List.nil_append, List.mem_append,
                  List.mem_cons] at hr
                rcases hr with hr | rfl | rfl | hr
                · exact p5 r (by simp [hr])
                · simp [hex4]
                · simp [hex4]
                · exact p5 r (by simp [hr])
              obtain ⟨fs, f1, f2⟩ := collect_rel _ F (st.count + 2) hrows (by simp; omega) (by omega)
              refine ⟨_, fs, SplitOk.quad d k w x y z hp h4 hk hd hquad (by omega) (by omega), ?_, ?_⟩
              · simp only [List.append_assoc, List.cons_append, List.nil_append] at f1
                rw [Res.ok_bind, f1]
                simp [hcnt]
              · have : (D ++ [hex4 (w.toNat * 256 + x.toNat) ++ ['\x00'],
                    hex4 (y.toNat * 256 + z.toNat) ++ ['\x00']]).map (fun r => cstr (r.take 4)) =
                    d.map cstr ++ [hex4 (w.toNat * 256 + x.toNat), hex4 (y.toNat * 256 + z.toNat)] := by
                  rw [List.map_append, p2]
                  have ht : ∀ v, (hex4 v ++ ['\x00']).take 4 = hex4 v := fun v => by simp [hex4]
                  simp only [List.map_cons, List.map_nil, ht, cstr_hex4]
                rw [← this]; exact f2
    · simp only [hd, decide_false, lastParts, Bool.false_eq_true, if_false]
      by_cases hs : st.symbol > 4
      · right
        rw [if_pos hs]
        refine ⟨?_, ⟨_, _, rfl⟩⟩
        rintro ⟨P, hP⟩
        cases hP with
        | hex d' k' q1 q2 q3 q4 q5 q6 =>
          obtain ⟨rfl, rfl⟩ := append_singleton_inj (q1 ▸ hp : d' ++ [k'] = d ++ [k])
          omega
        | quad d' k' w x y z q1 q2 q3 q4 q5 q6 q7 =>
          obtain ⟨rfl, rfl⟩ := append_singleton_inj (q1 ▸ hp : d' ++ [k'] = d ++ [k])
          exact hd q4
      · rw [if_neg hs]
        obtain ⟨parts, s1, D', F', s2, s3, s4, s5⟩ := storePart_rel h (by omega) (by omega)
        rw [s1, Res.ok_bind, Res.ok_bind, s2]
        have hDl' : D'.length = d.length + 1 := by simpa using congrArg List.length s3
        by_cases h2 : d.length < 2
        · right
          refine ⟨?_, ⟨.least_3_parts, st.count + 1, ?_⟩⟩
          · rintro ⟨P, hP⟩
            cases hP with
            | hex d' k' q1 q2 q3 q4 q5 q6 =>
              obtain ⟨rfl, rfl⟩ := append_singleton_inj (q1 ▸ hp : d' ++ [k'] = d ++ [k])
              omega
            | quad d' k' w x y z q1 q2 q3 q4 q5 q6 q7 =>
              obtain ⟨rfl, rfl⟩ := append_singleton_inj (q1 ▸ hp : d' ++ [k'] = d ++ [k])
              exact hd q4
          · simp only [collectParts]
            rw [if_pos (by omega)]
        · left
          obtain ⟨fs, f1, f2⟩ := collect_rel D' F' (st.count + 1) s5 (by omega) (by omega)
          refine ⟨_, fs, SplitOk.hex d k hp h4 (by omega) hd (by omega) (by omega), ?_, ?_⟩
          · rw [f1]; simp [hcnt]
          · rw [← s3]; exact f2

theorem splitParts_rel (cs : List Char) :
    (∃ P fs, SplitOk cs P ∧ splitParts cs = .ok (fs, P.length) ∧ FsRel fs P) ∨
    ((¬ ∃ P, SplitOk cs P) ∧ ∃ e v, splitParts cs = .err e v) := by
  obtain ⟨h1, h2⟩ := partsLoop_rel cs partsInit [] [] partsInit_rel
  have hpp : prefixPiece [] (pieces cs) = pieces cs := by
    cases hp : pieces cs with
    | nil => exact absurd hp (pieces_ne_nil _)
    | cons p ps => rfl
  cases ha : absLoop [] [] cs with
  | none =>
    obtain ⟨e, v, he⟩ := h1 ha
    right
    refine ⟨?_, e, v, by simp [splitParts, he]⟩
    rintro ⟨P, hP⟩
    cases hP with
    | hex d k q1 q2 q3 q4 q5 q6 =>
      rw [absLoop_complete cs [] [] d k (by rw [hpp, q1]; rfl) q2 (by omega) (by omega)] at ha
      cases ha
    | quad d k w x y z q1 q2 q3 q4 q5 q6 q7 =>
      rw [absLoop_complete cs [] [] d k (by rw [hpp, q1]; rfl) q2 (by omega) (by omega)] at ha
      cases ha
  | some dk =>
    obtain ⟨d, k⟩ := dk
    obtain ⟨st, he, hr⟩ := h2 d k ha
    obtain ⟨g1, g2, g3⟩ := absLoop_pieces cs [] [] d k ha
    simp only [splitParts, he, Res.ok_bind]
    refine partsFinish_rel hr ?_ (g2 (by simp)) (g3 (by simp))
    rw [← hpp]; simpa using g1

end Ip
