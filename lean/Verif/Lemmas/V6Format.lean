import Verif.Lemmas.V6Scope
import Verif.Lemmas.V6Runs
/-
Formatting of IPv6 addresses (`ip_to_chars`).
-/
set_option autoImplicit false

namespace Ip
open Spec

/-- A hextet array: a text of at most four characters, padded with NUL to five. -/
def row (t : List Char) : List Char := t ++ List.replicate (5 - t.length) '\x00'

/-- The groups of a list of bytes. -/
def groupsOf : List (BitVec 8) → List Nat
  | a :: b :: r => (a.toNat * 256 + b.toNat) :: groupsOf r
  | _ => []

theorem groupBytes_groupsOf : ∀ (n : Nat) (l : List (BitVec 8)), l.length = 2 * n →
    groupBytes (groupsOf l) = l ∧ (groupsOf l).length = n ∧ ∀ v ∈ groupsOf l, v < 65536
  | 0, [], _ => by simp [groupsOf, groupBytes]
  | n + 1, a :: b :: r, h => by
    obtain ⟨h1, h2, h3⟩ := groupBytes_groupsOf n r (by simp at h; omega)
    have := a.isLt; have := b.isLt
    refine ⟨?_, by simp [groupsOf, h2], ?_⟩
    · simp only [groupsOf, groupBytes, h1]
      rw [show (a.toNat * 256 + b.toNat) / 256 = a.toNat by omega,
        show (a.toNat * 256 + b.toNat) % 256 = b.toNat by omega]
      simp
    · intro v hv
      simp only [groupsOf, List.mem_cons] at hv
      rcases hv with rfl | hv
      · omega
      · exact h3 v hv
  | n + 1, [], h => by simp at h
  | n + 1, [_], h => by simp at h; omega

theorem hextet_value (a b : BitVec 8) :
    ((a.setWidth 16 <<< 8) ||| b.setWidth 16).toNat = a.toNat * 256 + b.toNat := by
  have := a.isLt; have := b.isLt
  rw [BitVec.toNat_or, BitVec.toNat_shiftLeft, BitVec.toNat_setWidth, BitVec.toNat_setWidth,
    Nat.mod_eq_of_lt (by omega), Nat.mod_eq_of_lt (by omega : b.toNat < 2 ^ 16), Nat.shiftLeft_eq,
    Nat.mod_eq_of_lt (by omega), Nat.mul_comm, ← Nat.two_pow_add_eq_or_of_lt (by omega)]

theorem list16 {α : Type} (l : List α) (h : l.length = 16) : ∃ a b c d e f g h i j k m n o p q,
    l = [a, b, c, d, e, f, g, h, i, j, k, m, n, o, p, q] := by
  match l, h with
  | [a, b, c, d, e, f, g, h, i, j, k, m, n, o, p, q], _ => exact ⟨a, b, c, d, e, f, g, h, i, j, k, m, n, o, p, q, rfl⟩

theorem row_hex4 (v : Nat) : row (hex4 v) = hex4 v ++ ['\x00'] := rfl

theorem hextetsLoop_eq (bytes : List (BitVec 8)) (hb : bytes.length = 16) :
    hextetsLoop bytes 8 0 (List.replicate 8 (List.replicate 5 '\x00')) =
      .ok ((groupsOf bytes).map (fun v => row (hex4 v))) := by
  obtain ⟨a, b, c, d, e, f, g, h, i, j, k, m, n, o, p, q, rfl⟩ := list16 bytes hb
  simp only [hextetsLoop, rd, wr, List.replicate, List.getElem?_cons_zero, List.getElem?_cons_succ,
    Res.ok_bind, toHex_eq _ ['\x00', '\x00', '\x00', '\x00', '\x00'] rfl, List.length_cons, List.length_nil,
    List.set_cons_zero, List.set_cons_succ, Nat.zero_mul, Nat.zero_add, Nat.reduceMul, Nat.reduceAdd,
    Nat.reduceLT, if_true, hextet_value, groupsOf, List.map_cons, List.map_nil, row_hex4]

theorem digitChar_zero_iff (d : Nat) (h : d < 16) : d.digitChar = '0' ↔ d = 0 := by
  have k : ∀ d : Fin 16, d.val.digitChar = '0' ↔ d.val = 0 := by decide
  exact k ⟨d, h⟩

theorem digitChar_nz (d : Nat) (h : d < 16) : d.digitChar ≠ '\x00' := by
  have k : ∀ d : Fin 16, d.val.digitChar ≠ '\x00' := by decide
  exact k ⟨d, h⟩

theorem hexShort_cases (v : Nat) (h : v < 65536) :
    (v < 16 ∧ hexShort v = [v.digitChar]) ∨
    (16 ≤ v ∧ v < 256 ∧ hexShort v = [(v / 16).digitChar, (v % 16).digitChar]) ∨
    (256 ≤ v ∧ v < 4096 ∧ hexShort v = [(v / 256).digitChar, (v / 16 % 16).digitChar, (v % 16).digitChar]) ∨
    (4096 ≤ v ∧ hexShort v = [(v / 4096).digitChar, (v / 256 % 16).digitChar, (v / 16 % 16).digitChar, (v % 16).digitChar]) := by
  unfold hexShort
  by_cases h1 : v < 16
  · left; exact ⟨h1, Nat.toDigits_of_lt_base h1⟩
  · right
    have e1 := Nat.toDigits_of_base_le (b := 16) (n := v) (by omega) (by omega)
    by_cases h2 : v < 256
    · left
      refine ⟨by omega, h2, ?_⟩
      rw [e1, Nat.toDigits_of_lt_base (by omega)]; rfl
    · right
      have e2 := Nat.toDigits_of_base_le (b := 16) (n := v / 16) (by omega) (by omega)
      by_cases h3 : v < 4096
      · left
        refine ⟨by omega, h3, ?_⟩
        rw [e1, e2, Nat.toDigits_of_lt_base (by omega), Nat.div_div_eq_div_mul]; rfl
      · right
        have e3 := Nat.toDigits_of_base_le (b := 16) (n := v / 16 / 16) (by omega) (by omega)
        refine ⟨by omega, ?_⟩
        rw [e1, e2, e3, Nat.toDigits_of_lt_base (by omega), show v / 16 / 16 = v / 256 by omega, show v / 256 / 16 = v / 4096 by omega]
        rfl

theorem hexShort_length (v : Nat) (h : v < 65536) : 1 ≤ (hexShort v).length ∧ (hexShort v).length ≤ 4 := by
  rcases hexShort_cases v h with ⟨_, e⟩ | ⟨_, _, e⟩ | ⟨_, _, e⟩ | ⟨_, e⟩ <;> rw [e] <;> simp

theorem hexShort_noNul (v : Nat) (h : v < 65536) : ∀ c ∈ hexShort v, c ≠ '\x00' := by
  have m : ∀ k, k % 16 < 16 := fun k => Nat.mod_lt _ (by omega)
  rcases hexShort_cases v h with ⟨_, e⟩ | ⟨_, _, e⟩ | ⟨_, _, e⟩ | ⟨_, e⟩ <;> rw [e] <;>
    simp only [List.mem_cons, List.not_mem_nil, or_false, forall_eq_or_imp, forall_eq]
  · exact digitChar_nz _ (by omega)
  · exact ⟨digitChar_nz _ (by omega), digitChar_nz _ (m _)⟩
  · exact ⟨digitChar_nz _ (by omega), digitChar_nz _ (m _), digitChar_nz _ (m _)⟩
  · exact ⟨digitChar_nz _ (by omega), digitChar_nz _ (m _), digitChar_nz _ (m _), digitChar_nz _ (m _)⟩

theorem hex4_noNul (v : Nat) : ∀ c ∈ hex4 v, c ≠ '\x00' := by
  have m : ∀ k, k % 16 < 16 := fun k => Nat.mod_lt _ (by omega)
  simp only [hex4, List.mem_cons, List.not_mem_nil, or_false, forall_eq_or_imp, forall_eq]
  exact ⟨digitChar_nz _ (m _), digitChar_nz _ (m _), digitChar_nz _ (m _), digitChar_nz _ (m _)⟩

theorem hexShort_head (v : Nat) (h : v < 65536) : ∃ c t, hexShort v = c :: t ∧ (c = '0' ↔ v = 0) := by
  rcases hexShort_cases v h with ⟨h1, e⟩ | ⟨h0, h1, e⟩ | ⟨h0, h1, e⟩ | ⟨h0, e⟩
  · exact ⟨_, _, e, digitChar_zero_iff v h1⟩
  · exact ⟨_, _, e, by rw [digitChar_zero_iff _ (by omega)]; omega⟩
  · exact ⟨_, _, e, by rw [digitChar_zero_iff _ (by omega)]; omega⟩
  · exact ⟨_, _, e, by rw [digitChar_zero_iff _ (by omega)]; omega⟩

theorem hexShort_HexNum (v : Nat) (h : v < 65536) : HexNum (hexShort v) v := by
  have d : ∀ m, HexDigit (m % 16).digitChar (m % 16) := fun m => digitChar_HexDigit _ (Nat.mod_lt _ (by omega))
  have d' : ∀ m, m < 16 → HexDigit m.digitChar m := fun m hm => digitChar_HexDigit _ hm
  rcases hexShort_cases v h with ⟨h1, e⟩ | ⟨h0, h1, e⟩ | ⟨h0, h1, e⟩ | ⟨h0, e⟩ <;> rw [e]
  · have := HexNum.snoc [] _ 0 _ HexNum.nil (d' v h1)
    simpa using this
  · have h1 := HexNum.snoc [] _ 0 _ HexNum.nil (d' (v / 16) (by omega))
    have h2 := HexNum.snoc _ _ _ _ h1 (d v)
    have e : 16 * (16 * 0 + v / 16) + v % 16 = v := by omega
    rw [e] at h2
    simpa using h2
  · have h1 := HexNum.snoc [] _ 0 _ HexNum.nil (d' (v / 256) (by omega))
    have h2 := HexNum.snoc _ _ _ _ h1 (d (v / 16))
    have h3 := HexNum.snoc _ _ _ _ h2 (d v)
    have e : 16 * (16 * (16 * 0 + v / 256) + v / 16 % 16) + v % 16 = v := by omega
    rw [e] at h3
    simpa using h3
  · have h1 := HexNum.snoc [] _ 0 _ HexNum.nil (d' (v / 4096) (by omega))
    have h2 := HexNum.snoc _ _ _ _ h1 (d (v / 256))
    have h3 := HexNum.snoc _ _ _ _ h2 (d (v / 16))
    have h4 := HexNum.snoc _ _ _ _ h3 (d v)
    have e : 16 * (16 * (16 * (16 * 0 + v / 4096) + v / 256 % 16) + v / 16 % 16) + v % 16 = v := by omega
    rw [e] at h4
    simpa using h4

theorem strip_step (n : Nat) (a b c d e : Char) :
    stripLoop (n + 1) [a, b, c, d, e] = if a ≠ '0' then .ok [a, b, c, d, e] else stripLoop n [b, c, d, e, e] := by
  simp [stripLoop, rd, wr]

theorem stripLoop_eq (v : Nat) (h : v < 65536) : stripLoop 3 (row (hex4 v)) = .ok (row (hexShort v)) := by
  have z : (0 : Nat).digitChar = '0' := rfl
  have er : row (hex4 v) = [(v / 4096 % 16).digitChar, (v / 256 % 16).digitChar, (v / 16 % 16).digitChar,
    (v % 16).digitChar, '\x00'] := rfl
  rw [er, strip_step]
  simp only [ne_eq, digitChar_zero_iff _ (Nat.mod_lt _ (by omega : 0 < 16))]
  rcases hexShort_cases v h with ⟨h1, e⟩ | ⟨h0, h1, e⟩ | ⟨h0, h1, e⟩ | ⟨h0, e⟩ <;> rw [e]
  · rw [if_neg (by omega), strip_step]
    simp only [ne_eq, digitChar_zero_iff _ (Nat.mod_lt _ (by omega : 0 < 16))]
    rw [if_neg (by omega), strip_step]
    simp only [ne_eq, digitChar_zero_iff _ (Nat.mod_lt _ (by omega : 0 < 16))]
    rw [if_neg (by omega), Nat.mod_eq_of_lt h1]
    rfl
  · rw [if_neg (by omega), strip_step]
    simp only [ne_eq, digitChar_zero_iff _ (Nat.mod_lt _ (by omega : 0 < 16))]
    rw [if_neg (by omega), strip_step]
    simp only [ne_eq, digitChar_zero_iff _ (Nat.mod_lt _ (by omega : 0 < 16))]
    rw [if_pos (by omega), Nat.mod_eq_of_lt (by omega : v / 16 < 16)]
    rfl
  · rw [if_neg (by omega), strip_step]
    simp only [ne_eq, digitChar_zero_iff _ (Nat.mod_lt _ (by omega : 0 < 16))]
    rw [if_pos (by omega), Nat.mod_eq_of_lt (by omega : v / 256 < 16)]
    rfl
  · rw [if_pos (by omega), Nat.mod_eq_of_lt (by omega : v / 4096 < 16)]
    rfl

theorem stripAll_eq : ∀ (vs : List Nat), (∀ v ∈ vs, v < 65536) →
    stripAll (vs.map (fun v => row (hex4 v))) = .ok (vs.map (fun v => row (hexShort v)))
  | [], _ => rfl
  | v :: vs, h => by
    simp only [List.map_cons, stripAll]
    rw [stripLoop_eq v (h v (by simp)), Res.ok_bind, stripAll_eq vs (fun w hw => h w (by simp [hw]))]
    rfl

theorem runLoop_eq : ∀ (vs : List Nat) (i : Nat) (st : RunSt), (∀ v ∈ vs, v < 65536) →
    runLoop (vs.map (fun v => row (hexShort v))) i st = .ok (runs (vs.map (fun v => decide (v = 0))) i st)
  | [], _, _, _ => rfl
  | v :: vs, i, st, h => by
    obtain ⟨c, t, e1, e2⟩ := hexShort_head v (h v (by simp))
    simp only [List.map_cons, runLoop, runs]
    rw [show rd (row (hexShort v)) 0 = .ok c by simp [row, e1, rd], Res.ok_bind,
      runLoop_eq vs (i + 1) _ (fun w hw => h w (by simp [hw]))]
    simp only [e2]

theorem maskRun_iff (vs : List Nat) (p l : Nat) :
    maskRun (vs.map (fun v => decide (v = 0))) p l = true ↔ ZeroRun vs p l := by
  unfold maskRun ZeroRun
  rw [Bool.and_eq_true, decide_eq_true_eq, List.length_map]
  refine and_congr_right fun hl => ?_
  rw [List.all_eq_true]
  constructor
  · intro h i h1 h2
    have hv : i < vs.length := by omega
    have := h (decide (vs[i] = 0)) (by
      rw [List.mem_iff_getElem]
      refine ⟨i - p, by simp; omega, ?_⟩
      simp [show p + (i - p) = i by omega])
    rw [List.getElem?_eq_getElem hv]
    simpa using this
  · intro h b hb
    rw [List.mem_iff_getElem] at hb
    obtain ⟨j, hj, rfl⟩ := hb
    rw [List.length_take, List.length_drop, List.length_map] at hj
    have := h (p + j) (by omega) (by omega)
    rw [List.getElem?_eq_getElem (by omega)] at this
    simpa using this

theorem list8 {α : Type} (l : List α) (h : l.length = 8) : ∃ a b c d e f g h, l = [a, b, c, d, e, f, g, h] := by
  match l, h with
  | [a, b, c, d, e, f, g, h], _ => exact ⟨a, b, c, d, e, f, g, h, rfl⟩

theorem _root_.Ip.Spec.ZeroRun.lt {vs : List Nat} (hv : vs.length = 8) {p l : Nat} (h : ZeroRun vs p l) : p < 9 ∧ l < 9 := by
  have := h.1; omega

theorem runs_spec (vs : List Nat) (hv : vs.length = 8) :
    (∃ start, (runs (vs.map (fun v => decide (v = 0))) 0 ⟨0, -1, 0, -1⟩).bestStart = ((start : Nat) : Int) ∧
      1 < (runs (vs.map (fun v => decide (v = 0))) 0 ⟨0, -1, 0, -1⟩).bestLen ∧
      ZeroRun vs start (runs (vs.map (fun v => decide (v = 0))) 0 ⟨0, -1, 0, -1⟩).bestLen ∧
      ∀ p l, ZeroRun vs p l → l ≤ (runs (vs.map (fun v => decide (v = 0))) 0 ⟨0, -1, 0, -1⟩).bestLen ∧
        (l = (runs (vs.map (fun v => decide (v = 0))) 0 ⟨0, -1, 0, -1⟩).bestLen → start ≤ p)) ∨
    (¬ 1 < (runs (vs.map (fun v => decide (v = 0))) 0 ⟨0, -1, 0, -1⟩).bestLen ∧ ∀ p l, ZeroRun vs p l → l ≤ 1) := by
  have key : runsGood (vs.map (fun v => decide (v = 0))) = true := by
    obtain ⟨a, b, c, d, e, f, g, h, rfl⟩ := list8 vs hv
    exact runsGood_all _ _ _ _ _ _ _ _
  simp only [runsGood] at key
  split at key
  · rename_i h1
    left
    simp only [Bool.and_eq_true, decide_eq_true_eq] at key
    obtain ⟨⟨k1, k2⟩, k3⟩ := key
    refine ⟨_, (Int.toNat_of_nonneg k1).symm, h1, (maskRun_iff _ _ _).1 k2, ?_⟩
    intro p l hp
    obtain ⟨q1, q2⟩ := hp.lt hv
    rw [List.all_eq_true] at k3
    have k4 := k3 p (List.mem_range.2 q1)
    rw [List.all_eq_true] at k4
    have k5 := k4 l (List.mem_range.2 q2)
    rw [(maskRun_iff _ _ _).2 hp] at k5
    simp only [Bool.not_true, Bool.false_or, Bool.and_eq_true, Bool.or_eq_true, decide_eq_true_eq] at k5
    refine ⟨k5.1, fun he => ?_⟩
    rcases k5.2 with h | h
    · exact absurd he h
    · exact h
  · rename_i h1
    right
    refine ⟨h1, ?_⟩
    intro p l hp
    obtain ⟨q1, q2⟩ := hp.lt hv
    rw [List.all_eq_true] at key
    have k4 := key p (List.mem_range.2 q1)
    rw [List.all_eq_true] at k4
    have k5 := k4 l (List.mem_range.2 q2)
    rw [(maskRun_iff _ _ _).2 hp] at k5
    simpa using k5

/-- Rows whose fifth character is the terminator. -/
def Row5 (r : List Char) : Prop := r.length = 5 ∧ r[4]? = some '\x00'

theorem row5_row (t : List Char) (h : t.length ≤ 4) : Row5 (row t) := by
  refine ⟨by simp [row]; omega, ?_⟩
  rw [row, List.getElem?_append_right h, List.getElem?_replicate, if_pos (by omega)]

theorem Row5.ex {r : List Char} (h : Row5 r) : ∃ a b c d, r = [a, b, c, d, '\x00'] := by
  obtain ⟨a, b, c, d, e, rfl⟩ := len5 r h.1
  have := h.2
  simp at this
  subst this
  exact ⟨a, b, c, d, rfl⟩

theorem copyHextet_eq (L : List (List Char)) (hL : ∀ r ∈ L, Row5 r) (l r : Nat) (hl : l < L.length)
    (hr : r < L.length) : copyHextet L l r = .ok (L.set l L[r]) := by
  by_cases hlr : l = r
  · subst hlr
    obtain ⟨a, b, c, d, e⟩ := (hL L[l] (List.getElem_mem hl)).ex
    have hset : L.set l [a, b, c, d, '\x00'] = L := by rw [← e, List.set_getElem_self]
    have hg : L[l]? = some [a, b, c, d, '\x00'] := by rw [List.getElem?_eq_getElem hl, e]
    simp only [copyHextet, rd2, wr2, rd, wr, hg, Res.ok_bind, List.getElem?_cons_zero, List.getElem?_cons_succ,
      List.length_cons, List.length_nil, List.set_cons_zero, List.set_cons_succ, Nat.reduceAdd, Nat.reduceLT, if_true, hl, hset, e]
  · obtain ⟨a, b, c, d, e⟩ := (hL L[r] (List.getElem_mem hr)).ex
    obtain ⟨a', b', c', d', e'⟩ := (hL L[l] (List.getElem_mem hl)).ex
    have hg : L[r]? = some [a, b, c, d, '\x00'] := by rw [List.getElem?_eq_getElem hr, e]
    have hg' : L[l]? = some [a', b', c', d', '\x00'] := by rw [List.getElem?_eq_getElem hl, e']
    simp only [copyHextet, rd2, wr2, rd, wr, hg, hg', Res.ok_bind, List.getElem?_cons_zero, List.getElem?_cons_succ,
      List.length_cons, List.length_nil, List.set_cons_zero, List.set_cons_succ, Nat.reduceAdd, Nat.reduceLT, if_true, hl, e,
      List.length_set, List.getElem?_set_ne hlr, List.getElem?_set_self hl, List.set_set]

theorem closeGap_eq (len : Nat) (h2 : 2 ≤ len) : ∀ (n h : Nat) (L : List (List Char)), L.length = 8 →
    (∀ r ∈ L, Row5 r) → 8 ≤ n + h → h < 8 →
    ∃ X, closeGap len n h L = .ok (L.take (h + 1) ++ L.drop (h + len) ++ X) ∧
      (L.take (h + 1) ++ L.drop (h + len) ++ X).length = 8 ∧ ∀ r ∈ X, Row5 r
  | 0, h, L, hL, h5, hn, h8 => by omega
  | n + 1, h, L, hL, h5, hn, h8 => by
    have stop : 8 ≤ h + len → L = L.take (h + 1) ++ L.drop (h + len) ++ L.drop (h + 1) := by
      intro hh
      rw [List.drop_eq_nil_of_le (i := h + len) (by omega)]
      simp
    simp only [closeGap]
    by_cases h7 : h < 7
    · rw [if_pos h7]
      by_cases hge : h + len ≥ 8
      · rw [if_pos hge]
        refine ⟨L.drop (h + 1), by rw [← stop hge], by rw [← stop hge]; exact hL, fun r hr => h5 r (List.mem_of_mem_drop hr)⟩
      · rw [if_neg hge, copyHextet_eq L h5 (h + 1) (h + len) (by omega) (by omega), Res.ok_bind]
        obtain ⟨X, e1, e2, e3⟩ := closeGap_eq len h2 n (h + 1) (L.set (h + 1) L[h + len]) (by simpa using hL)
          (by
            intro r hr
            rcases List.mem_or_eq_of_mem_set hr with hr | rfl
            · exact h5 r hr
            · exact h5 _ (List.getElem_mem _)) (by omega) (by omega)
        have t1 : (L.set (h + 1) L[h + len]).take (h + 1 + 1) = L.take (h + 1) ++ [L[h + len]] := by
          rw [List.take_succ_eq_append_getElem (by simp; omega), List.take_set_of_le (by omega)]
          simp
        have t2 : (L.set (h + 1) L[h + len]).drop (h + 1 + len) = L.drop (h + 1 + len) := by
          rw [List.drop_set_of_lt (by omega)]
        have t3 : L.drop (h + len) = L[h + len] :: L.drop (h + 1 + len) := by
          rw [List.drop_eq_getElem_cons (by omega)]
          congr 2
          omega
        rw [t1, t2] at e1 e2
        refine ⟨X, ?_, ?_, e3⟩
        · rw [e1, t3]; simp
        · rw [t3]; simpa using e2
    · rw [if_neg h7]
      refine ⟨L.drop (h + 1), by rw [← stop (by omega)], by rw [← stop (by omega)]; exact hL,
        fun r hr => h5 r (List.mem_of_mem_drop hr)⟩

/-- Text of the hextets after compression. -/
inductive Compressed (vs : List Nat) : List (List Char) × Bool × Bool → Prop
  | run (p l : Nat) : 2 ≤ l → ZeroRun vs p l → (∀ p' l', ZeroRun vs p' l' → l' ≤ l ∧ (l' = l → p ≤ p')) →
      Compressed vs ((vs.take p).map hexShort ++ [] :: (vs.drop (p + l)).map hexShort, decide (p = 0), decide (p + l = 8))
  | none : (∀ p l, ZeroRun vs p l → l ≤ 1) → Compressed vs (vs.map hexShort, false, false)

theorem cstr_row (t : List Char) (h : t.length ≤ 4) (hn : ∀ c ∈ t, c ≠ '\x00') : cstr (row t) = t := by
  unfold row
  rw [show 5 - t.length = (4 - t.length) + 1 by omega, List.replicate_succ, cstr,
    List.takeWhile_append_of_pos (by simpa using hn)]
  simp

theorem compress_eq (vs : List Nat) (hv : vs.length = 8) (hlt : ∀ v ∈ vs, v < 65536) :
    ∃ rows x, compress (vs.map (fun v => row (hexShort v))) = .ok (rows, x.1.length, x.2.1, x.2.2) ∧
      Compressed vs x ∧ (rows.take x.1.length).map cstr = x.1 ∧ rows.length = 8 ∧ ∀ r ∈ rows, Row5 r := by
  have hrow5 : ∀ r ∈ vs.map (fun v => row (hexShort v)), Row5 r := by
    intro r hr
    rw [List.mem_map] at hr
    obtain ⟨v, hv, rfl⟩ := hr
    exact row5_row _ (hexShort_length v (hlt v hv)).2
  have hcs : ∀ us : List Nat, (∀ u ∈ us, u < 65536) → (us.map (fun v => row (hexShort v))).map cstr = us.map hexShort := by
    intro us hus
    rw [List.map_map]
    apply List.map_congr_left
    intro u hu
    exact cstr_row _ (hexShort_length u (hus u hu)).2 (hexShort_noNul u (hus u hu))
  unfold compress
  rw [runLoop_eq vs 0 _ hlt, Res.ok_bind]
  rcases runs_spec vs hv with ⟨p, h1, h2, h3, h4⟩ | ⟨h1, h2⟩
  · generalize runs (vs.map (fun v => decide (v = 0))) 0 ⟨0, -1, 0, -1⟩ = st at h1 h2 h3 h4 ⊢
    obtain ⟨l, bs, _, _⟩ := st
    simp only at h1 h2 h3 h4 ⊢
    subst h1
    rw [if_pos h2, if_neg (by omega), Int.toNat_natCast]
    have hp := h3.1
    rw [hv] at hp
    generalize hL : vs.map (fun v => row (hexShort v)) = L at hrow5 ⊢
    have hLl : L.length = 8 := by rw [← hL]; simpa using hv
    have hpL : p < L.length := by omega
    obtain ⟨a, b, c, d, e⟩ := (hrow5 L[p] (List.getElem_mem hpL)).ex
    have hw : wr2 L p 0 '\x00' = .ok (L.set p ['\x00', b, c, d, '\x00']) := by
      rw [wr2, rd_of_lt _ _ hpL, e]
      simp [wr, hpL]
    rw [hw, Res.ok_bind]
    obtain ⟨X, e1, e2, e3⟩ := closeGap_eq l h2 8 p (L.set p ['\x00', b, c, d, '\x00']) (by simpa using hLl)
      (by
        intro r hr
        rcases List.mem_or_eq_of_mem_set hr with hr | rfl
        · exact hrow5 r hr
        · exact ⟨rfl, rfl⟩) (by omega) (by omega)
    have t1 : (L.set p ['\x00', b, c, d, '\x00']).take (p + 1) = L.take p ++ [['\x00', b, c, d, '\x00']] := by
      rw [List.take_succ_eq_append_getElem (by simp; omega), List.take_set_of_le (by omega)]
      simp
    have t2 : (L.set p ['\x00', b, c, d, '\x00']).drop (p + l) = L.drop (p + l) := by
      rw [List.drop_set_of_lt (by omega)]
    rw [e1, Res.ok_bind, if_neg (by omega)]
    rw [t1, t2] at e2 ⊢
    refine ⟨_, _, ?_, Compressed.run p l h2 h3 h4, ?_, e2, ?_⟩
    · have ec : 8 - (l - 1) = ((vs.take p).map hexShort ++ [] :: (vs.drop (p + l)).map hexShort).length := by
        simp [hv]; omega
      rw [ec]
    · simp only
      have ec : ((vs.take p).map hexShort ++ [] :: (vs.drop (p + l)).map hexShort).length =
          (L.take p ++ [['\x00', b, c, d, '\x00']] ++ L.drop (p + l)).length := by
        simp [hv, hLl]
      rw [ec, List.take_left, ← hL, ← List.map_take, ← List.map_drop, List.map_append, List.map_append,
        hcs _ (fun u hu => hlt u (List.mem_of_mem_take hu)), hcs _ (fun u hu => hlt u (List.mem_of_mem_drop hu))]
      simp [cstr]
    · intro r hr
      rw [List.mem_append, List.mem_append, List.mem_append] at hr
      rcases hr with ((hr | hr) | hr) | hr
      · exact hrow5 r (List.mem_of_mem_take hr)
      · rw [List.mem_singleton] at hr; subst hr; exact ⟨rfl, rfl⟩
      · exact hrow5 r (List.mem_of_mem_drop hr)
      · exact e3 r hr
  · rw [if_neg h1]
    refine ⟨_, _, ?_, Compressed.none h2, ?_, by simpa using hv, hrow5⟩
    · simp [hv]
    · simp only
      rw [List.length_map, List.take_of_length_le (by simp), hcs vs hlt]

theorem appendCStr_eq (t u : List Char) (hn : ∀ c ∈ t, c ≠ '\x00') : ∀ (s pre w : List Char) (fuel : Nat) (free : List Char),
    t = pre ++ s → s.length < fuel → s.length ≤ free.length →
    appendCStr (t ++ '\x00' :: u) fuel pre.length (w ++ free) w.length =
      .ok (w ++ s ++ free.drop s.length, w.length + s.length)
  | [], pre, w, fuel + 1, free, ht, hf, hl => by
    simp only [List.append_nil] at ht
    simp only [appendCStr]
    rw [rd_append _ _ _ _ (by rw [ht])]
    simp
  | c :: s, pre, w, fuel + 1, d :: free, ht, hf, hl => by
    simp only [appendCStr]
    have hr : rd (t ++ '\x00' :: u) pre.length = .ok c := by
      rw [ht, List.append_assoc, List.cons_append]
      exact rd_append _ _ _ _ rfl
    rw [hr, Res.ok_bind, if_neg (hn c (by rw [ht]; simp)), wr_append _ _ _ _ _ rfl, Res.ok_bind]
    have ih := appendCStr_eq t u hn s (pre ++ [c]) (w ++ [c]) fuel free (by simp [ht]) (by simp at hf; omega) (by simp at hl; omega)
    simp only [List.length_append, List.length_cons, List.length_nil, Nat.zero_add, List.append_assoc,
      List.cons_append, List.nil_append] at ih
    rw [ih]
    simp
    omega
  | c :: s, pre, w, fuel + 1, [], ht, hf, hl => by simp at hl

/-- A row is its C string followed by a terminator. -/
theorem Row5.split {r : List Char} (h : Row5 r) : ∃ u, r = cstr r ++ '\x00' :: u ∧ (cstr r).length ≤ 4 ∧
    ∀ c ∈ cstr r, c ≠ '\x00' := by
  obtain ⟨a, b, c, d, rfl⟩ := h.ex
  have hmem : ∀ x ∈ cstr [a, b, c, d, '\x00'], x ≠ '\x00' := by
    intro x hx
    have := List.all_eq_true.1 (List.all_takeWhile (p := fun c => decide (c ≠ '\x00')) (l := [a, b, c, d, '\x00'])) x hx
    simpa using this
  refine ⟨(([a, b, c, d, '\x00'] : List Char).dropWhile (fun c => decide (c ≠ '\x00'))).tail, ?_, ?_, hmem⟩
  · have := List.takeWhile_append_dropWhile (p := fun c => decide (c ≠ '\x00')) (l := [a, b, c, d, '\x00'])
    have hd : ∃ y, ([a, b, c, d, '\x00'] : List Char).dropWhile (fun c => decide (c ≠ '\x00')) = '\x00' :: y := by
      by_cases h1 : a = '\x00' <;> by_cases h2 : b = '\x00' <;> by_cases h3 : c = '\x00' <;>
        by_cases h4 : d = '\x00' <;> simp [List.dropWhile, h1, h2, h3, h4]
    obtain ⟨y, hy⟩ := hd
    rw [hy] at this ⊢
    exact this.symm
  · unfold cstr
    by_cases h1 : a = '\x00' <;> by_cases h2 : b = '\x00' <;> by_cases h3 : c = '\x00' <;>
        by_cases h4 : d = '\x00' <;> simp [List.takeWhile, h1, h2, h3, h4]

theorem appendRow_eq {r : List Char} (h : Row5 r) (w free : List Char) (hl : (cstr r).length ≤ free.length) :
    appendCStr r 6 0 (w ++ free) w.length = .ok (w ++ cstr r ++ free.drop (cstr r).length, (w ++ cstr r).length) := by
  obtain ⟨u, e1, e2, e3⟩ := h.split
  have := appendCStr_eq (cstr r) u e3 (cstr r) [] w 6 free rfl (by omega) hl
  rw [← e1] at this
  rw [List.length_append]
  exact this

/-- Texts each followed by a colon. -/
def colonsAfter : List (List Char) → List Char
  | [] => []
  | t :: ts => t ++ ':' :: colonsAfter ts

theorem colonsAfter_append (a b : List (List Char)) : colonsAfter (a ++ b) = colonsAfter a ++ colonsAfter b := by
  induction a with
  | nil => rfl
  | cons t ts ih => simp [colonsAfter, ih]

theorem colonsAfter_colons (ts : List (List Char)) (t : List Char) : colonsAfter ts ++ t = colons (ts ++ [t]) := by
  induction ts with
  | nil => rfl
  | cons x ts ih =>
    rw [List.cons_append, colons_cons _ _ (by simp), ← ih]
    simp [colonsAfter]

theorem appendHextets_eq (rows : List (List Char)) (h5 : ∀ r ∈ rows, Row5 r) :
    ∀ (n i : Nat) (w free : List Char), i + n ≤ rows.length →
      (colonsAfter (((rows.drop i).take n).map cstr)).length ≤ free.length →
      appendHextets rows n i (w ++ free) w.length =
        .ok (w ++ colonsAfter (((rows.drop i).take n).map cstr) ++
            free.drop (colonsAfter (((rows.drop i).take n).map cstr)).length,
          (w ++ colonsAfter (((rows.drop i).take n).map cstr)).length)
  | 0, i, w, free, _, _ => by simp [appendHextets, colonsAfter]
  | n + 1, i, w, free, hi, hl => by
    have hir : i < rows.length := by omega
    have e : (rows.drop i).take (n + 1) = rows[i] :: (rows.drop (i + 1)).take n := by
      rw [List.drop_eq_getElem_cons hir, List.take_succ_cons]
    rw [e] at hl ⊢
    simp only [List.map_cons, colonsAfter] at hl ⊢
    rw [List.length_append, List.length_cons] at hl
    simp only [appendHextets]
    rw [rd_of_lt _ _ hir, Res.ok_bind, appendRow_eq (h5 _ (List.getElem_mem hir)) w free (by omega), Res.ok_bind]
    simp only
    obtain ⟨f, free', hf⟩ : ∃ f free', free.drop (cstr rows[i]).length = f :: free' := by
      cases hd : free.drop (cstr rows[i]).length with
      | nil =>
        have := congrArg List.length hd
        rw [List.length_drop] at this
        simp at this
        omega
      | cons f free' => exact ⟨f, free', rfl⟩
    have hfree' : free' = free.drop ((cstr rows[i]).length + 1) := by
      rw [← List.drop_drop, hf]; rfl
    rw [hf, wr_append _ _ _ _ _ rfl, Res.ok_bind]
    have ih := appendHextets_eq rows h5 n (i + 1) (w ++ cstr rows[i] ++ [':']) free' (by omega)
      (by rw [hfree', List.length_drop]; omega)
    have e1 : w ++ cstr rows[i] ++ ':' :: free' = w ++ cstr rows[i] ++ [':'] ++ free' := by simp
    have e2 : (w ++ cstr rows[i]).length + 1 = (w ++ cstr rows[i] ++ [':']).length := by simp; omega
    rw [e1, e2, ih]
    refine congrArg Res.ok (Prod.ext ?_ ?_)
    · simp only [List.append_assoc, List.cons_append, List.nil_append, List.append_cancel_left_eq, List.cons.injEq, true_and]
      rw [hfree', List.drop_drop, List.length_append, List.length_cons]
      rw [Nat.add_assoc, Nat.add_comm 1]
    · simp

theorem appendColonIf_eq (b : Bool) (w free : List Char) (hl : (if b then [':'] else []).length ≤ free.length) :
    appendColonIf b (w ++ free) w.length =
      .ok (w ++ (if b then [':'] else []) ++ free.drop (if b then [':'] else []).length,
        (w ++ (if b then [':'] else [])).length) := by
  cases b with
  | false => simp [appendColonIf]
  | true =>
    match free, hl with
    | f :: free, _ =>
      simp only [appendColonIf, if_true]
      rw [wr_append _ _ _ _ _ rfl]
      simp

/-- Text of compressed hextets. -/
def gapText (x : List (List Char) × Bool × Bool) : List Char :=
  (if x.2.1 then [':'] else []) ++ colons x.1 ++ (if x.2.2 then [':'] else [])

theorem emitHextets_eq (rows : List (List Char)) (x : List (List Char) × Bool × Bool)
    (h5 : ∀ r ∈ rows, Row5 r) (hx : (rows.take x.1.length).map cstr = x.1) (hne : x.1 ≠ [])
    (hrl : x.1.length ≤ rows.length) (result : List Char) (hl : (gapText x).length ≤ result.length) :
    emitHextets (rows, x.1.length, x.2.1, x.2.2) result =
      .ok (gapText x ++ result.drop (gapText x).length, (gapText x).length) := by
  obtain ⟨ts, c1, c2⟩ := x
  simp only at hx hne hrl ⊢
  have hpos : 0 < ts.length := List.length_pos_iff.2 hne
  have hlast : ts.length - 1 < rows.length := by omega
  have hts : ts = ((rows.drop 0).take (ts.length - 1)).map cstr ++ [cstr rows[ts.length - 1]] := by
    have e := List.take_succ_eq_append_getElem hlast
    rw [show ts.length - 1 + 1 = ts.length by omega] at e
    rw [e, List.map_append] at hx
    rw [List.drop_zero]
    exact hx.symm
  have hg : gapText (ts, c1, c2) = (if c1 then [':'] else []) ++
      colonsAfter (((rows.drop 0).take (ts.length - 1)).map cstr) ++ cstr rows[ts.length - 1] ++
      (if c2 then [':'] else []) := by
    unfold gapText
    simp only
    rw [List.append_assoc _ _ (cstr _), colonsAfter_colons, ← hts]
  rw [hg] at hl ⊢
  simp only [List.length_append] at hl
  unfold emitHextets
  simp only
  have s1 := appendColonIf_eq c1 [] result (by omega)
  simp only [List.nil_append, List.length_nil] at s1
  rw [s1, Res.ok_bind]
  simp only
  rw [appendHextets_eq rows h5 (ts.length - 1) 0 _ _ (by omega) (by rw [List.length_drop]; omega), Res.ok_bind,
    rd_of_lt _ _ hlast, Res.ok_bind]
  simp only
  rw [appendRow_eq (h5 _ (List.getElem_mem hlast)) _ _ (by rw [List.length_drop, List.length_drop]; omega), Res.ok_bind]
  simp only
  rw [appendColonIf_eq c2 _ _ (by rw [List.length_drop, List.length_drop, List.length_drop]; omega)]
  simp only [List.drop_drop, List.length_append, Nat.add_assoc]

theorem appendScope_eq (data : List Char) : ∀ (n i : Nat) (w free : List Char), i + n ≤ data.length → n ≤ free.length →
    appendScope data n i (w ++ free) w.length =
      .ok (w ++ (data.drop i).take n ++ free.drop n, (w ++ (data.drop i).take n).length)
  | 0, i, w, free, _, _ => by simp [appendScope]
  | n + 1, i, w, f :: free, hi, hl => by
    simp only [appendScope]
    rw [rd_of_lt _ _ (by omega), Res.ok_bind, wr_append _ _ _ _ _ rfl, Res.ok_bind]
    have ih := appendScope_eq data n (i + 1) (w ++ [data[i]]) free (by omega) (by simp at hl; omega)
    have e1 : w ++ data[i] :: free = w ++ [data[i]] ++ free := by simp
    have e2 : w.length + 1 = (w ++ [data[i]]).length := by simp
    rw [e1, e2, ih, List.drop_eq_getElem_cons (i := i) (by omega), List.take_succ_cons]
    simp
  | n + 1, i, w, [], hi, hl => by simp at hl

theorem emitScope_eq (scope : FStr) (hw : scope.WF) (w free : List Char)
    (hl : (zoneText scope.contents).length < free.length) :
    emitScope scope (w ++ free, w.length) =
      .ok (w ++ zoneText scope.contents ++ '\x00' :: free.drop ((zoneText scope.contents).length + 1),
        (w ++ zoneText scope.contents).length) := by
  have hw1 : scope.length ≤ scope.data.length := hw
  have fin : ∀ (t fr : List Char), t.length < fr.length →
      (do let result ← wr (w ++ t ++ fr.drop t.length) (w ++ t).length '\x00'
          Res.ok (result, (w ++ t).length)) = .ok (w ++ t ++ '\x00' :: fr.drop (t.length + 1), (w ++ t).length) := by
    intro t fr h
    cases hd : fr.drop t.length with
    | nil =>
      have := congrArg List.length hd
      rw [List.length_drop] at this
      simp at this
      omega
    | cons f fr' =>
      rw [wr_append _ _ _ _ _ rfl, Res.ok_bind, ← List.drop_drop, hd]
      rfl
  unfold emitScope
  by_cases h0 : scope.length = 0
  · rw [if_neg (by simpa using h0), Res.ok_bind]
    have hc : scope.contents = [] := by simp [FStr.contents, h0]
    rw [hc] at hl ⊢
    simp only [zoneText, if_true] at hl ⊢
    have := fin [] free hl
    simpa using this
  · rw [if_pos h0]
    have hne : scope.contents ≠ [] := by
      intro hc
      have := congrArg List.length hc
      rw [FStr.contents, List.length_take, List.length_nil] at this
      omega
    have hlen : scope.contents.length = scope.length := by
      rw [FStr.contents, List.length_take]; omega
    have hz : zoneText scope.contents = '%' :: scope.contents := by rw [zoneText, if_neg hne]
    rw [hz] at hl ⊢
    rw [List.length_cons, hlen] at hl
    match free, hl with
    | f :: free, hl =>
      simp only
      rw [wr_append _ _ _ _ _ rfl, Res.ok_bind]
      have e1 : w ++ '%' :: free = w ++ ['%'] ++ free := by simp
      have e2 : w.length + 1 = (w ++ ['%']).length := by simp
      rw [e1, e2, appendScope_eq _ _ _ _ _ (by omega) (by simp at hl; omega), Res.ok_bind]
      simp only
      have e3 : w ++ ['%'] ++ (scope.data.drop 0).take scope.length = w ++ ('%' :: scope.contents) := by
        simp [FStr.contents]
      rw [e3]
      have e4 : free.drop scope.length = (f :: free).drop ('%' :: scope.contents).length := by
        rw [List.length_cons, hlen]; rfl
      rw [e4, fin ('%' :: scope.contents) (f :: free) (by rw [List.length_cons, hlen]; exact hl)]

/-- The address part of the text in the three formats. -/
inductive FmtText (vs : List Nat) : Format → List Char → Prop
  | full : FmtText vs .full (colons (vs.map hex4))
  | compact : FmtText vs .compact (colons (vs.map hexShort))
  | compressed (x : List (List Char) × Bool × Bool) : Compressed vs x → FmtText vs .compressed (gapText x)

theorem colons_length (ts : List (List Char)) (h : ∀ t ∈ ts, t.length ≤ 4) : (colons ts).length + 1 ≤ 5 * ts.length + (if ts = [] then 1 else 0) := by
  induction ts with
  | nil => simp [colons]
  | cons t ts ih =>
    have ht := h t (by simp)
    have ih := ih (fun u hu => h u (by simp [hu]))
    by_cases hts : ts = []
    · subst hts; simp [colons]; omega
    · rw [colons_cons _ _ hts]
      rw [if_neg hts] at ih
      simp
      omega

theorem Compressed.length {vs : List Nat} {x : List (List Char) × Bool × Bool} (hv : vs.length = 8)
    (hlt : ∀ v ∈ vs, v < 65536) (h : Compressed vs x) :
    x.1 ≠ [] ∧ x.1.length ≤ 8 ∧ (gapText x).length ≤ 39 := by
  cases h with
  | run p l h2 hz hb =>
    have hp := hz.1
    refine ⟨by simp, by simp; omega, ?_⟩
    have := colons_length ((vs.take p).map hexShort ++ [] :: (vs.drop (p + l)).map hexShort) (by
      intro t ht
      simp only [List.mem_append, List.mem_map, List.mem_cons] at ht
      rcases ht with ⟨v, hv', rfl⟩ | rfl | ⟨v, hv', rfl⟩
      · exact (hexShort_length v (hlt v (List.mem_of_mem_take hv'))).2
      · simp
      · exact (hexShort_length v (hlt v (List.mem_of_mem_drop hv'))).2)
    rw [if_neg (by simp)] at this
    simp only [List.length_append, List.length_map, List.length_cons, List.length_take, List.length_drop] at this
    simp only [gapText, List.length_append]
    have b : ∀ b : Bool, (if b then [':'] else []).length ≤ 1 := by decide
    have := b (decide (p = 0))
    have := b (decide (p + l = 8))
    omega
  | none hz =>
    refine ⟨(by intro h; have := congrArg List.length h; rw [List.length_map, hv] at this; cases this), by simp [hv], ?_⟩
    have := colons_length (vs.map hexShort) (by
      intro t ht
      rw [List.mem_map] at ht
      obtain ⟨v, hv', rfl⟩ := ht
      exact (hexShort_length v (hlt v hv')).2)
    simp only [gapText, List.length_append, List.length_map] at this ⊢
    split at this
    · simp_all
    · simp; omega

theorem rows_emit (vs : List Nat) (hv : vs.length = 8) (f : Nat → List Char) (hf : ∀ v ∈ vs, (f v).length ≤ 4 ∧ ∀ c ∈ f v, c ≠ '\x00')
    (result : List Char) (hl : 42 ≤ result.length) :
    emitHextets (vs.map (fun v => row (f v)), 8, false, false) result =
      .ok (colons (vs.map f) ++ result.drop (colons (vs.map f)).length, (colons (vs.map f)).length) ∧
    (colons (vs.map f)).length ≤ 39 := by
  have hne : vs ≠ [] := by intro h; simp [h] at hv
  have hlen := colons_length (vs.map f) (by
      intro t ht
      rw [List.mem_map] at ht
      obtain ⟨v, hv', rfl⟩ := ht
      exact (hf v hv').1)
  rw [if_neg (by simpa using hne)] at hlen
  simp only [List.length_map, hv] at hlen
  have hg : gapText (vs.map f, false, false) = colons (vs.map f) := by simp [gapText]
  refine ⟨?_, by omega⟩
  have := emitHextets_eq (vs.map (fun v => row (f v))) (vs.map f, false, false)
    (by
      intro r hr
      rw [List.mem_map] at hr
      obtain ⟨v, hv', rfl⟩ := hr
      exact row5_row _ (hf v hv').1)
    (by
      simp only
      rw [List.length_map, List.take_of_length_le (by simp), List.map_map]
      apply List.map_congr_left
      intro v hv'
      exact cstr_row _ (hf v hv').1 (hf v hv').2)
    (by simpa using hne) (by simp) result (by rw [hg]; omega)
  rw [hg] at this
  simpa [hv] using this

/-- Formatting, all cases: the buffer receives the text and a terminator. -/
theorem v6ToChars_eq (bytes : List (BitVec 8)) (hb : bytes.length = 16) (scope : FStr) (hw : scope.WF)
    (fmt : Format) (result : List Char) (hl : result.length = 42 + scope.data.length) :
    ∃ t rest, FmtText (groupsOf bytes) fmt t ∧ t.length ≤ 39 ∧
      v6ToChars bytes scope fmt result = .ok (t ++ zoneText scope.contents ++ '\x00' :: rest,
        (t ++ zoneText scope.contents).length) ∧
      (t ++ zoneText scope.contents ++ '\x00' :: rest).length = result.length := by
  obtain ⟨g1, g2, g3⟩ := groupBytes_groupsOf 8 bytes hb
  generalize groupsOf bytes = vs at g1 g2 g3 ⊢
  have hz : (zoneText scope.contents).length ≤ 1 + scope.data.length := by
    have hc : scope.contents.length ≤ scope.data.length := by
      rw [FStr.contents, List.length_take]; omega
    unfold zoneText
    split
    · simp
    · simp; omega
  have hx : hextetsLoop bytes 8 0 (List.replicate 8 (List.replicate 5 '\x00')) = .ok (vs.map (fun v => row (hex4 v))) := by
    rw [hextetsLoop_eq bytes hb]
    have : groupsOf bytes = vs := by
      rw [← g1]
      have k : ∀ us : List Nat, (∀ u ∈ us, u < 65536) → groupsOf (groupBytes us) = us := by
        intro us
        induction us with
        | nil => intro; rfl
        | cons u us ih =>
          intro h
          have hu := h u (by simp)
          simp only [groupBytes, groupsOf]
          rw [ih (fun w hw => h w (by simp [hw]))]
          simp only [BitVec.toNat_ofNat]
          congr 1
          omega
      exact k vs g3
    rw [this]
  have fin : ∀ t : List Char, t.length ≤ 39 →
      emitScope scope (t ++ result.drop t.length, t.length) =
        .ok (t ++ zoneText scope.contents ++ '\x00' :: (result.drop t.length).drop ((zoneText scope.contents).length + 1),
        (t ++ zoneText scope.contents).length) ∧
      (t ++ zoneText scope.contents ++ '\x00' :: (result.drop t.length).drop ((zoneText scope.contents).length + 1)).length = result.length := by
    intro t ht
    refine ⟨emitScope_eq scope hw t _ (by rw [List.length_drop]; omega), ?_⟩
    simp only [List.length_append, List.length_cons, List.length_drop]
    omega
  cases fmt with
  | full =>
    obtain ⟨e1, e2⟩ := rows_emit vs g2 hex4 (fun v _ => ⟨by simp [hex4], hex4_noNul v⟩) result (by omega)
    obtain ⟨f1, f2⟩ := fin _ e2
    refine ⟨_, _, FmtText.full, e2, ?_, f2⟩
    simp only [v6ToChars, hextetTexts, hx, Res.ok_bind, compressIf, reduceCtorEq, or_self, if_false]
    rw [e1, Res.ok_bind, f1]
  | compact =>
    obtain ⟨e1, e2⟩ := rows_emit vs g2 hexShort (fun v hv => ⟨(hexShort_length v (g3 v hv)).2, hexShort_noNul v (g3 v hv)⟩) result (by omega)
    obtain ⟨f1, f2⟩ := fin _ e2
    refine ⟨_, _, FmtText.compact, e2, ?_, f2⟩
    simp only [v6ToChars, hextetTexts, hx, Res.ok_bind, compressIf, reduceCtorEq, or_false, if_false, if_true, stripAll_eq vs g3]
    rw [e1, Res.ok_bind, f1]
  | compressed =>
    obtain ⟨rows, x, c1, c2, c3, c4, c5⟩ := compress_eq vs g2 g3
    obtain ⟨l1, l2, l3⟩ := c2.length g2 g3
    obtain ⟨f1, f2⟩ := fin _ l3
    refine ⟨_, _, FmtText.compressed x c2, l3, ?_, f2⟩
    simp only [v6ToChars, hextetTexts, hx, Res.ok_bind, compressIf, reduceCtorEq, false_or, if_true, stripAll_eq vs g3, c1]
    rw [emitHextets_eq rows x c5 c3 l1 (by omega) result (by omega), Res.ok_bind, f1]

end Ip
