import Verif.Lemmas.Netmask
import Verif.Props.U128
import Verif.Props.V6Addr

/-
What the proofs about networks and iterators use of an address family, and the proofs that both
families satisfy it.
-/
set_option autoImplicit false

namespace Ip
open Spec

/-- `uint_type` behaves as the integers modulo `2^w`. -/
structure UOps.Law {U : Type} (o : UOps U) (w : Nat) (val : U → Nat) : Prop where
  val_lt : ∀ x, val x < 2 ^ w
  inj : ∀ x y, val x = val y → x = y
  ofI64 : ∀ x : BitVec 64, (val (o.ofI64 x) : Int) = x.toInt % 2 ^ w
  toI64 : ∀ x, (o.toI64 x).toNat = val x % 2 ^ 64
  add : ∀ x y, val (o.add x y) = (val x + val y) % 2 ^ w
  sub : ∀ x y, val (o.sub x y) = (val x + (2 ^ w - val y)) % 2 ^ w
  mul : ∀ x y, val (o.mul x y) = val x * val y % 2 ^ w
  and : ∀ x y, val (o.and x y) = val x &&& val y
  shl : ∀ x n, n < w → ∃ r, o.shl x n = .ok r ∧ val r = val x * 2 ^ n % 2 ^ w
  shr : ∀ x n, n < w → ∃ r, o.shr x n = .ok r ∧ val r = val x / 2 ^ n
  shl_ub : ∀ x, o.shl x w = .ub
  shr_ub : ∀ x, o.shr x w = .ub
  div : ∀ x y, val y ≠ 0 → ∃ r, o.div x y = .ok r ∧ val r = val x / val y
  lt : ∀ x y, o.lt x y = decide (val x < val y)
  eq : ∀ x y, o.eq x y = decide (val x = val y)

theorem u32Law : u32Ops.Law 32 BitVec.toNat where
  val_lt x := x.isLt
  inj x y := BitVec.eq_of_toNat_eq
  ofI64 x := by
    have hx := x.isLt
    simp only [u32Ops, BitVec.toNat_setWidth, BitVec.toInt_eq_toNat_cond]
    split <;> omega
  toI64 x := by simp [u32Ops]
  add x y := by simp [u32Ops]
  sub x y := by simp only [u32Ops, BitVec.toNat_sub]; congr 1; omega
  mul x y := by simp [u32Ops]
  and x y := by simp [u32Ops]
  shl x n h := ⟨_, if_pos h, by simp [Nat.shiftLeft_eq]⟩
  shr x n h := ⟨_, if_pos h, by simp [Nat.shiftRight_eq_div_pow]⟩
  shl_ub x := rfl
  shr_ub x := rfl
  div x y h := ⟨_, if_neg (fun e => h (by rw [e]; rfl)), by simp⟩
  lt x y := by simp [u32Ops, BitVec.ult]
  eq x y := by
    rw [Bool.eq_iff_iff, decide_eq_true_iff]
    simp [u32Ops, BitVec.toNat_inj]

theorem u128Law : u128Ops.Law 128 U128.val where
  val_lt x := by have := U128.val_lt x; rwa [two128_eq] at this
  inj x y := U128.val_inj
  ofI64 x := (C41_conversion x).2
  toI64 x := by
    have := x.lower.isLt
    simp only [u128Ops, U128.val]; omega
  add x y := by rw [← two128_eq]; exact U128.val_add x y
  sub x y := by rw [← two128_eq]; exact U128.val_sub x y
  mul x y := by rw [← two128_eq]; exact U128.val_mul x y
  and x y := U128.val_and x y
  shl x n h := by rw [← two128_eq]; exact U128.shl_val x n (by omega)
  shr x n h := U128.shr_val x n (by omega)
  shl_ub x := rfl
  shr_ub x := rfl
  div x y _ := U128.div_eq x y
  lt x y := U128.lt_iff x y
  eq x y := U128.eq_iff x y

/-- An address family: byte arrays of `maxPrefix` bits, big endian integers, and for addresses
without scope id the numeric order. -/
structure Fam.Law {A U : Type} (F : Fam A U) (WF : A → Prop) (val : U → Nat) : Prop where
  ops : F.ops.Law F.maxPrefix val
  pos : 1 < F.maxPrefix
  len : ∀ a, WF a → 8 * (F.bytes a).length = F.maxPrefix
  bytes_ofBytes : ∀ b, F.bytes (F.ofBytes b) = b
  wf_ofBytes : ∀ b, 8 * b.length = F.maxPrefix → WF (F.ofBytes b)
  zero : ∃ b, F.zero = F.ofBytes b ∧ 8 * b.length = F.maxPrefix ∧ beValue b = 0
  toUint : ∀ a, WF a → ∃ u, F.toUint a = .ok u ∧ val u = beValue (F.bytes a)
  fromUint : ∀ u, ∃ b, F.fromUint u = .ok (F.ofBytes b) ∧ 8 * b.length = F.maxPrefix ∧ beValue b = val u
  fromPrefix : ∀ p, p ≤ F.maxPrefix → ∃ b, F.fromPrefix p = .ok (F.ofBytes b) ∧ 8 * b.length = F.maxPrefix ∧
    beValue b = 2 ^ F.maxPrefix - 2 ^ (F.maxPrefix - p)
  fromPrefix_ub : ∀ p, F.maxPrefix < p → F.fromPrefix p = .ub
  strict : ∀ a m s, WF a → WF m → ∃ b, 8 * b.length = F.maxPrefix ∧
    beValue b = beValue (F.bytes a) &&& beValue (F.bytes m) ∧
    F.strict a m s = if beValue b = beValue (F.bytes a) then .ok a
      else if s then .err .has_host_bits_set 0 else .ok (F.ofBytes b)
  eq : ∀ a b, 8 * a.length = F.maxPrefix → 8 * b.length = F.maxPrefix →
    F.eq (F.ofBytes a) (F.ofBytes b) = .ok (decide (beValue a = beValue b))
  lt : ∀ a b, 8 * a.length = F.maxPrefix → 8 * b.length = F.maxPrefix →
    F.lt (F.ofBytes a) (F.ofBytes b) = .ok (decide (beValue a < beValue b))
  le : ∀ a b, 8 * a.length = F.maxPrefix → 8 * b.length = F.maxPrefix →
    F.le (F.ofBytes a) (F.ofBytes b) = .ok (decide (beValue a ≤ beValue b))
  cmp : ∀ a b, 8 * a.length = F.maxPrefix → 8 * b.length = F.maxPrefix →
    F.cmp (F.ofBytes a) (F.ofBytes b) = .ok (compare (beValue a) (beValue b))
  removeScope : ∀ a, WF a → F.removeScope a = .ok (F.ofBytes (F.bytes a))

/-- Well formed IPv4 addresses. -/
def WF4 (a : List (BitVec 8)) : Prop := a.length = 4

theorem bytesEq_dec (a b : List (BitVec 8)) (h : a.length = b.length) :
    bytesEq a b = decide (beValue a = beValue b) := by
  rw [Bool.eq_iff_iff, decide_eq_true_iff, bytesEq_iff a b h]
  exact ⟨fun e => by rw [e], beValue_inj a b h⟩

theorem bytesLess_dec (a b : List (BitVec 8)) (h : a.length = b.length) :
    bytesLess a b = decide (beValue a < beValue b) := by
  rw [Bool.eq_iff_iff, decide_eq_true_iff, bytesLess_iff a b h]

theorem fam4Law : (fam4 true).Law WF4 BitVec.toNat where
  ops := u32Law
  pos := by decide
  len a h := by simp only [fam4, WF4] at *; omega
  bytes_ofBytes b := rfl
  wf_ofBytes b h := by simp only [fam4, WF4] at *; omega
  zero := ⟨_, rfl, rfl, rfl⟩
  toUint a h := v4ToUint_val a h
  fromUint u := ⟨_, rfl, congrArg (8 * ·) (v4FromUint_val u).1, (v4FromUint_val u).2⟩
  fromPrefix p h := by
    obtain ⟨b, h1, h2, h3⟩ := v4FromPrefix_val p h
    exact ⟨b, h1, by rw [h2]; rfl, h3⟩
  fromPrefix_ub p h := v4FromPrefix_ub true p h
  strict a m s ha hm := by
    obtain ⟨x, h1, h2⟩ := v4ToUint_val a ha
    obtain ⟨y, h3, h4⟩ := v4ToUint_val m hm
    refine ⟨v4FromUint true (x &&& y), by rw [(v4FromUint_val _).1]; rfl, ?_, ?_⟩
    · rw [(v4FromUint_val _).2, BitVec.toNat_and, h2, h4]; rfl
    · simp only [fam4, v4Strict, h1, h3, Res.ok_bind, (v4FromUint_val _).2, ← h2, BitVec.toNat_inj]
      by_cases e : x &&& y = x
      · rw [if_neg (not_not_intro e), if_pos e]
      · rw [if_pos e, if_neg e]
  eq a b ha hb := by simp only [fam4] at *; rw [bytesEq_dec a b (by omega)]
  lt a b ha hb := by simp only [fam4] at *; rw [bytesLess_dec a b (by omega)]
  le a b ha hb := by
    simp only [fam4] at *; rw [bytesLess_dec b a (by omega)]
    congr 1
    rw [Bool.eq_iff_iff]; simp
  cmp a b ha hb := by simp only [fam4] at *; rw [bytesCmp_eq a b (by omega)]
  removeScope a h := rfl

theorem compare_empty (val : Char → Int) (M : Nat) : FStr.compare val (emptyScope M) (emptyScope M) = .ok 0 := by
  rw [FStr.compare_eq val _ _ (Nat.zero_le _) (Nat.zero_le _)]
  simp [FStr.contents, emptyScope, FStr.lexCmp]

theorem ofEvents_nuls (M : Nat) : FStr.ofEvents M (readChars (List.replicate M '\x00')) = .ok (emptyScope M) := by
  cases M with
  | zero => rfl
  | succ n => simp [FStr.ofEvents, readChars, FStr.ofEventsLoop, List.replicate_succ, wr, emptyScope]

theorem mkFixed_nuls (M : Nat) : mkFixed (List.replicate (M + 1) '\x00') = .ok (emptyScope M) := by
  simp only [mkFixed, List.length_replicate, Nat.add_sub_cancel, List.take_replicate]
  rw [show min M (M + 1) = M by omega]
  exact ofEvents_nuls M

theorem v6RemoveScope_eq (spaces : Bool) (M : Nat) (a : V6) (h : a.WF M) :
    v6RemoveScope spaces M a = .ok ⟨a.bytes, emptyScope M⟩ := by
  have h0 : mkFixed ['\x00'] = .ok ⟨[], 0⟩ := rfl
  have h1 : FStr.contents ⟨[], 0⟩ = [] := rfl
  rw [v6RemoveScope, v6SetScopeArray, h0, Res.ok_bind, h1, v6SetScope]
  by_cases hM : M = 0
  · subst hM
    obtain ⟨h2, h3, h4⟩ := h
    obtain ⟨b, ⟨d, l⟩⟩ := a
    simp only [FStr.WF] at h3 h4
    have hd : d = [] := List.length_eq_zero_iff.mp h4
    subst hd
    have hl : l = 0 := by simpa using h3
    subst hl
    simp [emptyScope]
  · rw [if_neg hM, scopeChange, if_neg (Nat.not_lt_zero M)]
    simp only [readChars, List.map_nil, setScopeLoop, Res.ok_bind, mkFixed_nuls]

theorem fam6Law (c : Cfg) (hle : c.le = true) : (fam6 c).Law (V6.WF c.M) U128.val where
  ops := u128Law
  pos := (by decide : 1 < 128)
  len a h := by have := h.1; simp only [fam6] at *; omega
  bytes_ofBytes b := rfl
  wf_ofBytes b h := by
    refine ⟨?_, Nat.zero_le _, by simp [fam6, emptyScope]⟩
    simp only [fam6] at *; omega
  zero := ⟨_, rfl, rfl, rfl⟩
  toUint a h := by simp only [fam6, hle]; exact v6ToUint_val a.bytes h.1
  fromUint u := by
    obtain ⟨b, h1, h2, h3⟩ := v6FromUint_val u
    exact ⟨b, by simp only [fam6, hle, h1, Res.ok_bind], by rw [h2]; rfl, h3⟩
  fromPrefix p h := by
    obtain ⟨b, h1, h2, h3⟩ := v6FromPrefix_val p h
    exact ⟨b, by simp only [fam6, h1, Res.ok_bind], by rw [h2]; rfl, h3⟩
  fromPrefix_ub p h := by simp only [fam6, v6FromPrefix_ub p h, Res.ub_bind]
  strict a m s ha hm := by
    have hl : a.bytes.length = m.bytes.length := by rw [ha.1, hm.1]
    obtain ⟨r, h1, h2, h3⟩ := bytesZip_and a.bytes m.bytes hl
    refine ⟨r, by rw [h2, ha.1]; rfl, h3, ?_⟩
    simp only [fam6, v6Strict, h1, Res.ok_bind, bytesEq_dec r a.bytes h2]
    by_cases e : beValue r = beValue a.bytes
    · rw [if_neg (by simp [e])]; exact (if_pos e).symm
    · rw [if_pos (by simp [e])]; exact (if_neg e).symm
  eq a b ha hb := by
    simp only [fam6, v6Equals] at *; rw [bytesEq_dec a b (by omega), compare_empty]
    by_cases e : beValue a = beValue b
    · rw [if_pos (by simpa using e)]; simp [e]
    · rw [if_neg (by simpa using e)]; simp [e]
  lt a b ha hb := by
    simp only [fam6, v6Lt, v6Less, v6Compare] at *
    rw [bytesLess_dec a b (by omega), bytesCmp_eq a b (by omega), compare_empty]
    rcases Nat.lt_trichotomy (beValue a) (beValue b) with h | h | h
    · have := Nat.compare_eq_lt.mpr h
      simp [this, h]
    · have := Nat.compare_eq_eq.mpr h
      simp [h]
    · have := Nat.compare_eq_gt.mpr h
      have h2 : ¬ beValue a < beValue b := by omega
      simp [this, h2]
  le a b ha hb := by
    simp only [fam6, v6Le, v6Less, v6Compare] at *
    rw [bytesLess_dec b a (by omega), bytesCmp_eq a b (by omega), compare_empty]
    rcases Nat.lt_trichotomy (beValue a) (beValue b) with h | h | h
    · have := Nat.compare_eq_lt.mpr h
      have h2 : ¬ beValue b < beValue a := by omega
      have h3 : beValue a ≤ beValue b := by omega
      simp [this, h2, h3]
    · have := Nat.compare_eq_eq.mpr h
      simp [h]
    · have := Nat.compare_eq_gt.mpr h
      have h2 : ¬ beValue a ≤ beValue b := by omega
      simp [this, h, h2]
  cmp a b ha hb := by
    simp only [fam6, v6Compare] at *
    rw [bytesCmp_eq a b (by omega), compare_empty]
    by_cases e : compare (beValue a) (beValue b) = .eq
    · rw [if_pos e, e]; simp
    · rw [if_neg e]
  removeScope a h := v6RemoveScope_eq c.spaces c.M a h

end Ip
