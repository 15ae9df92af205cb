import Verif.Model.Hash32
import Verif.Model.U128
import Verif.Spec.Hash
import Verif.Lemmas.Bytes
import Verif.Lemmas.V6Scope
import Mathlib.Data.Fintype.EquivFin

set_option autoImplicit false

namespace Ip
open Spec

theorem xorShift_inj {w : Nat} (k : Nat) (hk : 0 < k) (x y : BitVec w)
    (h : x ^^^ (x >>> k) = y ^^^ (y >>> k)) : x = y := by
  have hz : x ^^^ y = (x ^^^ y) >>> k := by
    rw [BitVec.ushiftRight_xor_distrib]
    have h2 : (x ^^^ x >>> k) ^^^ (y ^^^ y >>> k) = 0#w := by rw [h, BitVec.xor_self]
    have h3 : (x ^^^ x >>> k) ^^^ (y ^^^ y >>> k) = (x ^^^ y) ^^^ (x >>> k ^^^ y >>> k) := by ac_rfl
    rw [h3, BitVec.xor_eq_zero_iff] at h2
    exact h2
  have h0 : (x ^^^ y).toNat = 0 := by
    have := congrArg BitVec.toNat hz
    rw [BitVec.toNat_ushiftRight, Nat.shiftRight_eq_div_pow] at this
    rcases Nat.eq_zero_or_pos (x ^^^ y).toNat with h | h
    · exact h
    · have := Nat.div_lt_self h (Nat.one_lt_two_pow (by omega : k ≠ 0))
      omega
  exact BitVec.xor_eq_zero_iff.1 (BitVec.eq_of_toNat_eq (by rw [h0]; rfl))

theorem mul_inj {w : Nat} (c d : BitVec w) (hc : c * d = 1#w) (x y : BitVec w) (h : x * c = y * c) : x = y := by
  have : x * c * d = y * c * d := by rw [h]
  rwa [BitVec.mul_assoc, BitVec.mul_assoc, hc, BitVec.mul_one, BitVec.mul_one] at this

theorem hashCombine_inj (x y : BitVec 64) (h : hashCombine x = hashCombine y) : x = y := by
  unfold hashCombine at h
  have h1 := xorShift_inj 28 (by decide) _ _ h
  have h2 := mul_inj _ 0x153ed04bd89cfaf5#64 (by decide) _ _ h1
  have h3 := xorShift_inj 32 (by decide) _ _ h2
  have h4 := mul_inj _ 0x153ed04bd89cfaf5#64 (by decide) _ _ h3
  exact xorShift_inj 32 (by decide) _ _ h4

theorem hashCombine32_inj (x y : BitVec 32) (h : hashCombine32 x = hashCombine32 y) : x = y := by
  unfold hashCombine32 at h
  have h1 := xorShift_inj 15 (by decide) _ _ h
  have h2 := mul_inj _ 0x97132227#32 (by decide) _ _ h1
  have h3 := xorShift_inj 15 (by decide) _ _ h2
  have h4 := mul_inj _ 0x333c4925#32 (by decide) _ _ h3
  exact xorShift_inj 16 (by decide) _ _ h4

theorem add_left_inj' {w : Nat} (c x y : BitVec w) (h : c + x = c + y) : x = y := by
  have : -c + (c + x) = -c + (c + y) := by rw [h]
  rwa [← BitVec.add_assoc, ← BitVec.add_assoc, BitVec.add_comm (-c) c, BitVec.add_right_neg, BitVec.zero_add,
    BitVec.zero_add] at this

theorem add_right_inj' {w : Nat} (c x y : BitVec w) (h : x + c = y + c) : x = y := by
  rw [BitVec.add_comm x, BitVec.add_comm y] at h
  exact add_left_inj' c x y h

theorem hashSum_seed (v x y : BitVec 64) (h : hashSum x v = hashSum y v) : x = y :=
  add_right_inj' _ _ _ (add_right_inj' _ _ _ (hashCombine_inj _ _ h))

theorem hashSum_value (s x y : BitVec 64) (h : hashSum s x = hashSum s y) : x = y :=
  add_left_inj' _ _ _ (hashCombine_inj _ _ h)

theorem hashSum32_seed (v x y : BitVec 32) (h : hashSum32 x v = hashSum32 y v) : x = y :=
  add_right_inj' _ _ _ (add_right_inj' _ _ _ (hashCombine32_inj _ _ h))

theorem hashSum32_value (s x y : BitVec 32) (h : hashSum32 s x = hashSum32 s y) : x = y :=
  add_left_inj' _ _ _ (hashCombine32_inj _ _ h)

theorem calcHash_foldl (s : BitVec 64) (l : List (BitVec 64)) : calcHash s l = l.foldl hashSum s := by
  induction l generalizing s with
  | nil => rfl
  | cons a l ih => exact ih _

theorem calcHash32_foldl (s : BitVec 32) (l : List (BitVec 32)) : calcHash32 s l = l.foldl hashSum32 s := by
  induction l generalizing s with
  | nil => rfl
  | cons a l ih => exact ih _

/-- A fold whose step is injective in both arguments is injective in its seed. -/
theorem foldl_seed {α β : Type} (f : β → α → β) (hf : ∀ v x y, f x v = f y v → x = y) (l : List α) (x y : β)
    (h : l.foldl f x = l.foldl f y) : x = y := by
  induction l generalizing x y with
  | nil => exact h
  | cons a l ih => exact hf a _ _ (ih _ _ h)

/-- and separates sequences that differ in one place. -/
theorem foldl_oneApart {α β : Type} (f : β → α → β) (hf : ∀ v x y, f x v = f y v → x = y) (hg : ∀ s x y, f s x = f s y → x = y)
    (a b : List α) (h : OneApart a b) (s : β) : a.foldl f s ≠ b.foldl f s := by
  obtain ⟨i, x, y, h1, h2, h3, h4⟩ := h
  induction a generalizing b s i with
  | nil => simp at h1
  | cons p a ih =>
    match b, i with
    | [], i => simp at h2
    | q :: b, 0 =>
      simp only [List.getElem?_cons_zero, Option.some.injEq] at h1 h2
      subst h1 h2
      have e : a = b := by
        apply List.ext_getElem?
        intro k
        have := h4 (k + 1) (by omega)
        simpa using this
      subst e
      intro he
      exact h3 (hg _ _ _ (foldl_seed f hf a _ _ he))
    | q :: b, i + 1 =>
      have e := h4 0 (by omega)
      simp only [List.getElem?_cons_zero, Option.some.injEq] at e
      subst e
      exact ih b (f s p) i (by simpa using h1) (by simpa using h2) fun k hk => by simpa using h4 (k + 1) (by omega)

theorem Spec.OneApart.map {α β : Type} (f : α → β) (hf : ∀ x y, f x = f y → x = y) (a b : List α) (h : OneApart a b) :
    OneApart (a.map f) (b.map f) := by
  obtain ⟨i, x, y, h1, h2, h3, h4⟩ := h
  refine ⟨i, f x, f y, by simp [h1], by simp [h2], fun e => h3 (hf _ _ e), fun k hk => by simp [h4 k hk]⟩

theorem setWidth_inj {w : Nat} (h : 8 ≤ w) (x y : BitVec 8) (e : x.setWidth w = y.setWidth w) : x = y := by
  have := congrArg (BitVec.setWidth 8) e
  rw [BitVec.setWidth_setWidth_of_le _ h, BitVec.setWidth_setWidth_of_le _ h] at this
  simpa using this

theorem FStr.hashLoop32_eq (conv : Char → BitVec 32) (s : FStr) (hs : s.WF) :
    ∀ (fuel i : Nat) (v : BitVec 32), i ≤ s.length → s.length < fuel + i →
    FStr.hashLoop32 conv s.data s.length fuel i v =
      .ok ((s.contents.drop i).foldl (fun v c => (v ^^^ conv c) * 16777619#32) v) := by
  intro fuel
  induction fuel with
  | zero => intro i v h1 h2; omega
  | succ n ih =>
    intro i v h1 h2
    simp only [FStr.hashLoop32]
    split
    · rename_i h
      obtain ⟨c, hr, hd⟩ := FStr.contents_drop s hs i h
      rw [hr, hd]
      simp only [Res.ok_bind, List.foldl_cons]
      exact ih _ _ (by omega) (by omega)
    · rw [List.drop_eq_nil_of_le (by rw [FStr.contents_length s hs]; omega)]; rfl

theorem FStr.hash32_eq (conv : Char → BitVec 32) (s : FStr) (hs : s.WF) :
    FStr.hash32 conv s = .ok (if s.data.length = 0 then 0#32 else
      s.contents.foldl (fun v c => (v ^^^ conv c) * 16777619#32) 2166136261#32) := by
  have := FStr.hashLoop32_eq conv s hs (s.length + 1) 0 2166136261#32 (by omega) (by omega)
  unfold FStr.hash32
  split
  · rfl
  · rw [this]; rfl

theorem xor_right_inj {w : Nat} (c x y : BitVec w) (h : x ^^^ c = y ^^^ c) : x = y := by
  have : x ^^^ c ^^^ c = y ^^^ c ^^^ c := by rw [h]
  simpa [BitVec.xor_assoc] using this

theorem xor_left_inj {w : Nat} (c x y : BitVec w) (h : c ^^^ x = c ^^^ y) : x = y := by
  rw [BitVec.xor_comm c, BitVec.xor_comm c] at h
  exact xor_right_inj c x y h

theorem FStr.empty_of_capacity (s : FStr) (hs : s.WF) (h : s.data.length = 0) : s.contents = [] := by
  rw [← List.length_eq_zero_iff, FStr.contents_length s hs]
  unfold FStr.WF at hs
  omega

/-- Strings of one capacity that differ in one character. -/
theorem FStr.hash_oneApart (conv : Char → BitVec 64) (hv : ∀ x y, conv x = conv y → x = y) (a b : FStr) (ha : a.WF) (hb : b.WF)
    (h : OneApart a.contents b.contents) : ∃ x y, FStr.hash conv a = .ok x ∧ FStr.hash conv b = .ok y ∧ x ≠ y := by
  refine ⟨_, _, FStr.hash_eq conv a ha, FStr.hash_eq conv b hb, ?_⟩
  have ha0 : a.data.length ≠ 0 := by
    intro e
    obtain ⟨i, x, y, h1, _⟩ := h
    rw [FStr.empty_of_capacity a ha e] at h1
    simp at h1
  have hb0 : b.data.length ≠ 0 := by
    intro e
    obtain ⟨i, x, y, _, h1, _⟩ := h
    rw [FStr.empty_of_capacity b hb e] at h1
    simp at h1
  rw [if_neg ha0, if_neg hb0]
  refine foldl_oneApart _ (fun v x y e => ?_) (fun s x y e => ?_) _ _ h _
  · exact xor_right_inj _ _ _ (mul_inj _ 0xce965057aff6957b#64 (by decide) _ _ e)
  · exact hv _ _ (xor_left_inj _ _ _ (mul_inj _ 0xce965057aff6957b#64 (by decide) _ _ e))

theorem FStr.hash32_oneApart (conv : Char → BitVec 32) (hv : ∀ x y, conv x = conv y → x = y) (a b : FStr) (ha : a.WF) (hb : b.WF)
    (h : OneApart a.contents b.contents) : ∃ x y, FStr.hash32 conv a = .ok x ∧ FStr.hash32 conv b = .ok y ∧ x ≠ y := by
  refine ⟨_, _, FStr.hash32_eq conv a ha, FStr.hash32_eq conv b hb, ?_⟩
  have ha0 : a.data.length ≠ 0 := by
    intro e
    obtain ⟨i, x, y, h1, _⟩ := h
    rw [FStr.empty_of_capacity a ha e] at h1
    simp at h1
  have hb0 : b.data.length ≠ 0 := by
    intro e
    obtain ⟨i, x, y, _, h1, _⟩ := h
    rw [FStr.empty_of_capacity b hb e] at h1
    simp at h1
  rw [if_neg ha0, if_neg hb0]
  refine foldl_oneApart _ (fun v x y e => ?_) (fun s x y e => ?_) _ _ h _
  · exact xor_right_inj _ _ _ (mul_inj _ 0x359c449b#32 (by decide) _ _ e)
  · exact hv _ _ (xor_left_inj _ _ _ (mul_inj _ 0x359c449b#32 (by decide) _ _ e))

end Ip
