import Verif.Lemmas.V6Addr
import Verif.Lemmas.Samples
/-
Properties C14 - C19 and C21: IPv6 address objects and reverse pointers.
-/
set_option autoImplicit false

namespace Ip
open Spec

/-- C14 (partial: little endian hosts).  `to_uint` is the value of the 16 bytes in network order, and
`from_uint` gives the bytes of that value.  Missing: big endian hosts, see `C14_v6_uint_big_endian`. -/
theorem C14_v6_uint_partial (b : List (BitVec 8)) (h : b.length = 16) (n : U128) :
    (∃ m, v6ToUint true b = .ok m ∧ m.val = beValue b) ∧
    (∃ c, v6FromUint true n = .ok c ∧ c.length = 16 ∧ beValue c = n.val) :=
  ⟨v6ToUint_val b h, v6FromUint_val n⟩

example : v6ToUint true [0x20, 1, 0xd, 0xb8, 0, 0, 0, 0, 0, 0, 0, 0, 0, 0, 1, 2] =
    .ok ⟨0x20010db800000000#64, 0x102#64⟩ := by decide

/-- C14.  `from_uint` and `to_uint` are inverse to each other on hosts of both byte orders. -/
theorem C14_v6_uint_inverse (le : Bool) (b : List (BitVec 8)) (h : b.length = 16) (n : U128) :
    (v6ToUint le b >>= v6FromUint le) = .ok b ∧ (v6FromUint le n >>= v6ToUint le) = .ok n ∧
      ∃ c, v6FromUint le n = .ok c ∧ c.length = 16 := by
  obtain ⟨m, h1, h2⟩ := v6ToUint_inv le b h
  obtain ⟨c, h3, h4, h5⟩ := v6FromUint_inv le n
  rw [h1, h3, Res.ok_bind, Res.ok_bind]
  exact ⟨h2, h5, c, rfl, h4⟩

example := C14_v6_uint_inverse true exDoc.bytes rfl ⟨7, 9⟩

/-- C14, negation for big endian hosts: `::1` has the integer value `2^56`. -/
theorem C14_v6_uint_big_endian : ∃ b : List (BitVec 8), b.length = 16 ∧ beValue b = 1 ∧
    ∃ n, v6ToUint false b = .ok n ∧ n.val = 2 ^ 56 :=
  ⟨[0, 0, 0, 0, 0, 0, 0, 0, 0, 0, 0, 0, 0, 0, 0, 1], rfl, by decide, ⟨0#64, 0x100000000000000#64⟩, by decide, by decide⟩

/-- C15.  The three way comparison orders by value, then by scope id, and agrees with `==`. -/
theorem C15_v6_compare (val : Char → Int) (hv : ∀ x y, val x = val y → x = y) (M : Nat) (a b : V6)
    (ha : a.WF M) (hb : b.WF M) :
    ∃ o e, v6Compare val a b = .ok o ∧ v6Equals val a b = .ok e ∧
      (o = .lt ↔ V6Lt val (beValue a.bytes) a.scope.contents (beValue b.bytes) b.scope.contents) ∧
      (o = .gt ↔ V6Lt val (beValue b.bytes) b.scope.contents (beValue a.bytes) a.scope.contents) ∧
      (o = .eq ↔ a.bytes = b.bytes ∧ a.scope.contents = b.scope.contents) ∧
      (e = true ↔ a.bytes = b.bytes ∧ a.scope.contents = b.scope.contents) := by
  have hl : a.bytes.length = b.bytes.length := by rw [ha.1, hb.1]
  have hbe := bytesEq_iff a.bytes b.bytes hl
  have hbc := bytesCmp_eq a.bytes b.bytes hl
  have hinj := beValue_inj a.bytes b.bytes hl
  have c1 := FStr.compare_eq val a.scope b.scope ha.2.1 hb.2.1
  have z := FStr.lexCmp_zero val hv a.scope.contents b.scope.contents
  have l1 := lexCmp_lt_iff val hv a.scope.contents b.scope.contents
  have l2 := lexCmp_lt_iff val hv b.scope.contents a.scope.contents
  have neg := FStr.lexCmp_neg val b.scope.contents a.scope.contents
  rw [Nat.compare_eq_ite_lt] at hbc
  unfold v6Compare v6Equals V6Lt
  rw [c1]
  rw [← l1, ← l2, neg, ← z]
  clear l1 l2 neg c1
  generalize FStr.lexCmp val a.scope.contents b.scope.contents = r at *
  by_cases he : a.bytes = b.bytes
  · have h1 : bytesEq a.bytes b.bytes = true := hbe.2 he
    have h2 : bytesCmp a.bytes b.bytes = .eq := by rw [hbc, he]; simp
    rw [if_pos h1, if_pos h2, he]
    refine ⟨_, _, rfl, rfl, ?_, ?_, ?_, ?_⟩
    · split
      · simp; omega
      · split <;> simp <;> omega
    · split
      · simp; omega
      · split <;> simp <;> omega
    · split
      · simp; omega
      · split <;> simp <;> omega
    · simp
  · have hne : beValue a.bytes ≠ beValue b.bytes := fun h => he (hinj h)
    have h1 : bytesEq a.bytes b.bytes = false := by simpa using fun h => he (hbe.1 h)
    rw [h1]
    by_cases hlt : beValue a.bytes < beValue b.bytes
    · rw [if_pos hlt] at hbc
      rw [hbc]
      refine ⟨_, _, rfl, rfl, ?_, ?_, ?_, ?_⟩
      · simp [hlt]
      · simp; omega
      · simp [he]
      · simp [he]
    · have hgt : beValue b.bytes < beValue a.bytes := by omega
      rw [if_neg hlt, if_pos hgt] at hbc
      rw [hbc]
      refine ⟨_, _, rfl, rfl, ?_, ?_, ?_, ?_⟩
      · simp; omega
      · simp [hgt]
      · simp [he]
      · simp [he]

example := C15_v6_compare exCfg.val exCfg_val 16 exScoped exDoc exScoped_ok exDoc_ok

/-- C15.  The order of `C15_v6_compare` is a strict total order. -/
theorem C15_v6_order_total (val : Char → Int) (hv : ∀ x y, val x = val y → x = y)
    (v w u : Nat) (s t r : List Char) :
    ¬ V6Lt val v s v s ∧ (V6Lt val v s w t → V6Lt val w t u r → V6Lt val v s u r) ∧
      (V6Lt val v s w t ∨ (v = w ∧ s = t) ∨ V6Lt val w t v s) := by
  have z := FStr.lexCmp_zero val hv
  have l := lexCmp_lt_iff val hv
  have neg := FStr.lexCmp_neg val
  have tr := FStr.lexCmp_trans val hv s t r
  refine ⟨?_, ?_, ?_⟩
  · rintro (h | ⟨_, h⟩)
    · omega
    · have := (z s s).2 rfl
      rw [← l, this] at h
      omega
  · rintro (h | ⟨h, h'⟩) (g | ⟨g, g'⟩)
    · exact Or.inl (by omega)
    · exact Or.inl (by omega)
    · exact Or.inl (by omega)
    · refine Or.inr ⟨by omega, ?_⟩
      rw [← l] at h' g' ⊢
      exact tr h' g'
  · rcases Nat.lt_trichotomy v w with h | h | h
    · exact Or.inl (Or.inl h)
    · rcases Int.lt_trichotomy (FStr.lexCmp val s t) 0 with g | g | g
      · exact Or.inl (Or.inr ⟨h, (l s t).1 g⟩)
      · exact Or.inr (Or.inl ⟨h, (z s t).1 g⟩)
      · exact Or.inr (Or.inr (Or.inr ⟨h.symm, (l t s).1 ((neg t s).2 g)⟩))
    · exact Or.inr (Or.inr (Or.inl h))

example := C15_v6_order_total exCfg.val exCfg_val 7 7 8 "a".toList "b".toList "c".toList

/-- C15 (partial), the `operator<` used without `<=>`: it agrees with the order except when the left
value is larger and its scope id smaller.  Missing: exactly that case, see `C15_v6_less_wrong`. -/
theorem C15_v6_less_partial (val : Char → Int) (hv : ∀ x y, val x = val y → x = y) (M : Nat) (a b : V6)
    (ha : a.WF M) (hb : b.WF M)
    (hx : ¬ (beValue b.bytes < beValue a.bytes ∧ ScopeLt val a.scope.contents b.scope.contents)) :
    ∃ r, v6Less val a b = .ok r ∧
      (r = true ↔ V6Lt val (beValue a.bytes) a.scope.contents (beValue b.bytes) b.scope.contents) := by
  have hl : a.bytes.length = b.bytes.length := by rw [ha.1, hb.1]
  have h1 := bytesLess_iff a.bytes b.bytes hl
  have c1 := FStr.compare_eq val a.scope b.scope ha.2.1 hb.2.1
  have l1 := lexCmp_lt_iff val hv a.scope.contents b.scope.contents
  unfold v6Less V6Lt
  by_cases h : bytesLess a.bytes b.bytes = true
  · rw [if_pos h]
    exact ⟨_, rfl, by simp [h1.1 h]⟩
  · rw [if_neg h, c1]
    refine ⟨_, rfl, ?_⟩
    rw [h1] at h
    rw [decide_eq_true_iff, l1]
    constructor
    · intro h2
      exact Or.inr ⟨by
        by_cases h3 : beValue b.bytes < beValue a.bytes
        · exact absurd ⟨h3, h2⟩ hx
        · omega, h2⟩
    · rintro (h2 | ⟨_, h2⟩)
      · exact absurd h2 h
      · exact h2

example : v6Less (fun c => c.toNat) ⟨[0, 0, 0, 0, 0, 0, 0, 0, 0, 0, 0, 0, 0, 0, 0, 1], ⟨['b'], 1⟩⟩
    ⟨[0, 0, 0, 0, 0, 0, 0, 0, 0, 0, 0, 0, 0, 0, 0, 2], ⟨['a'], 1⟩⟩ = .ok true := by decide

/-- C15, negation for `operator<` without `<=>`: `::2%a < ::1%b` and `::1%b < ::2%a`. -/
theorem C15_v6_less_wrong : ∃ a b : V6, a.WF 1 ∧ b.WF 1 ∧
    v6Less (fun c => c.toNat) a b = .ok true ∧ v6Less (fun c => c.toNat) b a = .ok true :=
  ⟨⟨[0, 0, 0, 0, 0, 0, 0, 0, 0, 0, 0, 0, 0, 0, 0, 2], ⟨['a'], 1⟩⟩,
   ⟨[0, 0, 0, 0, 0, 0, 0, 0, 0, 0, 0, 0, 0, 0, 0, 1], ⟨['b'], 1⟩⟩,
   by simp [V6.WF, FStr.WF], by simp [V6.WF, FStr.WF], by decide, by decide⟩

/-- C16, `ipv4_mapped` (partial): it returns the low 32 bits for every address in `::ffff:0:0/96`,
and otherwise a value only if bits 32..47 are all ones.  Missing: it also returns a value for
addresses outside `::ffff:0:0/96`, see `C16_mapped_wrong`. -/
theorem C16_mapped_partial (b : List (BitVec 8)) (h : b.length = 16) :
    ∃ r, v6Mapped b = .ok r ∧ (beValue b / 2 ^ 32 = 0xffff → r.isSome) ∧
      (r.isSome ↔ beValue b / 2 ^ 32 % 2 ^ 16 = 0xffff) ∧
      ∀ v, r = some v → v.length = 4 ∧ beValue v = beValue b % 2 ^ 32 := by
  obtain ⟨b0, b1, b2, b3, b4, b5, b6, b7, b8, b9, b10, b11, b12, b13, b14, b15, rfl⟩ := list16' b h
  have e1 := beValue_div [b0, b1, b2, b3, b4, b5, b6, b7, b8, b9, b10, b11] [b12, b13, b14, b15]
  have e2 := beValue_mod [b0, b1, b2, b3, b4, b5, b6, b7, b8, b9, b10, b11] [b12, b13, b14, b15]
  have e3 := beValue_mod [b0, b1, b2, b3, b4, b5, b6, b7, b8, b9] [b10, b11]
  simp only [List.cons_append, List.nil_append, List.length_cons, List.length_nil, Nat.reduceAdd,
    Nat.reducePow] at e1 e2 e3
  simp only [v6Mapped, rd, rdRange, List.getElem?_cons_succ, List.getElem?_cons_zero, Res.ok_bind, Nat.reducePow]
  rw [e1, e2, e3]
  have := b10.isLt
  have := b11.isLt
  have e4 : beValue [b10, b11] = 65535 ↔ ¬ (b10 ≠ 0xFF#8 ∨ b11 ≠ 0xFF#8) := by
    simp only [beValue, List.length_cons, List.length_nil, ne_eq, bv8_eq, BitVec.toNat_ofNat]
    omega
  rw [e4]
  have e5 : beValue [b0, b1, b2, b3, b4, b5, b6, b7, b8, b9, b10, b11] = 65535 →
      ¬ (b10 ≠ 0xFF#8 ∨ b11 ≠ 0xFF#8) := by
    intro h; rw [h] at e3; exact e4.1 e3.symm
  by_cases hc : b10 ≠ 0xFF#8 ∨ b11 ≠ 0xFF#8
  · rw [if_pos hc]
    exact ⟨_, rfl, fun h => absurd hc (e5 h), by simp [hc], by simp⟩
  · rw [if_neg hc]
    exact ⟨_, rfl, by simp, by simp [hc], by rintro v ⟨⟩; exact ⟨rfl, rfl⟩⟩

example : v6Mapped [0, 0, 0, 0, 0, 0, 0, 0, 0, 0, 0xff, 0xff, 1, 2, 3, 4] = .ok (some [1, 2, 3, 4]) := by decide

/-- C16, negation for `ipv4_mapped`: `1::ffff:102:304` is reported as a mapped address. -/
theorem C16_mapped_wrong : ∃ b : List (BitVec 8), b.length = 16 ∧ beValue b / 2 ^ 32 ≠ 0xffff ∧
    v6Mapped b = .ok (some [1, 2, 3, 4]) :=
  ⟨[0, 1, 0, 0, 0, 0, 0, 0, 0, 0, 0xff, 0xff, 1, 2, 3, 4], rfl, by decide, by decide⟩

/-- C16, `sixtofour`: exactly for `2002::/16`, and then bits 16..47 (from the top). -/
theorem C16_sixtofour (b : List (BitVec 8)) (h : b.length = 16) :
    ∃ r, v6SixToFour b = .ok r ∧ (r.isSome ↔ beValue b / 2 ^ 112 = 0x2002) ∧
      ∀ v, r = some v → v.length = 4 ∧ beValue v = beValue b / 2 ^ 80 % 2 ^ 32 := by
  obtain ⟨b0, b1, b2, b3, b4, b5, b6, b7, b8, b9, b10, b11, b12, b13, b14, b15, rfl⟩ := list16' b h
  have e1 := beValue_div [b0, b1] [b2, b3, b4, b5, b6, b7, b8, b9, b10, b11, b12, b13, b14, b15]
  have e2 := beValue_div [b0, b1, b2, b3, b4, b5] [b6, b7, b8, b9, b10, b11, b12, b13, b14, b15]
  have e3 := beValue_mod [b0, b1] [b2, b3, b4, b5]
  simp only [List.cons_append, List.nil_append, List.length_cons, List.length_nil, Nat.reduceAdd,
    Nat.reducePow] at e1 e2 e3
  simp only [v6SixToFour, rd, rdRange, List.getElem?_cons_succ, List.getElem?_cons_zero, Res.ok_bind, Nat.reducePow]
  rw [e1, e2, e3]
  clear e1 e2 e3
  have := b0.isLt
  have := b1.isLt
  have e4 : beValue [b0, b1] = 8194 ↔ ¬ (b0 ≠ 0x20#8 ∨ b1 ≠ 0x02#8) := by
    simp only [beValue, List.length_cons, List.length_nil, ne_eq, bv8_eq, BitVec.toNat_ofNat]
    omega
  rw [e4]
  by_cases hc : b0 ≠ 0x20#8 ∨ b1 ≠ 0x02#8
  · rw [if_pos hc]
    exact ⟨_, rfl, by simp [hc], by simp⟩
  · rw [if_neg hc]
    exact ⟨_, rfl, by simp [hc], by rintro v ⟨⟩; exact ⟨rfl, rfl⟩⟩

example : v6SixToFour [0x20, 2, 1, 2, 3, 4, 0, 0, 0, 0, 0, 0, 0, 0, 0, 9] = .ok (some [1, 2, 3, 4]) := by decide

theorem beValue_not4 (a b c d : BitVec 8) :
    beValue [~~~a, ~~~b, ~~~c, ~~~d] = 2 ^ 32 - 1 - beValue [a, b, c, d] := by
  have := a.isLt
  have := b.isLt
  have := c.isLt
  have := d.isLt
  simp only [beValue, List.length_cons, List.length_nil, BitVec.toNat_not, Nat.reduceAdd, Nat.reducePow]
  omega

/-- C16, `teredo`: exactly for `2001::/32`; the server is in bits 32..63 (from the top), the client is
the complement of the low 32 bits. -/
theorem C16_teredo (b : List (BitVec 8)) (h : b.length = 16) :
    ∃ r, v6Teredo b = .ok r ∧ (r.isSome ↔ beValue b / 2 ^ 96 = 0x20010000) ∧
      ∀ s c, r = some (s, c) → s.length = 4 ∧ c.length = 4 ∧ beValue s = beValue b / 2 ^ 64 % 2 ^ 32 ∧
        beValue c = 2 ^ 32 - 1 - beValue b % 2 ^ 32 := by
  obtain ⟨b0, b1, b2, b3, b4, b5, b6, b7, b8, b9, b10, b11, b12, b13, b14, b15, rfl⟩ := list16' b h
  have e1 := beValue_div [b0, b1, b2, b3] [b4, b5, b6, b7, b8, b9, b10, b11, b12, b13, b14, b15]
  have e2 := beValue_div [b0, b1, b2, b3, b4, b5, b6, b7] [b8, b9, b10, b11, b12, b13, b14, b15]
  have e3 := beValue_mod [b0, b1, b2, b3] [b4, b5, b6, b7]
  have e5 := beValue_mod [b0, b1, b2, b3, b4, b5, b6, b7, b8, b9, b10, b11] [b12, b13, b14, b15]
  have e6 := beValue_not4 b12 b13 b14 b15
  simp only [List.cons_append, List.nil_append, List.length_cons, List.length_nil, Nat.reduceAdd,
    Nat.reducePow] at e1 e2 e3 e5 e6
  simp only [v6Teredo, rd, rdRange, List.getElem?_cons_succ, List.getElem?_cons_zero, Res.ok_bind, Nat.reducePow]
  rw [e1, e2, e3, e5]
  clear e1 e2 e3 e5
  have := b0.isLt
  have := b1.isLt
  have := b2.isLt
  have := b3.isLt
  have e4 : beValue [b0, b1, b2, b3] = 536936448 ↔
      ¬ (b0 ≠ 0x20#8 ∨ b1 ≠ 0x01#8 ∨ b2 ≠ 0x00#8 ∨ b3 ≠ 0x00#8) := by
    simp only [beValue, List.length_cons, List.length_nil, ne_eq, bv8_eq, BitVec.toNat_ofNat]
    omega
  rw [e4]
  by_cases hc : b0 ≠ 0x20#8 ∨ b1 ≠ 0x01#8 ∨ b2 ≠ 0x00#8 ∨ b3 ≠ 0x00#8
  · rw [if_pos hc]
    exact ⟨_, rfl, by simp [hc], by simp⟩
  · rw [if_neg hc]
    exact ⟨_, rfl, by simp [hc], by rintro s c ⟨⟩; exact ⟨rfl, rfl, rfl, e6⟩⟩

example : v6Teredo [0x20, 1, 0, 0, 65, 54, 227, 120, 0x80, 0, 0x63, 0xbf, 0x3f, 0xff, 0xfd, 0xd2] =
    .ok (some ([65, 54, 227, 120], [192, 0, 2, 45])) := by decide

/-- C17 (partial).  For a scope text without NUL, `set_scope_id` succeeds exactly if it is a legal scope
id; it then becomes the scope id and the bytes stay; otherwise the address is unchanged.
Missing: texts with NUL, see `C17_set_scope_nul`; and builds with maximum length 0, in which
`set_scope_id` does nothing. -/
theorem C17_set_scope_partial (spaces : Bool) (M : Nat) (hM : M ≠ 0) (a : V6) (ha : a.WF M) (s : List Char)
    (hn : ∀ c ∈ s, c ≠ '\x00') :
    ∃ b e, v6SetScope spaces M a s.length (readChars s) = .ok (b, e) ∧ b.WF M ∧ b.bytes = a.bytes ∧
      (ZoneOk spaces M s → e = none ∧ b.scope.contents = s) ∧
      (¬ ZoneOk spaces M s → e.isSome ∧ b = a) := by
  unfold v6SetScope scopeChange
  rw [if_neg hM]
  by_cases hl : s.length > M
  · rw [if_pos hl]
    refine ⟨a, _, rfl, ha, rfl, fun h => absurd h.1 (by omega), fun _ => ⟨rfl, rfl⟩⟩
  · rw [if_neg hl]
    have := setScopeLoop_eq spaces (M + 1) s [] (by simp; omega)
    simp only [List.nil_append, List.length_nil, Nat.sub_zero] at this
    rcases this with ⟨h1, h2⟩ | ⟨h1, h2⟩
    · rw [h2, Res.ok_bind]
      obtain ⟨f, e1, e2, e3, e4⟩ := mkFixed_eq (s ++ List.replicate (M + 1 - s.length) '\x00')
      have hlen : (s ++ List.replicate (M + 1 - s.length) '\x00').length - 1 = M := by simp; omega
      rw [hlen] at e3 e4
      rw [cstr_take_zone M s (by omega) hn] at e4
      rw [e1]
      refine ⟨_, _, rfl, ⟨ha.1, e2, e3⟩, rfl, fun _ => ⟨rfl, e4⟩, fun h => absurd ?_ h⟩
      exact (ZoneOk_iff spaces M s).2 ⟨by omega, h1⟩
    · rw [h2]
      refine ⟨a, _, rfl, ha, rfl, fun h => absurd ((ZoneOk_iff spaces M s).1 h).2 h1, fun _ => ⟨rfl, rfl⟩⟩

example : v6SetScope false 4 ⟨[0, 0, 0, 0, 0, 0, 0, 0, 0, 0, 0, 0, 0, 0, 0, 1], ⟨['a', 'b', 'c', 'd'], 4⟩⟩ 2
    (readChars ['e', '1']) =
    .ok (⟨[0, 0, 0, 0, 0, 0, 0, 0, 0, 0, 0, 0, 0, 0, 0, 1], ⟨['e', '1', '\x00', '\x00'], 2⟩⟩, none) := by decide

/-- C17.  For every text in every encoding (`size` code units read as the events `evs`, at most one
per unit) `set_scope_id` stays inside its buffer, keeps the address valid, and leaves it unchanged
when it reports an error. -/
theorem C17_set_scope_safe (spaces : Bool) (M : Nat) (a : V6) (ha : a.Good spaces M) (size : Nat) (evs : List Ev)
    (hs : evs.length ≤ size) :
    ∃ b e, v6SetScope spaces M a size evs = .ok (b, e) ∧ b.Good spaces M ∧ b.bytes = a.bytes ∧
      (e.isSome → b = a) := by
  unfold v6SetScope
  split
  · exact ⟨a, none, rfl, ha, rfl, by simp⟩
  unfold scopeChange
  by_cases hM : size > M
  · rw [if_pos hM]
    exact ⟨a, _, rfl, ha, rfl, fun _ => rfl⟩
  rw [if_neg hM]
  obtain ⟨h1, h2⟩ := setScopeLoop_safe spaces evs 0 (List.replicate (M + 1) '\x00') (by simp; omega)
  match hr : setScopeLoop spaces evs 0 (List.replicate (M + 1) '\x00') with
  | .ub => exact absurd hr h1
  | .err c v => exact ⟨a, _, rfl, ha, rfl, fun _ => rfl⟩
  | .ok str =>
    obtain ⟨h3, h4⟩ := h2 str hr
    obtain ⟨f, e1, e2, e3, e4⟩ := mkFixed_eq str
    have hlen : str.length - 1 = M := by rw [h3]; simp
    rw [hlen] at e3 e4
    have hmem : ∀ c ∈ f.contents, c ≠ '\x00' ∧ c ∈ str := by
      intro c hc
      rw [e4] at hc
      refine ⟨?_, List.mem_of_mem_take ((List.takeWhile_sublist _).mem hc)⟩
      simpa using List.all_eq_true.1 List.all_takeWhile c hc
    rw [Res.ok_bind, e1]
    refine ⟨_, _, rfl, ⟨⟨ha.1.1, e2, e3⟩, (ZoneOk_iff _ _ _).2 ⟨?_, fun c hc => ?_⟩, fun c hc => (hmem c hc).1⟩, rfl, by simp⟩
    · rw [FStr.contents_length f e2, ← e3]; exact e2
    · rcases h4 (by simp) c (hmem c hc).2 with h | h
      · exact absurd h (hmem c hc).1
      · exact h

example := C17_set_scope_safe false 16 exScoped exScoped_good 5 (readChars "a%b".toList) (by decide)

/-- C17, negation for texts with NUL: setting `"a\0b"` succeeds and the scope id becomes `"a"`. -/
theorem C17_set_scope_nul : ∃ b : V6,
    v6SetScope false 4 ⟨[0, 0, 0, 0, 0, 0, 0, 0, 0, 0, 0, 0, 0, 0, 0, 1], emptyScope 4⟩ 3
      (readChars ['a', '\x00', 'b']) = .ok (b, none) ∧ b.scope.contents = ['a'] :=
  ⟨⟨[0, 0, 0, 0, 0, 0, 0, 0, 0, 0, 0, 0, 0, 0, 0, 1], ⟨['a', '\x00', '\x00', '\x00'], 1⟩⟩, by decide, by decide⟩

/-- C18 (partial).  `has_uint32` holds exactly for nonempty strings of decimal digits, and `get_uint32`
is then their value modulo `2^32` and otherwise 0.  Missing: numbers of `2^32` or more should not be
reported, see `C18_scope_value_wraps`. -/
theorem C18_scope_value_partial (s : FStr) (hs : s.WF) :
    ∃ has v, scopeValue s = .ok (has, v) ∧
      (has = true ↔ s.contents ≠ [] ∧ ∃ ds, DigitText 10 s.contents ds) ∧
      (has = false → v = 0#32) ∧
      (∀ ds, DigitText 10 s.contents ds → v.toNat = digitsValue 10 ds % 2 ^ 32) := by
  have hl := FStr.contents_length s hs
  unfold scopeValue
  split
  · rename_i h0
    have hne : s.contents ≠ [] := by intro h; rw [h] at hl; exact h0 hl.symm
    rcases scopeValueLoop_eq s hs (s.length + 1) 0 0#32 (by omega) (by omega) with ⟨ds, h1, h2⟩ | ⟨h1, h2⟩
    · rw [h2]
      rw [List.drop_zero] at h1
      refine ⟨_, _, rfl, by simp only [true_iff]; exact ⟨hne, ds, h1⟩, by simp, ?_⟩
      intro ds' h'
      rw [DigitText_unique _ _ _ _ h' h1]
      simp [digitsValue]
    · rw [h2]
      rw [List.drop_zero] at h1
      exact ⟨_, _, rfl, by simp [h1], by simp, fun ds h => absurd ⟨ds, h⟩ h1⟩
  · rename_i h0
    have he : s.contents = [] := by
      apply List.eq_nil_of_length_eq_zero; omega
    refine ⟨_, _, rfl, by simp [he], by simp, ?_⟩
    rw [he]
    intro ds h
    match ds, h with
    | [], _ => rfl

example : scopeValue ⟨['0', '4', '2', 'x'], 3⟩ = .ok (true, 42#32) := by decide
example : scopeValue ⟨['4', '2', 'x', 'x'], 3⟩ = .ok (false, 0#32) := by decide

/-- C18, negation: the scope id `4294967296` is reported as the number 0. -/
theorem C18_scope_value_wraps : ∃ s : FStr, s.WF ∧ s.contents = ['4', '2', '9', '4', '9', '6', '7', '2', '9', '6'] ∧
    scopeValue s = .ok (true, 0#32) :=
  ⟨⟨['4', '2', '9', '4', '9', '6', '7', '2', '9', '6'], 10⟩, by simp [FStr.WF], by decide, by decide⟩

/-- C19 for addresses: equal addresses have equal hashes, for both versions. -/
theorem C19_address_hash (val : Char → Int) (hv : ∀ x y, val x = val y → x = y) (conv : Char → BitVec 64)
    (M : Nat) :
    (∀ a b : List (BitVec 8), a.length = 4 → b.length = 4 → bytesEq a b = true → v4Hash a = v4Hash b) ∧
    (∀ a b : V6, a.WF M → b.WF M → v6Equals val a b = .ok true →
      ∃ h, v6Hash conv a = .ok h ∧ v6Hash conv b = .ok h) := by
  constructor
  · intro a b ha hb h
    rw [(bytesEq_iff a b (by omega)).1 h]
  · intro a b ha hb h
    obtain ⟨o, e, _, h1, _, _, _, h2⟩ := C15_v6_compare val hv M a b ha hb
    rw [h1] at h
    cases h
    obtain ⟨h3, h4⟩ := h2.1 rfl
    unfold v6Hash
    rw [FStr.hash_eq conv _ ha.2.1, FStr.hash_eq conv _ hb.2.1, ha.2.2, hb.2.2, h3, h4]
    exact ⟨_, rfl, rfl⟩

example := C19_address_hash exCfg.val exCfg_val exCfg.conv 16

/-- `"...in-addr.arpa"` without its leading octets. -/
def inAddrArpa : List Char := ['.', 'i', 'n', '-', 'a', 'd', 'd', 'r', '.', 'a', 'r', 'p', 'a']
/-- `".ip6.arpa"`. -/
def ip6Arpa : List Char := ['.', 'i', 'p', '6', '.', 'a', 'r', 'p', 'a']

/-- C21, IPv4: the octets in reverse order, for both byte orders of the host. -/
theorem C21_v4_reverse_pointer (le : Bool) (a b c d : BitVec 8) :
    v4ReversePointer le [a, b, c, d] = .ok (dotted d c b a ++ inAddrArpa) := by
  unfold v4ReversePointer
  cases le
  · rw [v4ToUint_be, Res.ok_bind, swap32_cat4, v4FromUint_be, v4ToString_eq]; rfl
  · rw [v4ToUint_le, Res.ok_bind, swap32_cat4, v4FromUint_le, v4ToString_eq]; rfl

/-- C21, IPv6: the 32 nibbles, least significant first, separated by dots. -/
theorem C21_v6_reverse_pointer (M : Nat) (b : List (BitVec 8)) (h : b.length = 16) :
    v6ReversePointer M b = .ok (dotJoin (nibbles 32 (beValue b)) ++ ip6Arpa) := by
  unfold v6ReversePointer
  obtain ⟨t, rest, h1, h2, h3, h4⟩ := v6ToChars_eq b h (emptyScope M) (by simp [FStr.WF, emptyScope]) .full
    (List.replicate (42 + M) '\x00') (by simp [emptyScope])
  have hz : zoneText (emptyScope M).contents = [] := by simp [zoneText, emptyScope, FStr.contents]
  rw [hz, List.append_nil] at h3
  rw [h3, Res.ok_bind]
  cases h1
  simp only [List.take_left']
  rw [filter_colons _ (by
    intro t ht
    obtain ⟨v, _, rfl⟩ := List.mem_map.1 ht
    exact hex4_noColon v), beValue_groups b 8 h]
  have := accumulateDots_eq (nibbles 31 (beValue b / 16)) [] (beValue b % 16).digitChar
  simp only [List.nil_append] at this
  simp only [show nibbles (4 * 8) (beValue b) = (beValue b % 16).digitChar :: nibbles 31 (beValue b / 16) from rfl, this]
  rfl

example := C21_v6_reverse_pointer 16 exDoc.bytes rfl

/-- C21.  Different addresses have different pointers. -/
theorem C21_injective (le : Bool) (M : Nat) :
    (∀ a b : List (BitVec 8), a.length = 4 → b.length = 4 → v4ReversePointer le a = v4ReversePointer le b → a = b) ∧
    (∀ a b : List (BitVec 8), a.length = 16 → b.length = 16 → v6ReversePointer M a = v6ReversePointer M b → a = b) := by
  constructor
  · intro a b ha hb h
    match a, ha, b, hb with
    | [a, b, c, d], _, [a', b', c', d'], _ =>
      rw [C21_v4_reverse_pointer, C21_v4_reverse_pointer] at h
      simp only [Res.ok.injEq, List.append_cancel_right_eq] at h
      have h1 : v4Parse (dotted d c b a) = .ok [d, c, b, a] := v4FromEvents_dotted d c b a
      have h2 : v4Parse (dotted d' c' b' a') = .ok [d', c', b', a'] := v4FromEvents_dotted d' c' b' a'
      rw [h, h2] at h1
      cases h1
      rfl
  · intro a b ha hb h
    rw [C21_v6_reverse_pointer M a ha, C21_v6_reverse_pointer M b hb] at h
    simp only [Res.ok.injEq, List.append_cancel_right_eq] at h
    have h1 := nibbles_inj 32 _ _ (dotJoin_inj _ _ h)
    have ea := beValue_lt a
    have eb := beValue_lt b
    rw [ha] at ea
    rw [hb] at eb
    rw [Nat.mod_eq_of_lt (by simpa using ea), Nat.mod_eq_of_lt (by simpa using eb)] at h1
    exact beValue_inj a b (by omega) h1

example : v4ReversePointer true [127, 0, 0, 1] =
    .ok ['1', '.', '0', '.', '0', '.', '1', '2', '7', '.', 'i', 'n', '-', 'a', 'd', 'd', 'r', '.', 'a', 'r', 'p', 'a'] := by decide

/-- C53 for IPv6 addresses: `swap` exchanges bytes and scope ids. -/
theorem C53_v6_swap (M : Nat) (a b : V6) (ha : a.WF M) (hb : b.WF M) :
    ∃ x y, v6Swap a b = .ok (x, y) ∧ x.WF M ∧ y.WF M ∧ x.bytes = b.bytes ∧ y.bytes = a.bytes ∧
      x.scope.contents = b.scope.contents ∧ y.scope.contents = a.scope.contents := by
  obtain ⟨s, t, h1, h2, h3, h4, h5, h6, h7⟩ := FStr.swap_eq' a.scope b.scope ha.2.1 hb.2.1 (by rw [ha.2.2, hb.2.2])
  unfold v6Swap
  rw [h1, bytesSwap_eq a.bytes b.bytes (by rw [ha.1, hb.1])]
  exact ⟨_, _, rfl, ⟨hb.1, h4, by rw [h6, ha.2.2]⟩, ⟨ha.1, h5, by rw [h7, hb.2.2]⟩, rfl, rfl, h2, h3⟩

example := C53_v6_swap 16 exScoped exDoc exScoped_ok exDoc_ok

end Ip
