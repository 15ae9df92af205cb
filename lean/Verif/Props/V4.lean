import Verif.Lemmas.V4
import Verif.Lemmas.V4Uint
import Verif.Lemmas.Bytes
/-
Properties C01 - C07: IPv4 text, integers, order, construction from bytes.
-/
set_option autoImplicit false

namespace Ip
open Spec

/-- C01.  The IPv4 parser accepts exactly the canonical dotted decimal texts, with those octets;
every other text is reported as an error (never undefined behaviour). -/
theorem C01_v4_parse_exact (s : List Char) :
    (∀ r, v4Parse s = .ok r ↔ ∃ a b c d : BitVec 8, r = [a, b, c, d] ∧ s = dotted a b c d) ∧
    ((¬ ∃ a b c d : BitVec 8, s = dotted a b c d) ↔ ∃ code v, v4Parse s = .err code v) := by
  refine ⟨v4Parse_ok_iff s, ?_⟩
  constructor
  · intro h
    cases hp : v4Parse s with
    | ok r =>
      obtain ⟨a, b, c, d, _, hs⟩ := (v4Parse_ok_iff s r).1 hp
      exact absurd ⟨a, b, c, d, hs⟩ h
    | err code v => exact ⟨code, v, rfl⟩
    | ub => exact absurd hp (v4FromEvents_ne_ub _)
  · rintro ⟨code, v, h⟩ ⟨a, b, c, d, hs⟩
    rw [(v4Parse_ok_iff s _).2 ⟨a, b, c, d, rfl, hs⟩] at h
    cases h

example : v4Parse "192.168.0.255".toList = .ok [192, 168, 0, 255] := by decide
example : v4Parse "192.168.00.255".toList = .err .leading_0_are_not_permitted 2 := by decide
example : dotted 192 168 0 255 = "192.168.0.255".toList := by decide

/-- C02.  Parsing the text of an address gives the address back. -/
theorem C02_v4_round_trip (a b c d : BitVec 8) :
    (v4ToString [a, b, c, d] >>= v4Parse) = .ok [a, b, c, d] := by
  rw [v4ToString_eq]
  exact v4FromEvents_dotted a b c d

/-- C03.  An accepted text is the text printed for the parsed address, so no two different texts
denote the same address. -/
theorem C03_v4_canonical (s : List Char) (r : List (BitVec 8)) (h : v4Parse s = .ok r) :
    v4ToString r = .ok s ∧ ∀ s', v4Parse s' = .ok r → s' = s := by
  obtain ⟨a, b, c, d, hr, hs⟩ := (v4Parse_ok_iff s r).1 h
  refine ⟨by rw [hr, hs, v4ToString_eq], ?_⟩
  intro s' h'
  obtain ⟨a', b', c', d', hr', hs'⟩ := (v4Parse_ok_iff s' r).1 h'
  rw [hr] at hr'
  simp at hr'
  rw [hs', hs, hr'.1, hr'.2.1, hr'.2.2.1, hr'.2.2.2]

example : v4Parse "10.0.0.1".toList = .ok [10, 0, 0, 1] ∧
    v4ToString [10, 0, 0, 1] = .ok "10.0.0.1".toList := by decide

/-- C04.  Formatting never writes outside the 16 character buffer (whatever it contained), the
reported length is that of the text, at most 15, the text consists of digits and dots, and a
terminator follows it. -/
theorem C04_v4_buffer (a b c d : BitVec 8) (buf : List Char) (hb : buf.length = 16) :
    ∃ res len, v4ToChars [a, b, c, d] buf = .ok (res, len) ∧ res.length = 16 ∧ len ≤ 15 ∧
      res[len]? = some '\x00' ∧ (∀ ch ∈ res.take len, isDig ch = true ∨ ch = '.') ∧
      res.take len = dotted a b c d := by
  obtain ⟨rest, h, hl⟩ := v4ToChars_eq a b c d buf hb
  refine ⟨_, _, h, hl, (dotted_length a b c d).1, by simp, ?_, by simp⟩
  intro ch hch
  simp only [List.take_left'] at hch
  simp only [dotted, List.mem_append, List.mem_cons] at hch
  rcases hch with h | h | h | h | h | h | h
  all_goals first | exact Or.inl (dec_isDig h) | exact Or.inr h

example : v4ToChars [255, 255, 255, 255] (List.replicate 16 'x') =
    .ok ("255.255.255.255\x00".toList, 15) := by decide

/-- C05 (partial: little endian hosts only).  `from_uint` and `to_uint` are inverse bijections and
`to_uint` is the value of the octets in network order. Missing: the same statement for big endian
hosts, which is false of the code, see `C05_v4_big_endian_wrong`. -/
theorem C05_v4_uint_partial :
    (∀ a b c d : BitVec 8, ∃ u, v4ToUint true [a, b, c, d] = .ok u ∧
        u.toNat = a.toNat * 2 ^ 24 + b.toNat * 2 ^ 16 + c.toNat * 2 ^ 8 + d.toNat ∧
        v4FromUint true u = [a, b, c, d]) ∧
    (∀ u : BitVec 32, v4ToUint true (v4FromUint true u) = .ok u ∧ (v4FromUint true u).length = 4) := by
  constructor
  · intro a b c d
    refine ⟨_, v4ToUint_le a b c d, ?_, v4FromUint_le a b c d⟩
    rw [cat4_toNat]
    simp only [beValue, List.length_cons, List.length_nil]
    omega
  · intro u
    obtain ⟨a, b, c, d, rfl⟩ := split32 u
    rw [v4FromUint_le, v4ToUint_le]
    exact ⟨rfl, rfl⟩

/-- C05, what does hold on both kinds of hosts: the two conversions are mutually inverse. -/
theorem C05_v4_uint_inverse (le : Bool) :
    (∀ a b c d : BitVec 8, (v4ToUint le [a, b, c, d] >>= fun u => .ok (v4FromUint le u)) = .ok [a, b, c, d]) ∧
    (∀ u : BitVec 32, v4ToUint le (v4FromUint le u) = .ok u) := by
  constructor
  · intro a b c d
    cases le
    · rw [v4ToUint_be, Res.ok_bind, v4FromUint_be]
    · rw [v4ToUint_le, Res.ok_bind, v4FromUint_le]
  · intro u
    obtain ⟨a, b, c, d, rfl⟩ := split32 u
    cases le
    · rw [v4FromUint_be, v4ToUint_be]
    · rw [v4FromUint_le, v4ToUint_le]

/-- C05, negation for big endian hosts: 1.2.3.4 converts to 0x04030201, so integer values, and
everything computed from them, are byte reversed there. -/
theorem C05_v4_big_endian_wrong :
    v4ToUint false [1, 2, 3, 4] = .ok 0x04030201#32 ∧ v4FromUint false 0x01020304#32 = [4, 3, 2, 1] := by
  decide

/-- C06.  Both comparison implementations and equality agree with the numeric order of the octets
read in network order, for arrays of any common length (IPv4: 4). -/
theorem C06_order_numeric (a b : List (BitVec 8)) (h : a.length = b.length) :
    (bytesEq a b = true ↔ beValue a = beValue b) ∧
    (bytesLess a b = true ↔ beValue a < beValue b) ∧
    bytesCmp a b = compare (beValue a) (beValue b) ∧
    (bytesEq a b = true ↔ a = b) := by
  refine ⟨?_, bytesLess_iff a b h, bytesCmp_eq a b h, bytesEq_iff a b h⟩
  rw [bytesEq_iff a b h]
  exact ⟨fun hh => by rw [hh], beValue_inj a b h⟩

example := C06_order_numeric [10, 0, 0, 1] [9, 255, 0, 1] rfl

/-- C06, consequence: `<` is a strict total order on IPv4 addresses. -/
theorem C06_v4_strict_total (a b c : List (BitVec 8)) (ha : a.length = 4) (hb : b.length = 4)
    (hc : c.length = 4) :
    bytesLess a a = false ∧
    (bytesLess a b = true → bytesLess b c = true → bytesLess a c = true) ∧
    (bytesLess a b = true ∨ bytesEq a b = true ∨ bytesLess b a = true) ∧
    (bytesLess a b = true → bytesEq a b = false ∧ bytesLess b a = false) ∧
    (bytesLess a b = true ↔ bytesCmp a b = .lt) ∧ (bytesEq a b = true ↔ bytesCmp a b = .eq) := by
  have hab : a.length = b.length := by omega
  have hbc : b.length = c.length := by omega
  have e1 := bytesLess_iff a b hab
  have e2 := bytesLess_iff b c hbc
  have e3 := bytesLess_iff a c (by omega)
  have e4 := bytesLess_iff b a hab.symm
  have e5 := bytesLess_iff a a rfl
  have e6 := (C06_order_numeric a b hab).1
  have e7 := bytesCmp_eq a b hab
  refine ⟨?_, ?_, ?_, ?_, ?_, ?_⟩
  · rw [Bool.eq_false_iff, ne_eq, e5]; omega
  · rw [e1, e2, e3]; omega
  · rw [e1, e4, e6]; omega
  · rw [e1, Bool.eq_false_iff, Bool.eq_false_iff, ne_eq, ne_eq, e6, e4]; omega
  · rw [e1, e7, Nat.compare_eq_lt]
  · rw [e6, e7, Nat.compare_eq_eq]

example : bytesLess [10, 0, 0, 255] [10, 0, 1, 0] = true := by decide
example : bytesLess [192, 168, 0, 1] [10, 0, 1, 0] = false := by decide

/-- C06 for the integer conversion: the order is the order of `to_uint` (little endian host). -/
theorem C06_v4_order_uint (a b : List (BitVec 8)) (ha : a.length = 4) (hb : b.length = 4) :
    ∃ u v, v4ToUint true a = .ok u ∧ v4ToUint true b = .ok v ∧
      (bytesLess a b = true ↔ u.toNat < v.toNat) ∧ (bytesEq a b = true ↔ u = v) := by
  match a, ha, b, hb with
  | [a0, a1, a2, a3], _, [b0, b1, b2, b3], _ =>
    refine ⟨_, _, v4ToUint_le a0 a1 a2 a3, v4ToUint_le b0 b1 b2 b3, ?_, ?_⟩
    · rw [cat4_toNat, cat4_toNat]
      exact bytesLess_iff _ _ rfl
    · rw [(C06_order_numeric [a0, a1, a2, a3] [b0, b1, b2, b3] rfl).1, ← cat4_toNat, ← cat4_toNat, BitVec.toNat_eq]

example := C06_v4_order_uint [10, 0, 0, 1] [9, 255, 0, 1] rfl rfl

/-- C07.  `from_bytes(ptr, count)` copies the first `min(count, size)` bytes and zero fills; it
reads nothing beyond the `count` bytes the caller provides (otherwise the outcome would be `ub`). -/
theorem C07_from_bytes (size : Nat) (src : List (BitVec 8)) (count : Nat) (hc : count ≤ src.length) :
    ∃ r, fromBytes size src count = .ok r ∧ r.length = size ∧
      ∀ i, i < size → r[i]? = if i < count then src[i]? else some 0#8 := by
  refine ⟨_, fromBytes_eq size src count hc, ?_, ?_⟩
  · simp; omega
  · intro i hi
    rw [List.getElem?_append, List.length_take]
    split
    · rename_i h
      rw [List.getElem?_take, if_pos (by omega), if_pos (by omega)]
    · rename_i h
      rw [List.getElem?_replicate, if_pos (by omega), if_neg (by omega)]

example : fromBytes 4 [1, 2] 2 = .ok [1, 2, 0, 0] := by decide
example : fromBytes 4 [1, 2, 3, 4, 5] 5 = .ok [1, 2, 3, 4] := by decide

end Ip
