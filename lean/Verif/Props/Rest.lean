import Verif.Spec.Rest
import Verif.Props.Float
import Verif.Props.Compare
import Verif.Props.AnyNetIter
import Verif.Props.NetIter
import Verif.Props.Containers
import Verif.Props.FixedString
/-
What the code does where C05, C14, C30, C34, C36, C47, C49, C56 and C57 are false, for all inputs.
-/
set_option autoImplicit false

namespace Ip
open Spec

/-! ### C05, C14 -/

/-- C05, both byte orders: the integer of an IPv4 address is its octets read in network order, on big endian hosts read
from the last octet. -/
theorem C05_uint_exact (le : Bool) (b : List (BitVec 8)) (h : b.length = 4) :
    (∃ n, v4ToUint le b = .ok n ∧ n.toNat = beValue (if le then b else b.reverse)) ∧
    ∀ n : BitVec 32, (v4FromUint le n).length = 4 ∧
      beValue (if le then v4FromUint le n else (v4FromUint le n).reverse) = n.toNat := by
  have key : ∀ a b c d : BitVec 8, (cat4 a b c d).toNat = beValue [a, b, c, d] := by
    intro a b c d
    have := v4ToUint_val [a, b, c, d] rfl
    rw [v4ToUint_le] at this
    obtain ⟨n, h1, h2⟩ := this
    cases h1
    exact h2
  constructor
  · match b, h with
    | [a, b, c, d], _ =>
      cases le
      · exact ⟨_, v4ToUint_be .., key ..⟩
      · exact ⟨_, v4ToUint_le .., key ..⟩
  · intro n
    obtain ⟨a, b, c, d, rfl⟩ := split32 n
    cases le
    · rw [v4FromUint_be]; exact ⟨rfl, (key ..).symm⟩
    · rw [v4FromUint_le]; exact ⟨rfl, (key ..).symm⟩

example : beValue ([1, 2, 3, 4] : List (BitVec 8)).reverse = 0x04030201 := by decide

/-- C14, both byte orders: the integer of an IPv6 address is its bytes read in network order, on big endian hosts with
both halves read from the last byte. -/
theorem C14_uint_exact (le : Bool) (b : List (BitVec 8)) (h : b.length = 16) :
    ∃ n, v6ToUint le b = .ok n ∧ n.val = beValue (if le then b else (b.take 8).reverse ++ (b.drop 8).reverse) := by
  obtain ⟨b0, b1, b2, b3, b4, b5, b6, b7, b8, b9, b10, b11, b12, b13, b14, b15, rfl⟩ := list16' b h
  have key : ∀ b0 b1 b2 b3 b4 b5 b6 b7 b8 b9 b10 b11 b12 b13 b14 b15 : BitVec 8, ∃ n,
      v6ToUint true [b0, b1, b2, b3, b4, b5, b6, b7, b8, b9, b10, b11, b12, b13, b14, b15] = .ok n ∧
      n.val = beValue [b0, b1, b2, b3, b4, b5, b6, b7, b8, b9, b10, b11, b12, b13, b14, b15] := by
    intros
    exact v6ToUint_val _ rfl
  cases le
  · obtain ⟨n, h1, h2⟩ := key b7 b6 b5 b4 b3 b2 b1 b0 b15 b14 b13 b12 b11 b10 b9 b8
    refine ⟨n, ?_, h2⟩
    rw [← h1, v6ToUint_be, v6ToUint_le]
  · exact key ..

example := C14_uint_exact false ex32.addr.bytes rfl

/-! ### C30, C49 -/

/-- C30, all networks: the addresses are `network address + i` for `i` below `2^(width - prefix length)`, and
`addresses_count` is this number modulo `2^width`; so it is 0 for prefix length 0 and only there. -/
theorem C30_count_exact (c : Cfg) (hc : c.le = true) :
    (∀ n, NetOk4 n → ∃ u, (fam4 true).addressesCount n = .ok u ∧ u.toNat = 2 ^ (32 - n.plen) % 2 ^ 32 ∧
      (u.toNat = 0 ↔ n.plen = 0) ∧
      ∀ x, InNet 32 n.plen (beValue n.addr) x ↔ ∃ i, i < 2 ^ (32 - n.plen) ∧ x = beValue n.addr + i) ∧
    (∀ n, NetOk6 c n → ∃ u, (fam6 c).addressesCount n = .ok u ∧ u.val = 2 ^ (128 - n.plen) % 2 ^ 128 ∧
      (u.val = 0 ↔ n.plen = 0) ∧
      ∀ x, InNet 128 n.plen (beValue n.addr.bytes) x ↔ ∃ i, i < 2 ^ (128 - n.plen) ∧ x = beValue n.addr.bytes + i) := by
  have key : ∀ {A U : Type} {F : Fam A U} {WF : A → Prop} {val : U → Nat} (_ : F.Law WF val) (_ : 0 < F.maxPrefix) (n : Net A),
      NetOk F WF n → ∃ u, F.addressesCount n = .ok u ∧ val u = 2 ^ (F.maxPrefix - n.plen) % 2 ^ F.maxPrefix ∧
        (val u = 0 ↔ n.plen = 0) ∧
        ∀ x, InNet F.maxPrefix n.plen (F.v n.addr) x ↔ ∃ i, i < 2 ^ (F.maxPrefix - n.plen) ∧ x = F.v n.addr + i := by
    intro A U F WF val L h0 n hn
    obtain ⟨u, h1, h2⟩ := addressesCount_eq L n hn
    refine ⟨u, h1, h2, ?_, fun x => ?_⟩
    · rw [h2]
      constructor
      · intro h
        by_contra hne
        rw [Nat.mod_eq_of_lt (Nat.pow_lt_pow_right (by decide) (by omega))] at h
        exact absurd h (Nat.two_pow_pos _).ne'
      · intro h
        rw [h, Nat.sub_zero, Nat.mod_self]
    · rw [inNet_interval L n hn]
      exact ⟨fun h => ⟨x - F.v n.addr, by omega, by omega⟩, fun ⟨i, h1, h2⟩ => by omega⟩
  exact ⟨fun n hn => key fam4Law (by decide) n hn, fun n hn => key (fam6Law c hc) (by show 0 < 128; decide) n hn⟩

example := C30_count_exact exCfg rfl

/-- C49, all networks: `total_addresses` is the number of addresses modulo `2^32` or `2^128`. -/
theorem C49_count_exact (c : Cfg) (hc : c.le = true) :
    (∀ n, NetOk4 n → ∃ u, anyNetCount c (.v4 n) = .ok u ∧ u.val = 2 ^ (32 - n.plen) % 2 ^ 32) ∧
    (∀ n, NetOk6 c n → ∃ u, anyNetCount c (.v6 n) = .ok u ∧ u.val = 2 ^ (128 - n.plen) % 2 ^ 128) := by
  obtain ⟨h4, h6⟩ := C30_count_exact c hc
  constructor
  · intro n hn
    obtain ⟨u, h1, h2, _⟩ := h4 n hn
    exact ⟨U128.ofU64 (u.setWidth 64), by simp only [anyNetCount, hc, h1, Res.ok_bind], by rw [ofU64_val32, h2]⟩
  · intro n hn
    obtain ⟨u, h1, h2, _⟩ := h6 n hn
    exact ⟨u, h1, h2⟩

example := C49_count_exact exCfg rfl

/-! ### C34 -/

section
variable {A U : Type} {F : Fam A U} {WF : A → Prop} {val : U → Nat}

/-- The end of the sequence is the default iterator. -/
theorem exclude_end (L : F.Law WF val) (n o : Net A) (s : ExSeq A) (h : F.addressExclude n o = .ok s) :
    IsNet F F.maxPrefix 0 s.last.cur := by
  obtain ⟨d, d1, d2⟩ := default_isNet L
  have hd : F.exDefault = .ok ⟨d, d, d, d⟩ := by simp only [Fam.exDefault, d1, Res.ok_bind]
  unfold Fam.addressExclude at h
  obtain ⟨l, _, h⟩ := Res.bind_eq_ok.1 h
  obtain ⟨r, _, h⟩ := Res.bind_eq_ok.1 h
  obtain ⟨b, _, h⟩ := Res.bind_eq_ok.1 h
  split at h
  · cases h
  · obtain ⟨e, _, h⟩ := Res.bind_eq_ok.1 h
    split at h
    · rw [Fam.exSeqDefault, hd] at h
      cases h
      exact d2
    · unfold Fam.noexcept at h
      split at h
      · rename_i a ha
        cases h
        unfold Fam.exSeqMk at ha
        obtain ⟨x, _, ha⟩ := Res.bind_eq_ok.1 ha
        rw [hd] at ha
        cases ha
        exact d2
      · cases h

/-- A visited network is not the end. -/
theorem exVisit_ne : ∀ (fuel : Nat) (x e : ExIter A) (l : List (Net A)), F.exVisit fuel x e = .ok l →
    ∀ m ∈ l, F.netEq m e.cur = .ok false
  | 0, x, e, l, h => by cases h
  | fuel + 1, x, e, l, h => by
    unfold Fam.exVisit at h
    obtain ⟨b, hb, h⟩ := Res.bind_eq_ok.1 h
    split at h
    · cases h; simp
    · rename_i hf
      obtain ⟨y, _, h⟩ := Res.bind_eq_ok.1 h
      obtain ⟨r, hr, h⟩ := Res.bind_eq_ok.1 h
      cases h
      intro m hm
      rcases List.mem_cons.1 hm with rfl | hm
      · rw [← Fam.exEq, hb]; simpa using hf
      · exact exVisit_ne fuel y e r hr m hm

theorem exclude_exact (L : F.Law WF val) (hw : F.maxPrefix < 2 ^ 64) (h4 : F.isV6 = false → ∀ a : A, ∃ x, a = F.ofBytes x)
    (n o : Net A) (hn : NetOk F WF n) (ho : NetOk F WF o)
    (hsub : ∀ t, InNet F.maxPrefix o.plen (F.v o.addr) t → InNet F.maxPrefix n.plen (F.v n.addr) t) :
    ∃ (s : ExSeq A) (l : List (Net A)), F.addressExclude n o = .ok s ∧
      (∀ fuel, l.length + 1 < fuel → F.exVisit fuel s.first s.last = .ok l) ∧ (∀ a ∈ l, NetOk F WF a) ∧
      Partitions F.maxPrefix (l.map F.vp)
        (fun t => InNet F.maxPrefix n.plen (F.v n.addr) t ∧ ¬ InNet F.maxPrefix o.plen (F.v o.addr) t ∧
          ¬ Lost F.maxPrefix o.plen (F.v o.addr) (F.v n.addr) t) := by
  obtain ⟨s, all, h1, h2, h3, h4, h5⟩ := addressExclude_spec L hw h4 n o hn ho hsub
  have hend := exclude_end L n o s h1
  by_cases hc : o.plen = F.maxPrefix ∧ F.v o.addr = 1 ∧ F.v n.addr = 0
  · simp only [if_pos hc] at h5
    have hv := exVisit_ne _ _ _ _ (h5 (all.length + 1) (by omega))
    refine ⟨s, all.dropLast, h1, fun fuel hf => h5 fuel (by rw [List.length_dropLast] at hf; omega),
      fun a ha => (h3 a (List.dropLast_subset _ ha)).1, ?_, ?_⟩
    · refine List.Pairwise.sublist ?_ h4.1
      exact List.Sublist.map _ (List.dropLast_sublist _)
    have hint : ∀ a ∈ all, ∀ x, InNet F.maxPrefix a.plen (F.v a.addr) x ↔ _ := fun a ha x => inNet_interval L a (h3 a ha).1 x
    have h1o : InNet F.maxPrefix o.plen (F.v o.addr) 1 := by
      rw [inNet_interval L o ho, hc.2.1]
      have := Nat.two_pow_pos (F.maxPrefix - o.plen)
      omega
    -- a network of the list that contains 0 is the network of the end
    have hzero : ∀ a ∈ all, InNet F.maxPrefix a.plen (F.v a.addr) 0 → F.v a.addr = 0 ∧ a.plen = F.maxPrefix := by
      intro a ha h0
      have ok := (h3 a ha).1
      have e0 : F.v a.addr = 0 := by rw [hint a ha] at h0; omega
      refine ⟨e0, ?_⟩
      by_contra hne
      have hp := ok.plen
      have : InNet F.maxPrefix a.plen (F.v a.addr) 1 := by
        rw [hint a ha, e0]
        have : 2 ^ 1 ≤ 2 ^ (F.maxPrefix - a.plen) := Nat.pow_le_pow_right (by decide) (by omega)
        omega
      exact ((h4.2 1).1 ⟨F.vp a, List.mem_map_of_mem ha, this⟩).2 h1o
    have hnot : ∀ a ∈ all.dropLast, ¬ InNet F.maxPrefix a.plen (F.v a.addr) 0 := by
      intro a ha h0
      have hm := List.dropLast_subset _ ha
      obtain ⟨e1, e2⟩ := hzero a hm h0
      have := netEq_isNet L ((h3 a hm).1.isNet L (h3 a hm).2) hend
      rw [hv a ha] at this
      rw [e1, e2] at this
      simp at this
    intro t
    constructor
    · rintro ⟨a, ha, ht⟩
      obtain ⟨m, hm, rfl⟩ := List.mem_map.1 ha
      obtain ⟨g1, g2⟩ := (h4.2 t).1 ⟨F.vp m, List.mem_map_of_mem (List.dropLast_subset _ hm), ht⟩
      refine ⟨g1, g2, ?_⟩
      rintro ⟨_, _, _, rfl⟩
      exact hnot m hm ht
    · rintro ⟨g1, g2, g3⟩
      obtain ⟨a, ha, ht⟩ := (h4.2 t).2 ⟨g1, g2⟩
      obtain ⟨m, hm, rfl⟩ := List.mem_map.1 ha
      refine ⟨F.vp m, List.mem_map_of_mem ?_, ht⟩
      -- the last network is the one of address 0
      obtain ⟨z, hz, hz0⟩ : ∃ z ∈ all, InNet F.maxPrefix z.plen (F.v z.addr) 0 := by
        have : InNet F.maxPrefix n.plen (F.v n.addr) 0 := by
          rw [inNet_interval L n hn, hc.2.2]
          have := Nat.two_pow_pos (F.maxPrefix - n.plen)
          omega
        have ho0 : ¬ InNet F.maxPrefix o.plen (F.v o.addr) 0 := by rw [inNet_interval L o ho, hc.2.1]; omega
        obtain ⟨a, ha, h⟩ := (h4.2 0).2 ⟨this, ho0⟩
        obtain ⟨z, hz, rfl⟩ := List.mem_map.1 ha
        exact ⟨z, hz, h⟩
      have hne : all ≠ [] := List.ne_nil_of_mem hz
      have hsplit := List.dropLast_concat_getLast hne
      have hzl : z = all.getLast hne := by
        have : z ∈ all.dropLast ++ [all.getLast hne] := by rw [hsplit]; exact hz
        rcases List.mem_append.1 this with h | h
        · exact absurd hz0 (hnot z h)
        · simpa using h
      have : m ∈ all.dropLast ++ [all.getLast hne] := by rw [hsplit]; exact hm
      rcases List.mem_append.1 this with h | h
      · exact h
      · exfalso
        have hmz : m = z := by rw [hzl]; simpa using h
        subst hmz
        obtain ⟨e1, e2⟩ := hzero m hz hz0
        have ht : InNet F.maxPrefix m.plen (F.v m.addr) t := ht
        rw [hint m hm, e1, e2, Nat.sub_self] at ht
        exact g3 ⟨hc.1, hc.2.1, hc.2.2, by omega⟩
  · simp only [if_neg hc] at h5
    refine ⟨s, all, h1, fun fuel hf => h5 fuel (by omega), fun a ha => (h3 a ha).1, h4.1, fun t => ?_⟩
    rw [h4.2 t]
    constructor
    · rintro ⟨g1, g2⟩
      exact ⟨g1, g2, fun g => hc ⟨g.1, g.2.1, g.2.2.1⟩⟩
    · rintro ⟨g1, g2, _⟩
      exact ⟨g1, g2⟩

end

/-- C34, IPv4, all pairs: the loop over `address_exclude(o)` ends; the networks visited are disjoint, and their union is
the set difference, but for address 0 if `0.0.0.1/32` is excluded from a network at 0. -/
theorem C34_exclude_v4_exact (n o : Net (List (BitVec 8))) (hn : NetOk4 n) (ho : NetOk4 o)
    (hsub : ∀ t, InNet 32 o.plen (beValue o.addr) t → InNet 32 n.plen (beValue n.addr) t) :
    ∃ (s : ExSeq (List (BitVec 8))) (l : List (Net (List (BitVec 8)))), (fam4 true).addressExclude n o = .ok s ∧
      (∀ fuel, l.length + 1 < fuel → (fam4 true).exVisit fuel s.first s.last = .ok l) ∧ (∀ a ∈ l, NetOk4 a) ∧
      Partitions 32 (l.map fun m => (beValue m.addr, m.plen))
        (fun t => InNet 32 n.plen (beValue n.addr) t ∧ ¬ InNet 32 o.plen (beValue o.addr) t ∧
          ¬ Lost 32 o.plen (beValue o.addr) (beValue n.addr) t) :=
  exclude_exact fam4Law (by decide) (fun _ a => ⟨a, rfl⟩) n o hn ho hsub

example := C34_exclude_v4_exact ex16 ex17 ex16_ok ex17_ok ex17_in_ex16

/-- C34, IPv6, all pairs. -/
theorem C34_exclude_v6_exact (c : Cfg) (hc : c.le = true) (n o : Net V6) (hn : NetOk6 c n) (ho : NetOk6 c o)
    (hsub : ∀ t, InNet 128 o.plen (beValue o.addr.bytes) t → InNet 128 n.plen (beValue n.addr.bytes) t) :
    ∃ (s : ExSeq V6) (l : List (Net V6)), (fam6 c).addressExclude n o = .ok s ∧
      (∀ fuel, l.length + 1 < fuel → (fam6 c).exVisit fuel s.first s.last = .ok l) ∧ (∀ a ∈ l, NetOk6 c a) ∧
      Partitions 128 (l.map fun m => (beValue m.addr.bytes, m.plen))
        (fun t => InNet 128 n.plen (beValue n.addr.bytes) t ∧ ¬ InNet 128 o.plen (beValue o.addr.bytes) t ∧
          ¬ Lost 128 o.plen (beValue o.addr.bytes) (beValue n.addr.bytes) t) :=
  exclude_exact (fam6Law c hc) (by show 128 < 2 ^ 64; decide) (fun h => Bool.noConfusion h) n o hn ho hsub

example : Lost 32 exOne4.plen (beValue exOne4.addr) 0 0 := by unfold Lost; decide

/-! ### C36 -/

/-- C36, signed offsets of both signs: `it + n` stands at the address `n` places further, modulo the address space, and
`(it + n) - n` is `it`. -/
theorem C36_signed_exact (c : Cfg) (hc : c.le = true) (n : BitVec 64) :
    (∀ x : AIter (List (BitVec 8)) (BitVec 32), x.Ok (fam4 true) BitVec.toNat → ∃ y, (fam4 true).aiAddI x n = .ok y ∧
      (fam4 true).aiSubI y n = .ok x ∧ (fam4 true).aiAtI x n = .ok y.cur ∧
      (beValue y.cur : Int) = ((beValue x.cur : Int) + n.toInt) % 2 ^ 32) ∧
    (∀ x : AIter V6 U128, x.Ok (fam6 c) U128.val → ∃ y, (fam6 c).aiAddI x n = .ok y ∧
      (fam6 c).aiSubI y n = .ok x ∧ (fam6 c).aiAtI x n = .ok y.cur ∧
      (beValue y.cur.bytes : Int) = ((beValue x.cur.bytes : Int) + n.toInt) % 2 ^ 128) := by
  have key : ∀ {A U : Type} {F : Fam A U} {WF : A → Prop} {val : U → Nat} (_ : F.Law WF val) (x : AIter A U), x.Ok F val →
      ∃ y, F.aiAddI x n = .ok y ∧ F.aiSubI y n = .ok x ∧ F.aiAtI x n = .ok y.cur ∧
        (F.v y.cur : Int) = ((F.v x.cur : Int) + n.toInt) % 2 ^ F.maxPrefix := by
    intro A U F WF val L x hx
    obtain ⟨⟨y, z, h1, h2, h3, _, _, _, h4, h5, h6, _⟩, _⟩ := aiter_laws L x hx (F.ops.ofI64 n) (F.ops.ofI64 n)
    refine ⟨y, h1, h3, h5, ?_⟩
    have := L.ops.ofI64 n
    rw [h4]
    push_cast
    rw [this]
    rw [Int.add_emod_emod]
  exact ⟨fun x hx => key fam4Law x hx, fun x hx => key (fam6Law c hc) x hx⟩

example := C36_signed_exact exCfg rfl (-3)

/-! ### C47 -/

/-- C47, `back` for every string: the last element of the array, whatever the length; undefined for capacity 0. -/
theorem C47_back_exact (s : FStr) :
    (s.data = [] → FStr.back s = .ub) ∧ ∀ h : s.data ≠ [], FStr.back s = .ok (s.data.getLast h) := by
  constructor
  · intro h
    unfold FStr.back rd
    rw [h]; rfl
  · intro h
    have hp : 0 < s.data.length := List.length_pos_iff.2 h
    unfold FStr.back
    rw [rd_of_lt _ _ (by omega), List.getLast_eq_getElem]

example := (C47_back_exact ⟨['a', 'b', '\x00'], 2⟩).2 (by decide)
example := (C47_back_exact ⟨[], 0⟩).1 rfl

/-- C47: the `compare` of `fixed_string<0>` is the one of other empty strings, and says whether the other string is
empty. -/
theorem C47_compare_zero (val : Char → Int) (a b : FStr) (ha : a.WF) (hb : b.WF) (h : a.data = []) :
    FStr.compare val a b = .ok (FStr.compareZero b) ∧ (FStr.compareZero b = 0 ↔ b.contents = []) := by
  have ha0 : a.contents = [] := by unfold FStr.contents; rw [h]; simp
  have he := (C63_fixed_string b hb).2.2.1
  unfold FStr.compareZero
  cases hc : b.contents with
  | nil =>
    rw [if_pos (he.2 hc)]
    refine ⟨?_, by simp⟩
    rw [FStr.compare_eq val a b ha hb, ha0, hc]
    rfl
  | cons x t =>
    have : b.empty ≠ true := fun e => by rw [he.1 e] at hc; cases hc
    rw [if_neg this]
    exact ⟨(C47_compare_lexicographic val a b ha hb []).1 x t ha0 hc, by simp⟩

example : FStr.compareZero ⟨['a'], 1⟩ = -1 := by decide

/-! ### C56 -/

/-- C56, reverse address iterators, all positions: those behind address 0 come before all others, otherwise the order
is that of the positions. -/
theorem C56_reverse_exact (c : Cfg) (hc : c.le = true) (ss : Bool) :
    (∀ (x : AIter (List (BitVec 8)) (BitVec 32)) (m n : BitVec 32), x.Ok (fam4 true) BitVec.toNat → x.carry = 0 →
      ∃ q y z r, (fam4 true).aiOps.rMk x = .ok q ∧ (fam4 true).aiOps.rAdd q m = .ok y ∧ (fam4 true).aiOps.rAdd q n = .ok z ∧
        rCmpOps ss (fam4 true).aiEq (fam4 true).aiCmp (fam4 true).aiLt y z = .ok r ∧
        Describes r (RevLt (beValue x.cur) m.toNat n.toNat) (m.toNat = n.toNat) (RevLt (beValue x.cur) n.toNat m.toNat)) ∧
    (∀ (x : AIter V6 U128) (m n : U128), x.Ok (fam6 c) U128.val → x.carry = 0 →
      ∃ q y z r, (fam6 c).aiOps.rMk x = .ok q ∧ (fam6 c).aiOps.rAdd q m = .ok y ∧ (fam6 c).aiOps.rAdd q n = .ok z ∧
        rCmpOps ss (fam6 c).aiEq (fam6 c).aiCmp (fam6 c).aiLt y z = .ok r ∧
        Describes r (RevLt (beValue x.cur.bytes) m.val n.val) (m.val = n.val) (RevLt (beValue x.cur.bytes) n.val m.val)) := by
  have key : ∀ {A U : Type} {F : Fam A U} {WF : A → Prop} {val : U → Nat} (L : F.Law WF val) (x : AIter A U) (m n : U),
      x.Ok F val → x.carry = 0 →
      ∃ q y z r, F.aiOps.rMk x = .ok q ∧ F.aiOps.rAdd q m = .ok y ∧ F.aiOps.rAdd q n = .ok z ∧
        rCmpOps ss F.aiEq F.aiCmp F.aiLt y z = .ok r ∧
        Describes r (RevLt (F.v x.cur) (val m) (val n)) (val m = val n) (RevLt (F.v x.cur) (val n) (val m)) := by
    intro A U F WF val L x m n hx h0
    have hp := pos_carry0 L x hx h0
    have hv := L.v_lt _ (hx.cur.wf L)
    have hm := L.ops.val_lt m
    have hn := L.ops.val_lt n
    have I := aiLaw L
    obtain ⟨q, q1, q2, q3⟩ := I.reverse x hx
    obtain ⟨y, y1, y2, y3⟩ := I.sub q m q2
    obtain ⟨z, z1, z2, z3⟩ := I.sub q n q2
    obtain ⟨r, r1, r2⟩ := ai_describes L ss z y z2 y2
    obtain ⟨r', e1, e2⟩ := r_describes ss y z r1 r2
    refine ⟨⟨q⟩, ⟨y⟩, ⟨z⟩, r', by rw [IterOps.rMk, q1]; rfl, by rw [IterOps.rAdd, y1]; rfl, by rw [IterOps.rAdd, z1]; rfl, e1, ?_⟩
    generalize hW : 2 ^ F.maxPrefix = W at *
    have md : ∀ k, k < W → ∀ t, t = (F.v x.cur + (2 * W - 1)) % (2 * W) → (t + (2 * W - k)) % (2 * W) =
        if k < F.v x.cur then F.v x.cur - 1 - k else 2 * W + F.v x.cur - 1 - k := by
      intro k hk t ht
      have e : t = if F.v x.cur = 0 then 2 * W - 1 else F.v x.cur - 1 := by
        rw [ht]
        split
        next h => rw [h, Nat.zero_add, Nat.mod_eq_of_lt (by omega)]
        next h => rw [show F.v x.cur + (2 * W - 1) = F.v x.cur - 1 + 2 * W by omega, Nat.add_mod_right, Nat.mod_eq_of_lt (by omega)]
      rw [e]
      split
      · rw [if_neg (by omega)]
        rw [show 2 * W - 1 + (2 * W - k) = 2 * W - 1 - k + 2 * W by omega, Nat.add_mod_right, Nat.mod_eq_of_lt (by omega)]
        omega
      · split
        · rw [show F.v x.cur - 1 + (2 * W - k) = F.v x.cur - 1 - k + 2 * W by omega, Nat.add_mod_right, Nat.mod_eq_of_lt (by omega)]
        · rw [Nat.mod_eq_of_lt (by omega)]; omega
    rw [hp] at q3
    rw [md _ hm _ q3] at y3
    rw [md _ hn _ q3] at z3
    have f1 : z.pos F val < y.pos F val ↔ RevLt (F.v x.cur) (val m) (val n) := by
      rw [y3, z3]; unfold RevLt
      split <;> split <;> constructor <;> intro h <;> omega
    have f2 : z.pos F val = y.pos F val ↔ val m = val n := by
      rw [y3, z3]
      split <;> split <;> constructor <;> intro h <;> omega
    have f3 : y.pos F val < z.pos F val ↔ RevLt (F.v x.cur) (val n) (val m) := by
      rw [y3, z3]; unfold RevLt
      split <;> split <;> constructor <;> intro h <;> omega
    rw [f1, f2, f3] at e2
    exact e2
  exact ⟨fun x m n hx h0 => key fam4Law x m n hx h0, fun x m n hx h0 => key (fam6Law c hc) x m n hx h0⟩

example := C56_reverse_exact exCfg rfl false

/-! ### C57 -/

/-- C57, all values: below `2^88` the `double` is the nearest to the value; from there on it is the nearest to the number
with the lowest 24 bits moved up. -/
theorem C57_double_all (x : U128) :
    ∃ (d s : Nat), x.toDouble = .ok (d : Int) ∧ Nearest 53 s d ∧ (x.val < 2 ^ 88 → s = x.val) ∧
      (2 ^ 88 ≤ x.val → FoldedBits x.val s) := by
  refine ⟨_, _, U128.toDouble_eq x, roundTo_nearest 53 _ (by decide), fun h => if_pos h, fun h => ?_⟩
  rw [if_neg (by omega)]
  intro i
  unfold U128.folded
  generalize x.val = v
  have e : v / 2 ^ 76 * 2 ^ 76 + (v / 2 ^ 24 % 2 ^ 52 ||| v % 2 ^ 24) * 2 ^ 24 =
      (v / 2 ^ 76 * 2 ^ 52 + (v / 2 ^ 24 % 2 ^ 52 ||| v % 2 ^ 24)) * 2 ^ 24 := by
    rw [Nat.add_mul, Nat.mul_assoc]; norm_num
  have hlt : (v / 2 ^ 24 % 2 ^ 52 ||| v % 2 ^ 24) < 2 ^ 52 :=
    Nat.or_lt_two_pow (Nat.mod_lt _ (by decide)) (Nat.lt_of_lt_of_le (Nat.mod_lt _ (by decide)) (by decide))
  rw [e, Nat.testBit_mul_two_pow, Nat.mul_comm (v / 2 ^ 76), Nat.testBit_two_pow_mul_add _ hlt]
  by_cases h1 : i < 24
  · rw [if_pos h1]; simp; omega
  · rw [if_neg h1]
    have : decide (24 ≤ i) = true := by simp; omega
    rw [this, Bool.true_and]
    by_cases h2 : i < 76
    · rw [if_pos (by omega), Nat.testBit_or, Nat.testBit_mod_two_pow, Nat.testBit_mod_two_pow, Nat.testBit_div_two_pow,
        show i - 24 + 24 = i by omega]
      have d1 : decide (i - 24 < 52) = true := by simp; omega
      rw [d1, Bool.true_and]
      by_cases h3 : i < 48
      · rw [if_pos h3]
        have d2 : decide (i - 24 < 24) = true := by simp; omega
        rw [d2, Bool.true_and]
      · rw [if_neg h3]
        have d2 : decide (i - 24 < 24) = false := by simp; omega
        rw [d2, Bool.false_and, Bool.or_false]
    · rw [if_neg (by omega), if_neg (by omega), Nat.testBit_div_two_pow]
      congr 1
      omega

example : FoldedBits 0xFFFFFF (0xFFFFFF * 2 ^ 24) := by
  intro i
  rw [Nat.testBit_mul_two_pow]
  by_cases h1 : i < 24
  · rw [if_pos h1]; simp; omega
  · rw [if_neg h1, show (0xFFFFFF : Nat) = 2 ^ 24 - 1 from rfl, Nat.testBit_two_pow_sub_one, Nat.testBit_two_pow_sub_one]
    rw [Bool.eq_iff_iff]
    split <;> simp <;> omega

end Ip
