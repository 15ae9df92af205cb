import Verif.Lemmas.NetLaw
import Verif.Spec.Net
/-
Networks, for any address family satisfying `Fam.Law`.
-/
set_option autoImplicit false

namespace Ip
open Spec

/-! ### Numbers -/

theorem div_eq_iff_testBit (w k v x : Nat) (hv : v < 2 ^ w) (hx : x < 2 ^ w) :
    x / 2 ^ k = v / 2 ^ k ↔ ∀ i, k ≤ i → i < w → x.testBit i = v.testBit i := by
  constructor
  · intro h i hi _
    have : (x / 2 ^ k).testBit (i - k) = (v / 2 ^ k).testBit (i - k) := by rw [h]
    rw [Nat.testBit_div_two_pow, Nat.testBit_div_two_pow, Nat.sub_add_cancel hi] at this
    exact this
  · intro h
    apply Nat.eq_of_testBit_eq
    intro i
    rw [Nat.testBit_div_two_pow, Nat.testBit_div_two_pow]
    by_cases hi : i + k < w
    · exact h (i + k) (by omega) hi
    · have hp : 2 ^ w ≤ 2 ^ (i + k) := Nat.pow_le_pow_right (by decide) (by omega)
      rw [Nat.testBit_lt_two_pow (by omega), Nat.testBit_lt_two_pow (by omega)]

theorem inNet_iff (w p v x : Nat) (hv : v < 2 ^ w) :
    InNet w p v x ↔ x < 2 ^ w ∧ x / 2 ^ (w - p) = v / 2 ^ (w - p) := by
  constructor
  · rintro ⟨h1, h2⟩; exact ⟨h1, (div_eq_iff_testBit w _ v x hv h1).mpr h2⟩
  · rintro ⟨h1, h2⟩; exact ⟨h1, (div_eq_iff_testBit w _ v x hv h1).mp h2⟩

theorem mask_isMask (w p : Nat) (h : p ≤ w) : IsMask w p (2 ^ w - 2 ^ (w - p)) := by
  intro i
  have e : 2 ^ w - 2 ^ (w - p) = 2 ^ (w - p) * (2 ^ p - 1) + 0 := by
    rw [Nat.mul_sub, Nat.mul_one, ← Nat.pow_add, Nat.sub_add_cancel h, Nat.add_zero]
  rw [e, Nat.testBit_two_pow_mul_add _ (Nat.two_pow_pos _), Nat.testBit_two_pow_sub_one]
  by_cases hi : i < w - p
  · rw [if_pos hi, Nat.zero_testBit]; symm; simp; omega
  · rw [if_neg hi, decide_eq_decide]; omega

theorem isMask_unique (w p m : Nat) (h : p ≤ w) (hm : IsMask w p m) : m = 2 ^ w - 2 ^ (w - p) := by
  apply Nat.eq_of_testBit_eq
  intro i
  rw [hm i, mask_isMask w p h i]

/-- Aligned blocks are intervals. -/
theorem block_iff (k v x : Nat) (hv : v % 2 ^ k = 0) :
    x / 2 ^ k = v / 2 ^ k ↔ v ≤ x ∧ x < v + 2 ^ k := by
  have hp := Nat.two_pow_pos k
  generalize 2 ^ k = K at *
  have h1 := Nat.div_add_mod x K
  have h2 := Nat.div_add_mod v K
  have h3 := Nat.mod_lt x hp
  rw [hv] at h2
  constructor
  · intro h; rw [h] at h1; omega
  · rintro ⟨h4, h5⟩
    apply Nat.le_antisymm
    · have : x / K < v / K + 1 := by
        rw [Nat.div_lt_iff_lt_mul hp, Nat.add_mul, Nat.one_mul, Nat.mul_comm]; omega
      omega
    · exact Nat.div_le_div_right h4

theorem aligned_room (w k v : Nat) (hk : k ≤ w) (hv : v < 2 ^ w) (ha : v % 2 ^ k = 0) : v + 2 ^ k ≤ 2 ^ w := by
  have hp := Nat.two_pow_pos k
  have e := two_pow_split w k hk
  have h2 := Nat.div_add_mod v (2 ^ k)
  rw [ha] at h2
  have h3 : v / 2 ^ k < 2 ^ (w - k) := by
    rw [Nat.div_lt_iff_lt_mul hp, ← e]; exact hv
  have h4 : (v / 2 ^ k + 1) * 2 ^ k ≤ 2 ^ (w - k) * 2 ^ k := Nat.mul_le_mul_right _ h3
  rw [← e, Nat.add_mul, Nat.one_mul, Nat.mul_comm] at h4
  omega

/-! ### Networks -/

section
variable {A U : Type}

/-- The invariant of network objects: the prefix length is in range, the netmask is the one of the
prefix length, and the network address has no host bits. -/
structure NetOk (F : Fam A U) (WF : A → Prop) (n : Net A) : Prop where
  wf : WF n.addr
  plen : n.plen ≤ F.maxPrefix
  mask : ∃ m, n.mask = F.ofBytes m ∧ 8 * m.length = F.maxPrefix ∧
    beValue m = 2 ^ F.maxPrefix - 2 ^ (F.maxPrefix - n.plen)
  aligned : beValue (F.bytes n.addr) % 2 ^ (F.maxPrefix - n.plen) = 0

/-- The integer value of an address. -/
def Fam.v (F : Fam A U) (a : A) : Nat := beValue (F.bytes a)

variable {F : Fam A U} {WF : A → Prop} {val : U → Nat}

theorem Fam.Law.v_lt (L : F.Law WF val) (a : A) (h : WF a) : F.v a < 2 ^ F.maxPrefix :=
  beValue_lt_pow _ _ (L.len a h)

theorem Fam.Law.v_ofBytes (L : F.Law WF val) (b : List (BitVec 8)) : F.v (F.ofBytes b) = beValue b := by
  rw [Fam.v, L.bytes_ofBytes]

theorem contains_eq (L : F.Law WF val) (n : Net A) (hn : NetOk F WF n) (a : A) (ha : WF a) :
    F.contains n a = .ok (decide (F.v a / 2 ^ (F.maxPrefix - n.plen) = F.v n.addr / 2 ^ (F.maxPrefix - n.plen))) := by
  obtain ⟨m, h1, h2, h3⟩ := hn.mask
  have la := L.len a ha
  have ln := L.len _ hn.wf
  have hlt : beValue (F.bytes a) < _ := L.v_lt a ha
  have hal := hn.aligned
  have hp := Nat.two_pow_pos (F.maxPrefix - n.plen)
  unfold Fam.contains
  rw [h1, L.bytes_ofBytes, containsLoop_eq _ _ _ (by omega) (by omega), h3,
    and_mask _ _ _ (by omega) hlt]
  congr 1
  rw [decide_eq_decide]
  simp only [Fam.v]
  generalize F.maxPrefix - n.plen = k at *
  have e := Nat.div_add_mod (beValue (F.bytes n.addr)) (2 ^ k)
  rw [hal] at e
  constructor
  · intro h; rw [← h, Nat.mul_div_cancel _ hp]
  · intro h; rw [h]; rw [Nat.mul_comm]; exact e

theorem hostmask_eq (L : F.Law WF val) (n : Net A) (hn : NetOk F WF n) :
    ∃ m, F.hostmask n = F.ofBytes m ∧ 8 * m.length = F.maxPrefix ∧ beValue m = 2 ^ (F.maxPrefix - n.plen) - 1 := by
  obtain ⟨m, h1, h2, h3⟩ := hn.mask
  refine ⟨_, rfl, by rw [h1, L.bytes_ofBytes]; simpa using h2, ?_⟩
  have h := beValue_not m
  have hp : 2 ^ (F.maxPrefix - n.plen) ≤ 2 ^ F.maxPrefix := Nat.pow_le_pow_right (by decide) (by omega)
  have hq := Nat.two_pow_pos (F.maxPrefix - n.plen)
  rw [pow256, h2, h3] at h
  rw [h1, L.bytes_ofBytes]
  omega

theorem broadcast_eq (L : F.Law WF val) (n : Net A) (hn : NetOk F WF n) :
    ∃ b, F.broadcast n = .ok (F.ofBytes b) ∧ 8 * b.length = F.maxPrefix ∧
      beValue b = F.v n.addr + 2 ^ (F.maxPrefix - n.plen) - 1 := by
  obtain ⟨m, h1, h2, h3⟩ := hostmask_eq L n hn
  have la := L.len _ hn.wf
  obtain ⟨r, h4, h5, h6⟩ := bytesZip_or (F.bytes n.addr) m (by omega)
  refine ⟨r, by simp only [Fam.broadcast, h1, L.bytes_ofBytes, h4, Res.ok_bind], by omega, ?_⟩
  have e := Nat.div_add_mod (beValue (F.bytes n.addr)) (2 ^ (F.maxPrefix - n.plen))
  have hp := Nat.two_pow_pos (F.maxPrefix - n.plen)
  rw [hn.aligned] at e
  rw [h6, h3, or_ones, Fam.v]
  rw [Nat.mul_comm, Nat.add_zero] at e
  rw [e]; omega

theorem isSubnetOf_eq (L : F.Law WF val) (a b : Net A) (ha : NetOk F WF a) (hb : NetOk F WF b)
    (pa : ∃ x, a.addr = F.ofBytes x) (pb : ∃ x, b.addr = F.ofBytes x) :
    F.isSubnetOf a b = .ok (decide (F.v b.addr ≤ F.v a.addr ∧
      F.v a.addr + 2 ^ (F.maxPrefix - a.plen) ≤ F.v b.addr + 2 ^ (F.maxPrefix - b.plen))) := by
  obtain ⟨x, hx⟩ := pa
  obtain ⟨y, hy⟩ := pb
  obtain ⟨p, p1, p2, p3⟩ := broadcast_eq L a ha
  obtain ⟨q, q1, q2, q3⟩ := broadcast_eq L b hb
  have lx := L.len _ ha.wf
  have ly := L.len _ hb.wf
  rw [hx, L.bytes_ofBytes] at lx
  rw [hy, L.bytes_ofBytes] at ly
  have h1 := Nat.two_pow_pos (F.maxPrefix - a.plen)
  have h2 := Nat.two_pow_pos (F.maxPrefix - b.plen)
  simp only [Fam.isSubnetOf, q1, p1, Res.ok_bind]
  rw [hx, hy, L.le y x ly lx, Res.ok_bind, L.le p q p2 q2, L.v_ofBytes, L.v_ofBytes]
  rw [hx, L.v_ofBytes] at p3
  rw [hy, L.v_ofBytes] at q3
  by_cases e : beValue y ≤ beValue x
  · rw [if_pos (by simpa using e)]
    congr 1
    rw [decide_eq_decide]
    omega
  · rw [if_neg (by simpa using e)]
    congr 1
    symm
    simp [e]

theorem fromAddress_eq (L : F.Law WF val) (a : A) (ha : WF a) (p : Nat) (hp : p ≤ F.maxPrefix) (s : Bool) :
    ∃ m b, 8 * m.length = F.maxPrefix ∧ beValue m = 2 ^ F.maxPrefix - 2 ^ (F.maxPrefix - p) ∧
      8 * b.length = F.maxPrefix ∧ beValue b = F.v a / 2 ^ (F.maxPrefix - p) * 2 ^ (F.maxPrefix - p) ∧
      F.fromAddress a p s = if F.v a % 2 ^ (F.maxPrefix - p) = 0 then .ok ⟨a, F.ofBytes m, p⟩
        else if s then .err .has_host_bits_set 0 else .ok ⟨F.ofBytes b, F.ofBytes m, p⟩ := by
  obtain ⟨m, h1, h2, h3⟩ := L.fromPrefix p hp
  obtain ⟨b, h4, h5, h6⟩ := L.strict a (F.ofBytes m) s ha (L.wf_ofBytes m h2)
  have hlt : beValue (F.bytes a) < _ := L.v_lt a ha
  rw [L.bytes_ofBytes, h3, and_mask _ _ _ (by omega) hlt] at h5
  refine ⟨m, b, h2, h3, h4, h5, ?_⟩
  simp only [Fam.fromAddress, h1, Res.ok_bind, h6]
  have e := Nat.div_add_mod (F.v a) (2 ^ (F.maxPrefix - p))
  rw [Nat.mul_comm] at e
  have h5' : beValue b = F.v a / 2 ^ (F.maxPrefix - p) * 2 ^ (F.maxPrefix - p) := h5
  have e2 : beValue b = beValue (F.bytes a) ↔ F.v a % 2 ^ (F.maxPrefix - p) = 0 := by
    rw [h5']; show _ = F.v a ↔ _; omega
  by_cases h : F.v a % 2 ^ (F.maxPrefix - p) = 0
  · rw [if_pos h, if_pos (e2.mpr h), Res.ok_bind]
  · rw [if_neg h, if_neg (fun x => h (e2.mp x))]
    cases s <;> rfl

/-- Every network made by `from_address` satisfies the invariant. -/
theorem fromAddress_ok (L : F.Law WF val) (a : A) (ha : WF a) (p : Nat) (s : Bool) (n : Net A)
    (h : F.fromAddress a p s = .ok n) :
    NetOk F WF n ∧ n.plen = p ∧ F.v n.addr = F.v a / 2 ^ (F.maxPrefix - p) * 2 ^ (F.maxPrefix - p) ∧
      (n.addr = a ∨ ∃ x, n.addr = F.ofBytes x) := by
  by_cases hp : p ≤ F.maxPrefix
  · obtain ⟨m, b, h1, h2, h3, h4, h5⟩ := fromAddress_eq L a ha p hp s
    rw [h5] at h
    have hpos := Nat.two_pow_pos (F.maxPrefix - p)
    by_cases e : F.v a % 2 ^ (F.maxPrefix - p) = 0
    · rw [if_pos e] at h
      cases h
      refine ⟨⟨ha, hp, ⟨m, rfl, h1, h2⟩, e⟩, rfl, ?_, .inl rfl⟩
      have := Nat.div_add_mod (F.v a) (2 ^ (F.maxPrefix - p))
      rw [Nat.mul_comm] at this
      show F.v a = _
      omega
    · rw [if_neg e] at h
      cases s
      · cases h
        refine ⟨⟨L.wf_ofBytes b h3, hp, ⟨m, rfl, h1, h2⟩, ?_⟩, rfl, ?_, .inr ⟨b, rfl⟩⟩
        · rw [L.bytes_ofBytes, h4]; exact Nat.mul_mod_left ..
        · rw [L.v_ofBytes, h4]
      · cases h
  · rw [Fam.fromAddress, L.fromPrefix_ub p (by omega)] at h
    cases h

theorem addressesCount_eq (L : F.Law WF val) (n : Net A) (hn : NetOk F WF n) :
    ∃ u, F.addressesCount n = .ok u ∧ val u = 2 ^ (F.maxPrefix - n.plen) % 2 ^ F.maxPrefix := by
  obtain ⟨b, h1, h2, h3⟩ := broadcast_eq L n hn
  obtain ⟨x, h4, h5⟩ := L.toUint _ (L.wf_ofBytes b h2)
  obtain ⟨y, h6, h7⟩ := L.toUint _ hn.wf
  refine ⟨_, by simp only [Fam.addressesCount, h1, h4, h6, Res.ok_bind]; rfl, ?_⟩
  have hone : val (F.ops.ofI64 1#64) = 1 := by
    have := L.ops.ofI64 1#64
    have hw : (1 : Int) < 2 ^ F.maxPrefix := by
      have : 2 ^ 1 ≤ 2 ^ F.maxPrefix := Nat.pow_le_pow_right (by decide) (by have := L.pos; omega)
      have : ((2 ^ 1 : Nat) : Int) ≤ ((2 ^ F.maxPrefix : Nat) : Int) := Int.ofNat_le.mpr this
      push_cast at this
      omega
    rw [show (1#64 : BitVec 64).toInt = 1 by decide, Int.emod_eq_of_lt (by decide) hw] at this
    exact_mod_cast this
  rw [L.bytes_ofBytes] at h5
  rw [L.ops.add, L.ops.sub, h5, h7, h3, hone]
  show ((F.v n.addr + 2 ^ (F.maxPrefix - n.plen) - 1 + (2 ^ F.maxPrefix - F.v n.addr)) % _ + 1) % _ = _
  have hl := L.v_lt _ hn.wf
  have hp := Nat.two_pow_pos (F.maxPrefix - n.plen)
  rw [show F.v n.addr + 2 ^ (F.maxPrefix - n.plen) - 1 + (2 ^ F.maxPrefix - F.v n.addr) =
    2 ^ (F.maxPrefix - n.plen) - 1 + 2 ^ F.maxPrefix by omega, Nat.add_mod_right, Nat.mod_add_mod]
  congr 1; omega

/-- Two aligned blocks that share a point are nested. -/
theorem blocks_nested (i j v u : Nat) (hij : i ≤ j) (hv : v % 2 ^ i = 0) (hu : u % 2 ^ j = 0)
    (h : ∃ x, (v ≤ x ∧ x < v + 2 ^ i) ∧ (u ≤ x ∧ x < u + 2 ^ j)) : u ≤ v ∧ v + 2 ^ i ≤ u + 2 ^ j := by
  obtain ⟨x, h1, h2⟩ := h
  have e1 := (block_iff i v x hv).mpr h1
  have e2 := (block_iff j u x hu).mpr h2
  have e := two_pow_split j i hij
  have hd : ∀ y, y / 2 ^ j = y / 2 ^ i / 2 ^ (j - i) := by
    intro y; rw [Nat.div_div_eq_div_mul, Nat.mul_comm, ← e]
  have e3 : v / 2 ^ j = u / 2 ^ j := by rw [hd v, ← e1, ← hd x, e2]
  have h3 := (block_iff j u v hu).mp e3
  have h4 : (v + (2 ^ i - 1)) / 2 ^ i = v / 2 ^ i :=
    (block_iff i v _ hv).mpr ⟨by omega, by have := Nat.two_pow_pos i; omega⟩
  have e4 : (v + (2 ^ i - 1)) / 2 ^ j = u / 2 ^ j := by rw [hd, h4, ← hd, e3]
  have h5 := (block_iff j u _ hu).mp e4
  have := Nat.two_pow_pos i
  omega

theorem contains_iff (L : F.Law WF val) (n : Net A) (hn : NetOk F WF n) (a : A) (ha : WF a) :
    F.contains n a = .ok (decide (F.v n.addr ≤ F.v a ∧ F.v a < F.v n.addr + 2 ^ (F.maxPrefix - n.plen))) := by
  rw [contains_eq L n hn a ha]
  congr 1
  rw [decide_eq_decide]
  exact block_iff _ _ _ hn.aligned

theorem overlaps_eq (L : F.Law WF val) (a b : Net A) (ha : NetOk F WF a) (hb : NetOk F WF b) :
    ∃ r, F.overlaps a b = .ok r ∧ (r = true ↔ ∃ x,
      (F.v a.addr ≤ x ∧ x < F.v a.addr + 2 ^ (F.maxPrefix - a.plen)) ∧
      (F.v b.addr ≤ x ∧ x < F.v b.addr + 2 ^ (F.maxPrefix - b.plen))) := by
  obtain ⟨p, p1, p2, p3⟩ := broadcast_eq L a ha
  obtain ⟨q, q1, q2, q3⟩ := broadcast_eq L b hb
  have wp := L.wf_ofBytes p p2
  have wq := L.wf_ofBytes q q2
  have hi := Nat.two_pow_pos (F.maxPrefix - a.plen)
  have hj := Nat.two_pow_pos (F.maxPrefix - b.plen)
  have n1 := blocks_nested (F.maxPrefix - a.plen) (F.maxPrefix - b.plen) (F.v a.addr) (F.v b.addr)
  have n2 := blocks_nested (F.maxPrefix - b.plen) (F.maxPrefix - a.plen) (F.v b.addr) (F.v a.addr)
  have a1 : F.v a.addr % 2 ^ (F.maxPrefix - a.plen) = 0 := ha.aligned
  have a2 : F.v b.addr % 2 ^ (F.maxPrefix - b.plen) = 0 := hb.aligned
  simp only [Fam.overlaps, p1, q1, contains_iff L b hb _ ha.wf, contains_iff L b hb _ wp, contains_iff L a ha _ hb.wf,
    contains_iff L a ha _ wq, L.v_ofBytes, p3, q3, Res.ok_bind]
  generalize F.v a.addr = v at *
  generalize F.v b.addr = u at *
  generalize hI : 2 ^ (F.maxPrefix - a.plen) = I at *
  generalize hJ : 2 ^ (F.maxPrefix - b.plen) = J at *
  by_cases c1 : u ≤ v ∧ v < u + J
  · rw [if_pos (by simpa using c1)]
    exact ⟨_, rfl, by simp only [true_iff]; exact ⟨v, ⟨by omega, by omega⟩, c1⟩⟩
  rw [if_neg (by simpa using c1)]
  by_cases c2 : u ≤ v + I - 1 ∧ v + I - 1 < u + J
  · rw [if_pos (by simpa using c2)]
    exact ⟨_, rfl, by simp only [true_iff]; exact ⟨v + I - 1, ⟨by omega, by omega⟩, c2⟩⟩
  rw [if_neg (by simpa using c2)]
  by_cases c3 : v ≤ u ∧ u < v + I
  · rw [if_pos (by simpa using c3)]
    exact ⟨_, rfl, by simp only [true_iff]; exact ⟨u, c3, ⟨by omega, by omega⟩⟩⟩
  rw [if_neg (by simpa using c3)]
  refine ⟨_, rfl, ?_⟩
  rw [decide_eq_true_iff]
  constructor
  · intro h; exact ⟨u + J - 1, h, ⟨by omega, by omega⟩⟩
  · intro h
    rcases Nat.le_total (F.maxPrefix - a.plen) (F.maxPrefix - b.plen) with e | e
    · have := n1 e a1 a2 h; omega
    · obtain ⟨x, h1, h2⟩ := h
      have := n2 e a2 a1 ⟨x, h2, h1⟩; omega

/-- Shifting a netmask to the left. -/
theorem mask_shl (w p d : Nat) (hp : p ≤ w) (hd : d ≤ p) :
    (2 ^ w - 2 ^ (w - p)) * 2 ^ d % 2 ^ w = 2 ^ w - 2 ^ (w - (p - d)) := by
  have e1 : 2 ^ (w - p) * 2 ^ d = 2 ^ (w - (p - d)) := by rw [← Nat.pow_add]; congr 1; omega
  have h1 : 2 ^ (w - (p - d)) ≤ 2 ^ w := Nat.pow_le_pow_right (by decide) (by omega)
  have h0 := Nat.two_pow_pos (w - (p - d))
  rw [Nat.sub_mul, e1]
  have h2 := Nat.two_pow_pos d
  obtain ⟨t, ht⟩ : ∃ t, 2 ^ d = t + 1 := ⟨2 ^ d - 1, by omega⟩
  rw [ht, Nat.mul_add, Nat.mul_one, Nat.add_sub_assoc h1, Nat.mul_add_mod, Nat.mod_eq_of_lt (by omega)]

/-- The computation of `supernet` for an admissible difference. -/
theorem supernet_go (L : F.Law WF val) (n : Net A) (hn : NetOk F WF n) (d : Nat) (hd : d ≤ n.plen)
    (hw : d < F.maxPrefix) :
    ∃ a m s u r, F.toUint n.addr = .ok a ∧ F.toUint n.mask = .ok m ∧ F.ops.shl m d = .ok s ∧
      F.fromUint (F.ops.and a s) = .ok u ∧ F.fromAddress u (n.plen - d) true = .ok r ∧
      NetOk F WF r ∧ r.plen = n.plen - d ∧ (∃ x, r.addr = F.ofBytes x) ∧
      F.v r.addr = F.v n.addr / 2 ^ (F.maxPrefix - (n.plen - d)) * 2 ^ (F.maxPrefix - (n.plen - d)) := by
  obtain ⟨mb, m1, m2, m3⟩ := hn.mask
  have hpl := hn.plen
  obtain ⟨a, h1, h2⟩ := L.toUint _ hn.wf
  obtain ⟨m, h3, h4⟩ := L.toUint n.mask (by rw [m1]; exact L.wf_ofBytes mb m2)
  obtain ⟨s, h5, h6⟩ := L.ops.shl m d hw
  obtain ⟨b, h7, h8, h9⟩ := L.fromUint (F.ops.and a s)
  rw [m1, L.bytes_ofBytes, m3] at h4
  rw [h4, mask_shl _ _ _ hpl hd] at h6
  have hlt : beValue (F.bytes n.addr) < _ := L.v_lt _ hn.wf
  rw [L.ops.and, h2, h6, and_mask _ _ _ (by omega) hlt] at h9
  obtain ⟨mm, bb, g1, g2, g3, g4, g5⟩ := fromAddress_eq L (F.ofBytes b) (L.wf_ofBytes b h8) (n.plen - d) (by omega) true
  rw [L.v_ofBytes, h9, if_pos (Nat.mul_mod_left ..)] at g5
  refine ⟨a, m, s, _, _, h1, h3, h5, h7, g5, ⟨L.wf_ofBytes b h8, by show n.plen - d ≤ _; omega, ⟨mm, rfl, g1, g2⟩, ?_⟩,
    rfl, ⟨b, rfl⟩, ?_⟩
  · rw [L.bytes_ofBytes, h9]; exact Nat.mul_mod_left ..
  · rw [L.v_ofBytes, h9]; rfl

end

end Ip
