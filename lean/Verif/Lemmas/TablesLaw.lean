import Verif.Lemmas.Tables
/-
Networks of either version, and of both, as intervals.
-/
set_option autoImplicit false

namespace Ip
open Spec

section
variable {A U : Type} {F : Fam A U} {WF : A → Prop} {val : U → Nat}

/-- One past the largest address of a network. -/
def Fam.top (F : Fam A U) (n : Net A) : Nat := F.v n.addr + 2 ^ (F.maxPrefix - n.plen)

theorem pow_gt_iff {w p q : Nat} (hp : p ≤ w) (hq : q ≤ w) : 2 ^ (w - q) < 2 ^ (w - p) ↔ p < q := by
  rw [Nat.pow_lt_pow_iff_right (by decide)]
  omega

theorem tableLaw (L : F.Law WF val)
    (hl : ∀ a b, Plain F WF a → Plain F WF b → F.netLt a b = .ok (decide (F.v a.addr < F.v b.addr ∨ F.v a.addr = F.v b.addr ∧ a.plen < b.plen))) :
    TableLaw (Plain F WF) WF F.netLt F.subnetOf F.overlaps F.contains (fun n => F.v n.addr) F.top F.v where
  lt_eq a b ha hb := by
    rw [hl a b ha hb]
    congr 1
    rw [decide_eq_decide]
    have := pow_gt_iff ha.ok.plen hb.ok.plen
    simp only [Fam.top]
    constructor
    · rintro (h | ⟨h1, h2⟩)
      · exact .inl h
      · have := this.mpr h2
        exact .inr ⟨h1, by omega⟩
    · rintro (h | ⟨h1, h2⟩)
      · exact .inl h
      · exact .inr ⟨h1, this.mp (by omega)⟩
  sub_eq a b ha hb := isSubnetOf_eq L a b ha.ok hb.ok ha.addr hb.addr
  ov_eq a b ha hb := by
    obtain ⟨r, r1, r2⟩ := overlaps_eq L a b ha.ok hb.ok
    rw [r1]
    congr 1
    rw [Bool.eq_iff_iff, r2, decide_eq_true_iff]
    have := Nat.two_pow_pos (F.maxPrefix - a.plen)
    have := Nat.two_pow_pos (F.maxPrefix - b.plen)
    simp only [Fam.top]
    constructor
    · rintro ⟨x, h1, h2⟩
      omega
    · intro h
      exact ⟨max (F.v a.addr) (F.v b.addr), by omega, by omega⟩
  con_eq n a hn ha := contains_iff L n hn.ok a ha
  pos n hn := by
    have := Nat.two_pow_pos (F.maxPrefix - n.plen)
    simp only [Fam.top]
    omega
  nested a b ha hb h1 h2 := by
    have p1 := Nat.two_pow_pos (F.maxPrefix - a.plen)
    have p2 := Nat.two_pow_pos (F.maxPrefix - b.plen)
    simp only [Fam.top] at *
    have hx : (F.v a.addr ≤ max (F.v a.addr) (F.v b.addr) ∧ max (F.v a.addr) (F.v b.addr) < F.v a.addr + 2 ^ (F.maxPrefix - a.plen)) ∧
      (F.v b.addr ≤ max (F.v a.addr) (F.v b.addr) ∧ max (F.v a.addr) (F.v b.addr) < F.v b.addr + 2 ^ (F.maxPrefix - b.plen)) := by omega
    rcases Nat.le_total (F.maxPrefix - a.plen) (F.maxPrefix - b.plen) with h | h
    · exact .inl (blocks_nested _ _ _ _ h ha.ok.aligned hb.ok.aligned ⟨_, hx⟩)
    · exact .inr (blocks_nested _ _ _ _ h hb.ok.aligned ha.ok.aligned ⟨_, hx.2, hx.1⟩)

/-- `from_address` gives the only network of that prefix length around the address. -/
theorem from_around (L : F.Law WF val) (a : A) (ha : WF a) (pa : ∃ x, a = F.ofBytes x) (p : Nat) (hp : p < F.maxPrefix + 1) :
    ∃ m, F.fromAddress a p false = .ok m ∧ Plain F WF m ∧
      ∀ n, Plain F WF n → (F.contains n a = .ok true ∧ n.plen = p ↔ n = m) := by
  obtain ⟨-, m, m1, m2, -⟩ := fromAddress_spec L a ha p (by omega)
  obtain ⟨k1, k2, k3, k4⟩ := fromAddress_ok L a ha p false m m1
  have pm : Plain F WF m := ⟨k1, by
    rcases k4 with k4 | k4
    · rw [k4]; exact pa
    · exact k4⟩
  refine ⟨m, m1, pm, fun n hn => ⟨?_, ?_⟩⟩
  · rintro ⟨h1, rfl⟩
    obtain ⟨r, m', q1, q2, _, _, q5⟩ := law_from_address L n hn a ha pa
    rw [m1] at q2
    cases q2
    rw [q1] at h1
    cases h1
    exact (q5.mp rfl).symm
  · rintro rfl
    obtain ⟨r, m', q1, q2, _, q4, q5⟩ := law_from_address L n hn a ha pa
    rw [k2, m1] at q2
    cases q2
    exact ⟨q4, k2⟩

/-- A network inside of another has the longer prefix. -/
theorem sub_of_len (L : F.Law WF val) {m n : Net A} (hm : Plain F WF m) (hn : Plain F WF n) {a : A} (ha : WF a)
    (cm : F.contains m a = .ok true) (cn : F.contains n a = .ok true) (h : m.plen ≤ n.plen) : F.subnetOf n m = .ok true := by
  rw [contains_iff L m hm.ok a ha, ok_true] at cm
  rw [contains_iff L n hn.ok a ha, ok_true] at cn
  show F.isSubnetOf n m = _
  rw [isSubnetOf_eq L n m hn.ok hm.ok hn.addr hm.addr, ok_true]
  exact blocks_nested _ _ _ _ (by omega) hn.ok.aligned hm.ok.aligned ⟨_, cn, cm⟩

end

theorem table4 : TableLaw NetOk4 WF4 (fam4 true).netLt (fam4 true).subnetOf (fam4 true).overlaps (fam4 true).contains
    (fun n => beValue n.addr) (fam4 true).top beValue := by
  have := tableLaw fam4Law (fun a b ha hb => by
    obtain ⟨e, o, l, h1, h2, h3, h4, h5, h6, h7⟩ := C38_order_v4 a b ha.ok hb.ok
    rw [h3]
    congr 1
    rw [Bool.eq_iff_iff, h6, h5, decide_eq_true_iff]
    show _ ↔ beValue a.addr < beValue b.addr ∨ beValue a.addr = beValue b.addr ∧ a.plen < b.plen
    simp only [Ordering.then_eq_lt, Nat.compare_eq_lt, Nat.compare_eq_eq])
  rw [show Plain (fam4 true) WF4 = NetOk4 from funext fun n => propext (plain4_iff n)] at this
  exact this

/-- IPv6 networks without scope id. -/
def Plain6 (c : Cfg) (n : Net V6) : Prop := NetOk6 c n ∧ n.addr.scope = emptyScope c.M

theorem netLt6_plain (c : Cfg) (hc : c.le = true) (hv : ∀ x y, c.val x = c.val y → x = y) (a b : Net V6) (ha : Plain6 c a) (hb : Plain6 c b) :
    (fam6 c).netLt a b = .ok (decide (beValue a.addr.bytes < beValue b.addr.bytes ∨ beValue a.addr.bytes = beValue b.addr.bytes ∧ a.plen < b.plen)) := by
  have he : (emptyScope c.M).contents = [] := by simp [emptyScope, FStr.contents]
  have hs : ¬ ScopeLt c.val [] [] := by
    rintro (⟨x, r, h⟩ | ⟨p, x, y, r, r', h, _⟩)
    · simp at h
    · simp at h
  obtain ⟨e, o, h1, h2, h3, h4, h5, h6⟩ := C38_order_v6 c hc hv a b ha.1 hb.1
  have key : (fam6 c).netLt a b = .ok (decide (o = .lt)) := by
    cases hsp : c.spaceship with
    | true => exact h6 hsp
    | false =>
      obtain ⟨o', g1, g2⟩ := C38_less_v6_partial c hc hv hsp a b ha.1 hb.1 (by
        rw [ha.2, hb.2, he]
        exact fun h => hs h.2)
      rw [h2] at g1
      cases g1
      exact g2
  rw [key]
  congr 1
  rw [decide_eq_decide, h5, ha.2, hb.2, he]
  simp only [V6Lt, hs, and_false, or_false, true_and]
  constructor
  · rintro (h | ⟨h1, h2⟩)
    · exact .inl h
    · exact .inr ⟨by rw [h1], h2⟩
  · rintro (h | ⟨h1, h2⟩)
    · exact .inl h
    · exact .inr ⟨beValue_inj _ _ (by rw [ha.1.wf.1, hb.1.wf.1]) h1, h2⟩

theorem table6 (c : Cfg) (hc : c.le = true) (hv : ∀ x y, c.val x = c.val y → x = y) :
    TableLaw (Plain6 c) (V6.WF c.M) (fam6 c).netLt (fam6 c).subnetOf (fam6 c).overlaps (fam6 c).contains
      (fun n => beValue n.addr.bytes) (fam6 c).top (fun a => beValue a.bytes) := by
  have e : Plain (fam6 c) (V6.WF c.M) = Plain6 c := funext fun n => propext (plain6_iff c n)
  have := tableLaw (fam6Law c hc) (fun a b ha hb => netLt6_plain c hc hv a b (e ▸ ha) (e ▸ hb))
  rw [e] at this
  exact this

theorem netEq4_plain (a b : Net (List (BitVec 8))) (ha : NetOk4 a) (hb : NetOk4 b) : ∃ e, (fam4 true).netEq a b = .ok e ∧ (e = true ↔ a = b) := by
  obtain ⟨e, o, l, h1, h2, h3, h4, h5, h6, h7⟩ := C38_order_v4 a b ha hb
  refine ⟨e, h1, h4.trans ⟨fun h => ?_, fun h => by rw [h]; exact ⟨rfl, rfl⟩⟩⟩
  exact Plain.ext fam4Law ((plain4_iff a).mpr ha) ((plain4_iff b).mpr hb) h.1 h.2

theorem netEq6_plain (c : Cfg) (hc : c.le = true) (hv : ∀ x y, c.val x = c.val y → x = y) (a b : Net V6) (ha : Plain6 c a) (hb : Plain6 c b) :
    ∃ e, (fam6 c).netEq a b = .ok e ∧ (e = true ↔ a = b) := by
  obtain ⟨e, o, h1, h2, h3, h4, h5, h6⟩ := C38_order_v6 c hc hv a b ha.1 hb.1
  refine ⟨e, h1, h3.trans ⟨fun h => ?_, fun h => by rw [h]; exact ⟨⟨rfl, rfl⟩, rfl⟩⟩⟩
  refine Plain.ext (fam6Law c hc) ((plain6_iff c a).mpr ha) ((plain6_iff c b).mpr hb) ?_ h.2
  show beValue a.addr.bytes = beValue b.addr.bytes
  rw [h.1.1]

/-! ### Both versions: IPv6 networks are placed above the IPv4 networks -/

def TableNet (c : Cfg) : AnyNet → Prop
  | .v4 n => NetOk4 n
  | .v6 n => Plain6 c n

theorem tableNet_iff {c : Cfg} {n : AnyNet} : TableNet c n ↔ NetOkAny c n ∧ PlainAny c n := by
  cases n with
  | v4 n => exact ⟨fun h => ⟨h, trivial⟩, fun h => h.1⟩
  | v6 n => exact Iff.rfl

def anyLo : AnyNet → Nat
  | .v4 n => beValue n.addr
  | .v6 n => 2 ^ 128 + beValue n.addr.bytes

def anyHi (c : Cfg) : AnyNet → Nat
  | .v4 n => (fam4 true).top n
  | .v6 n => 2 ^ 128 + (fam6 c).top n

def anyNum : AnyAddr → Nat
  | .v4 a => beValue a
  | .v6 a => 2 ^ 128 + beValue a.bytes

theorem top4_le (n : Net (List (BitVec 8))) (hn : NetOk4 n) : (fam4 true).top n ≤ 2 ^ 32 :=
  aligned_room 32 (32 - n.plen) (beValue n.addr) (by omega) (fam4Law.v_lt _ hn.wf) hn.aligned

theorem num4_lt (a : List (BitVec 8)) (ha : a.length = 4) : beValue a < 2 ^ 32 := fam4Law.v_lt _ ha

theorem tableAny (c : Cfg) (hc : c.le = true) (hv : ∀ x y, c.val x = c.val y → x = y) :
    TableLaw (TableNet c) (AddrOkAny c) (anyNetLt c) (anyNetSubnetOf c) (anyNetOverlaps c) (anyNetContains c) anyLo (anyHi c) anyNum := by
  have T4 := table4
  have T6 := table6 c hc hv
  constructor
  · rintro (a | a) (b | b) ha hb
    · simp only [anyNetLt, hc]
      exact T4.lt_eq a b ha hb
    · have := T4.pos a ha
      have := top4_le a ha
      simp only [anyNetLt]
      rw [eq_comm, ok_true]
      simp only [anyLo, anyHi]
      omega
    · have := T4.pos b hb
      have := top4_le b hb
      simp only [anyNetLt]
      rw [eq_comm, ok_false]
      simp only [anyLo, anyHi]
      omega
    · simp only [anyNetLt]
      rw [T6.lt_eq a b ha hb]
      congr 1
      rw [decide_eq_decide]
      simp only [anyLo, anyHi]
      omega
  · rintro (a | a) (b | b) ha hb
    · simp only [anyNetSubnetOf, hc]
      exact T4.sub_eq a b ha hb
    · have := T4.pos a ha
      have := top4_le a ha
      simp only [anyNetSubnetOf]
      rw [eq_comm, ok_false]
      simp only [anyLo, anyHi]
      omega
    · have := T6.pos a ha
      have := top4_le b hb
      simp only [anyNetSubnetOf]
      rw [eq_comm, ok_false]
      simp only [anyLo, anyHi]
      omega
    · simp only [anyNetSubnetOf]
      rw [T6.sub_eq a b ha hb]
      congr 1
      rw [decide_eq_decide]
      simp only [anyLo, anyHi]
      omega
  · rintro (a | a) (b | b) ha hb
    · simp only [anyNetOverlaps, hc]
      exact T4.ov_eq a b ha hb
    · have := top4_le a ha
      simp only [anyNetOverlaps]
      rw [eq_comm, ok_false]
      simp only [anyLo, anyHi]
      omega
    · have := top4_le b hb
      simp only [anyNetOverlaps]
      rw [eq_comm, ok_false]
      simp only [anyLo, anyHi]
      omega
    · simp only [anyNetOverlaps]
      rw [T6.ov_eq a b ha hb]
      congr 1
      rw [decide_eq_decide]
      simp only [anyLo, anyHi]
      omega
  · rintro (n | n) (a | a) hn ha
    · simp only [anyNetContains, hc]
      exact T4.con_eq n a hn ha
    · have := top4_le n hn
      simp only [anyNetContains]
      rw [eq_comm, ok_false]
      simp only [anyLo, anyHi, anyNum]
      omega
    · have := num4_lt a ha
      simp only [anyNetContains]
      rw [eq_comm, ok_false]
      simp only [anyLo, anyHi, anyNum]
      omega
    · simp only [anyNetContains]
      rw [T6.con_eq n a hn ha]
      congr 1
      rw [decide_eq_decide]
      simp only [anyLo, anyHi, anyNum]
      omega
  · rintro (n | n) hn
    · exact T4.pos n hn
    · have := T6.pos n hn
      simp only [anyLo, anyHi]
      omega
  · rintro (a | a) (b | b) ha hb h1 h2
    · exact T4.nested a b ha hb h1 h2
    · have := top4_le a ha
      simp only [anyLo, anyHi] at h1 h2
      omega
    · have := top4_le b hb
      simp only [anyLo, anyHi] at h1 h2
      omega
    · have := T6.nested a b ha hb
      simp only [anyLo, anyHi] at *
      omega

end Ip
