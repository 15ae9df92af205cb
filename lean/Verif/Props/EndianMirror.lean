import Verif.Props.Endian
import Verif.Props.V4
/-
C66, IPv4 on big endian hosts, exactly: networks compute with the bytes of addresses in the wrong order.
-/
set_option autoImplicit false

namespace Ip
open Spec

/-- The network with the bytes of its address and of its netmask in the opposite order. -/
def Spec.revNet (n : Net (List (BitVec 8))) : Net (List (BitVec 8)) := ⟨n.addr.reverse, n.mask.reverse, n.plen⟩

/-- The iterator with the bytes of its address in the opposite order. -/
def Spec.revIt (x : AIter (List (BitVec 8)) (BitVec 32)) : AIter (List (BitVec 8)) (BitVec 32) := ⟨x.cur.reverse, x.off, x.carry⟩

def Spec.revNi (x : NIter (List (BitVec 8)) (BitVec 32)) : NIter (List (BitVec 8)) (BitVec 32) := ⟨revNet x.cur, revIt x.it, x.step, x.plen⟩

def Spec.revHosts (s : HostsSeq (List (BitVec 8)) (BitVec 32)) : HostsSeq (List (BitVec 8)) (BitVec 32) := ⟨revIt s.first, revIt s.last⟩

def Spec.revSubs (s : SubnetsSeq (List (BitVec 8)) (BitVec 32)) : SubnetsSeq (List (BitVec 8)) (BitVec 32) := ⟨revNi s.first, revNi s.last, s.size⟩

/-- Addresses and netmasks have four bytes. -/
def Spec.Four (n : Net (List (BitVec 8))) : Prop := n.addr.length = 4 ∧ n.mask.length = 4

theorem Spec.Four.rev {n : Net (List (BitVec 8))} (h : Four n) : Four (revNet n) := by
  simpa [Four, revNet] using h

theorem be_toUint (a : List (BitVec 8)) (h : a.length = 4) : v4ToUint false a = v4ToUint true a.reverse := by
  match a, h with
  | [a, b, c, d], _ =>
    rw [v4ToUint_be]
    exact (v4ToUint_le d c b a).symm

theorem be_fromUint (u : BitVec 32) : v4FromUint false u = (v4FromUint true u).reverse := by
  obtain ⟨a, b, c, d, rfl⟩ := split32 u
  rw [v4FromUint_be, v4FromUint_le]
  rfl

theorem be_fromUint_length (le : Bool) (u : BitVec 32) : (v4FromUint le u).length = 4 := rfl

theorem be_fromPrefix (p : Nat) : v4FromPrefix false p = (v4FromPrefix true p >>= fun b => .ok b.reverse) := by
  unfold v4FromPrefix
  split
  · split
    · rw [be_fromUint]; rfl
    · rfl
  · rw [be_fromUint]; rfl

theorem be_strict (a m : List (BitVec 8)) (s : Bool) (ha : a.length = 4) (hm : m.length = 4) :
    v4Strict false a m s = (v4Strict true a.reverse m.reverse s >>= fun b => .ok b.reverse) := by
  unfold v4Strict
  rw [be_toUint a ha, be_toUint m hm]
  obtain ⟨u, hu, _⟩ := v4ToUint_val a.reverse (by simpa using ha)
  obtain ⟨v, hv, _⟩ := v4ToUint_val m.reverse (by simpa using hm)
  rw [hu, hv]
  simp only [Res.ok_bind]
  split
  · split
    · rfl
    · rw [be_fromUint]; rfl
  · rw [Res.ok_bind, List.reverse_reverse]

theorem fromPrefix_length {le : Bool} {p : Nat} {b : List (BitVec 8)} (h : v4FromPrefix le p = .ok b) : b.length = 4 := by
  unfold v4FromPrefix at h
  split at h
  · split at h
    · injection h with h; rw [← h]; rfl
    · cases h
  · injection h with h; rw [← h]; rfl

theorem be_fromAddress (a : List (BitVec 8)) (p : Nat) (s : Bool) (ha : a.length = 4) :
    (fam4 false).fromAddress a p s = ((fam4 true).fromAddress a.reverse p s >>= fun n => .ok (revNet n)) := by
  show (v4FromPrefix false p >>= fun m => v4Strict false a m s >>= fun a => Res.ok (Net.mk a m p)) =
    ((v4FromPrefix true p >>= fun m => v4Strict true a.reverse m s >>= fun a => Res.ok (Net.mk a m p)) >>= _)
  rw [be_fromPrefix]
  cases hm : v4FromPrefix true p with
  | err e v => rfl
  | ub => rfl
  | ok m =>
    simp only [Res.ok_bind]
    rw [be_strict a _ s ha (by simpa using fromPrefix_length hm), List.reverse_reverse]
    cases v4Strict true a.reverse m s with
    | ok b => rfl
    | err e v => rfl
    | ub => rfl

theorem be_hostmask (n : Net (List (BitVec 8))) : (fam4 false).hostmask n = ((fam4 true).hostmask (revNet n)).reverse := by
  show n.mask.map _ = (n.mask.reverse.map _).reverse
  rw [List.map_reverse, List.reverse_reverse]

theorem be_contains (n : Net (List (BitVec 8))) (a : List (BitVec 8)) (hn : Four n) (ha : a.length = 4) :
    (fam4 false).contains n a = (fam4 true).contains (revNet n) a.reverse := by
  obtain ⟨x, m, p⟩ := n
  match a, ha, x, hn.1, m, hn.2 with
  | [a0, a1, a2, a3], _, [x0, x1, x2, x3], _, [m0, m1, m2, m3], _ =>
    simp only [Fam.contains, fam4, Fam.containsLoop, revNet, List.reverse_cons, List.reverse_nil, List.nil_append, List.cons_append]
    by_cases h0 : a0 &&& m0 = x0 <;> by_cases h1 : a1 &&& m1 = x1 <;> by_cases h2 : a2 &&& m2 = x2 <;> by_cases h3 : a3 &&& m3 = x3 <;> simp [h0, h1, h2, h3]

theorem four_broadcast (le : Bool) (n : Net (List (BitVec 8))) (hn : Four n) : ∃ b, (fam4 le).broadcast n = .ok b ∧ b.length = 4 := by
  obtain ⟨x, m, p⟩ := n
  match x, hn.1, m, hn.2 with
  | [x0, x1, x2, x3], _, [m0, m1, m2, m3], _ => exact ⟨_, rfl, rfl⟩

theorem be_broadcast (n : Net (List (BitVec 8))) (hn : Four n) :
    (fam4 false).broadcast n = ((fam4 true).broadcast (revNet n) >>= fun b => .ok b.reverse) := by
  obtain ⟨x, m, p⟩ := n
  match x, hn.1, m, hn.2 with
  | [x0, x1, x2, x3], _, [m0, m1, m2, m3], _ => rfl

theorem be_overlaps (m n : Net (List (BitVec 8))) (hm : Four m) (hn : Four n) :
    (fam4 false).overlaps m n = (fam4 true).overlaps (revNet m) (revNet n) := by
  unfold Fam.overlaps
  rw [be_contains n _ hn hm.1, be_contains m _ hm hn.1, be_broadcast m hm, be_broadcast n hn]
  obtain ⟨b, hb, hb4⟩ := four_broadcast true (revNet m) hm.rev
  obtain ⟨d, hd, hd4⟩ := four_broadcast true (revNet n) hn.rev
  rw [hb, hd]
  simp only [Res.ok_bind]
  rw [be_contains n _ hn (by simpa using hb4), be_contains m _ hm (by simpa using hd4), List.reverse_reverse, List.reverse_reverse]
  rfl

theorem be_count (n : Net (List (BitVec 8))) (hn : Four n) : (fam4 false).addressesCount n = (fam4 true).addressesCount (revNet n) := by
  unfold Fam.addressesCount
  rw [be_broadcast n hn]
  obtain ⟨b, hb, hb4⟩ := four_broadcast true (revNet n) hn.rev
  rw [hb]
  simp only [Res.ok_bind]
  show (v4ToUint false _ >>= fun b => v4ToUint false _ >>= _) = (v4ToUint true _ >>= fun b => v4ToUint true _ >>= _)
  rw [be_toUint _ (by simpa using hb4), be_toUint _ hn.1, List.reverse_reverse]
  rfl

theorem noexcept_bind_ok {α β : Type} (f : α → β) (r : Res α) :
    Fam.noexcept (r >>= fun a => .ok (f a)) = (Fam.noexcept r >>= fun a => .ok (f a)) := by
  cases r <;> rfl

theorem be_supernet (n : Net (List (BitVec 8))) (hn : Four n) (d : Nat) (newp : Option Nat) :
    (fam4 false).supernet n d newp = ((fam4 true).supernet (revNet n) d newp >>= fun n => .ok (revNet n)) := by
  have go : ∀ diff : Nat,
      (if diff > n.plen then (.err .invalid_prefixlen_diff 0 : Res (Net (List (BitVec 8))))
      else do
        let a ← (fam4 false).toUint n.addr
        let m ← (fam4 false).toUint n.mask
        let s ← (fam4 false).ops.shl m diff
        let address ← (fam4 false).fromUint ((fam4 false).ops.and a s)
        Fam.noexcept ((fam4 false).fromAddress address (n.plen - diff) true)) =
      ((if diff > n.plen then (.err .invalid_prefixlen_diff 0 : Res (Net (List (BitVec 8))))
      else do
        let a ← (fam4 true).toUint (revNet n).addr
        let m ← (fam4 true).toUint (revNet n).mask
        let s ← (fam4 true).ops.shl m diff
        let address ← (fam4 true).fromUint ((fam4 true).ops.and a s)
        Fam.noexcept ((fam4 true).fromAddress address (n.plen - diff) true)) >>= fun n => .ok (revNet n)) := by
    intro diff
    split
    · rfl
    · show (v4ToUint false _ >>= fun a => v4ToUint false _ >>= fun m => u32Ops.shl m diff >>= fun s => Res.ok _ >>= fun x => _) =
        (v4ToUint true n.addr.reverse >>= fun a => v4ToUint true n.mask.reverse >>= fun m => u32Ops.shl m diff >>= fun s => Res.ok _ >>= fun x => _) >>= _
      rw [be_toUint _ hn.1, be_toUint _ hn.2]
      obtain ⟨u, hu, _⟩ := v4ToUint_val n.addr.reverse (by simpa using hn.1)
      obtain ⟨v, hv, _⟩ := v4ToUint_val n.mask.reverse (by simpa using hn.2)
      rw [hu, hv]
      simp only [Res.ok_bind]
      cases u32Ops.shl v diff with
      | err e v => rfl
      | ub => rfl
      | ok s =>
        simp only [Res.ok_bind]
        rw [be_fromAddress _ _ _ rfl, be_fromUint, List.reverse_reverse]
        exact noexcept_bind_ok _ _
  unfold Fam.supernet
  show (if n.plen = 0 then _ else _) = ((if n.plen = 0 then _ else _) >>= _)
  by_cases h0 : n.plen = 0
  · rw [if_pos h0, if_pos h0]
    simp [revNet]
  · rw [if_neg h0, if_neg h0]
    cases newp with
    | none => exact go d
    | some p =>
      show (if p > n.plen then _ else _) = ((if p > n.plen then _ else _) >>= _)
      by_cases h1 : p > n.plen
      · rw [if_pos h1, if_pos h1]; rfl
      · rw [if_neg h1, if_neg h1]
        by_cases h2 : d ≠ 1
        · rw [if_pos h2, if_pos h2]; rfl
        · rw [if_neg h2, if_neg h2]
          exact go _

/-! Iterators. -/

theorem be_aiMk (a : List (BitVec 8)) (ha : a.length = 4) (k : Int) :
    (fam4 false).aiMk a k = ((fam4 true).aiMk a.reverse k >>= fun x => .ok (revIt x)) := by
  show (v4ToUint false a >>= fun u => Res.ok (AIter.mk a u k)) = ((v4ToUint true a.reverse >>= fun u => Res.ok (AIter.mk a.reverse u k)) >>= _)
  rw [be_toUint a ha]
  obtain ⟨u, hu, _⟩ := v4ToUint_val a.reverse (by simpa using ha)
  rw [hu]
  simp [revIt]

theorem be_aiAdd (x : AIter (List (BitVec 8)) (BitVec 32)) (n : BitVec 32) :
    (fam4 false).aiAdd x n = ((fam4 true).aiAdd (revIt x) n >>= fun x => .ok (revIt x)) := by
  unfold Fam.aiAdd
  show (if (!u32Ops.eq n 0#32) = true then _ else _) = ((if (!u32Ops.eq n 0#32) = true then _ else _) >>= _)
  by_cases h : (!u32Ops.eq n 0#32) = true
  · rw [if_pos h, if_pos h]
    show Res.ok (AIter.mk (v4FromUint false _) _ _) = _
    rw [be_fromUint]
    rfl
  · rw [if_neg h, if_neg h]
    simp [revIt]

theorem be_aiSub (x : AIter (List (BitVec 8)) (BitVec 32)) (n : BitVec 32) :
    (fam4 false).aiSub x n = ((fam4 true).aiSub (revIt x) n >>= fun x => .ok (revIt x)) := by
  unfold Fam.aiSub
  show (if (!u32Ops.eq n 0#32) = true then _ else _) = ((if (!u32Ops.eq n 0#32) = true then _ else _) >>= _)
  by_cases h : (!u32Ops.eq n 0#32) = true
  · rw [if_pos h, if_pos h]
    show Res.ok (AIter.mk (v4FromUint false _) _ _) = _
    rw [be_fromUint]
    rfl
  · rw [if_neg h, if_neg h]
    simp [revIt]

theorem be_bytesEq (a b : List (BitVec 8)) (ha : a.length = 4) (hb : b.length = 4) : bytesEq a b = bytesEq a.reverse b.reverse := by
  match a, ha, b, hb with
  | [a0, a1, a2, a3], _, [x0, x1, x2, x3], _ =>
    simp only [bytesEq, List.reverse_cons, List.reverse_nil, List.nil_append, List.cons_append]
    by_cases h0 : a0 = x0 <;> by_cases h1 : a1 = x1 <;> by_cases h2 : a2 = x2 <;> by_cases h3 : a3 = x3 <;> simp [h0, h1, h2, h3]

theorem be_aiEq (x y : AIter (List (BitVec 8)) (BitVec 32)) (hx : x.cur.length = 4) (hy : y.cur.length = 4) :
    (fam4 false).aiEq x y = (fam4 true).aiEq (revIt x) (revIt y) := by
  unfold Fam.aiEq
  show (if x.carry = y.carry then Res.ok (bytesEq _ _) else _) = (if x.carry = y.carry then Res.ok (bytesEq _ _) else _)
  rw [be_bytesEq _ _ hx hy]
  rfl

theorem be_netEq (m n : Net (List (BitVec 8))) (hm : Four m) (hn : Four n) : (fam4 false).netEq m n = (fam4 true).netEq (revNet m) (revNet n) := by
  unfold Fam.netEq
  show (Res.ok (bytesEq _ _) >>= fun b => if b = true then Res.ok (bytesEq _ _) else _) = (Res.ok (bytesEq _ _) >>= fun b => if b = true then Res.ok (bytesEq _ _) else _)
  rw [be_bytesEq m.addr _ hm.1 hn.1, be_bytesEq m.mask _ hm.2 hn.2]
  rfl

theorem be_niEq (x y : NIter (List (BitVec 8)) (BitVec 32)) (hx : Four x.cur) (hy : Four y.cur) :
    (fam4 false).niEq x y = (fam4 true).niEq (revNi x) (revNi y) := by
  unfold Fam.niEq
  rw [be_netEq _ _ hx hy]
  rfl

theorem ai_length (le : Bool) (x y : AIter (List (BitVec 8)) (BitVec 32)) (n : BitVec 32) (hx : x.cur.length = 4)
    (h : (fam4 le).aiAdd x n = .ok y ∨ (fam4 le).aiSub x n = .ok y) : y.cur.length = 4 := by
  rcases h with h | h
  · unfold Fam.aiAdd at h
    split at h
    · injection h with h; rw [← h]; rfl
    · injection h with h; rw [← h]; exact hx
  · unfold Fam.aiSub at h
    split at h
    · injection h with h; rw [← h]; rfl
    · injection h with h; rw [← h]; exact hx

theorem be_niMk (a : List (BitVec 8)) (ha : a.length = 4) (s : BitVec 32) (p : Nat) (k : Int) :
    (fam4 false).niMk a s p k = ((fam4 true).niMk a.reverse s p k >>= fun x => .ok (revNi x)) := by
  unfold Fam.niMk
  rw [be_fromAddress _ _ _ ha, be_aiMk _ ha]
  cases (fam4 true).fromAddress a.reverse p true with
  | err e v => rfl
  | ub => rfl
  | ok n =>
    simp only [Res.ok_bind]
    cases (fam4 true).aiMk a.reverse k with
    | err e v => rfl
    | ub => rfl
    | ok x => rfl

theorem be_niAdd (x : NIter (List (BitVec 8)) (BitVec 32)) (hx : x.it.cur.length = 4) (n : BitVec 32) :
    (fam4 false).niAdd x n = ((fam4 true).niAdd (revNi x) n >>= fun x => .ok (revNi x)) := by
  unfold Fam.niAdd
  rw [be_aiAdd]
  show (((fam4 true).aiAdd (revIt x.it) (x.step * n) >>= _) >>= _) = (((fam4 true).aiAdd (revIt x.it) (x.step * n)) >>= _) >>= _
  cases h : (fam4 true).aiAdd (revIt x.it) (x.step * n) with
  | err e v => rfl
  | ub => rfl
  | ok y =>
    have hy : y.cur.length = 4 := ai_length true _ y _ (by simpa [revIt] using hx) (.inl h)
    simp only [Res.ok_bind]
    rw [be_fromAddress _ _ _ (by simpa [revIt] using hy)]
    show (((fam4 true).fromAddress y.cur.reverse.reverse x.plen true >>= _) >>= _) = (((fam4 true).fromAddress y.cur x.plen true) >>= _) >>= _
    rw [List.reverse_reverse]
    cases (fam4 true).fromAddress y.cur x.plen true with
    | err e v => rfl
    | ub => rfl
    | ok n => rfl

theorem be_niSub (x : NIter (List (BitVec 8)) (BitVec 32)) (hx : x.it.cur.length = 4) (n : BitVec 32) :
    (fam4 false).niSub x n = ((fam4 true).niSub (revNi x) n >>= fun x => .ok (revNi x)) := by
  unfold Fam.niSub
  rw [be_aiSub]
  show (((fam4 true).aiSub (revIt x.it) (x.step * n) >>= _) >>= _) = (((fam4 true).aiSub (revIt x.it) (x.step * n)) >>= _) >>= _
  cases h : (fam4 true).aiSub (revIt x.it) (x.step * n) with
  | err e v => rfl
  | ub => rfl
  | ok y =>
    have hy : y.cur.length = 4 := ai_length true _ y _ (by simpa [revIt] using hx) (.inr h)
    simp only [Res.ok_bind]
    rw [be_fromAddress _ _ _ (by simpa [revIt] using hy)]
    show (((fam4 true).fromAddress y.cur.reverse.reverse x.plen true >>= _) >>= _) = (((fam4 true).fromAddress y.cur x.plen true) >>= _) >>= _
    rw [List.reverse_reverse]
    cases (fam4 true).fromAddress y.cur x.plen true with
    | err e v => rfl
    | ub => rfl
    | ok n => rfl

theorem be_subnetsMk (a b h : List (BitVec 8)) (ha : a.length = 4) (hb : b.length = 4) (hh : h.length = 4) (d p : Nat) :
    (fam4 false).subnetsMk a b h d p = ((fam4 true).subnetsMk a.reverse b.reverse h.reverse d p >>= fun s => .ok (revSubs s)) := by
  obtain ⟨u, hu, _⟩ := v4ToUint_val a.reverse (by simpa using ha)
  obtain ⟨v, hv, _⟩ := v4ToUint_val b.reverse (by simpa using hb)
  obtain ⟨w, hw, _⟩ := v4ToUint_val h.reverse (by simpa using hh)
  have e1 : (fam4 false).toUint a = .ok u := (be_toUint _ ha).trans hu
  have e2 : (fam4 false).toUint b = .ok v := (be_toUint _ hb).trans hv
  have e3 : (fam4 false).toUint h = .ok w := (be_toUint _ hh).trans hw
  have e4 : (fam4 true).toUint a.reverse = .ok u := hu
  have e5 : (fam4 true).toUint b.reverse = .ok v := hv
  have e6 : (fam4 true).toUint h.reverse = .ok w := hw
  have f1 : ∀ w, (fam4 false).fromUint w = .ok (v4FromUint true w).reverse := fun w => congrArg Res.ok (be_fromUint w)
  have f2 : ∀ w, (fam4 true).fromUint w = .ok (v4FromUint true w) := fun w => rfl
  have g : ∀ x y, (fam4 false).eq (v4FromUint true x).reverse (v4FromUint true y).reverse = (fam4 true).eq (v4FromUint true x) (v4FromUint true y) := by
    intro x y
    refine congrArg Res.ok ((be_bytesEq _ _ rfl rfl).trans ?_)
    rw [List.reverse_reverse, List.reverse_reverse]
  have o : (fam4 false).ops = (fam4 true).ops := rfl
  unfold Fam.subnetsMk
  simp only [e1, e2, e3, e4, e5, e6, f1, f2, g, o, Res.ok_bind, be_niMk _ (show (v4FromUint true _).reverse.length = 4 from rfl), List.reverse_reverse]
  cases (fam4 true).ops.shr w d with
  | err e v => rfl
  | ub => rfl
  | ok s =>
    simp only [Res.ok_bind]
    cases (fam4 true).niMk (v4FromUint true u) ((fam4 true).ops.add s ((fam4 true).ops.ofI64 1#64)) p 0 with
    | err e v => rfl
    | ub => rfl
    | ok x =>
      simp only [Res.ok_bind]
      cases (fam4 true).eq (v4FromUint true u) (v4FromUint true ((fam4 true).ops.add v ((fam4 true).ops.ofI64 1#64))) with
      | err e v => rfl
      | ub => rfl
      | ok same =>
        simp only [Res.ok_bind]
        cases (fam4 true).niMk (v4FromUint true ((fam4 true).ops.add v ((fam4 true).ops.ofI64 1#64))) ((fam4 true).ops.add s ((fam4 true).ops.ofI64 1#64)) p (if same = true then 1 else 0) with
        | err e v => rfl
        | ub => rfl
        | ok y =>
          simp only [Res.ok_bind]
          cases (fam4 true).ops.div ((fam4 true).ops.sub v u) ((fam4 true).ops.add s ((fam4 true).ops.ofI64 1#64)) with
          | err e v => rfl
          | ub => rfl
          | ok q => rfl

/-- The subnets of networks of more than one address. -/
theorem be_subnets (n : Net (List (BitVec 8))) (hn : Four n) (hp : n.plen ≠ 32) (d : Nat) (newp : Option Nat) :
    (fam4 false).subnets n d newp = ((fam4 true).subnets (revNet n) d newp >>= fun s => .ok (revSubs s)) := by
  obtain ⟨b, hb, hb4⟩ := four_broadcast true (revNet n) hn.rev
  have go : ∀ p d, Fam.noexcept ((fam4 false).broadcast n >>= fun b => (fam4 false).subnetsMk n.addr b ((fam4 false).hostmask n) d p) =
      (Fam.noexcept ((fam4 true).broadcast (revNet n) >>= fun b => (fam4 true).subnetsMk (revNet n).addr b ((fam4 true).hostmask (revNet n)) d p) >>= fun s => .ok (revSubs s)) := by
    intro p d
    rw [be_broadcast n hn, hb]
    simp only [Res.ok_bind]
    rw [be_subnetsMk _ _ _ hn.1 (by simpa using hb4) (by show (n.mask.map _).length = 4; simpa using hn.2), List.reverse_reverse, be_hostmask, List.reverse_reverse]
    show Fam.noexcept ((fam4 true).subnetsMk n.addr.reverse _ _ _ _ >>= _) = (Fam.noexcept ((fam4 true).subnetsMk n.addr.reverse _ _ _ _) >>= _)
    cases (fam4 true).subnetsMk n.addr.reverse b ((fam4 true).hostmask (revNet n)) d p with
    | err e v => rfl
    | ub => rfl
    | ok s => rfl
  unfold Fam.subnets
  show (if n.plen = 32 then _ else _) = ((if n.plen = 32 then _ else _) >>= _)
  rw [if_neg hp, if_neg hp]
  have go' : ∀ d, (if (n.plen + d) % 2 ^ 64 > 32 then (.err .invalid_prefixlen_diff 0 : Res (SubnetsSeq (List (BitVec 8)) (BitVec 32)))
        else Fam.noexcept ((fam4 false).broadcast n >>= fun b => (fam4 false).subnetsMk n.addr b ((fam4 false).hostmask n) d ((n.plen + d) % 2 ^ 64))) =
      ((if (n.plen + d) % 2 ^ 64 > 32 then (.err .invalid_prefixlen_diff 0 : Res (SubnetsSeq (List (BitVec 8)) (BitVec 32)))
        else Fam.noexcept ((fam4 true).broadcast (revNet n) >>= fun b => (fam4 true).subnetsMk (revNet n).addr b ((fam4 true).hostmask (revNet n)) d ((n.plen + d) % 2 ^ 64))) >>= fun s => .ok (revSubs s)) := by
    intro d
    by_cases h : (n.plen + d) % 2 ^ 64 > 32
    · rw [if_pos h, if_pos h]; rfl
    · rw [if_neg h, if_neg h]
      exact go _ _
  cases newp with
  | none => exact go' d
  | some p =>
    show (if p < n.plen then _ else _) = ((if p < n.plen then _ else _) >>= _)
    by_cases h1 : p < n.plen
    · rw [if_pos h1, if_pos h1]; rfl
    · rw [if_neg h1, if_neg h1]
      by_cases h2 : d ≠ 1
      · rw [if_pos h2, if_pos h2]; rfl
      · rw [if_neg h2, if_neg h2]
        exact go' _

/-- The hosts of networks of more than one address. -/
theorem be_hosts (n : Net (List (BitVec 8))) (hn : Four n) (hp : n.plen ≠ 32) :
    (fam4 false).hosts n = ((fam4 true).hosts (revNet n) >>= fun s => .ok (revHosts s)) := by
  unfold Fam.hosts
  rw [be_broadcast n hn]
  obtain ⟨b, hb, hb4⟩ := four_broadcast true (revNet n) hn.rev
  rw [hb]
  simp only [Res.ok_bind]
  unfold Fam.hostsMk
  obtain ⟨u, hu, _⟩ := v4ToUint_val n.addr.reverse (by simpa using hn.1)
  obtain ⟨v, hv, _⟩ := v4ToUint_val b hb4
  have e1 : (fam4 false).toUint n.addr = .ok u := (be_toUint _ hn.1).trans hu
  have e2 : (fam4 false).toUint b.reverse = .ok v := by
    refine (be_toUint _ (by simpa using hb4)).trans ?_
    rw [List.reverse_reverse, hv]
  have e3 : (fam4 true).toUint (revNet n).addr = .ok u := hu
  have e4 : (fam4 true).toUint b = .ok v := hv
  have f1 : ∀ w, (fam4 false).fromUint w = .ok (v4FromUint true w).reverse := fun w => congrArg Res.ok (be_fromUint w)
  have f2 : ∀ w, (fam4 true).fromUint w = .ok (v4FromUint true w) := fun w => rfl
  have o : (fam4 false).ops = (fam4 true).ops := rfl
  have v6 : (fam4 false).isV6 = (fam4 true).isV6 := rfl
  show (if n.plen = 31 then _ else if n.plen = 32 then _ else _) = ((if n.plen = 31 then _ else if n.plen = 32 then _ else _) >>= _)
  rw [if_neg hp, if_neg hp]
  have close : ∀ x y, (((fam4 true).aiMk x 0 >>= fun s => Res.ok (revIt s)) >>= fun s => ((fam4 true).aiMk y 0 >>= fun s => Res.ok (revIt s)) >>= fun t => Res.ok (HostsSeq.mk s t)) =
      (((fam4 true).aiMk x 0) >>= fun s => (fam4 true).aiMk y 0 >>= fun t => Res.ok (HostsSeq.mk s t)) >>= fun s => .ok (revHosts s) := by
    intro x y
    cases (fam4 true).aiMk x 0 with
    | err e v => rfl
    | ub => rfl
    | ok s =>
      simp only [Res.ok_bind]
      cases (fam4 true).aiMk y 0 with
      | err e v => rfl
      | ub => rfl
      | ok t => rfl
  by_cases h : n.plen = 31
  · rw [if_pos h, if_pos h]
    simp only [e1, e2, e3, e4, f1, f2, o, Res.ok_bind, be_aiMk _ (show (v4FromUint true _).reverse.length = 4 from rfl), List.reverse_reverse]
    exact close _ _
  · rw [if_neg h, if_neg h]
    simp only [e1, e2, e3, e4, f1, f2, o, v6, Res.ok_bind, be_aiMk _ (show (v4FromUint true _).reverse.length = 4 from rfl), List.reverse_reverse]
    exact close _ _

/-- C66, IPv4 on big endian hosts, exactly: what the functions of networks do there is what they do on little endian
hosts with the bytes of all addresses and netmasks in the opposite order.  `hosts` and `subnets` are for networks of more
than one address; the others are in `C66_v4_single_exact`. -/
theorem C66_v4_mirror (n : Net (List (BitVec 8))) (hn : Four n) :
    (∀ a p s, a.length = 4 → (fam4 false).fromAddress a p s = ((fam4 true).fromAddress a.reverse p s >>= fun n => .ok (revNet n))) ∧
    (∀ a, a.length = 4 → (fam4 false).contains n a = (fam4 true).contains (revNet n) a.reverse) ∧
    (fam4 false).hostmask n = ((fam4 true).hostmask (revNet n)).reverse ∧
    (fam4 false).broadcast n = ((fam4 true).broadcast (revNet n) >>= fun b => .ok b.reverse) ∧
    (∀ m, Four m → (fam4 false).overlaps n m = (fam4 true).overlaps (revNet n) (revNet m)) ∧
    (fam4 false).addressesCount n = (fam4 true).addressesCount (revNet n) ∧
    (∀ d newp, (fam4 false).supernet n d newp = ((fam4 true).supernet (revNet n) d newp >>= fun n => .ok (revNet n))) ∧
    (n.plen ≠ 32 → (fam4 false).hosts n = ((fam4 true).hosts (revNet n) >>= fun s => .ok (revHosts s))) ∧
    (n.plen ≠ 32 → ∀ d newp, (fam4 false).subnets n d newp = ((fam4 true).subnets (revNet n) d newp >>= fun s => .ok (revSubs s))) :=
  ⟨fun a p s => be_fromAddress a p s, fun a => be_contains n a hn, be_hostmask n, be_broadcast n hn, fun m => be_overlaps n m hn, be_count n hn,
    fun d newp => be_supernet n hn d newp, fun hp => be_hosts n hn hp, fun hp d newp => be_subnets n hn hp d newp⟩

example := C66_v4_mirror ⟨[192, 168, 0, 0], [255, 255, 0, 0], 16⟩ ⟨rfl, rfl⟩

/-- C66, IPv4 on big endian hosts: the iterators too, so that loops visit the addresses and networks that loops on little
endian hosts visit for the network with the bytes in the opposite order, each with its bytes in the opposite order. -/
theorem C66_v4_iterators_mirror (x y : AIter (List (BitVec 8)) (BitVec 32)) (hx : x.cur.length = 4) (hy : y.cur.length = 4)
    (s t : NIter (List (BitVec 8)) (BitVec 32)) (hs : Four s.cur) (hs' : s.it.cur.length = 4) (ht : Four t.cur) (n : BitVec 32) :
    (fam4 false).aiAdd x n = ((fam4 true).aiAdd (revIt x) n >>= fun x => .ok (revIt x)) ∧
    (fam4 false).aiSub x n = ((fam4 true).aiSub (revIt x) n >>= fun x => .ok (revIt x)) ∧
    (fam4 false).aiEq x y = (fam4 true).aiEq (revIt x) (revIt y) ∧
    (fam4 false).niAdd s n = ((fam4 true).niAdd (revNi s) n >>= fun x => .ok (revNi x)) ∧
    (fam4 false).niSub s n = ((fam4 true).niSub (revNi s) n >>= fun x => .ok (revNi x)) ∧
    (fam4 false).niEq s t = (fam4 true).niEq (revNi s) (revNi t) :=
  ⟨be_aiAdd x n, be_aiSub x n, be_aiEq x y hx hy, be_niAdd s hs' n, be_niSub s hs' n, be_niEq s t hs ht⟩

/-- C66, IPv4 on big endian hosts, in numbers: `from_address` refuses the addresses whose bytes in the opposite order have
host bits, and the network contains the addresses that agree with its own in the leading bits of the bytes in the
opposite order. -/
theorem C66_v4_contains_exact (a : List (BitVec 8)) (ha : a.length = 4) (p : Nat) (hp : p ≤ 32) :
    ((fam4 false).fromAddress a p true = .err .has_host_bits_set 0 ↔ ∃ i, i < 32 - p ∧ (beValue a.reverse).testBit i = true) ∧
    ∀ s n, (fam4 false).fromAddress a p s = .ok n → ∀ x : List (BitVec 8), x.length = 4 →
      ∃ r, (fam4 false).contains n x = .ok r ∧ (r = true ↔ InNet 32 p (beValue a.reverse) (beValue x.reverse)) := by
  have har : a.reverse.length = 4 := by simpa using ha
  have spec := C24_from_address_v4 a.reverse har p hp
  constructor
  · rw [be_fromAddress a p true ha, ← spec.1.1]
    cases (fam4 true).fromAddress a.reverse p true with
    | ok n => exact ⟨(fun h => by cases h), (fun h => by cases h)⟩
    | err e v => exact ⟨fun h => h, fun h => h⟩
    | ub => exact ⟨(fun h => by cases h), (fun h => by cases h)⟩
  · intro s n hn x hx
    rw [be_fromAddress a p s ha] at hn
    cases hm : (fam4 true).fromAddress a.reverse p s with
    | err e v => rw [hm] at hn; cases hn
    | ub => rw [hm] at hn; cases hn
    | ok m =>
      rw [hm] at hn
      injection hn with hn
      subst hn
      obtain ⟨ok, hmp⟩ := C24_invariant_v4.1 _ _ _ _ har hm
      have h4 : Four m := by
        obtain ⟨k, hk, hk4, _⟩ := ok.mask
        refine ⟨ok.wf, ?_⟩
        rw [hk]
        show k.length = 4
        have : 8 * k.length = 32 := hk4
        omega
      rw [be_contains _ x h4.rev hx]
      have e : revNet (revNet m) = m := by simp [revNet]
      rw [e]
      obtain ⟨r, b, h1, _, h2, _⟩ := C27_contains_v4 m ok x.reverse (by simpa using hx)
      refine ⟨r, h1, h2.trans ?_⟩
      rw [hmp]
      have bits : ∀ i, 32 - p ≤ i → (beValue m.addr).testBit i = (beValue a.reverse).testBit i := by
        cases s with
        | false =>
          obtain ⟨m', h3, _, h4⟩ := spec.2
          rw [hm] at h3
          injection h3 with h3
          subst h3
          intro i hi
          rw [h4 i]
          simp [hi]
        | true =>
          by_cases hex : ∃ i, i < 32 - p ∧ (beValue a.reverse).testBit i = true
          · rw [spec.1.1.2 hex] at hm
            cases hm
          · obtain ⟨m', h3, h4, _⟩ := spec.1.2 hex
            rw [hm] at h3
            injection h3 with h3
            subst h3
            intro i _
            rw [h4]
      unfold InNet
      constructor
      · rintro ⟨h5, h6⟩
        exact ⟨h5, fun i hi hi' => by rw [h6 i hi hi', bits i hi]⟩
      · rintro ⟨h5, h6⟩
        exact ⟨h5, fun i hi hi' => by rw [h6 i hi hi', bits i hi]⟩

theorem low_byte (u : BitVec 32) : ∃ x y z : BitVec 8, v4FromUint false u = [u.setWidth 8, x, y, z] := by
  refine ⟨_, _, _, congrArg (· :: _) ?_⟩
  apply BitVec.eq_of_toNat_eq
  rw [BitVec.toNat_setWidth, BitVec.toNat_setWidth, BitVec.toNat_and]
  show (u.toNat &&& (2 ^ 8 - 1)) % 2 ^ 8 = u.toNat % 2 ^ 8
  rw [Nat.and_two_pow_sub_one_eq_mod]
  omega

/-- `hosts()` of a network of one address. -/
theorem hosts_single (a m : List (BitVec 8)) (b : List (BitVec 8)) (u v : BitVec 32) (hb : (fam4 false).broadcast ⟨a, m, 32⟩ = .ok b)
    (h1 : v4ToUint false a = .ok u) (h2 : v4ToUint false (v4FromUint false u) = .ok u) (h3 : v4ToUint false (v4FromUint false (u + 1#32)) = .ok v) :
    (fam4 false).hosts ⟨a, m, 32⟩ = .ok ⟨⟨v4FromUint false u, u, 0⟩,
      ⟨v4FromUint false (u + 1#32), v, if bytesLess (v4FromUint false (u + 1#32)) (v4FromUint false u) = true then 1 else 0⟩⟩ := by
  have e1 : (fam4 false).toUint a = .ok u := h1
  have e2 : (fam4 false).toUint (v4FromUint false u) = .ok u := h2
  have e3 : (fam4 false).toUint (v4FromUint false (u + 1#32)) = .ok v := h3
  have f : ∀ w, (fam4 false).fromUint w = .ok (v4FromUint false w) := fun w => rfl
  have o : (fam4 false).ops.add u ((fam4 false).ops.ofI64 1#64) = u + 1#32 := rfl
  have l : (fam4 false).lt (v4FromUint false (u + 1#32)) (v4FromUint false u) = .ok (bytesLess (v4FromUint false (u + 1#32)) (v4FromUint false u)) := rfl
  unfold Fam.hosts
  rw [hb, Res.ok_bind]
  unfold Fam.hostsMk
  rw [if_neg (show ¬ ((32 : Nat) = (fam4 false).maxPrefix - 1) by decide), if_pos (show (32 : Nat) = (fam4 false).maxPrefix from rfl)]
  simp only [e1, f, o, Fam.aiMk, e2, l, e3, Res.ok_bind]

theorem carries (P Q : Prop) [Decidable P] [Decidable Q] (h : P → Q) :
    (if (if decide P = true then (1 : Int) - 0 else 0) = (if decide Q = true then (1 : Int) else 0) then Res.ok true else Res.ok false) =
      Res.ok (decide (Q → P)) := by
  by_cases hq : Q <;> by_cases hp : P <;> simp_all

/-- C66, IPv4 on big endian hosts, networks of one address: `hosts()` starts with the address, but the iterator after it
is the end only for addresses that do not begin with 255, and for 255.255.255.255.  A loop over the hosts of 255.0.0.0/32
goes on. -/
theorem C66_v4_single_exact (a0 a1 a2 a3 : BitVec 8) (m : List (BitVec 8)) (hm : m.length = 4) :
    ∃ s x e, (fam4 false).hosts ⟨[a0, a1, a2, a3], m, 32⟩ = .ok s ∧ s.front = [a0, a1, a2, a3] ∧ (fam4 false).aiInc s.first = .ok x ∧
      (fam4 false).aiEq x s.last = .ok e ∧ (e = true ↔ a0 ≠ 255 ∨ [a0, a1, a2, a3] = [255, 255, 255, 255]) := by
  obtain ⟨b, hb, _⟩ := four_broadcast false ⟨[a0, a1, a2, a3], m, 32⟩ ⟨rfl, hm⟩
  have eu : (fam4 false).toUint [a0, a1, a2, a3] = .ok (cat4 a3 a2 a1 a0) := v4ToUint_be a0 a1 a2 a3
  have ef : v4FromUint false (cat4 a3 a2 a1 a0) = [a0, a1, a2, a3] := v4FromUint_be a3 a2 a1 a0
  have el : ∀ w, (fam4 false).toUint (v4FromUint false w) = .ok w := fun w => (C05_v4_uint_inverse false).2 w
  have hv := cat4_toNat a3 a2 a1 a0
  generalize cat4 a3 a2 a1 a0 = u at eu ef hv
  obtain ⟨x, y, z, ex⟩ := low_byte (u + 1#32)
  have l0 := a0.isLt
  have l1 := a1.isLt
  have l2 := a2.isLt
  have l3 := a3.isLt
  have hv' : u.toNat = a3.toNat * 2 ^ 24 + a2.toNat * 2 ^ 16 + a1.toNat * 2 ^ 8 + a0.toNat := by
    rw [hv]; simp [beValue]; try omega
  have hlow : ((u + 1#32).setWidth 8).toNat = (a0.toNat + 1) % 256 := by
    simp [BitVec.toNat_add]; omega
  have hless : bytesLess (v4FromUint false (u + 1#32)) [a0, a1, a2, a3] = decide (a0 = 255#8) := by
    rw [ex]
    by_cases h : a0 = 255#8
    · subst h
      simp [bytesLess, hlow]
    · have hn : a0.toNat ≠ 255 := fun h' => h (BitVec.eq_of_toNat_eq h')
      have h1 : ((u + 1#32).setWidth 8).toNat = a0.toNat + 1 := by omega
      have h2 : ¬ ((u + 1#32).setWidth 8).toNat < a0.toNat := by omega
      have h3 : (u + 1#32).setWidth 8 ≠ a0 := fun h' => by rw [h'] at h1; omega
      simp only [bytesLess, h2, if_false, h, decide_false]
      simp [h3]
  have hall : [a0, a1, a2, a3] = [255#8, 255#8, 255#8, 255#8] ↔ u.toNat = 2 ^ 32 - 1 := by
    constructor
    · intro h
      injection h with h0 h
      injection h with h1 h
      injection h with h2 h
      injection h with h3 h
      subst h0 h1 h2 h3
      rw [hv']
      rfl
    · intro h
      rw [BitVec.eq_of_toNat_eq (show a0.toNat = (255#8).toNat by simp; omega), BitVec.eq_of_toNat_eq (show a1.toNat = (255#8).toNat by simp; omega),
        BitVec.eq_of_toNat_eq (show a2.toNat = (255#8).toNat by simp; omega), BitVec.eq_of_toNat_eq (show a3.toNat = (255#8).toNat by simp; omega)]
  have hwrap : u32Ops.lt (u + 1#32) u = decide ([a0, a1, a2, a3] = [255#8, 255#8, 255#8, 255#8]) := by
    rw [Bool.eq_iff_iff, decide_eq_true_iff, hall]
    show BitVec.ult (u + 1#32) u = true ↔ _
    have := u.isLt
    rw [BitVec.ult_iff_lt, BitVec.lt_def, BitVec.toNat_add]
    simp
    omega
  have hh := hosts_single [a0, a1, a2, a3] m b u (u + 1#32) hb eu (by rw [ef]; exact eu) (el _)
  rw [ef, hless] at hh
  have self : bytesEq (v4FromUint false (u + 1#32)) (v4FromUint false (u + 1#32)) = true := by
    rw [ex]
    simp [bytesEq]
  refine ⟨_, ⟨v4FromUint false (u + 1#32), u + 1#32, if u32Ops.lt (u + 1#32) u = true then 1 - 0 else 0⟩,
    decide (a0 = 255#8 → [a0, a1, a2, a3] = [255#8, 255#8, 255#8, 255#8]), hh, rfl, rfl, ?_, ?_⟩
  · rw [hwrap]
    show (if (if decide _ = true then 1 - 0 else 0) = (if decide _ = true then (1 : Int) else 0) then Res.ok (bytesEq _ _) else Res.ok false) = _
    rw [self]
    have h01 : [a0, a1, a2, a3] = [255#8, 255#8, 255#8, 255#8] → a0 = 255#8 := fun h => by
      injection h
    exact carries _ _ h01
  · rw [decide_eq_true_iff]
    constructor
    · intro h
      by_cases h0 : a0 = 255#8
      · exact .inr (h h0)
      · exact .inl h0
    · rintro (h | h) h0
      · exact absurd h0 h
      · exact h

/-- C66_v4_mirror, a case: 0.0.0.10/8 as written on a big endian host is a network with a netmask of 0.0.0.255. -/
example : Four ⟨[0, 0, 0, 10], [0, 0, 0, 255], 8⟩ ∧ (fam4 false).fromAddress [0, 0, 0, 10] 8 true = .ok ⟨[0, 0, 0, 10], [0, 0, 0, 255], 8⟩ ∧
    (fam4 false).contains ⟨[0, 0, 0, 10], [0, 0, 0, 255], 8⟩ [7, 8, 9, 10] = .ok true := by
  refine ⟨⟨rfl, rfl⟩, by decide, by decide⟩

/-- C66_v4_single_exact, a case. -/
example := C66_v4_single_exact 255 0 0 0 [255, 255, 255, 255] rfl

example := C66_v4_contains_exact [0, 0, 0, 10] rfl 8 (by decide)

example := C66_v4_iterators_mirror ⟨[0, 0, 0, 10], 0x0A000000#32, 0⟩ ⟨[1, 0, 0, 10], 0x0A000001#32, 0⟩ rfl rfl
  ⟨⟨[0, 0, 0, 10], [0, 0, 0, 255], 8⟩, ⟨[0, 0, 0, 10], 0x0A000000#32, 0⟩, 0x01000000#32, 8⟩
  ⟨⟨[0, 0, 0, 11], [0, 0, 0, 255], 8⟩, ⟨[0, 0, 0, 11], 0x0B000000#32, 0⟩, 0x01000000#32, 8⟩ ⟨rfl, rfl⟩ rfl ⟨rfl, rfl⟩ 1#32

end Ip
