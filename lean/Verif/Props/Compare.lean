import Verif.Props.AnyAddr
import Verif.Props.U128
import Verif.Props.FixedString
/-
The comparison operators: C55, and the order of iterators: C56.  Networks and iterators: little endian hosts.
-/
set_option autoImplicit false

namespace Ip
open Spec

/-! ### C55 -/

/-- C55, byte arrays of one length and `ipv4_address`: the six operators are those of the numeric order. -/
theorem C55_bytes (ss : Bool) (a b : List (BitVec 8)) (h : a.length = b.length) :
    ∃ r, bytesCmpOps ss a b = .ok r ∧
      Describes r (beValue a < beValue b) (beValue a = beValue b) (beValue b < beValue a) := by
  obtain ⟨h1, h2, h3, _⟩ := C06_order_numeric a b h
  obtain ⟨_, g2, _, _⟩ := C06_order_numeric b a h.symm
  obtain ⟨n1, n2, n3⟩ := nat_compare (beValue a) (beValue b)
  exact cmpOps_describes ss (nat_cases _ _) rfl rfl rfl rfl h1 (by rw [h3, n1]) (by rw [h3, n2]) (by rw [h3, n3]) h2 g2

example : bytesCmpOps false [1, 255] [2, 0] = .ok ⟨false, true, true, false, true, false⟩ := by decide

/-- C55, `uint128_t`. -/
theorem C55_uint128 (ss : Bool) (a b : U128) :
    ∃ r, u128CmpOps ss a b = .ok r ∧ Describes r (a.val < b.val) (a.val = b.val) (b.val < a.val) := by
  obtain ⟨h1, h2, _, h3, _⟩ := C43_compare a b
  obtain ⟨g1, _⟩ := C43_compare b a
  obtain ⟨n1, n2, n3⟩ := nat_compare a.val b.val
  exact cmpOps_describes ss (nat_cases _ _) rfl rfl rfl rfl h2 (by rw [h3, n1]) (by rw [h3, n2]) (by rw [h3, n3]) h1 g1

example : u128CmpOps false ⟨1, 0⟩ ⟨0, 5⟩ = .ok ⟨false, true, false, true, false, true⟩ := by decide

theorem scopeLt_cases (val : Char → Int) (hv : ∀ x y, val x = val y → x = y) (s t : List Char) :
    OneOf (ScopeLt val s t) (s = t) (ScopeLt val t s) := by
  have k := C15_v6_order_total val hv
  have e : ∀ a b, V6Lt val 0 a 0 b ↔ ScopeLt val a b := fun a b => by simp [V6Lt]
  have t1 := (k 0 0 0 s t s).2.1
  have t2 := (k 0 0 0 s t s).2.2
  have t3 := (k 0 0 0 s s s).1
  have t4 := (k 0 0 0 t t t).1
  simp only [e, true_and] at t1 t2 t3 t4
  refine ⟨t2, ?_, ?_, ?_⟩
  · rintro ⟨h, rfl⟩; exact t3 h
  · rintro ⟨h, h'⟩; exact t3 (t1 h h')
  · rintro ⟨rfl, h⟩; exact t3 h

/-- C55, `fixed_string`: the lexicographic order of the characters. -/
theorem C55_fixed_string (ss : Bool) (val : Char → Int) (hv : ∀ x y, val x = val y → x = y) (a b : FStr)
    (ha : a.WF) (hb : b.WF) :
    ∃ r, fstrCmpOps ss val a b = .ok r ∧
      Describes r (ScopeLt val a.contents b.contents) (a.contents = b.contents) (ScopeLt val b.contents a.contents) := by
  have t := scopeLt_cases val hv a.contents b.contents
  have k := FStr.compare_eq val a b ha hb
  have k' := FStr.compare_eq val b a hb ha
  have z := FStr.lexCmp_zero val hv a.contents b.contents
  have z1 := lexCmp_lt_iff val hv a.contents b.contents
  have z2 := lexCmp_lt_iff val hv b.contents a.contents
  have z3 := FStr.lexCmp_neg val b.contents a.contents
  refine cmpOps_describes ss t (by rw [fstrEq, k]; rfl) (by rw [fstrCmp, k]; rfl) (by rw [fstrLt, k]; rfl)
    (by rw [fstrLt, k']; rfl) ?_ ?_ ?_ ?_ ?_ ?_
  · rw [decide_eq_true_iff, z]
  · rw [← z1]; split
    · simp_all
    · split <;> simp_all
  · rw [← z]; split
    · simp_all
    · split <;> simp_all
  · rw [← z2, z3]; split
    · rename_i h; simp [h]
    · split
      · rename_i h; simp; omega
      · simp; omega
  · rw [decide_eq_true_iff, z1]
  · rw [decide_eq_true_iff, z2]

example : fstrCmpOps false (fun c => (c.toNat : Int)) ⟨['a', 'b', '\x00'], 2⟩ ⟨['b', '\x00', '\x00'], 1⟩ =
    .ok ⟨false, true, true, false, true, false⟩ := by decide

/-- C55 (partial), `ipv6_address`: by value, then by scope id.  Missing: without `<=>`, addresses that differ in value
and in scope id (`C55_v6_wrong`). -/
theorem C55_v6_partial (c : Cfg) (hv : ∀ x y, c.val x = c.val y → x = y) (a b : V6) (ha : a.WF c.M) (hb : b.WF c.M)
    (hx : c.spaceship = true ∨ beValue a.bytes = beValue b.bytes ∨ a.scope.contents = b.scope.contents) :
    ∃ r, v6CmpOps c a b = .ok r ∧
      Describes r (V6Lt c.val (beValue a.bytes) a.scope.contents (beValue b.bytes) b.scope.contents)
        (beValue a.bytes = beValue b.bytes ∧ a.scope.contents = b.scope.contents)
        (V6Lt c.val (beValue b.bytes) b.scope.contents (beValue a.bytes) a.scope.contents) := by
  obtain ⟨r, h1, h2⟩ := C54_order_partial c hv (.v6 a) (.v6 b) ha hb hx
  rw [anyLt_v6, anyLt_v6] at h2
  simp only [anyMeaning, Prod.mk.injEq, true_and] at h2
  exact ⟨r, h1, h2⟩

example := C55_v6_partial exCfg exCfg_val exScoped ex32.addr exScoped_ok ex32_good.1 (.inl rfl)

/-- C55, negation without `<=>`: `::2%a` and `::1%b` are both less than, and both greater than, each other. -/
theorem C55_v6_wrong : ∃ a b : V6, a.WF 16 ∧ b.WF 16 ∧
    v6CmpOps { exCfg with spaceship := false } a b = .ok ⟨false, true, true, true, false, false⟩ :=
  ⟨⟨[0, 0, 0, 0, 0, 0, 0, 0, 0, 0, 0, 0, 0, 0, 0, 2], ⟨'a' :: List.replicate 15 '\x00', 1⟩⟩,
   ⟨[0, 0, 0, 0, 0, 0, 0, 0, 0, 0, 0, 0, 0, 0, 0, 1], ⟨'b' :: List.replicate 15 '\x00', 1⟩⟩,
   ⟨rfl, by simp [FStr.WF], by simp⟩, ⟨rfl, by simp [FStr.WF], by simp⟩, by decide +kernel⟩

/-- The network operators, given the results for the addresses. -/
theorem net_describes {A U : Type} {F : Fam A U} {WF : A → Prop} {val : U → Nat} (L : F.Law WF val) (ss : Bool) (a b : Net A)
    (ha : NetOk F WF a) (hb : NetOk F WF b) {e : Bool} {o : Ordering} {P E Q : Prop} (t : OneOf P E Q)
    (he : F.eq a.addr b.addr = .ok e) (ho : F.cmp a.addr b.addr = .ok o) (he' : F.eq b.addr a.addr = .ok e)
    (ho' : F.cmp b.addr a.addr = .ok o.swap) (h1 : e = true ↔ E) (h2 : o = .lt ↔ P) (h3 : o = .eq ↔ E) (h4 : o = .gt ↔ Q)
    (h5 : ss = true ∨ F.lt a.addr b.addr = .ok (decide (o = .lt)) ∧ F.lt b.addr a.addr = .ok (decide (o.swap = .lt))) :
    ∃ r, netCmpOps F ss a b = .ok r ∧
      Describes r (P ∨ (E ∧ a.plen < b.plen)) (E ∧ a.plen = b.plen) (Q ∨ (E ∧ b.plen < a.plen)) := by
  obtain ⟨r1, r2, r3⟩ := net_order L a b ha hb e o he ho (h1.trans h3.symm)
  obtain ⟨_, _, r4⟩ := net_order L b a hb ha e o.swap he' ho' (by rw [h1, ← h3]; cases o <;> simp)
  have k1 : (e && decide (a.plen = b.plen)) = true ↔ E ∧ a.plen = b.plen := by simp [h1]
  obtain ⟨n1, n2, n3⟩ := nat_compare a.plen b.plen
  obtain ⟨m1, m2, m3⟩ := nat_compare b.plen a.plen
  have k2 : o.then (compare a.plen b.plen) = .lt ↔ P ∨ (E ∧ a.plen < b.plen) := by
    rw [← h2, ← h3, ← n1]; cases o <;> simp [Ordering.then]
  have k3 : o.then (compare a.plen b.plen) = .eq ↔ E ∧ a.plen = b.plen := by
    rw [← h3, ← n2]; cases o <;> simp [Ordering.then]
  have k4 : o.then (compare a.plen b.plen) = .gt ↔ Q ∨ (E ∧ b.plen < a.plen) := by
    rw [← h4, ← h3, ← n3]; cases o <;> simp [Ordering.then]
  have k5 : o.swap.then (compare b.plen a.plen) = .lt ↔ Q ∨ (E ∧ b.plen < a.plen) := by
    rw [← h4, ← h3, ← m1]; cases o <;> simp [Ordering.then]
  unfold netCmpOps cmpOps
  cases ss with
  | true => exact opsCmp_describes r1 r2 k1 k2 k3 k4
  | false =>
    obtain ⟨l1, l2⟩ := h5.resolve_left (by decide)
    obtain ⟨t1, t2, t3, t4⟩ := t
    refine opsLess_describes ?_ r1 (r3 l1) (r4 l2) k1 (by rw [decide_eq_true_iff, k2]) (by rw [decide_eq_true_iff, k5])
    refine ⟨?_, ?_, ?_, ?_⟩
    · rcases t1 with h | h | h
      · exact .inl (.inl h)
      · rcases Nat.lt_trichotomy a.plen b.plen with g | g | g
        · exact .inl (.inr ⟨h, g⟩)
        · exact .inr (.inl ⟨h, g⟩)
        · exact .inr (.inr (.inr ⟨h, g⟩))
      · exact .inr (.inr (.inl h))
    · rintro ⟨h | h, h'⟩
      · exact t2 ⟨h, h'.1⟩
      · omega
    · rintro ⟨h | h, h' | h'⟩
      · exact t3 ⟨h, h'⟩
      · exact t2 ⟨h, h'.1⟩
      · exact t4 ⟨h.1, h'⟩
      · omega
    · rintro ⟨h', h | h⟩
      · exact t4 ⟨h'.1, h⟩
      · omega

/-- C55, `ipv4_network`: by address, then by prefix length. -/
theorem C55_net_v4 (ss : Bool) (a b : Net (List (BitVec 8))) (ha : NetOk4 a) (hb : NetOk4 b) :
    ∃ r, netCmpOps (fam4 true) ss a b = .ok r ∧
      Describes r (NetBefore (· < ·) (beValue a.addr) a.plen (beValue b.addr) b.plen)
        (beValue a.addr = beValue b.addr ∧ a.plen = b.plen)
        (NetBefore (· < ·) (beValue b.addr) b.plen (beValue a.addr) a.plen) := by
  have hl : a.addr.length = b.addr.length := Eq.trans ha.wf (Eq.symm hb.wf)
  obtain ⟨h1, h2, h3, _⟩ := C06_order_numeric a.addr b.addr hl
  obtain ⟨g1, g2, g3, _⟩ := C06_order_numeric b.addr a.addr hl.symm
  obtain ⟨n1, n2, n3⟩ := nat_compare (beValue a.addr) (beValue b.addr)
  have e : bytesEq b.addr a.addr = bytesEq a.addr b.addr := by rw [Bool.eq_iff_iff, h1, g1]; exact eq_comm
  have s : bytesCmp b.addr a.addr = (bytesCmp a.addr b.addr).swap := by rw [g3, h3, Nat.compare_swap]
  have l1 : (fam4 true).lt a.addr b.addr = .ok (decide (bytesCmp a.addr b.addr = .lt)) := by
    show Res.ok (bytesLess a.addr b.addr) = _
    congr 1
    rw [Bool.eq_iff_iff, h2, decide_eq_true_iff, h3, n1]
  have l2 : (fam4 true).lt b.addr a.addr = .ok (decide ((bytesCmp a.addr b.addr).swap = .lt)) := by
    show Res.ok (bytesLess b.addr a.addr) = _
    congr 1
    rw [Bool.eq_iff_iff, g2, decide_eq_true_iff, h3, Nat.compare_swap, (nat_compare _ _).1]
  obtain ⟨r, r1, r2⟩ := net_describes fam4Law ss a b ha hb (nat_cases (beValue a.addr) (beValue b.addr))
    (e := bytesEq a.addr b.addr) (o := bytesCmp a.addr b.addr) rfl rfl (by rw [← e]; rfl) (by rw [← s]; rfl) h1 (by rw [h3, n1])
    (by rw [h3, n2]) (by rw [h3, n3]) (.inr ⟨l1, l2⟩)
  refine ⟨r, r1, ?_⟩
  unfold NetBefore
  rw [show (beValue b.addr = beValue a.addr ∧ b.plen < a.plen) ↔ (beValue a.addr = beValue b.addr ∧ b.plen < a.plen) by
    rw [eq_comm]]
  exact r2

example : netCmpOps (fam4 true) false ex16 ex17 = .ok ⟨false, true, true, false, true, false⟩ := by decide +kernel

theorem v6Lt_cases (val : Char → Int) (hv : ∀ x y, val x = val y → x = y) (v w : Nat) (s t : List Char) :
    OneOf (V6Lt val v s w t) (v = w ∧ s = t) (V6Lt val w t v s) := by
  have h := (C54_order_total val hv (true, v, s) (true, w, t) (true, w, t)).1
  simpa [AnyLt] using h

/-- C55 (partial), `ipv6_network`: by value of the address, then by scope id, then by prefix length.  Missing:
without `<=>`, networks whose addresses differ in value and in scope id (`C55_net_v6_wrong`). -/
theorem C55_net_v6_partial (c : Cfg) (hc : c.le = true) (hv : ∀ x y, c.val x = c.val y → x = y) (a b : Net V6)
    (ha : NetOk6 c a) (hb : NetOk6 c b)
    (hx : c.spaceship = true ∨ beValue a.addr.bytes = beValue b.addr.bytes ∨ a.addr.scope.contents = b.addr.scope.contents) :
    ∃ r, netCmpOps (fam6 c) c.spaceship a b = .ok r ∧
      Describes r
        (V6Lt c.val (beValue a.addr.bytes) a.addr.scope.contents (beValue b.addr.bytes) b.addr.scope.contents ∨
          ((beValue a.addr.bytes = beValue b.addr.bytes ∧ a.addr.scope.contents = b.addr.scope.contents) ∧ a.plen < b.plen))
        ((beValue a.addr.bytes = beValue b.addr.bytes ∧ a.addr.scope.contents = b.addr.scope.contents) ∧ a.plen = b.plen)
        (V6Lt c.val (beValue b.addr.bytes) b.addr.scope.contents (beValue a.addr.bytes) a.addr.scope.contents ∨
          ((beValue a.addr.bytes = beValue b.addr.bytes ∧ a.addr.scope.contents = b.addr.scope.contents) ∧ b.plen < a.plen)) := by
  have hi : ∀ x y : V6, x.WF c.M → y.WF c.M → (x.bytes = y.bytes ↔ beValue x.bytes = beValue y.bytes) := fun x y hx hy =>
    ⟨fun h => by rw [h], beValue_inj _ _ (by rw [hx.1, hy.1])⟩
  obtain ⟨o, e, h1, h2, h3, h4, h5, h6⟩ := C15_v6_compare c.val hv c.M a.addr b.addr ha.wf hb.wf
  obtain ⟨o', e', g1, g2, g3, g4, g5, g6⟩ := C15_v6_compare c.val hv c.M b.addr a.addr hb.wf ha.wf
  rw [hi _ _ ha.wf hb.wf] at h5 h6
  rw [hi _ _ hb.wf ha.wf] at g5 g6
  have eo : o' = o.swap := by
    have k3 : o' = .lt ↔ o = .gt := by rw [g3, h4]
    have k4 : o' = .gt ↔ o = .lt := by rw [g4, h3]
    clear h1 h2 h3 h4 h5 h6 g1 g2 g3 g4 g5 g6
    cases o <;> cases o' <;> simp at k3 k4 ⊢
  have ee : e' = e := by
    rw [Bool.eq_iff_iff, g6, h6]
    exact ⟨fun h => ⟨h.1.symm, h.2.symm⟩, fun h => ⟨h.1.symm, h.2.symm⟩⟩
  subst eo ee
  refine net_describes (fam6Law c hc) c.spaceship a b ha hb (v6Lt_cases c.val hv _ _ _ _) h2 h1 g2 g1 h6 h3 h5 h4 ?_
  by_cases hs : c.spaceship = true
  · exact .inl hs
  right
  have hx := hx.resolve_left hs
  have key : ∀ (x y : V6) (o : Ordering), x.WF c.M → y.WF c.M →
      (beValue x.bytes = beValue y.bytes ∨ x.scope.contents = y.scope.contents) →
      (o = .lt ↔ V6Lt c.val (beValue x.bytes) x.scope.contents (beValue y.bytes) y.scope.contents) →
      (fam6 c).lt x y = .ok (decide (o = .lt)) := by
    intro x y o hx hy hxy ho
    have hn : ¬ (beValue y.bytes < beValue x.bytes ∧ ScopeLt c.val x.scope.contents y.scope.contents) := by
      rintro ⟨k1, k2⟩
      rcases hxy with h | h
      · omega
      · rw [h] at k2
        exact (scopeLt_cases c.val hv y.scope.contents y.scope.contents).2.1 ⟨k2, rfl⟩
    obtain ⟨r, r1, r2⟩ := C15_v6_less_partial c.val hv c.M x y hx hy hn
    show v6Lt c x y = _
    unfold v6Lt
    rw [if_neg hs, r1]
    congr 1
    rw [Bool.eq_iff_iff, r2, decide_eq_true_iff, ho]
  exact ⟨key _ _ o ha.wf hb.wf hx h3, key _ _ _ hb.wf ha.wf (hx.imp Eq.symm Eq.symm) g3⟩

example : NetOk6 exCfg ex32 := ex32_ok

/-- C55, negation without `<=>`: `::2%a/128` and `::1%b/128` (both made by `from_address`) are both less than, and both
greater than, each other. -/
theorem C55_net_v6_wrong : ∃ a b : Net V6,
    (fam6 { exCfg with spaceship := false }).fromAddress
      ⟨[0, 0, 0, 0, 0, 0, 0, 0, 0, 0, 0, 0, 0, 0, 0, 2], ⟨'a' :: List.replicate 15 '\x00', 1⟩⟩ 128 true = .ok a ∧
    (fam6 { exCfg with spaceship := false }).fromAddress
      ⟨[0, 0, 0, 0, 0, 0, 0, 0, 0, 0, 0, 0, 0, 0, 0, 1], ⟨'b' :: List.replicate 15 '\x00', 1⟩⟩ 128 true = .ok b ∧
    netCmpOps (fam6 { exCfg with spaceship := false }) false a b = .ok ⟨false, true, true, true, false, false⟩ :=
  ⟨_, _, rfl, rfl, by decide +kernel⟩

/-- C55 (partial), `ip_network`: IPv4 before IPv6, then as in the class of the version.  Missing: as for IPv6. -/
theorem C55_any_network_partial (c : Cfg) (hc : c.le = true) (hv : ∀ x y, c.val x = c.val y → x = y) (a b : AnyNet)
    (ha : NetOkAny c a) (hb : NetOkAny c b)
    (hx : c.spaceship = true ∨ (anyNetMeaning a).1.2.1 = (anyNetMeaning b).1.2.1 ∨
      (anyNetMeaning a).1.2.2 = (anyNetMeaning b).1.2.2) :
    ∃ r, anyNetCmpOps c a b = .ok r ∧
      Describes r (NetBefore (AnyLt c.val) (anyNetMeaning a).1 (anyNetMeaning a).2 (anyNetMeaning b).1 (anyNetMeaning b).2)
        (anyNetMeaning a = anyNetMeaning b)
        (NetBefore (AnyLt c.val) (anyNetMeaning b).1 (anyNetMeaning b).2 (anyNetMeaning a).1 (anyNetMeaning a).2) := by
  cases a with
  | v4 a =>
    cases b with
    | v4 b =>
      obtain ⟨r, r1, r2⟩ := C55_net_v4 c.spaceship a b ha hb
      refine ⟨r, ?_, ?_⟩
      · rw [← r1]; unfold anyNetCmpOps netCmpOps cmpOps; simp only [anyNetEq, anyNetCmp, anyNetLt, hc]
      · simpa [anyNetMeaning, NetBefore, AnyLt, V6Lt, scopeLt_nil] using r2
    | v6 b =>
      refine cmpOps_describes (e := false) (o := .lt) (l := true) (g := false) c.spaceship ?_ rfl rfl rfl rfl ?_ ?_ ?_ ?_ ?_ ?_ <;>
        simp [anyNetMeaning, NetBefore, AnyLt, OneOf]
  | v6 a =>
    cases b with
    | v4 b =>
      refine cmpOps_describes (e := false) (o := .gt) (l := false) (g := true) c.spaceship ?_ rfl rfl rfl rfl ?_ ?_ ?_ ?_ ?_ ?_ <;>
        simp [anyNetMeaning, NetBefore, AnyLt, OneOf]
    | v6 b =>
      obtain ⟨r, r1, r2⟩ := C55_net_v6_partial c hc hv a b ha hb hx
      refine ⟨r, ?_, ?_⟩
      · rw [← r1]; unfold anyNetCmpOps netCmpOps cmpOps; simp only [anyNetEq, anyNetCmp, anyNetLt]
      · simp only [anyNetMeaning, NetBefore, AnyLt, Prod.mk.injEq, true_and]
        rw [show (beValue b.addr.bytes = beValue a.addr.bytes ∧ b.addr.scope.contents = a.addr.scope.contents) ↔
          (beValue a.addr.bytes = beValue b.addr.bytes ∧ a.addr.scope.contents = b.addr.scope.contents) by
            rw [eq_comm, @eq_comm _ b.addr.scope.contents]]
        simpa using r2

example := C55_any_network_partial exCfg rfl exCfg_val (.v4 ex16) (.v6 ex32) ex16_ok ex32_ok (.inl rfl)

/-! #### Iterators -/

theorem ai_describes {A U : Type} {F : Fam A U} {WF : A → Prop} {val : U → Nat} (L : F.Law WF val) (ss : Bool)
    (x y : AIter A U) (hx : x.Ok F val) (hy : y.Ok F val) :
    ∃ r, aiCmpOps F ss x y = .ok r ∧
      Describes r (x.pos F val < y.pos F val) (x.pos F val = y.pos F val) (y.pos F val < x.pos F val) :=
  cmpOps_nat ss (AIter.pos F val) (AIter.eq_law L x y hx hy) (AIter.cmp_law L x y hx hy) (AIter.lt_law L x y hx hy)
    (AIter.lt_law L y x hy hx)

theorem ni_describes {A U : Type} {F : Fam A U} {WF : A → Prop} {val : U → Nat} (L : F.Law WF val) (ss : Bool)
    (step : U) (p : Nat) (x y : NIter A U) (hx : x.Ok F val step p) (hy : y.Ok F val step p) :
    ∃ r, niCmpOps F ss x y = .ok r ∧
      Describes r (x.pos F val < y.pos F val) (x.pos F val = y.pos F val) (y.pos F val < x.pos F val) := by
  have key : ∀ x y : NIter A U, x.Ok F val step p → y.Ok F val step p →
      F.netCmp x.cur y.cur = F.cmp x.it.cur y.it.cur ∧ F.netLt x.cur y.cur = F.lt x.it.cur y.it.cur := by
    intro x y hx hy
    obtain ⟨n1, n2, n3⟩ := nat_compare (val x.it.off) (val y.it.off)
    obtain ⟨_, r2, r3⟩ := net_order L x.cur y.cur (hx.cur.netOk L) (hy.cur.netOk L) _ _ (hx.cur.addr.eq L hy.cur.addr)
      (hx.cur.addr.cmp L hy.cur.addr) (by rw [decide_eq_true_iff, n2])
    have e : ∀ o : Ordering, o.then (compare x.cur.plen y.cur.plen) = o := by
      intro o
      rw [hx.cur.plen, hy.cur.plen, (nat_compare p p).2.1.2 rfl]
      cases o <;> rfl
    rw [e] at r2 r3
    refine ⟨by rw [r2, hx.it.cur.cmp L hy.it.cur], ?_⟩
    rw [r3 (by rw [hx.cur.addr.lt L hy.cur.addr]; congr 1; rw [decide_eq_decide, n1]), hx.it.cur.lt L hy.it.cur]
    congr 1
    rw [decide_eq_decide, n1]
  have hl : ∀ x y : NIter A U, x.Ok F val step p → y.Ok F val step p →
      F.niLt x y = .ok (decide (x.pos F val < y.pos F val)) := by
    intro x y hx hy
    have := AIter.lt_law L x.it y.it hx.it hy.it
    unfold Fam.aiLt at this
    rw [← (key x y hx hy).2] at this
    exact this
  refine cmpOps_nat ss (NIter.pos F val) (NIter.eq_law L step p x y hx hy) ?_ (hl x y hx hy) (hl y x hy hx)
  have := AIter.cmp_law L x.it y.it hx.it hy.it
  unfold Fam.aiCmp at this
  rw [← (key x y hx hy).1] at this
  exact this

/-- The operators of reverse iterators are those of the base iterators in the opposite order. -/
theorem r_describes {I : Type} (ss : Bool) {eq : I → I → Res Bool} {cmp : I → I → Res Ordering} {lt : I → I → Res Bool}
    (x y : I) {r : CmpOps} {P E Q : Prop} (h : cmpOps ss eq cmp lt y x = .ok r) (hd : Describes r P E Q) :
    ∃ r, rCmpOps ss eq cmp lt ⟨x⟩ ⟨y⟩ = .ok r ∧ Describes r P E Q := by
  unfold rCmpOps cmpOps
  unfold cmpOps at h
  exact ⟨r, h, hd⟩

/-- Positions by carry and address. -/
theorem pos_carry {A U : Type} {F : Fam A U} {WF : A → Prop} {val : U → Nat} (L : F.Law WF val) (x y : AIter A U)
    (hx : x.Ok F val) (hy : y.Ok F val) {r : CmpOps}
    (r2 : Describes r (x.pos F val < y.pos F val) (x.pos F val = y.pos F val) (y.pos F val < x.pos F val)) :
    Describes r (x.carry < y.carry ∨ (x.carry = y.carry ∧ val x.off < val y.off)) (x.carry = y.carry ∧ val x.off = val y.off)
      (y.carry < x.carry ∨ (x.carry = y.carry ∧ val y.off < val x.off)) := by
  have l1 := L.ops.val_lt x.off
  have l2 := L.ops.val_lt y.off
  unfold AIter.pos at r2
  rcases hx.carry with a | a <;> rcases hy.carry with b | b <;> simp [a, b] at r2 ⊢
  · exact r2
  · rw [show val x.off < 2 ^ F.maxPrefix + val y.off ↔ True by simp; omega,
      show val x.off = 2 ^ F.maxPrefix + val y.off ↔ False by simp; omega,
      show 2 ^ F.maxPrefix + val y.off < val x.off ↔ False by simp; omega] at r2
    exact r2
  · rw [show val y.off < 2 ^ F.maxPrefix + val x.off ↔ True by simp; omega,
      show 2 ^ F.maxPrefix + val x.off = val y.off ↔ False by simp; omega,
      show 2 ^ F.maxPrefix + val x.off < val y.off ↔ False by simp; omega] at r2
    exact r2
  · exact r2

/-- C55, address iterators of both families: ordered by carry, then by address. -/
theorem C55_address_iterators (c : Cfg) (hc : c.le = true) (ss : Bool) :
    (∀ x y : AIter (List (BitVec 8)) (BitVec 32), x.Ok (fam4 true) BitVec.toNat → y.Ok (fam4 true) BitVec.toNat →
      ∃ r, aiCmpOps (fam4 true) ss x y = .ok r ∧
        Describes r (x.carry < y.carry ∨ (x.carry = y.carry ∧ beValue x.cur < beValue y.cur))
          (x.carry = y.carry ∧ beValue x.cur = beValue y.cur)
          (y.carry < x.carry ∨ (x.carry = y.carry ∧ beValue y.cur < beValue x.cur))) ∧
    (∀ x y : AIter V6 U128, x.Ok (fam6 c) U128.val → y.Ok (fam6 c) U128.val →
      ∃ r, aiCmpOps (fam6 c) ss x y = .ok r ∧
        Describes r (x.carry < y.carry ∨ (x.carry = y.carry ∧ beValue x.cur.bytes < beValue y.cur.bytes))
          (x.carry = y.carry ∧ beValue x.cur.bytes = beValue y.cur.bytes)
          (y.carry < x.carry ∨ (x.carry = y.carry ∧ beValue y.cur.bytes < beValue x.cur.bytes))) := by
  have key : ∀ {A U : Type} {F : Fam A U} {WF : A → Prop} {val : U → Nat} (L : F.Law WF val) (x y : AIter A U),
      x.Ok F val → y.Ok F val → ∃ r, aiCmpOps F ss x y = .ok r ∧
        Describes r (x.carry < y.carry ∨ (x.carry = y.carry ∧ F.v x.cur < F.v y.cur)) (x.carry = y.carry ∧ F.v x.cur = F.v y.cur)
          (y.carry < x.carry ∨ (x.carry = y.carry ∧ F.v y.cur < F.v x.cur)) := by
    intro A U F WF val L x y hx hy
    obtain ⟨r, r1, r2⟩ := ai_describes L ss x y hx hy
    refine ⟨r, r1, ?_⟩
    have v1 := hx.cur.v_eq L
    have v2 := hy.cur.v_eq L
    rw [v1, v2]
    exact pos_carry L x y hx hy r2
  exact ⟨fun x y hx hy => key fam4Law x y hx hy, fun x y hx hy => key (fam6Law c hc) x y hx hy⟩

example := C55_address_iterators exCfg rfl false

/-- C55, network iterators over networks of one prefix length `p` with one step: ordered by carry, then by network. -/
theorem C55_network_iterators (c : Cfg) (hc : c.le = true) (ss : Bool) (p : Nat) :
    (∀ (step : BitVec 32) (x y : NIter (List (BitVec 8)) (BitVec 32)), x.Ok (fam4 true) BitVec.toNat step p →
      y.Ok (fam4 true) BitVec.toNat step p → ∃ r, niCmpOps (fam4 true) ss x y = .ok r ∧
        Describes r (x.it.carry < y.it.carry ∨ (x.it.carry = y.it.carry ∧ beValue x.cur.addr < beValue y.cur.addr))
          (x.it.carry = y.it.carry ∧ beValue x.cur.addr = beValue y.cur.addr)
          (y.it.carry < x.it.carry ∨ (x.it.carry = y.it.carry ∧ beValue y.cur.addr < beValue x.cur.addr))) ∧
    (∀ (step : U128) (x y : NIter V6 U128), x.Ok (fam6 c) U128.val step p → y.Ok (fam6 c) U128.val step p →
      ∃ r, niCmpOps (fam6 c) ss x y = .ok r ∧
        Describes r (x.it.carry < y.it.carry ∨ (x.it.carry = y.it.carry ∧ beValue x.cur.addr.bytes < beValue y.cur.addr.bytes))
          (x.it.carry = y.it.carry ∧ beValue x.cur.addr.bytes = beValue y.cur.addr.bytes)
          (y.it.carry < x.it.carry ∨ (x.it.carry = y.it.carry ∧ beValue y.cur.addr.bytes < beValue x.cur.addr.bytes))) := by
  have key : ∀ {A U : Type} {F : Fam A U} {WF : A → Prop} {val : U → Nat} (L : F.Law WF val) (step : U) (x y : NIter A U),
      x.Ok F val step p → y.Ok F val step p → ∃ r, niCmpOps F ss x y = .ok r ∧
        Describes r (x.it.carry < y.it.carry ∨ (x.it.carry = y.it.carry ∧ F.v x.cur.addr < F.v y.cur.addr))
          (x.it.carry = y.it.carry ∧ F.v x.cur.addr = F.v y.cur.addr)
          (y.it.carry < x.it.carry ∨ (x.it.carry = y.it.carry ∧ F.v y.cur.addr < F.v x.cur.addr)) := by
    intro A U F WF val L step x y hx hy
    obtain ⟨r, r1, r2⟩ := ni_describes L ss step p x y hx hy
    refine ⟨r, r1, ?_⟩
    rw [hx.cur.v_eq L, hy.cur.v_eq L]
    exact pos_carry L x.it y.it hx.it hy.it r2
  exact ⟨fun step x y hx hy => key fam4Law step x y hx hy, fun step x y hx hy => key (fam6Law c hc) step x y hx hy⟩

example := C55_network_iterators exCfg rfl false 24

/-- C55: the operators of reverse iterators (over any kind of iterator) are those of their base iterators with the operands
exchanged. -/
theorem C55_reverse_iterators {I : Type} (ss : Bool) (eq : I → I → Res Bool) (cmp : I → I → Res Ordering) (lt : I → I → Res Bool)
    (x y : I) (r : CmpOps) (P E Q : Prop) (h : cmpOps ss eq cmp lt y x = .ok r) (hd : Describes r Q E P) :
    ∃ r, rCmpOps ss eq cmp lt ⟨x⟩ ⟨y⟩ = .ok r ∧ Describes r Q E P := r_describes ss x y h hd

example := C55_reverse_iterators (I := AIter (List (BitVec 8)) (BitVec 32)) true (fun _ _ => .ok false) (fun _ _ => .ok .lt)
  (fun _ _ => .ok true) exIt4 exIt4 ⟨false, true, true, false, true, false⟩ False False True rfl (by constructor <;> simp)

/-- C55: the operators of the iterators of `ipv4_network::address_exclude` are those of the current networks with the operands
exchanged. -/
theorem C55_exclude_iterators (ss : Bool) (x y : ExIter (List (BitVec 8))) (hx : NetOk4 x.cur) (hy : NetOk4 y.cur) :
    ∃ r, exCmpOps (fam4 true) ss x y = .ok r ∧
      Describes r (NetBefore (· < ·) (beValue y.cur.addr) y.cur.plen (beValue x.cur.addr) x.cur.plen)
        (beValue x.cur.addr = beValue y.cur.addr ∧ x.cur.plen = y.cur.plen)
        (NetBefore (· < ·) (beValue x.cur.addr) x.cur.plen (beValue y.cur.addr) y.cur.plen) := by
  obtain ⟨e, _, _, e1, _, _, e2, _⟩ := C38_order_v4 x.cur y.cur hx hy
  obtain ⟨_, o, l, _, o1, l1, _, o2, o3, _⟩ := C38_order_v4 y.cur x.cur hy hx
  obtain ⟨_, o', g, _, o1', g1, _, o2', o3', _⟩ := C38_order_v4 x.cur y.cur hx hy
  have key : ∀ v w p q : Nat, ((compare v w).then (compare p q) = .lt ↔ NetBefore (· < ·) v p w q) ∧
      ((compare v w).then (compare p q) = .gt ↔ NetBefore (· < ·) w q v p) ∧
      ((compare v w).then (compare p q) = .eq ↔ v = w ∧ p = q) := by
    intro v w p q
    obtain ⟨n1, n2, n3⟩ := nat_compare v w
    obtain ⟨m1, m2, m3⟩ := nat_compare p q
    unfold NetBefore
    dsimp only
    rw [← n1, ← n2, ← n3, ← m1, ← m2, ← m3, @eq_comm _ w v, ← n2]
    cases compare v w <;> simp [Ordering.then]
  obtain ⟨k1, k2, k3⟩ := key (beValue y.cur.addr) (beValue x.cur.addr) y.cur.plen x.cur.plen
  obtain ⟨k4, _, _⟩ := key (beValue x.cur.addr) (beValue y.cur.addr) x.cur.plen y.cur.plen
  have t := nat_cases (beValue y.cur.addr) (beValue x.cur.addr)
  refine cmpOps_describes ss ?_ e1 o1 l1 g1 e2 (by rw [o2, k1]) ?_ (by rw [o2, k2]) (by rw [o3, o2, k1]) (by rw [o3', o2', k4])
  · unfold NetBefore OneOf; omega
  · rw [o2, k3]; exact ⟨fun h => ⟨h.1.symm, h.2.symm⟩, fun h => ⟨h.1.symm, h.2.symm⟩⟩

example : NetOk4 ex16 ∧ NetOk4 ex17 := ⟨ex16_ok, ex17_ok⟩

/-- C55 (partial): the operators of version agnostic iterators are those of the wrapped iterators; with `<=>` an iterator over
IPv4 is less than one over IPv6.  Missing: iterators over different versions without `<=>`, see
`C55_any_iterators_wrong`. -/
theorem C55_any_iterators_partial {I4 V4 I6 V6 V : Type} (O : AnyItOps I4 V4 I6 V6 V) (ss : Bool) :
    (∀ x y, anyItCmpOps O ss (O.mk4 x) (O.mk4 y) = cmpOps ss O.o4.eq O.cmp4 O.lt4 x y) ∧
    (∀ x y, anyItCmpOps O ss (O.mk6 x) (O.mk6 y) = cmpOps ss O.o6.eq O.cmp6 O.lt6 x y) ∧
    (ss = true → ∀ x y, anyItCmpOps O ss (O.mk4 x) (O.mk6 y) = .ok ⟨false, true, true, false, true, false⟩ ∧
      anyItCmpOps O ss (O.mk6 y) (O.mk4 x) = .ok ⟨false, true, false, true, false, true⟩) := by
  refine ⟨fun x y => rfl, fun x y => rfl, ?_⟩
  rintro rfl x y
  exact ⟨rfl, rfl⟩

example := (C55_any_iterators_partial (anyHostsOps exCfg) true).2.2 rfl

/-- C55, negation without `<=>`: iterators over different versions are different, neither is less than the other one, and both
`<=` and `>=` hold. -/
theorem C55_any_iterators_wrong {I4 V4 I6 V6 V : Type} (O : AnyItOps I4 V4 I6 V6 V) (x : I4) (y : I6) :
    anyItCmpOps O false (O.mk4 x) (O.mk6 y) = .ok ⟨false, true, false, false, true, true⟩ := rfl

/-! ### C56 -/

theorem iter_order {I V U : Type} {O : IterOps I V U} {good : I → Prop} {pos : I → Nat} {M s : Nat} {dist : U → Nat}
    {found : Nat → V → Prop} (L : IterLaw O good pos M s dist found) (ops : I → I → Res CmpOps)
    (ho : ∀ x y, good x → good y → ∃ r, ops x y = .ok r ∧ Describes r (pos x < pos y) (pos x = pos y) (pos y < pos x))
    (x : I) (hx : good x) (m n : U) (hm : pos x + dist m < M) (hn : pos x + dist n < M) :
    ∃ y z r, O.add x m = .ok y ∧ O.add x n = .ok z ∧ ops y z = .ok r ∧
      Describes r (dist m < dist n) (dist m = dist n) (dist n < dist m) := by
  obtain ⟨y, y1, y2, y3⟩ := L.add x m hx
  obtain ⟨z, z1, z2, z3⟩ := L.add x n hx
  obtain ⟨r, r1, r2⟩ := ho y z y2 z2
  rw [Nat.mod_eq_of_lt hm] at y3
  rw [Nat.mod_eq_of_lt hn] at z3
  refine ⟨y, z, r, y1, z1, r1, ?_⟩
  rw [y3, z3] at r2
  rw [Nat.add_lt_add_iff_left, Nat.add_lt_add_iff_left, Nat.add_left_cancel_iff] at r2
  exact r2

/-- The same for reverse iterators: `ops'` are their operators, in the opposite order. -/
theorem riter_order {I V U : Type} {O : IterOps I V U} {good : I → Prop} {pos : I → Nat} {M s : Nat} {dist : U → Nat}
    {found : Nat → V → Prop} (L : IterLaw O good pos M s dist found) (ops : RIter I → RIter I → Res CmpOps)
    (ho : ∀ x y, good x → good y → ∃ r, ops ⟨x⟩ ⟨y⟩ = .ok r ∧ Describes r (pos y < pos x) (pos x = pos y) (pos x < pos y))
    (x : I) (hx : good x) (m n : U) (hm : s + dist m ≤ pos x) (hn : s + dist n ≤ pos x) :
    ∃ q y z r, O.rMk x = .ok q ∧ O.rAdd q m = .ok y ∧ O.rAdd q n = .ok z ∧ ops y z = .ok r ∧
      Describes r (dist m < dist n) (dist m = dist n) (dist n < dist m) := by
  have hM := L.pos_lt x hx
  obtain ⟨q, q1, q2, q3⟩ := L.reverse x hx
  obtain ⟨y, y1, y2, y3⟩ := L.sub q m q2
  obtain ⟨z, z1, z2, z3⟩ := L.sub q n q2
  have key : ∀ a b : Nat, b ≤ a → a < M → (a + (M - b)) % M = a - b := by
    intro a b h1 h2
    rw [show a + (M - b) = a - b + M by omega, Nat.add_mod_right, Nat.mod_eq_of_lt (by omega)]
  rw [key _ _ (by omega) hM] at q3
  rw [q3, key _ _ (by omega) (by omega)] at y3 z3
  obtain ⟨r, r1, r2⟩ := ho y z y2 z2
  refine ⟨⟨q⟩, ⟨y⟩, ⟨z⟩, r, by rw [IterOps.rMk, q1]; rfl, by rw [IterOps.rAdd, y1]; rfl, by rw [IterOps.rAdd, z1]; rfl, r1, ?_⟩
  rw [y3, z3] at r2
  rw [show pos x - s - dist n < pos x - s - dist m ↔ dist m < dist n by omega,
    show pos x - s - dist m = pos x - s - dist n ↔ dist m = dist n by omega,
    show pos x - s - dist m < pos x - s - dist n ↔ dist n < dist m by omega] at r2
  exact r2

theorem pos_carry0 {A U : Type} {F : Fam A U} {WF : A → Prop} {val : U → Nat} (L : F.Law WF val) (x : AIter A U)
    (hx : x.Ok F val) (h0 : x.carry = 0) : x.pos F val = F.v x.cur := by
  rw [hx.cur.v_eq L, AIter.pos, if_neg (by omega), Nat.zero_add]

/-- C56, address iterators: advancing an iterator that has not passed the last address by `m` and by `n` gives iterators
that compare as `m` and `n`, for all `m`, `n`. -/
theorem C56_addresses (c : Cfg) (hc : c.le = true) (ss : Bool) :
    (∀ (x : AIter (List (BitVec 8)) (BitVec 32)) (m n : BitVec 32), x.Ok (fam4 true) BitVec.toNat → x.carry = 0 →
      ∃ y z r, (fam4 true).aiAdd x m = .ok y ∧ (fam4 true).aiAdd x n = .ok z ∧ aiCmpOps (fam4 true) ss y z = .ok r ∧
        Describes r (m.toNat < n.toNat) (m.toNat = n.toNat) (n.toNat < m.toNat)) ∧
    (∀ (x : AIter V6 U128) (m n : U128), x.Ok (fam6 c) U128.val → x.carry = 0 →
      ∃ y z r, (fam6 c).aiAdd x m = .ok y ∧ (fam6 c).aiAdd x n = .ok z ∧ aiCmpOps (fam6 c) ss y z = .ok r ∧
        Describes r (m.val < n.val) (m.val = n.val) (n.val < m.val)) := by
  have key : ∀ {A U : Type} {F : Fam A U} {WF : A → Prop} {val : U → Nat} (L : F.Law WF val) (x : AIter A U) (m n : U),
      x.Ok F val → x.carry = 0 → ∃ y z r, F.aiAdd x m = .ok y ∧ F.aiAdd x n = .ok z ∧ aiCmpOps F ss y z = .ok r ∧
        Describes r (val m < val n) (val m = val n) (val n < val m) := by
    intro A U F WF val L x m n hx h0
    have hp := pos_carry0 L x hx h0
    have hv := L.v_lt _ (hx.cur.wf L)
    have l1 := L.ops.val_lt m
    have l2 := L.ops.val_lt n
    exact iter_order (aiLaw L) (aiCmpOps F ss) (fun x y hx hy => ai_describes L ss x y hx hy) x hx m n (by omega) (by omega)
  exact ⟨fun x m n hx h0 => key fam4Law x m n hx h0, fun x m n hx h0 => key (fam6Law c hc) x m n hx h0⟩

example := C56_addresses exCfg rfl false

/-- C56, network iterators: advancing by `m` and by `n` steps that stay in the address space. -/
theorem C56_networks (c : Cfg) (hc : c.le = true) (ss : Bool) (p : Nat) :
    (∀ (step : BitVec 32) (x : NIter (List (BitVec 8)) (BitVec 32)) (m n : BitVec 32), 0 < step.toNat →
      step.toNat % 2 ^ (32 - p) = 0 → x.Ok (fam4 true) BitVec.toNat step p → x.it.carry = 0 →
      step.toNat * m.toNat < 2 ^ 32 → step.toNat * n.toNat < 2 ^ 32 →
      ∃ y z r, (fam4 true).niAdd x m = .ok y ∧ (fam4 true).niAdd x n = .ok z ∧ niCmpOps (fam4 true) ss y z = .ok r ∧
        Describes r (m.toNat < n.toNat) (m.toNat = n.toNat) (n.toNat < m.toNat)) ∧
    (∀ (step : U128) (x : NIter V6 U128) (m n : U128), 0 < step.val → step.val % 2 ^ (128 - p) = 0 →
      x.Ok (fam6 c) U128.val step p → x.it.carry = 0 → step.val * m.val < 2 ^ 128 → step.val * n.val < 2 ^ 128 →
      ∃ y z r, (fam6 c).niAdd x m = .ok y ∧ (fam6 c).niAdd x n = .ok z ∧ niCmpOps (fam6 c) ss y z = .ok r ∧
        Describes r (m.val < n.val) (m.val = n.val) (n.val < m.val)) := by
  have key : ∀ {A U : Type} {F : Fam A U} {WF : A → Prop} {val : U → Nat} (L : F.Law WF val) (step : U) (x : NIter A U) (m n : U),
      0 < val step → val step % 2 ^ (F.maxPrefix - p) = 0 → x.Ok F val step p → x.it.carry = 0 →
      val step * val m < 2 ^ F.maxPrefix → val step * val n < 2 ^ F.maxPrefix →
      ∃ y z r, F.niAdd x m = .ok y ∧ F.niAdd x n = .ok z ∧ niCmpOps F ss y z = .ok r ∧
        Describes r (val m < val n) (val m = val n) (val n < val m) := by
    intro A U F WF val L step x m n hs ha hx h0 hm hn
    have hp : NIter.pos F val x = _ := pos_carry0 L x.it hx.it h0
    have hv := L.v_lt _ (hx.it.cur.wf L)
    obtain ⟨y, z, r, r1, r2, r3, r4⟩ := iter_order (niLaw L step p ha) (niCmpOps F ss)
      (fun x y hx hy => ni_describes L ss step p x y hx hy) x hx m n
      (by rw [Nat.mod_eq_of_lt hm]; omega) (by rw [Nat.mod_eq_of_lt hn]; omega)
    refine ⟨y, z, r, r1, r2, r3, ?_⟩
    rw [Nat.mod_eq_of_lt hm, Nat.mod_eq_of_lt hn, Nat.mul_lt_mul_left hs, Nat.mul_lt_mul_left hs,
      Nat.mul_right_inj (by omega)] at r4
    exact r4
  exact ⟨fun step x m n h1 h2 h3 h4 h5 h6 => key fam4Law step x m n h1 h2 h3 h4 h5 h6,
    fun step x m n h1 h2 h3 h4 h5 h6 => key (fam6Law c hc) step x m n h1 h2 h3 h4 h5 h6⟩

example : ∃ x, (fam4 true).aiMk [10, 0, 0, 1] 0 = .ok x ∧ x.Ok (fam4 true) BitVec.toNat ∧ x.carry = 0 ∧ 5 < beValue x.cur :=
  ⟨⟨[10, 0, 0, 1], 167772161#32, 0⟩, by decide +kernel, ⟨⟨[10, 0, 0, 1], rfl, rfl, by decide⟩, .inl rfl⟩, rfl, by decide⟩

example : ∃ s, (fam4 true).subnets ex16 1 none = .ok s ∧ s.first.it.carry = 0 ∧ 0 < s.first.step.toNat ∧
    s.first.step.toNat % 2 ^ (32 - 17) = 0 ∧ s.first.step.toNat * 2 < 2 ^ 32 ∧
    s.first.step.toNat * (1 + 1) ≤ beValue s.first.it.cur :=
  ⟨_, rfl, by decide +kernel, by decide +kernel, by decide +kernel, by decide +kernel, by decide +kernel⟩

/-- C56 (partial), reverse address iterators: advancing the reverse of `x` by `m` and by `n` gives iterators that compare as
`m` and `n`.  Missing: the position before the smallest address, see `C56_reverse_wrong`. -/
theorem C56_reverse_addresses_partial (c : Cfg) (hc : c.le = true) (ss : Bool) :
    (∀ (x : AIter (List (BitVec 8)) (BitVec 32)) (m n : BitVec 32), x.Ok (fam4 true) BitVec.toNat → x.carry = 0 →
      m.toNat < beValue x.cur → n.toNat < beValue x.cur →
      ∃ q y z r, (fam4 true).aiOps.rMk x = .ok q ∧ (fam4 true).aiOps.rAdd q m = .ok y ∧ (fam4 true).aiOps.rAdd q n = .ok z ∧
        rCmpOps ss (fam4 true).aiEq (fam4 true).aiCmp (fam4 true).aiLt y z = .ok r ∧
        Describes r (m.toNat < n.toNat) (m.toNat = n.toNat) (n.toNat < m.toNat)) ∧
    (∀ (x : AIter V6 U128) (m n : U128), x.Ok (fam6 c) U128.val → x.carry = 0 →
      m.val < beValue x.cur.bytes → n.val < beValue x.cur.bytes →
      ∃ q y z r, (fam6 c).aiOps.rMk x = .ok q ∧ (fam6 c).aiOps.rAdd q m = .ok y ∧ (fam6 c).aiOps.rAdd q n = .ok z ∧
        rCmpOps ss (fam6 c).aiEq (fam6 c).aiCmp (fam6 c).aiLt y z = .ok r ∧
        Describes r (m.val < n.val) (m.val = n.val) (n.val < m.val)) := by
  have key : ∀ {A U : Type} {F : Fam A U} {WF : A → Prop} {val : U → Nat} (L : F.Law WF val) (x : AIter A U) (m n : U),
      x.Ok F val → x.carry = 0 → val m < F.v x.cur → val n < F.v x.cur →
      ∃ q y z r, F.aiOps.rMk x = .ok q ∧ F.aiOps.rAdd q m = .ok y ∧ F.aiOps.rAdd q n = .ok z ∧
        rCmpOps ss F.aiEq F.aiCmp F.aiLt y z = .ok r ∧ Describes r (val m < val n) (val m = val n) (val n < val m) := by
    intro A U F WF val L x m n hx h0 hm hn
    have hp := pos_carry0 L x hx h0
    refine riter_order (aiLaw L) (rCmpOps ss F.aiEq F.aiCmp F.aiLt) (fun x y hx hy => ?_) x hx m n (by omega) (by omega)
    obtain ⟨r, r1, r2⟩ := ai_describes L ss y x hy hx
    rw [eq_comm] at r2
    exact r_describes ss x y r1 r2
  exact ⟨fun x m n hx h0 => key fam4Law x m n hx h0, fun x m n hx h0 => key (fam6Law c hc) x m n hx h0⟩

example := C56_reverse_addresses_partial exCfg rfl true

/-- C56 (partial), reverse network iterators.  Missing: as for addresses. -/
theorem C56_reverse_networks_partial (c : Cfg) (hc : c.le = true) (ss : Bool) (p : Nat) :
    (∀ (step : BitVec 32) (x : NIter (List (BitVec 8)) (BitVec 32)) (m n : BitVec 32), 0 < step.toNat →
      step.toNat % 2 ^ (32 - p) = 0 → x.Ok (fam4 true) BitVec.toNat step p → x.it.carry = 0 →
      step.toNat * (m.toNat + 1) ≤ beValue x.it.cur → step.toNat * (n.toNat + 1) ≤ beValue x.it.cur →
      ∃ q y z r, (fam4 true).niOps.rMk x = .ok q ∧ (fam4 true).niOps.rAdd q m = .ok y ∧ (fam4 true).niOps.rAdd q n = .ok z ∧
        rCmpOps ss (fam4 true).niEq (fam4 true).niCmp (fam4 true).niLt y z = .ok r ∧
        Describes r (m.toNat < n.toNat) (m.toNat = n.toNat) (n.toNat < m.toNat)) ∧
    (∀ (step : U128) (x : NIter V6 U128) (m n : U128), 0 < step.val → step.val % 2 ^ (128 - p) = 0 →
      x.Ok (fam6 c) U128.val step p → x.it.carry = 0 →
      step.val * (m.val + 1) ≤ beValue x.it.cur.bytes → step.val * (n.val + 1) ≤ beValue x.it.cur.bytes →
      ∃ q y z r, (fam6 c).niOps.rMk x = .ok q ∧ (fam6 c).niOps.rAdd q m = .ok y ∧ (fam6 c).niOps.rAdd q n = .ok z ∧
        rCmpOps ss (fam6 c).niEq (fam6 c).niCmp (fam6 c).niLt y z = .ok r ∧
        Describes r (m.val < n.val) (m.val = n.val) (n.val < m.val)) := by
  have key : ∀ {A U : Type} {F : Fam A U} {WF : A → Prop} {val : U → Nat} (L : F.Law WF val) (step : U) (x : NIter A U) (m n : U),
      0 < val step → val step % 2 ^ (F.maxPrefix - p) = 0 → x.Ok F val step p → x.it.carry = 0 →
      val step * (val m + 1) ≤ F.v x.it.cur → val step * (val n + 1) ≤ F.v x.it.cur →
      ∃ q y z r, F.niOps.rMk x = .ok q ∧ F.niOps.rAdd q m = .ok y ∧ F.niOps.rAdd q n = .ok z ∧
        rCmpOps ss F.niEq F.niCmp F.niLt y z = .ok r ∧ Describes r (val m < val n) (val m = val n) (val n < val m) := by
    intro A U F WF val L step x m n hs ha hx h0 hm hn
    have hp : NIter.pos F val x = _ := pos_carry0 L x.it hx.it h0
    have hv := L.v_lt _ (hx.it.cur.wf L)
    have e1 := Nat.mul_add_one (val step) (val m)
    have e2 := Nat.mul_add_one (val step) (val n)
    have m1 := Nat.mod_eq_of_lt (show val step * val m < 2 ^ F.maxPrefix by omega)
    have m2 := Nat.mod_eq_of_lt (show val step * val n < 2 ^ F.maxPrefix by omega)
    obtain ⟨q, y, z, r, r0, r1, r2, r3, r4⟩ := riter_order (niLaw L step p ha) (rCmpOps ss F.niEq F.niCmp F.niLt)
      (fun x y hx hy => by
        obtain ⟨r, r1, r2⟩ := ni_describes L ss step p y x hy hx
        rw [eq_comm] at r2
        exact r_describes ss x y r1 r2) x hx m n (by rw [m1]; omega) (by rw [m2]; omega)
    refine ⟨q, y, z, r, r0, r1, r2, r3, ?_⟩
    rw [m1, m2, Nat.mul_lt_mul_left hs, Nat.mul_lt_mul_left hs, Nat.mul_right_inj (by omega)] at r4
    exact r4
  exact ⟨fun step x m n h1 h2 h3 h4 h5 h6 => key fam4Law step x m n h1 h2 h3 h4 h5 h6,
    fun step x m n h1 h2 h3 h4 h5 h6 => key (fam6Law c hc) step x m n h1 h2 h3 h4 h5 h6⟩

example := C56_reverse_networks_partial exCfg rfl true 24

/-- `0.0.0.0/8`. -/
def exLow8 : Net (List (BitVec 8)) := ⟨[0, 0, 0, 0], [255, 0, 0, 0], 8⟩

/-- C56, negation: over the subnets of `0.0.0.0/8`, `rbegin()` is not less than but greater than `rend()`, in both
language modes. -/
theorem C56_reverse_wrong (ss : Bool) : ∃ s r1 r2, (fam4 true).subnets exLow8 1 none = .ok s ∧
    (fam4 true).niOps.rMk s.last = .ok r1 ∧ (fam4 true).niOps.rMk s.first = .ok r2 ∧
    rCmpOps ss (fam4 true).niEq (fam4 true).niCmp (fam4 true).niLt r1 r2 = .ok ⟨false, true, false, true, false, true⟩ :=
  ⟨_, _, _, rfl, rfl, rfl, by cases ss <;> decide +kernel⟩

/-- `10.0.0.0/8`. -/
def exTen8 : Net (List (BitVec 8)) := ⟨[10, 0, 0, 0], [255, 0, 0, 0], 8⟩
/-- `10.192.0.0/10`. -/
def exTen10 : Net (List (BitVec 8)) := ⟨[10, 192, 0, 0], [255, 192, 0, 0], 10⟩

/-- C56, negation: the iterators of `address_exclude` are not ordered as the sequence: `begin()` is less than its
successor in one case and greater in another one. -/
theorem C56_exclude_wrong (ss : Bool) :
    (∃ s x, (fam4 true).exSeqMk exTen8 exTen10 = .ok s ∧ (fam4 true).exInc s.first = .ok x ∧
      exCmpOps (fam4 true) ss s.first x = .ok ⟨false, true, false, true, false, true⟩) ∧
    (∃ s x, (fam4 true).exSeqMk exTen8 ⟨[10, 0, 0, 0], [255, 192, 0, 0], 10⟩ = .ok s ∧ (fam4 true).exInc s.first = .ok x ∧
      exCmpOps (fam4 true) ss s.first x = .ok ⟨false, true, true, false, true, false⟩) :=
  ⟨⟨_, _, rfl, rfl, by cases ss <;> decide +kernel⟩, ⟨_, _, rfl, rfl, by cases ss <;> decide +kernel⟩⟩

end Ip
