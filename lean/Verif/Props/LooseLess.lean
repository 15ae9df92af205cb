import Verif.Spec.LooseLess
import Verif.Props.Compare
/-
What the comparison operators of IPv6 addresses and networks compute in builds without `<=>` (C15, C38, C49, C54, C55).
-/
set_option autoImplicit false

namespace Ip
open Spec

theorem opsLess_byLess {e l g : Bool} {re rl rg : Res Bool} {L E G : Prop} (he : re = .ok e) (hl : rl = .ok l) (hg : rg = .ok g)
    (h1 : e = true ↔ E) (h2 : l = true ↔ L) (h3 : g = true ↔ G) : ∃ r, opsLess re rl rg = .ok r ∧ ByLess r L E G := by
  subst he hl hg
  refine ⟨_, rfl, ⟨h1, ?_, h2, h3, ?_, ?_⟩⟩
  · rw [← h1]; cases e <;> simp
  · rw [← h3]; cases g <;> simp
  · rw [← h2]; cases l <;> simp

/-- C15, `operator<` without `<=>`, all addresses: it holds exactly if the value or the scope id is smaller; this is the
order exactly if not the value is larger and the scope id smaller. -/
theorem C15_v6_less_exact (val : Char → Int) (hv : ∀ x y, val x = val y → x = y) (M : Nat) (a b : V6)
    (ha : a.WF M) (hb : b.WF M) :
    ∃ r, v6Less val a b = .ok r ∧
      (r = true ↔ LooseLt val (beValue a.bytes) a.scope.contents (beValue b.bytes) b.scope.contents) ∧
      ((r = true ↔ V6Lt val (beValue a.bytes) a.scope.contents (beValue b.bytes) b.scope.contents) ↔
        ¬ (beValue b.bytes < beValue a.bytes ∧ ScopeLt val a.scope.contents b.scope.contents)) := by
  have hl : a.bytes.length = b.bytes.length := by rw [ha.1, hb.1]
  have h1 := bytesLess_iff a.bytes b.bytes hl
  have c1 := FStr.compare_eq val a.scope b.scope ha.2.1 hb.2.1
  have l1 := lexCmp_lt_iff val hv a.scope.contents b.scope.contents
  have key : ∃ r, v6Less val a b = .ok r ∧
      (r = true ↔ LooseLt val (beValue a.bytes) a.scope.contents (beValue b.bytes) b.scope.contents) := by
    unfold v6Less LooseLt
    by_cases h : bytesLess a.bytes b.bytes = true
    · rw [if_pos h]
      exact ⟨_, rfl, by simp [h1.1 h]⟩
    · rw [if_neg h, c1]
      refine ⟨_, rfl, ?_⟩
      rw [h1] at h
      rw [decide_eq_true_iff, l1]
      exact ⟨.inr, fun k => k.resolve_left h⟩
  obtain ⟨r, k1, k2⟩ := key
  refine ⟨r, k1, k2, ?_⟩
  rw [k2]
  unfold LooseLt V6Lt
  constructor
  · rintro h ⟨g1, g2⟩
    rcases h.1 (.inr g2) with h | h <;> omega
  · intro h
    constructor
    · rintro (g | g)
      · exact .inl g
      · rcases Nat.lt_trichotomy (beValue a.bytes) (beValue b.bytes) with k | k | k
        · exact .inl k
        · exact .inr ⟨k, g⟩
        · exact absurd ⟨k, g⟩ h
    · rintro (g | g)
      · exact .inl g
      · exact .inr g.2

example : (⟨[0, 0, 0, 0, 0, 0, 0, 0, 0, 0, 0, 0, 0, 0, 0, 2], ⟨['a'], 1⟩⟩ : V6).WF 1 := by simp [V6.WF, FStr.WF]

theorem anyLess_exact (c : Cfg) (hv : ∀ x y, c.val x = c.val y → x = y) (a b : AnyAddr) (ha : AddrOkAny c a)
    (hb : AddrOkAny c b) : ∃ l, anyLess c.val a b = .ok l ∧ (l = true ↔ AnyLoose c.val (anyMeaning a) (anyMeaning b)) := by
  cases a with
  | v4 a =>
    cases b with
    | v4 b =>
      have hl : a.length = b.length := Eq.trans ha (Eq.symm hb)
      refine ⟨_, rfl, ?_⟩
      rw [(C06_order_numeric a b hl).2.1]
      simp [AnyLoose, LooseLt, anyMeaning, scopeLt_nil]
    | v6 b => exact ⟨_, rfl, by simp [anyMeaning, AnyLoose]⟩
  | v6 a =>
    cases b with
    | v4 b => exact ⟨_, rfl, by simp [anyMeaning, AnyLoose]⟩
    | v6 b =>
      obtain ⟨r, r1, r2, _⟩ := C15_v6_less_exact c.val hv c.M a b ha hb
      exact ⟨r, r1, by rw [r2]; simp [anyMeaning, AnyLoose]⟩

/-- C54, the operators of `ip_address` without `<=>`, all addresses. -/
theorem C54_order_exact (c : Cfg) (hs : c.spaceship = false) (hv : ∀ x y, c.val x = c.val y → x = y) (a b : AnyAddr)
    (ha : AddrOkAny c a) (hb : AddrOkAny c b) :
    ∃ r, anyCmpOps c a b = .ok r ∧ ByLess r (AnyLoose c.val (anyMeaning a) (anyMeaning b)) (anyMeaning a = anyMeaning b)
      (AnyLoose c.val (anyMeaning b) (anyMeaning a)) := by
  obtain ⟨e, o, e1, o1, h1, h2, h3, h4⟩ := any_eq_cmp c hv a b ha hb
  obtain ⟨l, l1, l2⟩ := anyLess_exact c hv a b ha hb
  obtain ⟨g, g1, g2⟩ := anyLess_exact c hv b a hb ha
  unfold anyCmpOps cmpOps
  rw [if_neg (by simp [hs])]
  exact opsLess_byLess e1 l1 g1 h1 l2 g2

example := C54_order_exact { exCfg with spaceship := false } rfl exCfg_val (.v6 exScoped) (.v4 [10, 0, 0, 1]) exScoped_ok rfl

/-- The relation computed is the order exactly for addresses that are not crossed. -/
theorem anyLoose_iff (val : Char → Int) (hv : ∀ x y, val x = val y → x = y) (p q : Bool × Nat × List Char)
    (h : ¬ Crossed val p q) : AnyLoose val p q ↔ AnyLt val p q := by
  obtain ⟨a, v, s⟩ := p
  obtain ⟨b, w, t⟩ := q
  unfold Crossed at h
  unfold AnyLoose AnyLt LooseLt V6Lt
  simp only at h ⊢
  constructor
  · rintro (k | ⟨k, g | g⟩)
    · exact .inl k
    · exact .inr ⟨k, .inl g⟩
    · refine .inr ⟨k, ?_⟩
      rcases Nat.lt_trichotomy v w with m | m | m
      · exact .inl m
      · exact .inr ⟨m, g⟩
      · exact absurd ⟨k, .inr ⟨m, g⟩⟩ h
  · rintro (k | ⟨k, g | g⟩)
    · exact .inl k
    · exact .inr ⟨k, .inl g⟩
    · exact .inr ⟨k, .inr g.2⟩

theorem crossed_comm (val : Char → Int) (p q : Bool × Nat × List Char) : Crossed val p q ↔ Crossed val q p := by
  unfold Crossed
  constructor <;> rintro ⟨h, g⟩ <;> exact ⟨h.symm, g.symm⟩

/-- Crossed addresses are each less than the other. -/
theorem crossed_both (val : Char → Int) (p q : Bool × Nat × List Char) (h : Crossed val p q) :
    AnyLoose val p q ∧ AnyLoose val q p ∧ p ≠ q := by
  obtain ⟨k, ⟨h1, h2⟩ | ⟨h1, h2⟩⟩ := h
  · exact ⟨.inr ⟨k, .inl h1⟩, .inr ⟨k.symm, .inr h2⟩, fun e => by rw [e] at h1; omega⟩
  · exact ⟨.inr ⟨k, .inr h2⟩, .inr ⟨k.symm, .inl h1⟩, fun e => by rw [e] at h1; omega⟩

/-- C54, when the operators of `ip_address` are those of the order: in builds with `<=>` always, in builds without it
exactly for addresses that are not crossed; crossed addresses are each less than, and greater than, the other. -/
theorem C54_order_iff (c : Cfg) (hv : ∀ x y, c.val x = c.val y → x = y) (a b : AnyAddr)
    (ha : AddrOkAny c a) (hb : AddrOkAny c b) :
    ∃ r, anyCmpOps c a b = .ok r ∧
      (Describes r (AnyLt c.val (anyMeaning a) (anyMeaning b)) (anyMeaning a = anyMeaning b)
        (AnyLt c.val (anyMeaning b) (anyMeaning a)) ↔ c.spaceship = true ∨ ¬ Crossed c.val (anyMeaning a) (anyMeaning b)) ∧
      (c.spaceship = false → Crossed c.val (anyMeaning a) (anyMeaning b) → r = ⟨false, true, true, true, false, false⟩) := by
  cases hs : c.spaceship with
  | true =>
    obtain ⟨r, r1, r2⟩ := C54_order_partial c hv a b ha hb (.inl hs)
    exact ⟨r, r1, by simpa using r2, by simp⟩
  | false =>
    obtain ⟨r, r1, r2⟩ := C54_order_exact c hs hv a b ha hb
    have t := (C54_order_total c.val hv (anyMeaning a) (anyMeaning b) (anyMeaning b)).1
    have hcr : Crossed c.val (anyMeaning a) (anyMeaning b) → r = ⟨false, true, true, true, false, false⟩ := by
      intro h
      obtain ⟨k1, k2, k3⟩ := crossed_both c.val _ _ h
      obtain ⟨g1, g2, g3, g4, g5, g6⟩ := r2
      obtain ⟨b1, b2, b3, b4, b5, b6⟩ := r
      simp only [k1, k2, k3, not_true_eq_false, not_false_eq_true, iff_true, iff_false, Bool.not_eq_true] at g1 g2 g3 g4 g5 g6
      subst g1 g2 g3 g4 g5 g6
      rfl
    refine ⟨r, r1, ?_, fun _ => hcr⟩
    simp only [Bool.false_eq_true, false_or]
    constructor
    · intro hd hc
      have hr := hcr hc
      subst hr
      exact t.2.2.1 ⟨hd.lt.1 rfl, hd.gt.1 rfl⟩
    · intro hn
      have e1 := anyLoose_iff c.val hv _ _ hn
      have e2 := anyLoose_iff c.val hv _ _ (fun h => hn ((crossed_comm c.val _ _).1 h))
      obtain ⟨g1, g2, g3, g4, g5, g6⟩ := r2
      rw [e1] at g3 g6
      rw [e2] at g4 g5
      obtain ⟨t1, t2, t3, t4⟩ := t
      refine ⟨g1, g2, g3, g4, ?_, ?_⟩
      · rw [g5]
        constructor
        · intro h
          rcases t1 with k | k | k
          · exact .inl k
          · exact .inr k
          · exact absurd k h
        · rintro (h | h) k
          · exact t3 ⟨h, k⟩
          · exact t4 ⟨h, k⟩
      · rw [g6]
        constructor
        · intro h
          rcases t1 with k | k | k
          · exact absurd k h
          · exact .inr k
          · exact .inl k
        · rintro (h | h) k
          · exact t3 ⟨k, h⟩
          · exact t2 ⟨k, h⟩

/-- Crossed addresses exist: `::2%a` and `::1%b`. -/
example : Crossed (fun x => (x.toNat : Int)) (true, 2, ['a']) (true, 1, ['b']) :=
  ⟨rfl, .inr ⟨by decide, .inr ⟨[], 'a', 'b', [], [], rfl, rfl, by decide⟩⟩⟩

/-- C55, the operators of `ipv6_address` without `<=>`, all addresses. -/
theorem C55_v6_exact (c : Cfg) (hs : c.spaceship = false) (hv : ∀ x y, c.val x = c.val y → x = y) (a b : V6)
    (ha : a.WF c.M) (hb : b.WF c.M) :
    ∃ r, v6CmpOps c a b = .ok r ∧
      ByLess r (LooseLt c.val (beValue a.bytes) a.scope.contents (beValue b.bytes) b.scope.contents)
        (beValue a.bytes = beValue b.bytes ∧ a.scope.contents = b.scope.contents)
        (LooseLt c.val (beValue b.bytes) b.scope.contents (beValue a.bytes) a.scope.contents) := by
  obtain ⟨r, h1, h2⟩ := C54_order_exact c hs hv (.v6 a) (.v6 b) ha hb
  simp only [anyMeaning, AnyLoose, Prod.mk.injEq, true_and] at h2
  exact ⟨r, h1, by simpa using h2⟩

example : ({ exCfg with spaceship := false } : Cfg).spaceship = false := rfl

/-- `operator<` of networks, given the results for the addresses. -/
theorem netLt_exact {A U : Type} {F : Fam A U} {WF : A → Prop} {val : U → Nat} (L : F.Law WF val) (a b : Net A)
    (ha : NetOk F WF a) (hb : NetOk F WF b) (e l : Bool) (h1 : F.eq a.addr b.addr = .ok e) (h2 : F.lt a.addr b.addr = .ok l) :
    F.netLt a b = .ok (if e then decide (a.plen < b.plen) else l) := by
  obtain ⟨m, m1, m2, m3⟩ := ha.mask
  obtain ⟨m', n1, n2, n3⟩ := hb.mask
  have pa := ha.plen
  have pb := hb.plen
  have hi := mask_inj F.maxPrefix a.plen b.plen pa pb
  have hl := mask_lt_iff F.maxPrefix a.plen b.plen pa pb
  have e2 : F.eq a.mask b.mask = .ok (decide (a.plen = b.plen)) := by
    rw [m1, n1, L.eq m m' m2 n2, m3, n3]
    congr 1
    rw [decide_eq_decide]
    exact ⟨hi, fun e => by rw [e]⟩
  have t2 : F.lt a.mask b.mask = .ok (decide (a.plen < b.plen)) := by
    rw [m1, n1, L.lt m m' m2 n2, m3, n3]
    congr 1
    rw [decide_eq_decide]
    exact hl
  unfold Fam.netLt
  rw [h1, Res.ok_bind]
  cases e with
  | false => simpa using h2
  | true =>
    simp only [if_true, e2, Res.ok_bind]
    by_cases k : a.plen = b.plen
    · simp [k]
    · simp [k, t2]

theorem netLt6_exact (c : Cfg) (hc : c.le = true) (hs : c.spaceship = false) (hv : ∀ x y, c.val x = c.val y → x = y) (a b : Net V6)
    (ha : NetOk6 c a) (hb : NetOk6 c b) :
    ∃ r, (fam6 c).netLt a b = .ok r ∧ (r = true ↔
      NetLoose (fun p q : Nat × List Char => LooseLt c.val p.1 p.2 q.1 q.2) (beValue a.addr.bytes, a.addr.scope.contents) a.plen
        (beValue b.addr.bytes, b.addr.scope.contents) b.plen) := by
  obtain ⟨o, e, h1, h2, h3, h4, h5, h6⟩ := C15_v6_compare c.val hv c.M a.addr b.addr ha.wf hb.wf
  obtain ⟨l, l1, l2, _⟩ := C15_v6_less_exact c.val hv c.M a.addr b.addr ha.wf hb.wf
  have l1' : (fam6 c).lt a.addr b.addr = .ok l := by
    show v6Lt c a.addr b.addr = _
    unfold v6Lt
    rw [if_neg (by simp [hs]), l1]
  have hi : a.addr.bytes = b.addr.bytes ↔ beValue a.addr.bytes = beValue b.addr.bytes :=
    ⟨fun h => by rw [h], beValue_inj _ _ (by rw [ha.wf.1, hb.wf.1])⟩
  rw [hi] at h6
  refine ⟨_, netLt_exact (fam6Law c hc) a b ha hb e l h2 l1', ?_⟩
  unfold NetLoose
  simp only [ne_eq, Prod.mk.injEq]
  rw [← h6]
  cases e <;> simp [l2]

/-- C38, `<` of IPv6 networks without `<=>`, all networks. -/
theorem C38_less_v6_exact (c : Cfg) (hc : c.le = true) (hs : c.spaceship = false) (hv : ∀ x y, c.val x = c.val y → x = y)
    (a b : Net V6) (ha : NetOk6 c a) (hb : NetOk6 c b) :
    ∃ r, (fam6 c).netLt a b = .ok r ∧ (r = true ↔
      NetLoose (fun p q : Nat × List Char => LooseLt c.val p.1 p.2 q.1 q.2) (beValue a.addr.bytes, a.addr.scope.contents) a.plen
        (beValue b.addr.bytes, b.addr.scope.contents) b.plen) := netLt6_exact c hc hs hv a b ha hb

example := C38_less_v6_exact { exCfg with spaceship := false } rfl rfl exCfg_val ex32 ex32
  ⟨ex32_ok.wf, ex32_ok.plen, ⟨_, rfl, rfl, by decide⟩, ex32_ok.aligned⟩ ⟨ex32_ok.wf, ex32_ok.plen, ⟨_, rfl, rfl, by decide⟩, ex32_ok.aligned⟩

/-- C55, the operators of `ip_network` without `<=>`, all networks of either version. -/
theorem C55_any_network_exact (c : Cfg) (hc : c.le = true) (hs : c.spaceship = false) (hv : ∀ x y, c.val x = c.val y → x = y)
    (a b : AnyNet) (ha : NetOkAny c a) (hb : NetOkAny c b) :
    ∃ r, anyNetCmpOps c a b = .ok r ∧
      ByLess r (NetLoose (AnyLoose c.val) (anyNetMeaning a).1 (anyNetMeaning a).2 (anyNetMeaning b).1 (anyNetMeaning b).2)
        (anyNetMeaning a = anyNetMeaning b)
        (NetLoose (AnyLoose c.val) (anyNetMeaning b).1 (anyNetMeaning b).2 (anyNetMeaning a).1 (anyNetMeaning a).2) := by
  have key : ∀ a b : AnyNet, NetOkAny c a → NetOkAny c b → ∃ l, anyNetLt c a b = .ok l ∧ (l = true ↔
      NetLoose (AnyLoose c.val) (anyNetMeaning a).1 (anyNetMeaning a).2 (anyNetMeaning b).1 (anyNetMeaning b).2) := by
    intro a b ha hb
    cases a with
    | v4 a =>
      cases b with
      | v4 b =>
        obtain ⟨e, o, l, h1, h2, h3, h4, h5, h6, h7⟩ := C38_order_v4 a b ha hb
        refine ⟨l, by simp only [anyNetLt, hc, h3], ?_⟩
        obtain ⟨n1, n2, n3⟩ := nat_compare (beValue a.addr) (beValue b.addr)
        obtain ⟨m1, m2, m3⟩ := nat_compare a.plen b.plen
        have ho : (compare (beValue a.addr) (beValue b.addr)).then (compare a.plen b.plen) = .lt ↔
            beValue a.addr < beValue b.addr ∨ (beValue a.addr = beValue b.addr ∧ a.plen < b.plen) := by
          rw [← n1, ← n2, ← m1]; cases compare (beValue a.addr) (beValue b.addr) <;> simp [Ordering.then]
        rw [h6, h5, ho]
        simp only [anyNetMeaning, NetLoose, AnyLoose, LooseLt, scopeLt_nil, ne_eq, Prod.mk.injEq, true_and, and_true, or_false,
          Bool.false_eq_true, and_false, false_or]
        constructor
        · rintro (k | k)
          · exact .inl ⟨by omega, k⟩
          · exact .inr k
        · rintro (k | k)
          · exact .inl k.2
          · exact .inr k
      | v6 b => exact ⟨_, rfl, by simp [anyNetMeaning, NetLoose, AnyLoose]⟩
    | v6 a =>
      cases b with
      | v4 b => exact ⟨_, rfl, by simp [anyNetMeaning, NetLoose, AnyLoose]⟩
      | v6 b =>
        obtain ⟨r, r1, r2⟩ := netLt6_exact c hc hs hv a b ha hb
        refine ⟨r, r1, ?_⟩
        rw [r2]
        simp [anyNetMeaning, NetLoose, AnyLoose]
  obtain ⟨e, o, e1, _, e2, _⟩ := C49_order c hc hv a b ha hb
  obtain ⟨l, l1, l2⟩ := key a b ha hb
  obtain ⟨g, g1, g2⟩ := key b a hb ha
  unfold anyNetCmpOps cmpOps
  rw [if_neg (by simp [hs])]
  refine opsLess_byLess e1 l1 g1 ?_ l2 g2
  rw [e2]
  cases a <;> cases b <;> simp [anyNetMeaning, anyNetValue, anyNetScope]
  tauto

example : NetOkAny { exCfg with spaceship := false } (.v4 ex16) := ex16_ok

end Ip
