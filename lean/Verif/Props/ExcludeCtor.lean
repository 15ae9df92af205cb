import Verif.Lemmas.ExcludeCtor
import Verif.Lemmas.ExcludeScoped
import Verif.Spec.ExcludeCtor
import Verif.Props.NetIter
import Verif.Props.Undefined
import Verif.Props.ScopedNet
/-
C89: the excluding iterator and sequence made by their constructors.
-/
set_option autoImplicit false

namespace Ip
open Spec

section
variable {A U : Type} {F : Fam A U} {WF : A → Prop} {val : U → Nat}

theorem strictlyInside_iff (L : F.Law WF val) (n o : Net A) (hn : NetOk F WF n) (ho : NetOk F WF o) :
    StrictlyInside F.maxPrefix o.plen (F.v o.addr) n.plen (F.v n.addr) ↔
      n.plen < o.plen ∧ Part F.maxPrefix o.plen (F.v o.addr) n.plen (F.v n.addr) := by
  unfold StrictlyInside Part
  simp only [inNet_interval L n hn, inNet_interval L o ho]
  have hO := Nat.two_pow_pos (F.maxPrefix - o.plen)
  refine and_congr_right fun _ => ⟨fun h => ?_, fun h t ht => by omega⟩
  have a := h (F.v o.addr) ⟨by omega, by omega⟩
  have b := h (F.v o.addr + 2 ^ (F.maxPrefix - o.plen) - 1) ⟨by omega, by omega⟩
  omega

theorem ctor_exact (L : F.Law WF val) (S : SafeLaw F WF val) (T : ∀ a b, WF a → WF b → ∃ r, F.eq a b = .ok r)
    (n o : Net A) (hn : NetOk F WF n) (ho : NetOk F WF o) (hs : ∃ x, o.addr = F.ofBytes x)
    (hs' : n.plen = F.maxPrefix → ∃ x, n.addr = F.ofBytes x) :
    (StrictlyInside F.maxPrefix o.plen (F.v o.addr) n.plen (F.v n.addr) → F.exSeqMk n o = F.addressExclude n o) ∧
    (n.plen = F.maxPrefix → o.plen = F.maxPrefix → F.v o.addr = F.v n.addr →
      ∃ s l, F.exSeqMk n o = .ok s ∧ (∀ fuel, 1 < fuel → F.exVisit fuel s.first s.last = .ok l) ∧
        l.map F.vp = if F.v n.addr + 1 = 2 ^ F.maxPrefix then [] else [(F.v n.addr + 1, F.maxPrefix)]) ∧
    (n.plen = F.maxPrefix → o.plen = F.maxPrefix → F.v o.addr = (F.v n.addr + 1) % 2 ^ F.maxPrefix →
      ∃ s, F.exSeqMk n o = .ok s ∧ ∀ fuel, 0 < fuel → F.exVisit fuel s.first s.last = .ok []) ∧
    (F.exSeqMk n o = .ub ↔ ¬ (StrictlyInside F.maxPrefix o.plen (F.v o.addr) n.plen (F.v n.addr) ∨
      SelfOrNext F.maxPrefix o.plen (F.v o.addr) n.plen (F.v n.addr))) ∧
    (∀ e v, F.exSeqMk n o ≠ .err e v) ∧
    (∀ s, F.exSeqMk n o = .ok s → F.exMk n o = .ok s.first) ∧ (F.exMk n o = .ub ↔ F.exSeqMk n o = .ub) := by
  obtain ⟨dn, d1, d2⟩ := default_isNet L
  have hd : F.exDefault = .ok ⟨dn, dn, dn, dn⟩ := by simp only [Fam.exDefault, d1, Res.ok_bind]
  have hdd : F.netEq dn dn = .ok true := by rw [netEq_isNet L d2 d2]; simp
  have hv := L.v_lt _ hn.wf
  have hW := two_le_W L
  have stop : ∀ fuel, 0 < fuel → F.exVisit fuel ⟨dn, dn, dn, dn⟩ ⟨dn, dn, dn, dn⟩ = .ok [] := by
    intro fuel hf
    obtain ⟨f, rfl⟩ : ∃ f, fuel = f + 1 := ⟨fuel - 1, by omega⟩
    simp [Fam.exVisit, Fam.exEq, hdd]
  have seq : ∀ r, F.exMk n o = r → F.exSeqMk n o = (r >>= fun x => .ok ⟨x, ⟨dn, dn, dn, dn⟩⟩) := by
    rintro r rfl
    simp only [Fam.exSeqMk, hd, Res.ok_bind]
  rw [strictlyInside_iff L n o hn ho]
  by_cases hp : n.plen = F.maxPrefix
  · have hol := ho.plen
    have hout : ¬ n.plen < o.plen := by omega
    obtain ⟨s, d, e1, e2, h1, h2, h3⟩ := exMk_host L n o hn ho hs (hs' hp) hp
    rw [hd] at e1
    cases e1
    have hmod : (F.v n.addr + 1) % 2 ^ F.maxPrefix = if F.v n.addr + 1 = 2 ^ F.maxPrefix then 0 else F.v n.addr + 1 := by
      split
      · next h => rw [h, Nat.mod_self]
      · exact Nat.mod_eq_of_lt (by omega)
    have key : F.exMk n o = .ub ∧ ¬ SelfOrNext F.maxPrefix o.plen (F.v o.addr) n.plen (F.v n.addr) ∨
        (∃ x, F.exMk n o = .ok x) ∧ SelfOrNext F.maxPrefix o.plen (F.v o.addr) n.plen (F.v n.addr) := by
      by_cases c : o.plen = F.maxPrefix ∧ (F.v o.addr = F.v n.addr ∨ F.v o.addr = (F.v n.addr + 1) % 2 ^ F.maxPrefix)
      · refine .inr ⟨?_, hp, c⟩
        rcases c with ⟨c1, c2 | c2⟩
        · exact ⟨_, (h1 c1 c2).1⟩
        · exact ⟨_, h2 c1 c2⟩
      · exact .inl ⟨h3 c, fun h => c h.2⟩
    refine ⟨fun h => (hout h.1).elim, ?_, ?_, ?_, ?_, ?_, ?_⟩
    · intro _ q1 q2
      obtain ⟨g1, g2⟩ := h1 q1 q2
      have heq : F.exEq ⟨o, n, s, s⟩ ⟨dn, dn, dn, dn⟩ = .ok (decide (F.v n.addr + 1 = 2 ^ F.maxPrefix)) := by
        rw [Fam.exEq, netEq_isNet L e2 d2, hmod]
        congr 1
        rw [decide_eq_decide]
        split
        · next h => exact ⟨fun _ => h, fun _ => ⟨rfl, rfl⟩⟩
        · next h => exact ⟨fun h' => (by omega), fun h' => (h h').elim⟩
      refine ⟨_, if F.v n.addr + 1 = 2 ^ F.maxPrefix then [] else [s], seq _ g1, ?_, ?_⟩
      · intro fuel hf
        obtain ⟨f, rfl⟩ : ∃ f, fuel = f + 1 := ⟨fuel - 1, by omega⟩
        simp only [Fam.exVisit, heq, g2, Res.ok_bind, decide_eq_true_eq]
        split
        · rfl
        · rw [stop f (by omega), Res.ok_bind]
      · split
        · rfl
        · next h =>
          show [(F.v s.addr, s.plen)] = _
          rw [e2.v_eq L, e2.plen, hmod, if_neg h]
    · intro _ q1 q2
      exact ⟨_, seq _ (h2 q1 q2), stop⟩
    · rcases key with ⟨k1, k2⟩ | ⟨⟨x, k1⟩, k2⟩
      · rw [seq _ k1]
        exact ⟨fun _ h => h.elim (fun h => hout h.1) k2, fun _ => rfl⟩
      · rw [seq _ k1]
        exact ⟨fun h => (by cases h), fun h => (h (.inr k2)).elim⟩
    · intro e v h
      rcases key with ⟨k1, k2⟩ | ⟨⟨x, k1⟩, k2⟩ <;> rw [seq _ k1] at h <;> cases h
    · intro t h
      rcases key with ⟨k1, k2⟩ | ⟨⟨x, k1⟩, k2⟩ <;> rw [seq _ k1] at h <;> cases h
      exact k1
    · rcases key with ⟨k1, k2⟩ | ⟨⟨x, k1⟩, k2⟩
      · rw [seq _ k1, k1]; exact ⟨fun _ => rfl, fun _ => rfl⟩
      · rw [seq _ k1, k1]; exact ⟨fun h => (by cases h), fun h => (by cases h)⟩
  · have hpl : n.plen < F.maxPrefix := Nat.lt_of_le_of_ne hn.plen hp
    have nself : ¬ SelfOrNext F.maxPrefix o.plen (F.v o.addr) n.plen (F.v n.addr) := fun h => hp h.1
    by_cases c : n.plen < o.plen ∧ Part F.maxPrefix o.plen (F.v o.addr) n.plen (F.v n.addr)
    · obtain ⟨g1, s, g2, g3⟩ := exSeqMk_inside L S T n o hn ho hs c.1 c.2
      refine ⟨fun _ => g1, fun h => (hp h).elim, fun h => (hp h).elim, ?_, ?_, ?_, ?_⟩
      · rw [g2]; exact ⟨fun h => (by cases h), fun h => (h (.inl c)).elim⟩
      · rw [g2]; exact fun e v h => (by cases h)
      · rw [g2]; intro t h; cases h; exact g3
      · rw [g2, g3]; exact ⟨fun h => (by cases h), fun h => (by cases h)⟩
    · obtain ⟨g1, g2⟩ := exMk_outside L S T n o hn ho hs hpl c
      refine ⟨fun h => (c h).elim, fun h => (hp h).elim, fun h => (hp h).elim, ?_, ?_, ?_, ?_⟩
      · rw [g2]; exact ⟨fun _ h => h.elim c nself, fun _ => rfl⟩
      · rw [g2]; exact fun e v h => (by cases h)
      · rw [g2]; intro t h; cases h
      · rw [g1, g2]; exact ⟨fun _ => rfl, fun _ => rfl⟩

end

/-- C89, IPv4: what the constructors of the excluding sequence and of its iterator do with any two networks.  If
`o` is strictly inside `n`, the sequence is the one of `address_exclude`.  If `n` has one address, `o = n` gives
the network of the *next* address and `o` the next address gives nothing.  All other pairs end the program,
including `o = n` for larger networks. -/
theorem C89_exact_v4 (n o : Net (List (BitVec 8))) (hn : NetOk4 n) (ho : NetOk4 o) :
    (StrictlyInside 32 o.plen (beValue o.addr) n.plen (beValue n.addr) → (fam4 true).exSeqMk n o = (fam4 true).addressExclude n o) ∧
    (n.plen = 32 → o.plen = 32 → beValue o.addr = beValue n.addr →
      ∃ s l, (fam4 true).exSeqMk n o = .ok s ∧ (∀ fuel, 1 < fuel → (fam4 true).exVisit fuel s.first s.last = .ok l) ∧
        (l.map fun m => (beValue m.addr, m.plen)) = if beValue n.addr + 1 = 2 ^ 32 then [] else [(beValue n.addr + 1, 32)]) ∧
    (n.plen = 32 → o.plen = 32 → beValue o.addr = (beValue n.addr + 1) % 2 ^ 32 →
      ∃ s, (fam4 true).exSeqMk n o = .ok s ∧ ∀ fuel, 0 < fuel → (fam4 true).exVisit fuel s.first s.last = .ok []) ∧
    ((fam4 true).exSeqMk n o = .ub ↔ ¬ (StrictlyInside 32 o.plen (beValue o.addr) n.plen (beValue n.addr) ∨
      SelfOrNext 32 o.plen (beValue o.addr) n.plen (beValue n.addr))) ∧
    (∀ e v, (fam4 true).exSeqMk n o ≠ .err e v) ∧
    (∀ s, (fam4 true).exSeqMk n o = .ok s → (fam4 true).exMk n o = .ok s.first) ∧
    ((fam4 true).exMk n o = .ub ↔ (fam4 true).exSeqMk n o = .ub) :=
  ctor_exact fam4Law safeLaw4 (fun a b _ _ => ⟨_, rfl⟩) n o hn ho ⟨_, rfl⟩ (fun _ => ⟨_, rfl⟩)

example := C89_exact_v4 ex16 ex17 ex16_ok ex17_ok
example : StrictlyInside 32 ex17.plen (beValue ex17.addr) ex16.plen (beValue ex16.addr) := ⟨by decide, ex17_in_ex16⟩

theorem v6Equals_total (c : Cfg) (a b : V6) (ha : a.WF c.M) (hb : b.WF c.M) : ∃ r, (fam6 c).eq a b = .ok r := by
  show ∃ r, v6Equals c.val a b = .ok r
  unfold v6Equals
  rw [FStr.compare_eq c.val a.scope b.scope ha.2.1 hb.2.1]
  split
  · exact ⟨_, rfl⟩
  · exact ⟨_, rfl⟩

/-- C89, IPv6, where the excluded network has no scope id, nor has a network of one address.  Scoped networks of
one address and excluded networks with a scope id: `C89_scoped_v6`, `C89_host_v6`. -/
theorem C89_exact_v6_partial (c : Cfg) (hc : c.le = true) (n o : Net V6) (hn : NetOk6 c n) (ho : NetOk6 c o)
    (hs : o.addr.scope = emptyScope c.M) (hs' : n.plen = 128 → n.addr.scope = emptyScope c.M) :
    (StrictlyInside 128 o.plen (beValue o.addr.bytes) n.plen (beValue n.addr.bytes) →
      (fam6 c).exSeqMk n o = (fam6 c).addressExclude n o) ∧
    (n.plen = 128 → o.plen = 128 → beValue o.addr.bytes = beValue n.addr.bytes →
      ∃ s l, (fam6 c).exSeqMk n o = .ok s ∧ (∀ fuel, 1 < fuel → (fam6 c).exVisit fuel s.first s.last = .ok l) ∧
        (l.map fun m => (beValue m.addr.bytes, m.plen)) =
          if beValue n.addr.bytes + 1 = 2 ^ 128 then [] else [(beValue n.addr.bytes + 1, 128)]) ∧
    (n.plen = 128 → o.plen = 128 → beValue o.addr.bytes = (beValue n.addr.bytes + 1) % 2 ^ 128 →
      ∃ s, (fam6 c).exSeqMk n o = .ok s ∧ ∀ fuel, 0 < fuel → (fam6 c).exVisit fuel s.first s.last = .ok []) ∧
    ((fam6 c).exSeqMk n o = .ub ↔ ¬ (StrictlyInside 128 o.plen (beValue o.addr.bytes) n.plen (beValue n.addr.bytes) ∨
      SelfOrNext 128 o.plen (beValue o.addr.bytes) n.plen (beValue n.addr.bytes))) ∧
    (∀ e v, (fam6 c).exSeqMk n o ≠ .err e v) ∧
    (∀ s, (fam6 c).exSeqMk n o = .ok s → (fam6 c).exMk n o = .ok s.first) ∧
    ((fam6 c).exMk n o = .ub ↔ (fam6 c).exSeqMk n o = .ub) :=
  ctor_exact (fam6Law c hc) (safeLaw6 c hc) (v6Equals_total c) n o hn ho
    ⟨o.addr.bytes, by rw [show (fam6 c).ofBytes o.addr.bytes = ⟨o.addr.bytes, emptyScope c.M⟩ from rfl, ← hs]⟩
    (fun h => ⟨n.addr.bytes, by rw [show (fam6 c).ofBytes n.addr.bytes = ⟨n.addr.bytes, emptyScope c.M⟩ from rfl, ← hs' h]⟩)

example := C89_exact_v6_partial exCfg rfl exAll6 ex32 exAll6_ok ex32_ok rfl (by decide)

/-- The networks visited, as values and prefix lengths; nothing when the program ends. -/
def ctorVisit {A U : Type} (F : Fam A U) (n o : Net A) : Option (List (Nat × Nat)) :=
  match F.exSeqMk n o with
  | .ok s => match F.exVisit 200 s.first s.last with
    | .ok l => some (l.map F.vp)
    | _ => none
  | _ => none

/-- `10.0.0.1/32`. -/
def exHost4 : Net (List (BitVec 8)) := ⟨[10, 0, 0, 1], [255, 255, 255, 255], 32⟩

/-- C89, negation: excluding `10.0.0.1/32` from itself yields `10.0.0.2/32`, where `address_exclude` yields nothing,
and excluding `192.168.0.0/16` from itself ends the program. -/
theorem C89_violated_v4 : ctorVisit (fam4 true) exHost4 exHost4 = some [(0x0a000002, 32)] ∧
    (fam4 true).exSeqMk ex16 ex16 = .ub ∧ (fam4 true).addressExclude ex16 ex16 = (fam4 true).exSeqDefault :=
  ⟨by decide +kernel, by rw [Res.isUb_iff]; decide +kernel, by decide +kernel⟩

/-- `fe80::x/p` with a scope id of at most one character. -/
def exLocal (x : BitVec 8) (scope : FStr) (mask : List (BitVec 8)) (p : Nat) : Net V6 :=
  ⟨⟨[0xfe, 0x80, 0, 0, 0, 0, 0, 0, 0, 0, 0, 0, 0, 0, 0, x], scope⟩, ⟨List.replicate 15 255 ++ mask, emptyScope 16⟩, p⟩

/-- The scope id `a`. -/
def exScopeA : FStr := ⟨'a' :: List.replicate 15 '\x00', 1⟩

/-- C89, negation for scope ids of the excluded network: excluding `fe80::1%a/128` from `fe80::/126` yields
`fe80::2/127`, `fe80::/128` and then `fe80::2/128`, which is a part of the first; excluding `fe80::2%a/127` from
`fe80::/124` makes a sequence whose iterator throws `std::out_of_range`; `fe80::2%a/128` without the *next*
address yields itself. -/
theorem C89_scope_violated :
    (NetOk6 exCfg (exLocal 0 (emptyScope 16) [252] 126) ∧ NetOk6 exCfg (exLocal 1 exScopeA [255] 128)) ∧
    ctorVisit (fam6 exCfg) (exLocal 0 (emptyScope 16) [252] 126) (exLocal 1 exScopeA [255] 128) =
      some [(0xfe800000000000000000000000000002, 127), (0xfe800000000000000000000000000000, 128),
        (0xfe800000000000000000000000000002, 128)] ∧
    ((fam6 exCfg).exSeqMk (exLocal 0 (emptyScope 16) [240] 124) (exLocal 2 exScopeA [254] 127)).isUb = false ∧
    ctorVisit (fam6 exCfg) (exLocal 0 (emptyScope 16) [240] 124) (exLocal 2 exScopeA [254] 127) = none ∧
    ctorVisit (fam6 exCfg) (exLocal 2 exScopeA [255] 128) (exLocal 3 (emptyScope 16) [255] 128) =
      some [(0xfe800000000000000000000000000002, 128)] := by
  refine ⟨⟨⟨⟨rfl, by unfold FStr.WF; decide, rfl⟩, by decide, ⟨_, rfl, rfl, by decide⟩, by decide +kernel⟩,
    ⟨⟨rfl, by unfold FStr.WF; decide, rfl⟩, by decide, ⟨_, rfl, rfl, by decide⟩, by decide +kernel⟩⟩, ?_, ?_, ?_, ?_⟩
  · decide +kernel
  · decide +kernel
  · decide +kernel
  · decide +kernel

/-- A network without scope id does not equal one with a scope id. -/
theorem v6Equals_scope (c : Cfg) (hv : ∀ x y, c.val x = c.val y → x = y) (a b : V6) (ha : a.WF c.M) (hb : b.WF c.M)
    (h : a.scope.contents ≠ b.scope.contents) : (fam6 c).eq a b = .ok false := by
  show v6Equals c.val a b = .ok false
  unfold v6Equals
  rw [FStr.compare_eq c.val a.scope b.scope ha.2.1 hb.2.1]
  split
  · rw [Res.ok_bind, decide_eq_false]
    rwa [FStr.lexCmp_zero c.val hv]
  · rfl

theorem isNet6_scope (c : Cfg) {p v : Nat} {m : Net V6} (hm : IsNet (fam6 c) p v m) : m.addr.scope.contents = [] := by
  obtain ⟨x, hx⟩ := hm.addr.plain
  rw [hx]
  show (emptyScope c.M).contents = []
  simp [emptyScope, FStr.contents]

/-- Whether a network with any scope id is a subnet of one without. -/
theorem subnetOf6 (c : Cfg) (hc : c.le = true) (hv : ∀ x y, c.val x = c.val y → x = y) (o : Net V6) (ho : NetOk6 c o)
    {p v : Nat} {m : Net V6} (hm : IsNet (fam6 c) p v m) : (fam6 c).subnetOf o m =
      .ok (decide (v ≤ (fam6 c).v o.addr ∧ (fam6 c).v o.addr + 2 ^ ((fam6 c).maxPrefix - o.plen) ≤ v + 2 ^ ((fam6 c).maxPrefix - p))) := by
  have L := fam6Law c hc
  obtain ⟨r, r1, -, r2⟩ := C90_subnet_of c hc hv o m ho (hm.netOk L)
  rw [r1]
  congr 1
  rw [Bool.eq_iff_iff, r2, decide_eq_true_iff]
  have nf : ¬ ScopeForbids c o m := by
    rintro ⟨h, -⟩
    rw [isNet6_scope c hm] at h
    rcases h with ⟨x, t, h⟩ | ⟨p, x, y, t, t', -, h, -⟩
    · simp at h
    · simp at h
  have i1 := fun t => inNet_interval L o ho t
  have i2 := fun t => inNet_interval L m (hm.netOk L) t
  rw [hm.v_eq L, hm.plen] at i2
  have hO := Nat.two_pow_pos ((fam6 c).maxPrefix - o.plen)
  have hm1 : beValue m.addr.bytes = v := hm.v_eq L
  rw [and_iff_left nf]
  unfold Covers
  rw [hm.plen, hm1]
  constructor
  · intro h
    have a := (i2 _).mp (h ((fam6 c).v o.addr) ((i1 _).mpr ⟨by omega, by omega⟩))
    have b := (i2 _).mp (h ((fam6 c).v o.addr + 2 ^ ((fam6 c).maxPrefix - o.plen) - 1) ((i1 _).mpr ⟨by omega, by omega⟩))
    omega
  · intro h t ht
    have ht' := (i1 t).mp ht
    exact (i2 t).mpr (by omega)

theorem foreign6 (c : Cfg) (hc : c.le = true) (hv : ∀ x y, c.val x = c.val y → x = y) (o : Net V6) (ho : NetOk6 c o)
    (hs : o.addr.scope.contents ≠ []) : Foreign (fam6 c) o o.plen ((fam6 c).v o.addr) := by
  refine ⟨?_, fun p v m hm => subnetOf6 c hc hv o ho hm⟩
  intro p v m hm
  have e := v6Equals_scope c hv m.addr o.addr (hm.netOk (fam6Law c hc)).wf ho.wf (by rw [isNet6_scope c hm]; exact hs.symm)
  simp only [Fam.netEq, e, Res.ok_bind]
  rfl

theorem isNet6 (c : Cfg) (hc : c.le = true) (o : Net V6) (ho : NetOk6 c o) (hs : o.addr.scope = emptyScope c.M) :
    IsNet (fam6 c) o.plen ((fam6 c).v o.addr) o :=
  ho.isNet (fam6Law c hc) ⟨o.addr.bytes, by
    rw [show (fam6 c).ofBytes o.addr.bytes = ⟨o.addr.bytes, emptyScope c.M⟩ from rfl, ← hs]⟩

theorem host6 (c : Cfg) (hc : c.le = true) (hv : ∀ x y, c.val x = c.val y → x = y) (n o : Net V6) (hn : NetOk6 c n)
    (ho : NetOk6 c o) (hs : o.addr.scope.contents = [] → o.addr.scope = emptyScope c.M)
    (hs' : n.addr.scope.contents = [] → n.addr.scope = emptyScope c.M) (hp : n.plen = 128) (d : Net V6)
    (dd : (fam6 c).exDefault = .ok ⟨d, d, d, d⟩) (hd : IsNet (fam6 c) (fam6 c).maxPrefix 0 d) :
    (∀ self, o.plen = 128 → beValue o.addr.bytes = (if self then beValue n.addr.bytes else (beValue n.addr.bytes + 1) % 2 ^ 128) →
      ∃ y l, (fam6 c).exMk n o = .ok y ∧ (∀ fuel, 2 < fuel → (fam6 c).exVisit fuel y ⟨d, d, d, d⟩ = .ok l) ∧
        l.map (fam6 c).vp = hostVisited 128 (beValue n.addr.bytes) self (decide (n.addr.scope.contents ≠ []))
          (decide (o.addr.scope.contents ≠ []))) ∧
    (¬ (o.plen = 128 ∧ (beValue o.addr.bytes = beValue n.addr.bytes ∨
      beValue o.addr.bytes = (beValue n.addr.bytes + 1) % 2 ^ 128)) → (fam6 c).exMk n o = .ub) :=
  scoped_host (fam6Law c hc) (show 1 < 128 by decide) n o hn ho (decide (n.addr.scope.contents ≠ []))
    (decide (o.addr.scope.contents ≠ [])) (by
      by_cases e : o.addr.scope.contents = []
      · rw [if_neg (by simpa using e)]; exact isNet6 c hc o ho (hs e)
      · rw [if_pos (by simpa using e)]; exact foreign6 c hc hv o ho e)
    (by
      intro p v m hm
      by_cases e : n.addr.scope.contents = []
      · rw [netEq_isNet (fam6Law c hc) (isNet6 c hc n hn (hs' e)) hm]
        simp [e, eq_comm]
      · have e' := v6Equals_scope c hv n.addr m.addr hn.wf (hm.netOk (fam6Law c hc)).wf (by
          obtain ⟨x, hx⟩ := hm.addr.plain
          rw [hx, show ((fam6 c).ofBytes x).scope.contents = [] by simp [fam6, emptyScope, FStr.contents]]
          exact e)
        simp only [Fam.netEq, e', Res.ok_bind]
        simp [e])
    hp d dd hd

/-- C89, IPv6, where the excluded network has a scope id and is strictly inside: the constructors give a sequence.
With `l` the networks visited in the sequence of `address_exclude`, the loop over this sequence visits all of `l`,
and then: `operator++` throws `std::out_of_range` at the last of them if the excluded network has several addresses;
if it has one, the loop ends, but for odd addresses other than `::1` and the last one the network of the next address
is visited as well. -/
theorem C89_scoped_v6 (c : Cfg) (hc : c.le = true) (hv : ∀ x y, c.val x = c.val y → x = y) (n o : Net V6) (hn : NetOk6 c n)
    (ho : NetOk6 c o) (hs : o.addr.scope.contents ≠ [])
    (hin : StrictlyInside 128 o.plen (beValue o.addr.bytes) n.plen (beValue n.addr.bytes)) :
    ∃ s s' l, (fam6 c).exSeqMk n o = .ok s ∧ (fam6 c).exMk n o = .ok s.first ∧ (fam6 c).addressExclude n o = .ok s' ∧
      s.last = s'.last ∧ (∀ fuel, 129 < fuel → (fam6 c).exVisit fuel s'.first s'.last = .ok l) ∧
      (o.plen < 128 → (∀ fuel, (fam6 c).exVisit fuel s.first s.last = .ub) ∧ (fam6 c).exSteps l.length s.first = .ub ∧
        ∀ i (h : i < l.length), ∃ x, (fam6 c).exSteps i s.first = .ok x ∧ x.cur = l[i] ∧ (fam6 c).exEq x s.last = .ok false) ∧
      (o.plen = 128 → ∃ e, (∀ fuel, 129 < fuel → (fam6 c).exVisit fuel s.first s.last = .ok (l ++ e)) ∧
        (e.map fun m => (beValue m.addr.bytes, m.plen)) = lastVisited 128 (beValue o.addr.bytes)) := by
  have h := (strictlyInside_iff (fam6Law c hc) n o hn ho).mp hin
  exact scoped_inside (fam6Law c hc) (safeLaw6 c hc) (v6Equals_total c) (show 1 < 128 by decide) n o hn ho (foreign6 c hc hv o ho hs) h.1 h.2

/-- C89, IPv6, networks of one address, with any scope ids: what the loop visits. -/
theorem C89_host_v6 (c : Cfg) (hc : c.le = true) (hv : ∀ x y, c.val x = c.val y → x = y) (n o : Net V6) (hn : NetOk6 c n)
    (ho : NetOk6 c o) (hs : o.addr.scope.contents = [] → o.addr.scope = emptyScope c.M)
    (hs' : n.addr.scope.contents = [] → n.addr.scope = emptyScope c.M) (hp : n.plen = 128) (hq : o.plen = 128) (self : Bool)
    (h : beValue o.addr.bytes = if self then beValue n.addr.bytes else (beValue n.addr.bytes + 1) % 2 ^ 128) :
    ∃ s l, (fam6 c).exSeqMk n o = .ok s ∧ (∀ fuel, 2 < fuel → (fam6 c).exVisit fuel s.first s.last = .ok l) ∧
      (l.map fun m => (beValue m.addr.bytes, m.plen)) =
        hostVisited 128 (beValue n.addr.bytes) self (decide (n.addr.scope.contents ≠ [])) (decide (o.addr.scope.contents ≠ [])) := by
  obtain ⟨d, d1, d2⟩ := default_isNet (fam6Law c hc)
  have dd : (fam6 c).exDefault = .ok ⟨d, d, d, d⟩ := by simp only [Fam.exDefault, d1, Res.ok_bind]
  obtain ⟨y, l, g1, g2, g3⟩ := (host6 c hc hv n o hn ho hs hs' hp d dd d2).1 self hq h
  exact ⟨⟨y, ⟨d, d, d, d⟩⟩, l, by simp only [Fam.exSeqMk, g1, dd, Res.ok_bind], g2, g3⟩

/-- C89, IPv6, for all networks with any scope ids: the constructors end the program exactly when the excluded network
is neither strictly inside, nor one of the two special networks for a network of one address. -/
theorem C89_defined_v6 (c : Cfg) (hc : c.le = true) (hv : ∀ x y, c.val x = c.val y → x = y) (n o : Net V6) (hn : NetOk6 c n)
    (ho : NetOk6 c o) (hs : o.addr.scope.contents = [] → o.addr.scope = emptyScope c.M)
    (hs' : n.addr.scope.contents = [] → n.addr.scope = emptyScope c.M) :
    ((fam6 c).exMk n o = .ub ↔ ¬ (StrictlyInside 128 o.plen (beValue o.addr.bytes) n.plen (beValue n.addr.bytes) ∨
      SelfOrNext 128 o.plen (beValue o.addr.bytes) n.plen (beValue n.addr.bytes))) ∧
    ((fam6 c).exSeqMk n o = .ub ↔ (fam6 c).exMk n o = .ub) ∧
    (∀ e v, (fam6 c).exMk n o ≠ .err e v ∧ (fam6 c).exSeqMk n o ≠ .err e v) := by
  have L := fam6Law c hc
  obtain ⟨d, d1, d2⟩ := default_isNet L
  have dd : (fam6 c).exDefault = .ok ⟨d, d, d, d⟩ := by simp only [Fam.exDefault, d1, Res.ok_bind]
  have key : (fam6 c).exMk n o = .ub ∧ ¬ (StrictlyInside 128 o.plen (beValue o.addr.bytes) n.plen (beValue n.addr.bytes) ∨
      SelfOrNext 128 o.plen (beValue o.addr.bytes) n.plen (beValue n.addr.bytes)) ∨
      (∃ y, (fam6 c).exMk n o = .ok y) ∧ (StrictlyInside 128 o.plen (beValue o.addr.bytes) n.plen (beValue n.addr.bytes) ∨
      SelfOrNext 128 o.plen (beValue o.addr.bytes) n.plen (beValue n.addr.bytes)) := by
    by_cases hin : StrictlyInside 128 o.plen (beValue o.addr.bytes) n.plen (beValue n.addr.bytes)
    · refine .inr ⟨?_, .inl hin⟩
      by_cases e : o.addr.scope.contents = []
      · have h := (strictlyInside_iff L n o hn ho).mp hin
        obtain ⟨-, s, -, g⟩ := exSeqMk_inside L (safeLaw6 c hc) (v6Equals_total c) n o hn ho (isNet6 c hc o ho (hs e)).addr.plain h.1 h.2
        exact ⟨_, g⟩
      · obtain ⟨s, s', l, -, g, -⟩ := C89_scoped_v6 c hc hv n o hn ho e hin
        exact ⟨_, g⟩
    · have out := fun h => hin ((strictlyInside_iff L n o hn ho).mpr h)
      by_cases hp : n.plen = 128
      · by_cases sn : SelfOrNext 128 o.plen (beValue o.addr.bytes) n.plen (beValue n.addr.bytes)
        · refine .inr ⟨?_, .inr sn⟩
          obtain ⟨-, hq, hself⟩ := sn
          have get : ∀ self, (beValue o.addr.bytes = if self = true then beValue n.addr.bytes else (beValue n.addr.bytes + 1) % 2 ^ 128) →
              ∃ y, (fam6 c).exMk n o = .ok y := by
            intro self h
            obtain ⟨s, l, g, -⟩ := C89_host_v6 c hc hv n o hn ho hs hs' hp hq self h
            cases hm : (fam6 c).exMk n o with
            | ok y => exact ⟨y, rfl⟩
            | err e v => simp only [Fam.exSeqMk, hm, Res.err_bind] at g; cases g
            | ub => simp only [Fam.exSeqMk, hm, Res.ub_bind] at g; cases g
          rcases hself with h | h
          · exact get true h
          · exact get false h
        · refine .inl ⟨?_, fun h => h.elim hin sn⟩
          have sn' : ¬ (o.plen = (fam6 c).maxPrefix ∧ ((fam6 c).v o.addr = (fam6 c).v n.addr ∨
              (fam6 c).v o.addr = ((fam6 c).v n.addr + 1) % 2 ^ (fam6 c).maxPrefix)) := fun h => sn ⟨hp, h⟩
          exact (host6 c hc hv n o hn ho hs hs' hp d dd d2).2 sn'
      · refine .inl ⟨?_, fun h => h.elim hin (fun h => hp h.1)⟩
        have hpl : n.plen < (fam6 c).maxPrefix := Nat.lt_of_le_of_ne hn.plen hp
        by_cases e : o.addr.scope.contents = []
        · exact (exMk_outside L (safeLaw6 c hc) (v6Equals_total c) n o hn ho (isNet6 c hc o ho (hs e)).addr.plain hpl out).1
        · exact scoped_outside L (safeLaw6 c hc) n o hn (foreign6 c hc hv o ho e) hpl out
  rcases key with ⟨k1, k2⟩ | ⟨⟨y, k1⟩, k2⟩
  · have e : (fam6 c).exSeqMk n o = .ub := by simp only [Fam.exSeqMk, k1, Res.ub_bind]
    rw [k1, e]
    exact ⟨⟨fun _ => k2, fun _ => rfl⟩, ⟨fun _ => rfl, fun _ => rfl⟩, fun e v => ⟨fun h => (by cases h), fun h => (by cases h)⟩⟩
  · have e : (fam6 c).exSeqMk n o = .ok ⟨y, ⟨d, d, d, d⟩⟩ := by simp only [Fam.exSeqMk, k1, dd, Res.ok_bind]
    rw [k1, e]
    exact ⟨⟨fun h => (by cases h), fun h => (h k2).elim⟩, ⟨fun h => (by cases h), fun h => (by cases h)⟩,
      fun e v => ⟨fun h => (by cases h), fun h => (by cases h)⟩⟩

theorem exLocal_ok : NetOk6 exCfg (exLocal 0 (emptyScope 16) [252] 126) ∧ NetOk6 exCfg (exLocal 1 exScopeA [255] 128) ∧
    NetOk6 exCfg (exLocal 2 exScopeA [255] 128) :=
  ⟨C89_scope_violated.1.1, C89_scope_violated.1.2,
    ⟨⟨rfl, by unfold FStr.WF; decide, rfl⟩, by decide, ⟨_, rfl, rfl, by decide⟩, by decide +kernel⟩⟩

example := C89_scoped_v6 exCfg rfl exCfg_val _ _ exLocal_ok.1 exLocal_ok.2.1 (by decide)
  ((strictlyInside_iff (fam6Law exCfg rfl) _ _ exLocal_ok.1 exLocal_ok.2.1).mpr ⟨by decide, by unfold Part; decide +kernel⟩)
example := C89_host_v6 exCfg rfl exCfg_val _ _ exLocal_ok.2.1 exLocal_ok.2.2 (by decide) (by decide) rfl rfl false (by decide +kernel)
example : hostVisited 128 5 false true true = [(5, 128), (7, 128)] := by decide
example : lastVisited 128 7 = [(8, 128)] ∧ lastVisited 128 6 = [] := by decide
example := C89_defined_v6 exCfg rfl exCfg_val _ _ exLocal_ok.2.1 exLocal_ok.2.2 (by decide) (by decide)

end Ip
