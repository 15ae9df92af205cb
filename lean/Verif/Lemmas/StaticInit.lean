import Verif.Spec.StaticInit
import Verif.Props.ClassNet
/-
Lemmas on the static initialisation of the registry tables.
-/
set_option autoImplicit false

namespace Ip.Boot
open Ip Ip.Spec

section
variable {A U : Type} {F : Fam A U} {WF : A → Prop}

theorem ite_self_bind (x : Res Bool) : (do if ← x then Res.ok true else Res.ok false) = x := by
  cases x with
  | ok b => cases b <;> rfl
  | err _ _ => rfl
  | ub => rfl

theorem tableContains_one (t : List Char) (a : A) : F.tableContains [t] a = F.textContains t a :=
  ite_self_bind _

theorem tableContainsBoth_one (t : List Char) (a b : A) : F.tableContainsBoth [t] a b = F.textContainsBoth t a b :=
  ite_self_bind _

theorem parseAll_ok : ∀ (ts : List (List Char)) (es : List (Nat × Nat)), List.Forall₂ (Denotes F WF) ts es →
    ∃ ns, parseAll F ts = .ok ns
  | _, _, .nil => ⟨[], rfl⟩
  | t :: ts, e :: es, .cons ⟨n, h1, _⟩ hs => by
    obtain ⟨ns, h⟩ := parseAll_ok ts es hs
    exact ⟨n :: ns, by rw [parseAll, h1, Res.ok_bind, h]; rfl⟩

theorem anyContains_eq : ∀ (ts : List (List Char)) (ns : List (Net A)), parseAll F ts = .ok ns →
    ∀ a, anyContains F ns a = F.tableContains ts a
  | [], _, h, a => by cases h; rfl
  | t :: ts, ns, h, a => by
    rw [parseAll] at h
    obtain ⟨n, h1, h⟩ := Res.bind_eq_ok.1 h
    obtain ⟨ns', h2, h⟩ := Res.bind_eq_ok.1 h
    cases h
    rw [anyContains, Fam.tableContains, Fam.textContains, h1, Res.ok_bind, anyContains_eq ts ns' h2 a]

theorem anyContainsBoth_eq : ∀ (ts : List (List Char)) (ns : List (Net A)), parseAll F ts = .ok ns →
    ∀ a b, anyContainsBoth F ns a b = F.tableContainsBoth ts a b
  | [], _, h, a, b => by cases h; rfl
  | t :: ts, ns, h, a, b => by
    rw [parseAll] at h
    obtain ⟨n, h1, h⟩ := Res.bind_eq_ok.1 h
    obtain ⟨ns', h2, h⟩ := Res.bind_eq_ok.1 h
    cases h
    rw [anyContainsBoth, Fam.tableContainsBoth, Fam.textContainsBoth, Fam.textContains, Fam.textContains, h1, Res.ok_bind,
      Res.ok_bind, anyContainsBoth_eq ts ns' h2 a b]

theorem containsLoop_zero : ∀ (x : List (BitVec 8)),
    Fam.containsLoop x (List.replicate x.length 0) (List.replicate x.length 0) = .ok true
  | [] => rfl
  | x :: xs => by
    rw [List.length_cons, List.replicate_succ, Fam.containsLoop, if_neg (by simp)]
    exact containsLoop_zero xs

end

theorem tab4_denotes (t : Tab4) : ∃ es, List.Forall₂ (Denotes (fam4 true) WF4) t.texts es := by
  cases t
  · exact ⟨_, v4Private_denotes⟩
  · exact ⟨_, .cons v4Public_denotes .nil⟩
  · exact ⟨_, .cons v4Reserved_denotes .nil⟩
  · exact ⟨_, .cons v4Multicast_denotes .nil⟩
  · exact ⟨_, .cons v4Loopback_denotes .nil⟩
  · exact ⟨_, .cons v4LinkLocal_denotes .nil⟩

theorem tab6_denotes (c : Cfg) (hc : c.le = true) (t : Tab6) :
    ∃ es, List.Forall₂ (Denotes (fam6 c) (V6.WF c.M)) t.texts es := by
  cases t
  · exact ⟨_, v6Private_denotes c hc⟩
  · exact ⟨_, v6Reserved_denotes c hc⟩
  · exact ⟨_, .cons (v6Multicast_denotes c hc) .nil⟩
  · exact ⟨_, .cons (v6LinkLocal_denotes c hc) .nil⟩
  · exact ⟨_, .cons (v6SiteLocal_denotes c hc) .nil⟩

theorem tab4_parse (t : Tab4) : ∃ ns, parseAll (fam4 true) t.texts = .ok ns :=
  (tab4_denotes t).elim fun _ h => parseAll_ok _ _ h

theorem tab6_parse (c : Cfg) (hc : c.le = true) (t : Tab6) : ∃ ns, parseAll (fam6 c) t.texts = .ok ns :=
  (tab6_denotes c hc t).elim fun _ h => parseAll_ok _ _ h

theorem texts4_pos (t : Tab4) : ∃ k, t.texts.length = k + 1 := by
  cases t <;> exact ⟨_, rfl⟩

theorem texts6_pos (t : Tab6) : ∃ k, t.texts.length = k + 1 := by
  cases t <;> exact ⟨_, rfl⟩

/-- The state of the storage: `d4` and `d6` say which variables have been initialised. -/
structure Holds (c : Cfg) (d4 : Tab4 → Prop) (d6 : Tab6 → Prop) (st : Statics) : Prop where
  made4 : ∀ t, d4 t → ∃ ns, st.v4 t = .made ns ∧ parseAll (fam4 true) t.texts = .ok ns
  raw4 : ∀ t, ¬ d4 t → st.v4 t = .raw t.texts.length
  made6 : ∀ t, d6 t → ∃ ns, st.v6 t = .made ns ∧ parseAll (fam6 c) t.texts = .ok ns
  raw6 : ∀ t, ¬ d6 t → st.v6 t = .raw t.texts.length

section
variable {c : Cfg} {d4 : Tab4 → Prop} {d6 : Tab6 → Prop} {st : Statics}

theorem Holds.init4 (h : Holds c d4 d6 st) (t : Tab4) :
    ∃ st', st.init4 t = .ok st' ∧ Holds c (fun t' => t' = t ∨ d4 t') d6 st' := by
  obtain ⟨ns, hn⟩ := tab4_parse t
  refine ⟨{ st with v4 := fun t' => if t' = t then .made ns else st.v4 t' }, by rw [Statics.init4, hn]; rfl, ?_, ?_, h.made6, h.raw6⟩
  · intro t' ht
    by_cases e : t' = t
    · exact ⟨ns, if_pos e, by rw [e]; exact hn⟩
    · obtain ⟨ns', h1, h2⟩ := h.made4 t' (ht.resolve_left e)
      exact ⟨ns', (if_neg e).trans h1, h2⟩
  · intro t' ht
    exact (if_neg fun e => ht (.inl e)).trans (h.raw4 t' fun e => ht (.inr e))

theorem Holds.init6 (h : Holds c d4 d6 st) (hc : c.le = true) (t : Tab6) :
    ∃ st', st.init6 c t = .ok st' ∧ Holds c d4 (fun t' => t' = t ∨ d6 t') st' := by
  obtain ⟨ns, hn⟩ := tab6_parse c hc t
  refine ⟨{ st with v6 := fun t' => if t' = t then .made ns else st.v6 t' }, by rw [Statics.init6, hn]; rfl, h.made4, h.raw4, ?_, ?_⟩
  · intro t' ht
    by_cases e : t' = t
    · exact ⟨ns, if_pos e, by rw [e]; exact hn⟩
    · obtain ⟨ns', h1, h2⟩ := h.made6 t' (ht.resolve_left e)
      exact ⟨ns', (if_neg e).trans h1, h2⟩
  · intro t' ht
    exact (if_neg fun e => ht (.inl e)).trans (h.raw6 t' fun e => ht (.inr e))

theorem Holds.zeroed (c : Cfg) : Holds c (fun _ => False) (fun _ => False) Statics.zeroed :=
  ⟨fun _ h => h.elim, fun _ _ => rfl, fun _ h => h.elim, fun _ _ => rfl⟩

theorem Holds.congr {d4' : Tab4 → Prop} {d6' : Tab6 → Prop} (h : Holds c d4 d6 st) (h4 : ∀ t, d4 t ↔ d4' t)
    (h6 : ∀ t, d6 t ↔ d6' t) : Holds c d4' d6' st :=
  ⟨fun t e => h.made4 t ((h4 t).2 e), fun t e => h.raw4 t fun e' => e ((h4 t).1 e'),
    fun t e => h.made6 t ((h6 t).2 e), fun t e => h.raw6 t fun e' => e ((h6 t).1 e')⟩

/-! One variable. -/

theorem Holds.read4 (h : Holds c d4 d6 st) (z : Bool) (t : Tab4) (ht : d4 t) :
    ∃ ns, (st.v4 t).read z zero4 = .ok ns ∧ parseAll (fam4 true) t.texts = .ok ns := by
  obtain ⟨ns, h1, h2⟩ := h.made4 t ht
  exact ⟨ns, by rw [h1]; rfl, h2⟩

theorem Holds.read6 (h : Holds c d4 d6 st) (z : Bool) (t : Tab6) (ht : d6 t) :
    ∃ ns, (st.v6 t).read z (zero6 c) = .ok ns ∧ parseAll (fam6 c) t.texts = .ok ns := by
  obtain ⟨ns, h1, h2⟩ := h.made6 t ht
  exact ⟨ns, by rw [h1]; rfl, h2⟩

theorem Holds.has4 (h : Holds c d4 d6 st) (z : Bool) (t : Tab4) (ht : d4 t) (a : List (BitVec 8)) :
    st.has4 z t a = (fam4 true).tableContains t.texts a := by
  obtain ⟨ns, h1, h2⟩ := h.read4 z t ht
  rw [Statics.has4, h1, Res.ok_bind, anyContains_eq _ _ h2]

theorem Holds.has6 (h : Holds c d4 d6 st) (z : Bool) (t : Tab6) (ht : d6 t) (a : V6) :
    st.has6 c z t a = (fam6 c).tableContains t.texts a := by
  obtain ⟨ns, h1, h2⟩ := h.read6 z t ht
  rw [Statics.has6, h1, Res.ok_bind, anyContains_eq _ _ h2]

theorem Holds.ub4 (h : Holds c d4 d6 st) (t : Tab4) (ht : ¬ d4 t) : (st.v4 t).read false zero4 = .ub := by
  rw [h.raw4 t ht]; rfl

theorem Holds.ub6 (h : Holds c d4 d6 st) (t : Tab6) (ht : ¬ d6 t) : (st.v6 t).read false (zero6 c) = .ub := by
  rw [h.raw6 t ht]; rfl

theorem Holds.has4_ub (h : Holds c d4 d6 st) (t : Tab4) (ht : ¬ d4 t) (a : List (BitVec 8)) :
    st.has4 false t a = .ub := by
  rw [Statics.has4, h.ub4 t ht]; rfl

theorem Holds.has6_ub (h : Holds c d4 d6 st) (t : Tab6) (ht : ¬ d6 t) (a : V6) : st.has6 c false t a = .ub := by
  rw [Statics.has6, h.ub6 t ht]; rfl

theorem contains_zero4 (a : List (BitVec 8)) (ha : a.length = 4) : (fam4 true).contains zero4 a = .ok true := by
  have := containsLoop_zero a
  rw [ha] at this
  exact this

theorem contains_zero6 (c : Cfg) (a : V6) (ha : a.bytes.length = 16) : (fam6 c).contains (zero6 c) a = .ok true := by
  have := containsLoop_zero a.bytes
  rw [ha] at this
  exact this

theorem Holds.zero4 (h : Holds c d4 d6 st) (t : Tab4) (ht : ¬ d4 t) :
    ∃ ns, (st.v4 t).read true Boot.zero4 = .ok (Boot.zero4 :: ns) := by
  obtain ⟨k, hk⟩ := texts4_pos t
  rw [h.raw4 t ht, hk]
  exact ⟨_, rfl⟩

theorem Holds.zero6 (h : Holds c d4 d6 st) (t : Tab6) (ht : ¬ d6 t) :
    ∃ ns, (st.v6 t).read true (Boot.zero6 c) = .ok (Boot.zero6 c :: ns) := by
  obtain ⟨k, hk⟩ := texts6_pos t
  rw [h.raw6 t ht, hk]
  exact ⟨_, rfl⟩

theorem Holds.has4_zero (h : Holds c d4 d6 st) (t : Tab4) (ht : ¬ d4 t) (a : List (BitVec 8)) (ha : a.length = 4) :
    st.has4 true t a = .ok true := by
  obtain ⟨ns, hn⟩ := h.zero4 t ht
  rw [Statics.has4, hn, Res.ok_bind, anyContains, contains_zero4 a ha]; rfl

theorem Holds.has6_zero (h : Holds c d4 d6 st) (t : Tab6) (ht : ¬ d6 t) (a : V6) (ha : a.bytes.length = 16) :
    st.has6 c true t a = .ok true := by
  obtain ⟨ns, hn⟩ := h.zero6 t ht
  rw [Statics.has6, hn, Res.ok_bind, anyContains, contains_zero6 c a ha]; rfl

theorem both_zero4 (ns : List (Net (List (BitVec 8)))) (a b : List (BitVec 8)) (ha : a.length = 4) (hb : b.length = 4) :
    anyContainsBoth (fam4 true) (Boot.zero4 :: ns) a b = .ok true := by
  rw [anyContainsBoth, contains_zero4 a ha, contains_zero4 b hb]; rfl

theorem both_zero6 (c : Cfg) (ns : List (Net V6)) (a b : V6) (ha : a.bytes.length = 16) (hb : b.bytes.length = 16) :
    anyContainsBoth (fam6 c) (Boot.zero6 c :: ns) a b = .ok true := by
  rw [anyContainsBoth, contains_zero6 c a ha, contains_zero6 c b hb]; rfl

/-! `bothEnds`. -/

theorem bothEnds_congr {A U : Type} (F : Fam A U) (p q : A → Res Bool) (h : ∀ a, p a = q a) (n : Net A) :
    F.bothEnds p n = F.bothEnds q n := by
  rw [show p = q from funext h]

theorem bothEnds_ub {A U : Type} (F : Fam A U) (p : A → Res Bool) (n : Net A) (h : p n.addr = .ub) :
    F.bothEnds p n = .ub := by
  rw [Fam.bothEnds, h]; rfl

theorem bothEnds_true {A U : Type} (F : Fam A U) (p : A → Res Bool) (n : Net A) (b : A) (h : p n.addr = .ok true)
    (hb : F.broadcast n = .ok b) (h' : p b = .ok true) : F.bothEnds p n = .ok true := by
  rw [Fam.bothEnds, h, Res.ok_bind, hb]
  exact h'

/-! The predicates. -/

theorem Holds.addr4_priv (h : Holds c d4 d6 st) (z : Bool) (ht : d4 .priv) (a : List (BitVec 8)) :
    st.addr4 z .priv a = v4IsPrivate true a := h.has4 z _ ht a

theorem Holds.addr4_multicast (h : Holds c d4 d6 st) (z : Bool) (ht : d4 .multicast) (a : List (BitVec 8)) :
    st.addr4 z .multicast a = v4IsMulticast true a := (h.has4 z _ ht a).trans (tableContains_one _ _)

theorem Holds.addr4_reserved (h : Holds c d4 d6 st) (z : Bool) (ht : d4 .reserved) (a : List (BitVec 8)) :
    st.addr4 z .reserved a = v4IsReserved true a := (h.has4 z _ ht a).trans (tableContains_one _ _)

theorem Holds.addr4_loopback (h : Holds c d4 d6 st) (z : Bool) (ht : d4 .loopback) (a : List (BitVec 8)) :
    st.addr4 z .loopback a = v4IsLoopback true a := (h.has4 z _ ht a).trans (tableContains_one _ _)

theorem Holds.addr4_linkLocal (h : Holds c d4 d6 st) (z : Bool) (ht : d4 .linkLocal) (a : List (BitVec 8)) :
    st.addr4 z .linkLocal a = v4IsLinkLocal true a := (h.has4 z _ ht a).trans (tableContains_one _ _)

theorem Holds.has4_pub (h : Holds c d4 d6 st) (z : Bool) (ht : d4 .pub) (a : List (BitVec 8)) :
    st.has4 z .pub a = (fam4 true).textContains v4PublicText a := (h.has4 z _ ht a).trans (tableContains_one _ _)

theorem pub_iff (a : List (BitVec 8)) (ha : a.length = 4) :
    ∃ r, (fam4 true).textContains v4PublicText a = .ok r ∧ (r = true ↔ Shared4 (beValue a)) := by
  refine ⟨_, textContains_eq fam4Law _ _ v4Public_denotes a ha, ?_⟩
  show inEntry 32 (quad 100 64 0 0, 10) (beValue a) = true ↔ _
  rw [inEntry_iff]
  simp only [quad, Shared4]; omega

theorem pubBoth_iff (n : Net (List (BitVec 8))) (hn : NetOk (fam4 true) WF4 n) :
    ∃ b r, (fam4 true).broadcast n = .ok b ∧ b.length = 4 ∧ (fam4 true).textContainsBoth v4PublicText n.addr b = .ok r ∧
      (r = true ↔ ∀ x, InNet 32 n.plen (beValue n.addr) x → Shared4 x) := by
  obtain ⟨b, b1, b2, b3, b4, b5⟩ := net_ends fam4Law n hn
  have b5' : ∀ x, InNet 32 n.plen (beValue n.addr) x ↔ beValue n.addr ≤ x ∧ x ≤ beValue b := b5
  have b4' : beValue n.addr ≤ beValue b := b4
  refine ⟨b, _, b1, b2, textContainsBoth_eq fam4Law _ _ v4Public_denotes n.addr b hn.wf b2, ?_⟩
  show (inEntry 32 (quad 100 64 0 0, 10) (beValue n.addr) && inEntry 32 (quad 100 64 0 0, 10) (beValue b)) = true ↔ _
  rw [Bool.and_eq_true, inEntry_iff, inEntry_iff]
  simp only [b5', Shared4, quad]
  constructor
  · intro h x hx; omega
  · intro h
    have h1 := h (beValue n.addr) ⟨Nat.le_refl _, b4'⟩
    have h2 := h (beValue b) ⟨b4', Nat.le_refl _⟩
    omega

theorem Holds.netPriv4 (h : Holds c d4 d6 st) (z : Bool) (ht : d4 .priv) (n : Net (List (BitVec 8))) :
    st.netPriv4 z n = v4NetIsPrivate true n := by
  obtain ⟨ns, h1, h2⟩ := h.read4 z .priv ht
  rw [Statics.netPriv4, v4NetIsPrivate, h1]
  congr 1
  funext b
  exact anyContainsBoth_eq _ _ h2 _ _

theorem Holds.netPriv6 (h : Holds c d4 d6 st) (z : Bool) (ht : d6 .priv) (n : Net V6) :
    st.netPriv6 c z n = v6NetIsPrivate c n := by
  obtain ⟨ns, h1, h2⟩ := h.read6 z .priv ht
  rw [Statics.netPriv6, v6NetIsPrivate, h1]
  congr 1
  funext b
  exact anyContainsBoth_eq _ _ h2 _ _

theorem mapped_cases (a : V6) (ha : a.WF c.M) :
    (beValue a.bytes / 2 ^ 32 % 2 ^ 16 = 0xffff ∧ ∃ b, v6Mapped a.bytes = .ok (some b) ∧ b.length = 4) ∨
    (beValue a.bytes / 2 ^ 32 % 2 ^ 16 ≠ 0xffff ∧ v6Mapped a.bytes = .ok none) := by
  obtain ⟨m, m1, _, m3, m4⟩ := C16_mapped_partial a.bytes ha.1
  cases m with
  | some b => exact .inl ⟨m3.mp rfl, b, m1, (m4 b rfl).1⟩
  | none => exact .inr ⟨fun h => by simpa using m3.mpr h, m1⟩

theorem Holds.priv6_ready (h : Holds c d4 d6 st) (hc : c.le = true) (z : Bool) (a : V6) (ha : a.WF c.M)
    (h4 : beValue a.bytes / 2 ^ 32 % 2 ^ 16 = 0xffff → d4 .priv) (h6 : beValue a.bytes / 2 ^ 32 % 2 ^ 16 ≠ 0xffff → d6 .priv) :
    st.priv6 c z a = v6IsPrivate c a := by
  rcases mapped_cases a ha with ⟨m, b, hb, _⟩ | ⟨m, hb⟩
  · rw [Statics.priv6, v6IsPrivate, hb, Res.ok_bind, Res.ok_bind]
    simp only [hc]
    exact h.addr4_priv z (h4 m) b
  · rw [Statics.priv6, v6IsPrivate, hb, Res.ok_bind, Res.ok_bind]
    exact h.has6 z .priv (h6 m) a

/-- A question whose variables are initialised is answered as ever. -/
theorem ask_ready (h : Holds c d4 d6 st) (hc : c.le = true) (z : Bool) (q : Query) (hq : Proper c q)
    (h4 : ∀ t, Uses4 q t → d4 t) (h6 : ∀ t, Uses6 q t → d6 t) : st.ask c z q = Answer c q := by
  rcases q with ⟨q, a⟩ | ⟨q, a⟩ | ⟨q, n⟩ | ⟨q, n⟩
  · cases q
    · exact h.addr4_priv z (h4 _ rfl) a
    · obtain ⟨r, r1, r2⟩ := pub_iff a hq
      show Statics.addr4 st z .glob a = v4IsGlobal true a
      rw [Statics.addr4, v4IsGlobal, h.has4_pub z (h4 _ (.inl rfl)), r1, Res.ok_bind, Res.ok_bind]
      cases r with
      | true => rfl
      | false =>
        have hp : d4 .priv := h4 _ (.inr ⟨rfl, fun hs => by simpa using r2.mpr hs⟩)
        rw [show st.has4 z .priv a = v4IsPrivate true a from h.addr4_priv z hp a]
    · exact h.addr4_multicast z (h4 _ rfl) a
    · exact h.addr4_reserved z (h4 _ rfl) a
    · exact h.addr4_loopback z (h4 _ rfl) a
    · exact h.addr4_linkLocal z (h4 _ rfl) a
  · cases q
    · exact h.priv6_ready hc z a hq (fun m => h4 _ ⟨rfl, m⟩) (fun m => h6 _ ⟨rfl, m⟩)
    · show (st.priv6 c z a >>= _) = (v6IsPrivate c a >>= _)
      rw [h.priv6_ready hc z a hq (fun m => h4 _ ⟨rfl, m⟩) (fun m => h6 _ ⟨rfl, m⟩)]
    · exact (h.has6 z _ (h6 _ rfl) a).trans (tableContains_one _ _)
    · exact h.has6 z _ (h6 _ rfl) a
    · rfl
    · exact (h.has6 z _ (h6 _ rfl) a).trans (tableContains_one _ _)
    · exact (h.has6 z _ (h6 _ rfl) _).trans (tableContains_one _ _)
  · cases q
    · exact h.netPriv4 z (h4 _ rfl) n
    · obtain ⟨b, r, b1, _, r1, r2⟩ := pubBoth_iff n hq
      obtain ⟨ns, k1, k2⟩ := h.read4 z .pub (h4 _ (.inl rfl))
      show Statics.net4 st z .glob n = v4NetIsGlobal true n
      rw [Statics.net4, v4NetIsGlobal, b1, Res.ok_bind, Res.ok_bind, k1, Res.ok_bind,
        (anyContainsBoth_eq _ _ k2 _ _).trans (tableContainsBoth_one _ _ _), r1, Res.ok_bind, Res.ok_bind]
      cases r with
      | true => rfl
      | false =>
        have hp : d4 .priv := h4 _ (.inr ⟨rfl, fun hs => by simpa using r2.mpr hs⟩)
        rw [h.netPriv4 z hp n]
    · exact bothEnds_congr _ _ _ (fun a => h.addr4_multicast z (h4 _ rfl) a) n
    · exact bothEnds_congr _ _ _ (fun a => h.addr4_reserved z (h4 _ rfl) a) n
    · exact bothEnds_congr _ _ _ (fun a => h.addr4_loopback z (h4 _ rfl) a) n
    · exact bothEnds_congr _ _ _ (fun a => h.addr4_linkLocal z (h4 _ rfl) a) n
  · cases q
    · exact h.netPriv6 z (h6 _ rfl) n
    · show (st.netPriv6 c z n >>= _) = (v6NetIsPrivate c n >>= _)
      rw [h.netPriv6 z (h6 _ rfl) n]
    · exact bothEnds_congr _ _ _ (fun a => (h.has6 z _ (h6 _ rfl) a).trans (tableContains_one _ _)) n
    · exact bothEnds_congr _ _ _ (fun a => h.has6 z _ (h6 _ rfl) a) n
    · rfl
    · exact bothEnds_congr _ _ _ (fun a => (h.has6 z _ (h6 _ rfl) a).trans (tableContains_one _ _)) n
    · exact bothEnds_congr (fam6 c) (st.addr6 c z .siteLocal) (v6IsSiteLocal c)
        (fun a => (h.has6 z .siteLocal (h6 _ rfl) ⟨a.bytes, emptyScope c.M⟩).trans (tableContains_one _ _)) n

/-- Otherwise the behaviour is undefined. -/
theorem ask_ub (h : Holds c d4 d6 st) (hc : c.le = true) (q : Query) (hq : Proper c q)
    (hn : ¬ ((∀ t, Uses4 q t → d4 t) ∧ (∀ t, Uses6 q t → d6 t))) : st.ask c false q = .ub := by
  rcases q with ⟨q, a⟩ | ⟨q, a⟩ | ⟨q, n⟩ | ⟨q, n⟩
  · cases q
    case glob =>
      obtain ⟨r, r1, r2⟩ := pub_iff a hq
      show Statics.addr4 st false .glob a = .ub
      rw [Statics.addr4]
      by_cases hp : d4 .pub
      · rw [h.has4_pub false hp, r1, Res.ok_bind]
        cases r with
        | true => exact absurd ⟨fun t ht => by
            rcases ht with rfl | ⟨_, ht⟩
            · exact hp
            · exact absurd (r2.mp rfl) ht, fun t ht => ht.elim⟩ hn
        | false =>
          have hv : ¬ d4 .priv := fun hv => hn ⟨fun t ht => by
            rcases ht with rfl | ⟨rfl, ht⟩
            · exact hp
            · exact hv, fun t ht => ht.elim⟩
          rw [h.has4_ub _ hv]; rfl
      · rw [h.has4_ub _ hp]; rfl
    all_goals
      exact h.has4_ub _ (fun hd => hn ⟨fun t ht => by rw [show t = _ from ht]; exact hd, fun t ht => ht.elim⟩) a
  · have hp : (¬ ((beValue a.bytes / 2 ^ 32 % 2 ^ 16 = 0xffff → d4 .priv) ∧
        (beValue a.bytes / 2 ^ 32 % 2 ^ 16 ≠ 0xffff → d6 .priv))) → st.priv6 c false a = .ub := by
      intro hn
      rcases mapped_cases a hq with ⟨m, b, hb, _⟩ | ⟨m, hb⟩
      · rw [Statics.priv6, hb, Res.ok_bind]
        exact h.has4_ub _ (fun hd => hn ⟨fun _ => hd, fun m' => absurd m m'⟩) b
      · rw [Statics.priv6, hb, Res.ok_bind]
        exact h.has6_ub _ (fun hd => hn ⟨fun m' => absurd m' m, fun _ => hd⟩) a
    cases q
    case priv =>
      exact hp fun hd => hn ⟨fun t ht => by rw [ht.1]; exact hd.1 ht.2, fun t ht => by rw [ht.1]; exact hd.2 ht.2⟩
    case glob =>
      show (st.priv6 c false a >>= _) = _
      rw [hp fun hd => hn ⟨fun t ht => by rw [ht.1]; exact hd.1 ht.2, fun t ht => by rw [ht.1]; exact hd.2 ht.2⟩]
      rfl
    case loopback => exact absurd ⟨fun t ht => ht.elim, fun t ht => ht.elim⟩ hn
    all_goals
      exact h.has6_ub _ (fun hd => hn ⟨fun t ht => ht.elim, fun t ht => by rw [show t = _ from ht]; exact hd⟩) _
  · obtain ⟨b, r, b1, _, r1, r2⟩ := pubBoth_iff n hq
    cases q
    case priv =>
      show st.netPriv4 false n = .ub
      rw [Statics.netPriv4, b1, Res.ok_bind,
        h.ub4 .priv (fun hd => hn ⟨fun t ht => by rw [show t = _ from ht]; exact hd, fun t ht => ht.elim⟩)]
      rfl
    case glob =>
      show Statics.net4 st false .glob n = .ub
      rw [Statics.net4, b1, Res.ok_bind]
      by_cases hp : d4 .pub
      · obtain ⟨ns, k1, k2⟩ := h.read4 false .pub hp
        rw [k1, Res.ok_bind, (anyContainsBoth_eq _ _ k2 _ _).trans (tableContainsBoth_one _ _ _), r1, Res.ok_bind]
        cases r with
        | true => exact absurd ⟨fun t ht => by
            rcases ht with rfl | ⟨_, ht⟩
            · exact hp
            · exact absurd (r2.mp rfl) ht, fun t ht => ht.elim⟩ hn
        | false =>
          have hv : ¬ d4 .priv := fun hv => hn ⟨fun t ht => by
            rcases ht with rfl | ⟨rfl, ht⟩
            · exact hp
            · exact hv, fun t ht => ht.elim⟩
          rw [Statics.netPriv4, b1, Res.ok_bind, h.ub4 _ hv]; rfl
      · rw [h.ub4 _ hp]; rfl
    all_goals
      exact bothEnds_ub _ _ _
        (h.has4_ub _ (fun hd => hn ⟨fun t ht => by rw [show t = _ from ht]; exact hd, fun t ht => ht.elim⟩) _)
  · obtain ⟨b, b1, b2, _⟩ := broadcast_spec (fam6Law c hc) n hq
    have hp : ¬ d6 .priv → st.netPriv6 c false n = .ub := by
      intro hd
      rw [Statics.netPriv6, b1, Res.ok_bind, h.ub6 _ hd]; rfl
    cases q
    case priv =>
      exact hp (fun hd => hn ⟨fun t ht => ht.elim, fun t ht => by rw [show t = _ from ht]; exact hd⟩)
    case glob =>
      show (st.netPriv6 c false n >>= _) = _
      rw [hp (fun hd => hn ⟨fun t ht => ht.elim, fun t ht => by rw [show t = _ from ht]; exact hd⟩)]
      rfl
    case loopback => exact absurd ⟨fun t ht => ht.elim, fun t ht => ht.elim⟩ hn
    all_goals
      exact bothEnds_ub _ _ _
        (h.has6_ub _ (fun hd => hn ⟨fun t ht => ht.elim, fun t ht => by rw [show t = _ from ht]; exact hd⟩) _)

/-- If the zeros are read, the answer is that of a network with all addresses. -/
theorem ask_zero (h : Holds c d4 d6 st) (hc : c.le = true) (q : Query) (hq : Proper c q)
    (hn : ¬ ((∀ t, Uses4 q t → d4 t) ∧ (∀ t, Uses6 q t → d6 t))) : st.ask c true q = .ok (zeroAnswer q) := by
  rcases q with ⟨q, a⟩ | ⟨q, a⟩ | ⟨q, n⟩ | ⟨q, n⟩
  · cases q
    case glob =>
      obtain ⟨r, r1, r2⟩ := pub_iff a hq
      show Statics.addr4 st true .glob a = .ok false
      rw [Statics.addr4]
      by_cases hp : d4 .pub
      · rw [h.has4_pub true hp, r1, Res.ok_bind]
        cases r with
        | true => rfl
        | false =>
          have hv : ¬ d4 .priv := fun hv => hn ⟨fun t ht => by
            rcases ht with rfl | ⟨rfl, ht⟩
            · exact hp
            · exact hv, fun t ht => ht.elim⟩
          rw [h.has4_zero _ hv a hq]; rfl
      · rw [h.has4_zero _ hp a hq]; rfl
    all_goals
      exact h.has4_zero _ (fun hd => hn ⟨fun t ht => by rw [show t = _ from ht]; exact hd, fun t ht => ht.elim⟩) a hq
  · have hp : (¬ ((beValue a.bytes / 2 ^ 32 % 2 ^ 16 = 0xffff → d4 .priv) ∧
        (beValue a.bytes / 2 ^ 32 % 2 ^ 16 ≠ 0xffff → d6 .priv))) → st.priv6 c true a = .ok true := by
      intro hn
      rcases mapped_cases a hq with ⟨m, b, hb, hl⟩ | ⟨m, hb⟩
      · rw [Statics.priv6, hb, Res.ok_bind]
        exact h.has4_zero _ (fun hd => hn ⟨fun _ => hd, fun m' => absurd m m'⟩) b hl
      · rw [Statics.priv6, hb, Res.ok_bind]
        exact h.has6_zero _ (fun hd => hn ⟨fun m' => absurd m' m, fun _ => hd⟩) a hq.1
    cases q
    case priv =>
      exact hp fun hd => hn ⟨fun t ht => by rw [ht.1]; exact hd.1 ht.2, fun t ht => by rw [ht.1]; exact hd.2 ht.2⟩
    case glob =>
      show (st.priv6 c true a >>= _) = _
      rw [hp fun hd => hn ⟨fun t ht => by rw [ht.1]; exact hd.1 ht.2, fun t ht => by rw [ht.1]; exact hd.2 ht.2⟩]
      rfl
    case loopback => exact absurd ⟨fun t ht => ht.elim, fun t ht => ht.elim⟩ hn
    all_goals
      exact h.has6_zero _ (fun hd => hn ⟨fun t ht => ht.elim, fun t ht => by rw [show t = _ from ht]; exact hd⟩) _ hq.1
  · obtain ⟨b, r, b1, bl, r1, r2⟩ := pubBoth_iff n hq
    have hp : ¬ d4 .priv → st.netPriv4 true n = .ok true := by
      intro hd
      obtain ⟨ns, e⟩ := h.zero4 .priv hd
      rw [Statics.netPriv4, b1, Res.ok_bind, e, Res.ok_bind, both_zero4 ns n.addr b hq.wf bl]
    cases q
    case priv =>
      exact hp (fun hd => hn ⟨fun t ht => by rw [show t = _ from ht]; exact hd, fun t ht => ht.elim⟩)
    case glob =>
      show Statics.net4 st true .glob n = .ok false
      rw [Statics.net4, b1, Res.ok_bind]
      by_cases hd : d4 .pub
      · obtain ⟨ns, k1, k2⟩ := h.read4 true .pub hd
        rw [k1, Res.ok_bind, (anyContainsBoth_eq _ _ k2 _ _).trans (tableContainsBoth_one _ _ _), r1, Res.ok_bind]
        cases r with
        | true => rfl
        | false =>
          have hv : ¬ d4 .priv := fun hv => hn ⟨fun t ht => by
            rcases ht with rfl | ⟨rfl, ht⟩
            · exact hd
            · exact hv, fun t ht => ht.elim⟩
          rw [hp hv]; rfl
      · obtain ⟨ns, e⟩ := h.zero4 .pub hd
        rw [e, Res.ok_bind, both_zero4 ns n.addr b hq.wf bl]; rfl
    all_goals
      exact bothEnds_true _ _ _ b
        (h.has4_zero _ (fun hd => hn ⟨fun t ht => by rw [show t = _ from ht]; exact hd, fun t ht => ht.elim⟩) _ hq.wf) b1
        (h.has4_zero _ (fun hd => hn ⟨fun t ht => by rw [show t = _ from ht]; exact hd, fun t ht => ht.elim⟩) _ bl)
  · obtain ⟨b, b1, b2, _⟩ := broadcast_spec (fam6Law c hc) n hq
    have hp : ¬ d6 .priv → st.netPriv6 c true n = .ok true := by
      intro hd
      obtain ⟨ns, e⟩ := h.zero6 .priv hd
      rw [Statics.netPriv6, b1, Res.ok_bind, e, Res.ok_bind, both_zero6 c ns n.addr b hq.wf.1 b2.1]
    cases q
    case priv =>
      exact hp (fun hd => hn ⟨fun t ht => ht.elim, fun t ht => by rw [show t = _ from ht]; exact hd⟩)
    case glob =>
      show (st.netPriv6 c true n >>= _) = _
      rw [hp (fun hd => hn ⟨fun t ht => ht.elim, fun t ht => by rw [show t = _ from ht]; exact hd⟩)]
      rfl
    case loopback => exact absurd ⟨fun t ht => ht.elim, fun t ht => ht.elim⟩ hn
    all_goals
      exact bothEnds_true _ _ _ b
        (h.has6_zero _ (fun hd => hn ⟨fun t ht => ht.elim, fun t ht => by rw [show t = _ from ht]; exact hd⟩) _ hq.wf.1) b1
        (h.has6_zero _ (fun hd => hn ⟨fun t ht => ht.elim, fun t ht => by rw [show t = _ from ht]; exact hd⟩) _ b2.1)

/-- A proper question has an answer at any other time. -/
theorem answer_ok (hc : c.le = true) (q : Query) (hq : Proper c q) : ∃ r, Answer c q = .ok r := by
  rcases q with ⟨q, a⟩ | ⟨q, a⟩ | ⟨q, n⟩ | ⟨q, n⟩
  · cases q
    · exact (C39_v4_private a hq).imp fun _ h => h.1
    · exact (C39_v4_global a hq).imp fun _ h => h.1
    · exact (C39_v4_multicast a hq).imp fun _ h => h.1
    · exact (C39_v4_reserved a hq).imp fun _ h => h.1
    · exact (C39_v4_loopback a hq).imp fun _ h => h.1
    · exact (C39_v4_link_local a hq).imp fun _ h => h.1
  · cases q
    · exact (C39_v6_private_computes c hc a hq).imp fun _ h => h.1
    · exact (C39_v6_private_computes c hc a hq).elim fun r h => ⟨!r, C39_v6_global c a r h.1⟩
    · exact (C39_v6_multicast c hc a hq).imp fun _ h => h.1
    · exact (C39_v6_reserved c hc a hq).imp fun _ h => h.1
    · exact (C39_v6_loopback a hq.1).imp fun _ h => h.1
    · exact (C39_v6_link_local c hc a hq).imp fun _ h => h.1
    · exact (C39_v6_site_local c hc a hq).imp fun _ h => h.1
  · cases q
    · exact (C40_v4_private n hq).imp fun _ h => h.1
    · exact (C40_v4_global_partial n hq).imp fun _ h => h.1
    · exact (C40_v4_multicast n hq).imp fun _ h => h.1
    · exact (C40_v4_reserved n hq).imp fun _ h => h.1
    · exact (C40_v4_loopback n hq).imp fun _ h => h.1
    · exact (C40_v4_link_local n hq).imp fun _ h => h.1
  · cases q
    · exact (C40_v6_private_partial c hc n hq).imp fun _ h => h.1
    · exact (C40_v6_private_partial c hc n hq).elim fun r h => ⟨!r, C40_v6_global c n r h.1⟩
    · exact (C40_v6_multicast c hc n hq).imp fun _ h => h.1
    · obtain ⟨b, b1, b2, _⟩ := broadcast_spec (fam6Law c hc) n hq
      obtain ⟨r, r1, _⟩ := C39_v6_reserved c hc n.addr hq.wf
      obtain ⟨s, s1, _⟩ := C39_v6_reserved c hc b b2
      show ∃ r, (fam6 c).bothEnds _ n = _
      rw [Fam.bothEnds, r1, Res.ok_bind, b1]
      cases r with
      | true => exact ⟨s, s1⟩
      | false => exact ⟨false, rfl⟩
    · exact (C40_v6_loopback c hc n hq).imp fun _ h => h.1
    · exact (C40_v6_link_local c hc n hq).imp fun _ h => h.1
    · exact (C40_v6_site_local c hc n hq).imp fun _ h => h.1

end

end Ip.Boot
