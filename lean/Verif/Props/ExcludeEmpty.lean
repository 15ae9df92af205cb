import Verif.Props.Rest
import Verif.Props.Exact
/-
C34, C49: what `empty` of the networks of `address_exclude` answers.
-/
set_option autoImplicit false

namespace Ip
open Spec

section
variable {A U : Type} {F : Fam A U} {WF : A → Prop} {val : U → Nat}

theorem exVisit_eq (fuel : Nat) (x y : ExIter A) (l : List (Net A)) (h : F.exVisit (fuel + 1) x y = .ok l) :
    F.exEq x y = .ok l.isEmpty := by
  have h : (F.exEq x y >>= fun b => if b = true then (.ok [] : Res (List (Net A)))
    else F.exInc x >>= fun next => F.exVisit fuel next y >>= fun rest => .ok (x.cur :: rest)) = .ok l := h
  obtain ⟨b, hb, h⟩ := Res.bind_eq_ok.1 h
  rw [hb]
  split at h
  · next e => cases h; rw [e]; rfl
  · next e =>
    obtain ⟨_, _, h⟩ := Res.bind_eq_ok.1 h
    obtain ⟨_, _, h⟩ := Res.bind_eq_ok.1 h
    cases h
    simp at e
    rw [e]; rfl

/-- A partition has no part exactly if nothing is parted. -/
theorem partition_empty (L : F.Law WF val) (l : List (Net A)) (hl : ∀ a ∈ l, NetOk F WF a) (P : Nat → Prop)
    (h : Partitions F.maxPrefix (l.map F.vp) P) : l.isEmpty = true ↔ ∀ t, ¬ P t := by
  cases l with
  | nil =>
    refine ⟨fun _ t ht => ?_, fun _ => rfl⟩
    obtain ⟨_, ha, _⟩ := (h.2 t).2 ht
    cases ha
  | cons a l =>
    refine ⟨fun h => (by cases h), fun hn => absurd ((h.2 (F.v a.addr)).1 ⟨F.vp a, by simp, ?_⟩) (hn _)⟩
    show InNet F.maxPrefix a.plen (F.v a.addr) (F.v a.addr)
    rw [inNet_interval L a (hl a (by simp))]
    have := Nat.two_pow_pos (F.maxPrefix - a.plen)
    omega

theorem exclude_empty (L : F.Law WF val) (hw : F.maxPrefix < 2 ^ 64) (h4 : F.isV6 = false → ∀ a : A, ∃ x, a = F.ofBytes x)
    (n o : Net A) (hn : NetOk F WF n) (ho : NetOk F WF o)
    (hsub : ∀ t, InNet F.maxPrefix o.plen (F.v o.addr) t → InNet F.maxPrefix n.plen (F.v n.addr) t) :
    ∃ s b, F.addressExclude n o = .ok s ∧ F.exSeqEmpty s = .ok b ∧
      (b = true ↔ ∀ t, InNet F.maxPrefix n.plen (F.v n.addr) t →
        InNet F.maxPrefix o.plen (F.v o.addr) t ∨ Lost F.maxPrefix o.plen (F.v o.addr) (F.v n.addr) t) := by
  obtain ⟨s, l, h1, h2, h3, h4⟩ := exclude_exact L hw h4 n o hn ho hsub
  refine ⟨s, l.isEmpty, h1, exVisit_eq _ _ _ _ (h2 (l.length + 1 + 1) (by omega)), (partition_empty L l h3 _ h4).trans ?_⟩
  constructor
  · intro h t ht
    by_contra hc
    exact h t ⟨ht, fun g => hc (.inl g), fun g => hc (.inr g)⟩
  · rintro h t ⟨g1, g2, g3⟩
    exact (h t g1).elim g2 g3

end

/-- C34, IPv4, all pairs: `empty` is true exactly if the excluded network holds every address of the network, but for
address 0 if `0.0.0.1/32` is excluded from a network at 0. -/
theorem C34_empty_v4 (n o : Net (List (BitVec 8))) (hn : NetOk4 n) (ho : NetOk4 o)
    (hsub : ∀ t, InNet 32 o.plen (beValue o.addr) t → InNet 32 n.plen (beValue n.addr) t) :
    ∃ s b, (fam4 true).addressExclude n o = .ok s ∧ (fam4 true).exSeqEmpty s = .ok b ∧
      (b = true ↔ ∀ t, InNet 32 n.plen (beValue n.addr) t →
        InNet 32 o.plen (beValue o.addr) t ∨ Lost 32 o.plen (beValue o.addr) (beValue n.addr) t) :=
  exclude_empty fam4Law (by decide) (fun _ a => ⟨a, rfl⟩) n o hn ho hsub

example := C34_empty_v4 ex16 ex17 ex16_ok ex17_ok ex17_in_ex16

/-- C34, IPv6, all pairs. -/
theorem C34_empty_v6 (c : Cfg) (hc : c.le = true) (n o : Net V6) (hn : NetOk6 c n) (ho : NetOk6 c o)
    (hsub : ∀ t, InNet 128 o.plen (beValue o.addr.bytes) t → InNet 128 n.plen (beValue n.addr.bytes) t) :
    ∃ s b, (fam6 c).addressExclude n o = .ok s ∧ (fam6 c).exSeqEmpty s = .ok b ∧
      (b = true ↔ ∀ t, InNet 128 n.plen (beValue n.addr.bytes) t →
        InNet 128 o.plen (beValue o.addr.bytes) t ∨ Lost 128 o.plen (beValue o.addr.bytes) (beValue n.addr.bytes) t) :=
  exclude_empty (fam6Law c hc) (by show 128 < 2 ^ 64; decide) (fun h => Bool.noConfusion h) n o hn ho hsub

example := C34_empty_v6 exCfg rfl exAll6 ex32 exAll6_ok ex32_ok ex32_in_exAll6

/-- C34, a violation: of `0.0.0.0/31` without `0.0.0.1/32` the address 0 is left, but the sequence says it is empty. -/
theorem C34_empty_violated :
    ((fam4 true).addressExclude ⟨[0, 0, 0, 0], [255, 255, 255, 254], 31⟩ ⟨[0, 0, 0, 1], [255, 255, 255, 255], 32⟩ >>=
      (fam4 true).exSeqEmpty) = .ok true ∧
    InNet 32 31 0 0 ∧ ¬ InNet 32 32 1 0 := by
  refine ⟨by decide +kernel, by unfold InNet; decide, by unfold InNet; decide⟩

theorem anyExVisit_eq (c : Cfg) (fuel : Nat) (x y : AnyEx) (l : List AnyNet) (h : anyExVisit c (fuel + 1) x y = .ok l) :
    anyExEq c x y = .ok l.isEmpty := by
  have h : (anyExEq c x y >>= fun b => if b = true then (.ok [] : Res (List AnyNet))
    else anyExInc c x >>= fun next => anyExVisit c fuel next y >>= fun rest => .ok (x.cur :: rest)) = .ok l := h
  obtain ⟨b, hb, h⟩ := Res.bind_eq_ok.1 h
  rw [hb]
  split at h
  · next e => cases h; rw [e]; rfl
  · next e =>
    obtain ⟨_, _, h⟩ := Res.bind_eq_ok.1 h
    obtain ⟨_, _, h⟩ := Res.bind_eq_ok.1 h
    cases h
    simp at e
    rw [e]; rfl

/-- C49, IPv4, all pairs: what `empty` answers is what the class of IPv4 networks answers. -/
theorem C49_empty_v4 (c : Cfg) (hc : c.le = true) (n o : Net (List (BitVec 8))) (hn : NetOk4 n) (ho : NetOk4 o)
    (hsub : ∀ t, InNet 32 o.plen (beValue o.addr) t → InNet 32 n.plen (beValue n.addr) t) :
    ∃ s b, anyNetExclude c (.v4 n) (.v4 o) = .ok s ∧ anyExSeqEmpty c s = .ok b ∧
      (b = true ↔ ∀ t, InNet 32 n.plen (beValue n.addr) t →
        InNet 32 o.plen (beValue o.addr) t ∨ Lost 32 o.plen (beValue o.addr) (beValue n.addr) t) := by
  obtain ⟨s, l, h1, h2, h3, h4⟩ := C49_exclude_v4_exact c hc n o hn ho hsub
  refine ⟨s, l.isEmpty, h1, ?_, (partition_empty fam4Law l h3 _ h4).trans ?_⟩
  · have := anyExVisit_eq c _ _ _ _ (h2 (l.length + 1 + 1) (by omega))
    rw [List.isEmpty_map] at this
    exact this
  constructor
  · intro h t ht
    by_contra hc
    exact h t ⟨ht, fun g => hc (.inl g), fun g => hc (.inr g)⟩
  · rintro h t ⟨g1, g2, g3⟩
    exact (h t g1).elim g2 g3

example := C49_empty_v4 exCfg rfl ex16 ex17 ex16_ok ex17_ok ex17_in_ex16

/-- C49, IPv6, all pairs: `empty` is true exactly if the excluded network holds every address of the network. -/
theorem C49_empty_v6 (c : Cfg) (hc : c.le = true) (n o : Net V6) (hn : NetOk6 c n) (ho : NetOk6 c o)
    (hsub : ∀ t, InNet 128 o.plen (beValue o.addr.bytes) t → InNet 128 n.plen (beValue n.addr.bytes) t) :
    ∃ s b, anyNetExclude c (.v6 n) (.v6 o) = .ok s ∧ anyExSeqEmpty c s = .ok b ∧
      (b = true ↔ ∀ t, InNet 128 n.plen (beValue n.addr.bytes) t → InNet 128 o.plen (beValue o.addr.bytes) t) := by
  obtain ⟨s, l, h1, h2, _, h3, h4⟩ := (C49_exclude_v6 c hc n o hn ho).2 hsub
  refine ⟨s, l.isEmpty, h1, ?_, (partition_empty (fam6Law c hc) l h3 _ h4).trans ?_⟩
  · have := anyExVisit_eq c _ _ _ _ (h2 (l.length + 1) (by omega))
    rw [List.isEmpty_map] at this
    exact this
  constructor
  · intro h t ht
    by_contra hc
    exact h t ⟨ht, hc⟩
  · rintro h t ⟨g1, g2⟩
    exact g2 (h t g1)

example := C49_empty_v6 exCfg rfl exAll6 ex32 exAll6_ok ex32_ok ex32_in_exAll6

end Ip
