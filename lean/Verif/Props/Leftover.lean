import Verif.Props.Reverse
import Verif.Props.StdAlgo
import Verif.Props.ClassNet
import Verif.Props.AnyAddr
import Verif.Props.AnyNet
import Verif.Props.Texts
/-
C21 and C40 for the classes that hold either version, and C36 for postfix operators.
-/
set_option autoImplicit false

namespace Ip
open Spec

/-! ### C21 -/

theorem suffix_ne (s t : List Char) : s ++ inAddrArpa ≠ t ++ ip6Arpa := by
  intro h
  have := congrArg (fun l => (l.reverse[5]?)) h
  simp [inAddrArpa, ip6Arpa] at this

/-- C21, `ip_address`: the pointer is the one of the version; different addresses, of whatever versions, have different
pointers, where the scope id is no part of an address. -/
theorem C21_any (c : Cfg) (le : Bool) :
    (∀ a b x y : BitVec 8, anyReversePointer le c.M (.v4 [a, b, x, y]) = .ok (dotted y x b a ++ inAddrArpa)) ∧
    (∀ a : V6, a.WF c.M → anyReversePointer le c.M (.v6 a) = .ok (dotJoin (nibbles 32 (beValue a.bytes)) ++ ip6Arpa)) ∧
    ∀ a b : AnyAddr, AddrOkAny c a → AddrOkAny c b →
      (anyReversePointer le c.M a = anyReversePointer le c.M b ↔
        (anyMeaning a).1 = (anyMeaning b).1 ∧ (anyMeaning a).2.1 = (anyMeaning b).2.1) := by
  have h4 : ∀ a b x y : BitVec 8, anyReversePointer le c.M (.v4 [a, b, x, y]) = .ok (dotted y x b a ++ inAddrArpa) :=
    fun a b x y => C21_v4_reverse_pointer le a b x y
  have h6 : ∀ a : V6, a.WF c.M → anyReversePointer le c.M (.v6 a) = .ok (dotJoin (nibbles 32 (beValue a.bytes)) ++ ip6Arpa) :=
    fun a ha => C21_v6_reverse_pointer c.M a.bytes ha.1
  refine ⟨h4, h6, ?_⟩
  intro a b ha hb
  have cross : ∀ (p : List (BitVec 8)) (q : V6), p.length = 4 → q.WF c.M →
      anyReversePointer le c.M (.v4 p) ≠ anyReversePointer le c.M (.v6 q) := by
    intro p q hp hq e
    match p, hp with
    | [p0, p1, p2, p3], _ =>
      rw [h4, h6 q hq] at e
      injection e with e
      exact suffix_ne _ _ e
  cases a with
  | v4 a =>
    cases b with
    | v4 b =>
      refine ⟨fun h => ?_, fun h => ?_⟩
      · rw [(C21_injective le c.M).1 a b ha hb h]; exact ⟨rfl, rfl⟩
      · rw [beValue_inj a b (ha.trans hb.symm) h.2]
    | v6 b => exact ⟨fun h => absurd h (cross a b ha hb), fun h => by simp [anyMeaning] at h⟩
  | v6 a =>
    cases b with
    | v4 b => exact ⟨fun h => absurd h.symm (cross b a hb ha), fun h => by simp [anyMeaning] at h⟩
    | v6 b =>
      refine ⟨fun h => ?_, fun h => ?_⟩
      · have := (C21_injective le c.M).2 a.bytes b.bytes ha.1 hb.1 h
        exact ⟨rfl, by simp only [anyMeaning]; rw [this]⟩
      · have := beValue_inj a.bytes b.bytes (ha.1.trans hb.1.symm) h.2
        rw [h6 a ha, h6 b hb, this]

example : anyReversePointer true 16 (.v6 exScoped) = anyReversePointer true 16 (.v6 { exScoped with scope := emptyScope 16 }) := rfl

/-! ### C40 -/

/-- Every address of a network of either version is of the class. -/
def EveryAddr (n : AnyNet) (P4 P6 : Nat → Prop) : Prop :=
  match n with
  | .v4 n => ∀ x, InNet 32 n.plen (beValue n.addr) x → P4 x
  | .v6 n => ∀ x, InNet 128 n.plen (beValue n.addr.bytes) x → P6 x

/-- C40, `ip_network`: a network is multicast, loopback, link local, unspecified or site local if all its addresses are. -/
theorem C40_any (c : Cfg) (hc : c.le = true) (n : AnyNet) (hn : NetOkAny c n) :
    (∃ r, anyNetIsMulticast c n = .ok r ∧ (r = true ↔ EveryAddr n Multicast4 Multicast6)) ∧
    (∃ r, anyNetIsLoopback c n = .ok r ∧ (r = true ↔ EveryAddr n Loopback4 (· = 1))) ∧
    (∃ r, anyNetIsLinkLocal c n = .ok r ∧ (r = true ↔ EveryAddr n LinkLocal4 LinkLocal6)) ∧
    (∃ r, anyNetIsUnspecified c n = .ok r ∧ (r = true ↔ EveryAddr n (· = 0) (· = 0))) ∧
    (∃ r, anyNetIsSiteLocal c n = .ok r ∧ (r = true ↔ EveryAddr n (fun _ => False) SiteLocal6)) := by
  cases n with
  | v4 n =>
    simp only [anyNetIsMulticast, anyNetIsLoopback, anyNetIsLinkLocal, anyNetIsUnspecified, anyNetIsSiteLocal, hc, EveryAddr]
    refine ⟨C40_v4_multicast n hn, C40_v4_loopback n hn, C40_v4_link_local n hn, C40_v4_unspecified n hn, false, rfl, ?_⟩
    simp only [Bool.false_eq_true, false_iff]
    intro h
    exact h (beValue n.addr) ((inNet_interval fam4Law n hn _).2 ⟨Nat.le_refl _, by
      show beValue n.addr < beValue n.addr + 2 ^ (32 - n.plen)
      have := Nat.two_pow_pos (32 - n.plen); omega⟩)
  | v6 n =>
    exact ⟨C40_v6_multicast c hc n hn, C40_v6_loopback c hc n hn, C40_v6_link_local c hc n hn, C40_v6_unspecified c hc n hn,
      C40_v6_site_local c hc n hn⟩

example := C40_any exCfg rfl (.v6 ex32) ex32_ok

/-- C40 (partial), `ip_network`: `is_private`, `is_global` and `is_reserved`.  Missing: what `C40_v6_private_wrong`,
`C40_v4_global_wrong` and `C40_v6_reserved_wrong` show; the exceptions appear here as conditions on the network. -/
theorem C40_any_registries_partial (c : Cfg) (hc : c.le = true) (n : AnyNet) (hn : NetOkAny c n) :
    (∃ r, anyNetIsPrivate c n = .ok r ∧ (r = true ↔ EveryAddr n Private4 (fun x => Private6 x ∨ Mapped6 x) ∧
      ¬ ∃ m, n = .v6 m ∧ beValue m.addr.bytes = 0 ∧ m.plen = 127)) ∧
    (∃ r g, anyNetIsPrivate c n = .ok r ∧ anyNetIsGlobal c n = .ok g ∧
      (g = true ↔ r = false ∧ (∀ m, n = .v4 m → ¬ EveryAddr n Shared4 (fun _ => False)))) ∧
    (∃ r, anyNetIsReserved c n = .ok r ∧ (r = true ↔ EveryAddr n Reserved4 Reserved6 ∨
      ∃ m, n = .v6 m ∧ beValue m.addr.bytes = 0 ∧ m.plen = 1)) := by
  cases n with
  | v4 n =>
    simp only [anyNetIsPrivate, anyNetIsGlobal, anyNetIsReserved, hc, EveryAddr]
    obtain ⟨p, p1, p2⟩ := C40_v4_private n hn
    obtain ⟨g, g1, g2, _⟩ := C40_v4_global_partial n hn
    obtain ⟨r, r1, r2⟩ := C40_v4_reserved n hn
    refine ⟨⟨p, p1, by rw [p2]; simp⟩, ⟨p, g, p1, g1, ?_⟩, ⟨r, r1, by rw [r2]; simp⟩⟩
    rw [g2, ← p2]
    simp only [AnyNet.v4.injEq, forall_eq', Bool.not_eq_true]
    exact And.comm
  | v6 n =>
    obtain ⟨p, p1, p2⟩ := C40_v6_private_partial c hc n hn
    have g1 := C40_v6_global c n p p1
    obtain ⟨r, r1, r2⟩ := C40_v6_reserved_partial c hc n hn
    refine ⟨⟨p, p1, by rw [p2]; simp [EveryAddr]⟩, ⟨p, !p, p1, g1, by simp⟩, ⟨r, r1, by rw [r2]; simp [EveryAddr]⟩⟩

example : NetOkAny exCfg (.v4 ex16) ∧ anyNetIsPrivate exCfg (.v4 ex16) = .ok true := ⟨by
  exact ex16_ok, by decide +kernel⟩

/-! ### C36 -/

/-- C36: postfix `++` and `--` give the old iterator and move it by one place; they undo each other.  The same for
reverse iterators, which move the other way. -/
theorem C36_postfix (c : Cfg) (hc : c.le = true) :
    (∀ x : AIter (List (BitVec 8)) (BitVec 32), x.Ok (fam4 true) BitVec.toNat → ∃ y,
      (fam4 true).aiRa.postInc x = .ok (x, y) ∧ (fam4 true).aiRa.postDec y = .ok (y, x) ∧
      (fam4 true).aiRa.rev.postDec ⟨x⟩ = .ok (⟨x⟩, ⟨y⟩) ∧ (fam4 true).aiRa.rev.postInc ⟨y⟩ = .ok (⟨y⟩, ⟨x⟩) ∧
      beValue y.cur = (beValue x.cur + 1) % 2 ^ 32) ∧
    (∀ x : AIter V6 U128, x.Ok (fam6 c) U128.val → ∃ y,
      (fam6 c).aiRa.postInc x = .ok (x, y) ∧ (fam6 c).aiRa.postDec y = .ok (y, x) ∧
      (fam6 c).aiRa.rev.postDec ⟨x⟩ = .ok (⟨x⟩, ⟨y⟩) ∧ (fam6 c).aiRa.rev.postInc ⟨y⟩ = .ok (⟨y⟩, ⟨x⟩) ∧
      beValue y.cur.bytes = (beValue x.cur.bytes + 1) % 2 ^ 128) ∧
    (∀ (step : BitVec 32) (p : Nat) (x : NIter (List (BitVec 8)) (BitVec 32)), step.toNat % 2 ^ (32 - p) = 0 →
      x.Ok (fam4 true) BitVec.toNat step p → ∃ y,
      (fam4 true).niRa.postInc x = .ok (x, y) ∧ (fam4 true).niRa.postDec y = .ok (y, x) ∧
      (fam4 true).niRa.rev.postDec ⟨x⟩ = .ok (⟨x⟩, ⟨y⟩) ∧ (fam4 true).niRa.rev.postInc ⟨y⟩ = .ok (⟨y⟩, ⟨x⟩) ∧
      beValue y.cur.addr = (beValue x.cur.addr + step.toNat) % 2 ^ 32) ∧
    (∀ (step : U128) (p : Nat) (x : NIter V6 U128), step.val % 2 ^ (128 - p) = 0 → x.Ok (fam6 c) U128.val step p → ∃ y,
      (fam6 c).niRa.postInc x = .ok (x, y) ∧ (fam6 c).niRa.postDec y = .ok (y, x) ∧
      (fam6 c).niRa.rev.postDec ⟨x⟩ = .ok (⟨x⟩, ⟨y⟩) ∧ (fam6 c).niRa.rev.postInc ⟨y⟩ = .ok (⟨y⟩, ⟨x⟩) ∧
      beValue y.cur.addr.bytes = (beValue x.cur.addr.bytes + step.val) % 2 ^ 128) := by
  have gen : ∀ {I V U : Type} (O : RaOps I V U) (x y : I), O.inc x = .ok y → O.dec y = .ok x →
      O.postInc x = .ok (x, y) ∧ O.postDec y = .ok (y, x) ∧ O.rev.postDec ⟨x⟩ = .ok (⟨x⟩, ⟨y⟩) ∧
        O.rev.postInc ⟨y⟩ = .ok (⟨y⟩, ⟨x⟩) := by
    intro I V U O x y h1 h2
    simp only [RaOps.postInc, RaOps.postDec, RaOps.rev, h1, h2, Res.ok_bind, and_self]
  have ka : ∀ {A U : Type} {F : Fam A U} {WF : A → Prop} {val : U → Nat} (_ : F.Law WF val) (x : AIter A U), x.Ok F val →
      ∃ y, F.aiRa.postInc x = .ok (x, y) ∧ F.aiRa.postDec y = .ok (y, x) ∧ F.aiRa.rev.postDec ⟨x⟩ = .ok (⟨x⟩, ⟨y⟩) ∧
        F.aiRa.rev.postInc ⟨y⟩ = .ok (⟨y⟩, ⟨x⟩) ∧ F.v y.cur = (F.v x.cur + 1) % 2 ^ F.maxPrefix := by
    intro A U F WF val L x hx
    obtain ⟨_, _, y, z, h1, _, h2, _, _, _, h3, _⟩ := aiter_laws L x hx (F.ops.ofI64 1#64) (F.ops.ofI64 1#64)
    obtain ⟨g1, g2, g3, g4⟩ := gen F.aiRa x y h1 h2
    exact ⟨y, g1, g2, g3, g4, h3⟩
  have kn : ∀ {A U : Type} {F : Fam A U} {WF : A → Prop} {val : U → Nat} (_ : F.Law WF val) (step : U) (p : Nat) (x : NIter A U),
      val step % 2 ^ (F.maxPrefix - p) = 0 → x.Ok F val step p →
      ∃ y, F.niRa.postInc x = .ok (x, y) ∧ F.niRa.postDec y = .ok (y, x) ∧ F.niRa.rev.postDec ⟨x⟩ = .ok (⟨x⟩, ⟨y⟩) ∧
        F.niRa.rev.postInc ⟨y⟩ = .ok (⟨y⟩, ⟨x⟩) ∧ F.v y.cur.addr = (F.v x.cur.addr + val step) % 2 ^ F.maxPrefix := by
    intro A U F WF val L step p x hs hx
    obtain ⟨_, _, y, z, h1, _, h2, _, _, _, h3⟩ := niter_laws L step p hs x hx (F.ops.ofI64 1#64) (F.ops.ofI64 1#64)
    obtain ⟨g1, g2, g3, g4⟩ := gen F.niRa x y h1 h2
    exact ⟨y, g1, g2, g3, g4, h3⟩
  exact ⟨fun x hx => ka fam4Law x hx, fun x hx => ka (fam6Law c hc) x hx, fun s p x => kn fam4Law s p x,
    fun s p x => kn (fam6Law c hc) s p x⟩

example := C36_postfix exCfg rfl

/-! ### C59 -/

/-- C59: what the theorems about streams and texts of other character types assume holds for the three encodings. -/
theorem C59_encodings : wide8.Ok ∧ wide16.Ok ∧ wide32.Ok := ⟨wide8_ok, wide16_ok, wide32_ok⟩

end Ip
