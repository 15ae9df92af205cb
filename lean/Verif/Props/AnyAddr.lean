import Verif.Props.AnyNet
import Verif.Props.Class
import Verif.Props.V4
import Verif.Lemmas.Compare
/-
Version agnostic addresses: C54, and `ip_address` for C19 and C53.
-/
set_option autoImplicit false

namespace Ip
open Spec

/-! ### C19, C53 -/

/-- C19, `ip_address`: equal addresses have equal hashes. -/
theorem C19_any_address_hash (c : Cfg) (hv : ∀ x y, c.val x = c.val y → x = y) (a b : AnyAddr)
    (ha : AddrOkAny c a) (hb : AddrOkAny c b) (h : anyEquals c.val a b = .ok true) :
    ∃ x, anyHash c.conv a = .ok x ∧ anyHash c.conv b = .ok x := by
  obtain ⟨h4, h6⟩ := C19_address_hash c.val hv c.conv c.M
  cases a <;> cases b <;> simp only [anyEquals, anyHash, Res.ok.injEq, Bool.false_eq_true] at h ⊢
  · exact ⟨_, rfl, (h4 _ _ ha hb h).symm⟩
  · exact h6 _ _ ha hb h

example : anyEquals exCfg.val (.v4 [10, 0, 0, 1]) (.v4 [10, 0, 0, 1]) = .ok true := by decide

/-- C53, `ip_address`: `swap` exchanges version, value and scope id. -/
theorem C53_any_address_swap (c : Cfg) (a b : AnyAddr) :
    let r := anySwap a b
    anyMeaning r.1 = anyMeaning b ∧ anyData r.1 = anyData b ∧ anyVersion r.1 = anyVersion b ∧
      (anyGetScope c.M r.1).contents = (anyGetScope c.M b).contents ∧
    anyMeaning r.2 = anyMeaning a ∧ anyData r.2 = anyData a ∧ anyVersion r.2 = anyVersion a ∧
      (anyGetScope c.M r.2).contents = (anyGetScope c.M a).contents :=
  ⟨rfl, rfl, rfl, rfl, rfl, rfl, rfl, rfl⟩

example : anySwap (.v4 [1, 2, 3, 4]) (anyOfBytes6 2 [0, 0]) = (anyOfBytes6 2 [0, 0], .v4 [1, 2, 3, 4]) := rfl

/-! ### C54 -/

theorem anyMeaning_inj (c : Cfg) (a b : AnyAddr) (ha : AddrOkAny c a) (hb : AddrOkAny c b) :
    anyMeaning a = anyMeaning b ↔ anyVersion a = anyVersion b ∧ anyData a = anyData b ∧
      (anyGetScope c.M a).contents = (anyGetScope c.M b).contents := by
  have e : (emptyScope c.M).contents = [] := by simp [emptyScope, FStr.contents]
  cases a with
  | v4 a =>
    cases b with
    | v4 b =>
      have h1 : a.length = 4 := ha
      have h2 : b.length = 4 := hb
      simp only [anyMeaning, anyVersion, anyData, anyGetScope, Prod.mk.injEq, true_and, and_true]
      exact ⟨beValue_inj a b (by omega), fun h => by rw [h]⟩
    | v6 b => simp [anyMeaning, anyVersion]
  | v6 a =>
    cases b with
    | v4 b => simp [anyMeaning, anyVersion]
    | v6 b =>
      have h1 := ha.1
      have h2 := hb.1
      simp only [anyMeaning, anyVersion, anyData, anyGetScope, Prod.mk.injEq, true_and]
      exact ⟨fun h => ⟨beValue_inj a.bytes b.bytes (by omega) h.1, h.2⟩, fun h => by rw [h.1]; exact ⟨rfl, h.2⟩⟩

/-- C54: version, size, bytes, scope id and the wrapped address. -/
theorem C54_accessors (c : Cfg) (a : AnyAddr) (ha : AddrOkAny c a) (six : Bool) (x : Nat) (s : List Char)
    (h : anyMeaning a = (six, x, s)) :
    anyVersion a = (if six then 6 else 4) ∧ (anyIsV4 a = true ↔ six = false) ∧ (anyIsV6 a = true ↔ six = true) ∧
    anySize a = (if six then 16 else 4) ∧ (anyData a).length = anySize a ∧ beValue (anyData a) = x ∧
    (anyGetScope c.M a).contents = s ∧ (anyGetScope c.M a).WF ∧
    (∀ b, anyV4 a = some b ↔ a = .v4 b) ∧ (∀ b, anyV6 a = some b ↔ a = .v6 b) ∧
    ((anyV4 a).isSome ↔ six = false) ∧ ((anyV6 a).isSome ↔ six = true) := by
  cases a with
  | v4 a =>
    cases h
    refine ⟨rfl, by simp [anyIsV4, anyVersion], by simp [anyIsV6, anyVersion], rfl, ha, rfl, ?_, ?_, ?_, ?_, by simp [anyV4], by simp [anyV6]⟩
    · simp [anyGetScope, emptyScope, FStr.contents]
    · simp [anyGetScope, emptyScope, FStr.WF]
    · intro b; simp [anyV4]
    · intro b; simp [anyV6]
  | v6 a =>
    cases h
    refine ⟨rfl, by simp [anyIsV4, anyVersion], by simp [anyIsV6, anyVersion], rfl, ha.1, rfl, rfl, ha.2.1, ?_, ?_, by simp [anyV4], by simp [anyV6]⟩
    · intro b; simp [anyV4]
    · intro b; simp [anyV6]

example : AddrOkAny exCfg (.v6 exScoped) ∧ anyMeaning (.v6 exScoped) = (true, 0xfe800000000000000000000000000001, ['a']) :=
  ⟨exScoped_ok, by decide +kernel⟩

/-- C54: two objects are indistinguishable by the accessors exactly when they mean the same. -/
theorem C54_meaning (c : Cfg) (a b : AnyAddr) (ha : AddrOkAny c a) (hb : AddrOkAny c b) :
    anyMeaning a = anyMeaning b ↔ anyVersion a = anyVersion b ∧ anyData a = anyData b ∧
      (anyGetScope c.M a).contents = (anyGetScope c.M b).contents := anyMeaning_inj c a b ha hb

example := C54_meaning exCfg (.v4 [10, 0, 0, 1]) (.v6 exScoped) rfl exScoped_ok

/-- C54: the default constructed object is `0.0.0.0`. -/
theorem C54_default (c : Cfg) : AddrOkAny c anyDefault ∧ anyMeaning anyDefault = (false, 0, []) := ⟨rfl, rfl⟩

/-- C54: `to_uint128` is the value, `to_uint32` its low 32 bits, and `from_uint` yields the address of the given
version with the given value and no scope id. -/
theorem C54_uint (c : Cfg) (hc : c.le = true) :
    (∀ a, AddrOkAny c a → ∃ u v, anyToUint128 c.le a = .ok u ∧ anyToUint32 c.le a = .ok v ∧
      u.val = (anyMeaning a).2.1 ∧ v.toNat = (anyMeaning a).2.1 % 2 ^ 32) ∧
    (∀ n, AddrOkAny c (anyFromUint32 c.le n) ∧ anyMeaning (anyFromUint32 c.le n) = (false, n.toNat, [])) ∧
    (∀ n, ∃ a, anyFromUint128 c.le c.M n = .ok a ∧ AddrOkAny c a ∧ anyMeaning a = (true, n.val, [])) := by
  rw [hc]
  have he : (emptyScope c.M).contents = [] := by simp [emptyScope, FStr.contents]
  refine ⟨fun a ha => ?_, fun n => ?_, fun n => ?_⟩
  · cases a with
    | v4 a =>
      match a, ha with
      | [x, y, z, w], _ =>
        refine ⟨_, _, by rw [anyToUint128, v4ToUint_le]; rfl, v4ToUint_le x y z w, ?_, ?_⟩
        · rw [ofU64_val32, cat4_toNat]; rfl
        · rw [← Nat.mod_eq_of_lt (cat4 x y z w).isLt, cat4_toNat]; rfl
    | v6 a =>
      obtain ⟨u, u1, u2⟩ := v6ToUint_val a.bytes ha.1
      refine ⟨u, _, u1, by rw [anyToUint32, u1]; rfl, u2, ?_⟩
      show _ = beValue a.bytes % _
      rw [← u2, BitVec.toNat_setWidth, U128.val]
      omega
  · obtain ⟨h1, h2⟩ := C05_v4_uint_partial.2 n
    refine ⟨h2, ?_⟩
    match hb : v4FromUint true n, h2 with
    | [x, y, z, w], _ =>
      rw [hb, v4ToUint_le] at h1
      cases h1
      simp only [anyFromUint32, hb, anyMeaning, cat4_toNat]
  · obtain ⟨b, h1, h2, h3⟩ := v6FromUint_val n
    refine ⟨.v6 ⟨b, emptyScope c.M⟩, by rw [anyFromUint128, h1]; rfl, ⟨h2, by simp [emptyScope, FStr.WF], by simp [emptyScope]⟩, ?_⟩
    simp only [anyMeaning, h3, he]

example : anyToUint32 true (.v6 ⟨[0, 0, 0, 0, 0, 0, 0, 0, 0, 0, 0, 7, 0, 0, 1, 2], emptyScope 4⟩) = .ok 258#32 ∧
    anyFromUint32 true 258#32 = .v4 [0, 0, 1, 2] := by decide +kernel

/-- C54: on hosts of both byte orders `from_uint` undoes `to_uint32` (IPv4) and `to_uint128` (IPv6 without scope id). -/
theorem C54_uint_inverse (c : Cfg) :
    (∀ b, b.length = 4 → (anyToUint32 c.le (.v4 b) >>= fun n => .ok (anyFromUint32 c.le n)) = .ok (.v4 b)) ∧
    (∀ b, b.length = 16 → (anyToUint128 c.le (anyOfBytes6 c.M b) >>= anyFromUint128 c.le c.M) = .ok (anyOfBytes6 c.M b)) := by
  constructor
  · intro b hb
    match b, hb with
    | [x, y, z, w], _ =>
      have h := (C05_v4_uint_inverse c.le).1 x y z w
      obtain ⟨u, h1, h2⟩ := Res.bind_eq_ok.1 h
      rw [anyToUint32, h1, Res.ok_bind, anyFromUint32]
      cases h2
      rfl
  · intro b hb
    have h := (C14_v6_uint_inverse c.le b hb ⟨0, 0⟩).1
    obtain ⟨u, h1, h2⟩ := Res.bind_eq_ok.1 h
    rw [anyOfBytes6, anyToUint128, h1, Res.ok_bind, anyFromUint128, h2]
    rfl

example := (C54_uint_inverse exCfg).1 [192, 168, 7, 9] rfl
example := (C54_uint_inverse exCfg).2 ex32.addr.bytes rfl

/-- C54: the factories from bytes.  From a buffer, at most `size` bytes are copied and the rest is zero; the buffer
is not read beyond `count`. -/
theorem C54_from_bytes (c : Cfg) :
    (∀ b, b.length = 4 → AddrOkAny c (anyOfBytes4 b) ∧ anyMeaning (anyOfBytes4 b) = (false, beValue b, [])) ∧
    (∀ b, b.length = 16 → AddrOkAny c (anyOfBytes6 c.M b) ∧ anyMeaning (anyOfBytes6 c.M b) = (true, beValue b, [])) ∧
    (∀ src count six, count ≤ src.length → ∃ a, anyFromBytes c.M src count six = .ok a ∧ AddrOkAny c a ∧
      anyIsV6 a = six ∧ (anyMeaning a).2.2 = [] ∧
      ∀ i, i < (if six then 16 else 4) → (anyData a)[i]? = if i < count then src[i]? else some 0#8) := by
  have he : (emptyScope c.M).contents = [] := by simp [emptyScope, FStr.contents]
  refine ⟨fun b hb => ⟨hb, rfl⟩, fun b hb => ⟨⟨hb, by simp [emptyScope, FStr.WF], by simp [emptyScope]⟩, ?_⟩, ?_⟩
  · simp only [anyOfBytes6, anyMeaning, he]
  · intro src count six h
    cases six with
    | false =>
      obtain ⟨r, h1, h2, h3⟩ := C07_from_bytes 4 src count h
      exact ⟨.v4 r, by rw [anyFromBytes, h1]; rfl, h2, rfl, rfl, h3⟩
    | true =>
      obtain ⟨r, h1, h2, h3⟩ := C07_from_bytes 16 src count h
      exact ⟨.v6 ⟨r, emptyScope c.M⟩, by rw [anyFromBytes, h1]; rfl,
        ⟨h2, by simp [emptyScope, FStr.WF], by simp [emptyScope]⟩, rfl, he, h3⟩

example : anyFromBytes 2 [1, 2, 3] 3 false = .ok (.v4 [1, 2, 3, 0]) := by decide

/-- C54: the classification is the one of the registries of the version.  `is_private` and `is_global` are in
`C54_private_partial`. -/
theorem C54_classes (c : Cfg) (hc : c.le = true) (a : AnyAddr) (ha : AddrOkAny c a) :
    (∃ r, anyIsMulticast c a = .ok r ∧ (r = true ↔ byVersion Multicast4 Multicast6 (anyMeaning a))) ∧
    (∃ r, anyIsReserved c a = .ok r ∧ (r = true ↔ byVersion Reserved4 Reserved6 (anyMeaning a))) ∧
    (∃ r, anyIsLoopback c a = .ok r ∧ (r = true ↔ byVersion Loopback4 (· = 1) (anyMeaning a))) ∧
    (∃ r, anyIsLinkLocal c a = .ok r ∧ (r = true ↔ byVersion LinkLocal4 LinkLocal6 (anyMeaning a))) ∧
    (anyIsUnspecified a = true ↔ (anyMeaning a).2.1 = 0) ∧
    (∃ r, anyIsSiteLocal c a = .ok r ∧ (r = true ↔ byVersion (fun _ => False) SiteLocal6 (anyMeaning a))) := by
  cases a with
  | v4 a =>
    simp only [anyIsMulticast, anyIsReserved, anyIsLoopback, anyIsLinkLocal, anyIsUnspecified, anyIsSiteLocal, hc, anyMeaning,
      byVersion, Bool.false_eq_true, if_false]
    exact ⟨C39_v4_multicast a ha, C39_v4_reserved a ha, C39_v4_loopback a ha, C39_v4_link_local a ha, C39_unspecified a,
      false, rfl, by simp⟩
  | v6 a =>
    exact ⟨C39_v6_multicast c hc a ha, C39_v6_reserved c hc a ha, C39_v6_loopback a ha.1, C39_v6_link_local c hc a ha,
      C39_unspecified a.bytes, C39_v6_site_local c hc a ha⟩

example := C54_classes exCfg rfl (.v6 exScoped) exScoped_ok

/-- C54 (partial): `is_private` and `is_global`.  Missing: the IPv6 addresses outside `::ffff:0:0/96` whose bits
32..47 are ones, which the IPv6 class misjudges (`C39_v6_private_wrong`). -/
theorem C54_private_partial (c : Cfg) (hc : c.le = true) (a : AnyAddr) (ha : AddrOkAny c a)
    (hm : byVersion (fun _ => True) (fun x => x / 2 ^ 32 % 2 ^ 16 = 0xffff → Mapped6 x) (anyMeaning a)) :
    ∃ r g, anyIsPrivate c a = .ok r ∧ anyIsGlobal c a = .ok g ∧
      (r = true ↔ byVersion Private4 (fun x => Private6 x ∨ (Mapped6 x ∧ Private4 (x % 2 ^ 32))) (anyMeaning a)) ∧
      (g = true ↔ r = false ∧ byVersion (fun x => ¬ Shared4 x) (fun _ => True) (anyMeaning a)) := by
  cases a with
  | v4 a =>
    obtain ⟨r, r1, r2⟩ := C39_v4_private a ha
    obtain ⟨g, g1, g2⟩ := C39_v4_global a ha
    refine ⟨r, g, by rw [anyIsPrivate, hc, r1], by rw [anyIsGlobal, hc, g1], r2, ?_⟩
    rw [g2, ← r2]
    simp [byVersion, anyMeaning]
  | v6 a =>
    obtain ⟨r, r1, r2⟩ := C39_v6_private_partial c hc a ha hm
    refine ⟨r, !r, r1, C39_v6_global c a r r1, r2, ?_⟩
    simp [byVersion, anyMeaning]

example : byVersion (fun _ => True) (fun x => x / 2 ^ 32 % 2 ^ 16 = 0xffff → Mapped6 x) (anyMeaning (.v6 exScoped)) := by
  intro h; exact absurd h (by decide +kernel)

/-- C54 (partial): embedded IPv4 addresses: none in an IPv4 address, otherwise as in the IPv6 class.  Missing: for
`ipv4_mapped` the condition is on bits 32..47 only (`C16_mapped_wrong`). -/
theorem C54_embedded_partial (c : Cfg) (a : AnyAddr) (ha : AddrOkAny c a) :
    ∃ m s t, anyMapped a = .ok m ∧ anySixToFour a = .ok s ∧ anyTeredo a = .ok t ∧
      (m.isSome ↔ byVersion (fun _ => False) (fun x => x / 2 ^ 32 % 2 ^ 16 = 0xffff) (anyMeaning a)) ∧
      (∀ v, m = some v → v.length = 4 ∧ beValue v = (anyMeaning a).2.1 % 2 ^ 32) ∧
      (s.isSome ↔ byVersion (fun _ => False) (fun x => x / 2 ^ 112 = 0x2002) (anyMeaning a)) ∧
      (∀ v, s = some v → v.length = 4 ∧ beValue v = (anyMeaning a).2.1 / 2 ^ 80 % 2 ^ 32) ∧
      (t.isSome ↔ byVersion (fun _ => False) (fun x => x / 2 ^ 96 = 0x20010000) (anyMeaning a)) ∧
      (∀ v w, t = some (v, w) → v.length = 4 ∧ w.length = 4 ∧ beValue v = (anyMeaning a).2.1 / 2 ^ 64 % 2 ^ 32 ∧
        beValue w = 2 ^ 32 - 1 - (anyMeaning a).2.1 % 2 ^ 32) := by
  cases a with
  | v4 a =>
    refine ⟨none, none, none, rfl, rfl, rfl, by simp [byVersion, anyMeaning], ?_, by simp [byVersion, anyMeaning], ?_,
      by simp [byVersion, anyMeaning], ?_⟩ <;> intros <;> contradiction
  | v6 a =>
    obtain ⟨m, m1, _, m2, m3⟩ := C16_mapped_partial a.bytes ha.1
    obtain ⟨s, s1, s2, s3⟩ := C16_sixtofour a.bytes ha.1
    obtain ⟨t, t1, t2, t3⟩ := C16_teredo a.bytes ha.1
    exact ⟨m, s, t, m1, s1, t1, m2, m3, s2, s3, t2, t3⟩

example := C54_embedded_partial exCfg (.v6 exScoped) exScoped_ok

/-- C54: `set_scope_id` has no effect and reports no error for IPv4; for IPv6 it keeps version and value, keeps the
object valid, and changes nothing when it reports an error. -/
theorem C54_set_scope (c : Cfg) (size : Nat) (evs : List Ev) (hs : evs.length ≤ size) :
    (∀ b, anySetScope c.spaces c.M (.v4 b) size evs = .ok (.v4 b, none)) ∧
    (∀ a : V6, a.Good c.spaces c.M → ∃ b e, anySetScope c.spaces c.M (.v6 a) size evs = .ok (b, e) ∧ AddrOkAny c b ∧
      (anyMeaning b).1 = true ∧ (anyMeaning b).2.1 = beValue a.bytes ∧ (e.isSome → b = .v6 a)) := by
  refine ⟨fun b => rfl, fun a ha => ?_⟩
  obtain ⟨b, e, h1, h2, h3, h4⟩ := C17_set_scope_safe c.spaces c.M a ha size evs hs
  exact ⟨.v6 b, e, by rw [anySetScope, h1]; rfl, h2.1, rfl, by simp [anyMeaning, h3], fun h => by rw [h4 h]⟩

example := C54_set_scope exCfg 5 (readChars "eth0".toList) (by decide)

/-- C54 (partial): texts without NUL: the scope id becomes the text exactly when the text is admissible. -/
theorem C54_set_scope_text_partial (c : Cfg) (hM : c.M ≠ 0) (a : V6) (ha : a.WF c.M) (s : List Char)
    (hn : ∀ ch ∈ s, ch ≠ '\x00') :
    ∃ b e, anySetScope c.spaces c.M (.v6 a) s.length (readChars s) = .ok (b, e) ∧ AddrOkAny c b ∧
      (ZoneOk c.spaces c.M s → e = none ∧ anyMeaning b = (true, beValue a.bytes, s)) ∧
      (¬ ZoneOk c.spaces c.M s → e.isSome ∧ b = .v6 a) := by
  obtain ⟨b, e, h1, h2, h3, h4, h5⟩ := C17_set_scope_partial c.spaces c.M hM a ha s hn
  refine ⟨.v6 b, e, by rw [anySetScope, h1]; rfl, h2, fun h => ?_, fun h => ?_⟩
  · exact ⟨(h4 h).1, by simp [anyMeaning, h3, (h4 h).2]⟩
  · exact ⟨(h5 h).1, by rw [(h5 h).2]⟩

example := C54_set_scope_text_partial exCfg (by decide) exScoped exScoped_ok "eth0".toList (by decide)

theorem scopeLt_nil (val : Char → Int) : ¬ ScopeLt val [] [] := by
  rintro (⟨x, r, h⟩ | ⟨p, x, y, r, r', h, _⟩)
  · simp at h
  · cases p <;> simp at h

/-- C54: the order of the specification is a strict total order. -/
theorem C54_order_total (val : Char → Int) (hv : ∀ x y, val x = val y → x = y) (p q r : Bool × Nat × List Char) :
    OneOf (AnyLt val p q) (p = q) (AnyLt val q p) ∧ (AnyLt val p q → AnyLt val q r → AnyLt val p r) := by
  obtain ⟨p1, p2, p3⟩ := p
  obtain ⟨q1, q2, q3⟩ := q
  obtain ⟨r1, r2, r3⟩ := r
  have t := C15_v6_order_total val hv
  have i1 := (t p2 p2 p2 p3 p3 p3).1
  have i2 := fun h => (t p2 q2 p2 p3 q3 p3).2.1 h
  have i3 := (t p2 q2 r2 p3 q3 r3).2.2
  have i4 := (t p2 q2 r2 p3 q3 r3).2.1
  unfold AnyLt OneOf
  simp only [Prod.mk.injEq]
  refine ⟨⟨?_, ?_, ?_, ?_⟩, ?_⟩
  · cases p1 <;> cases q1 <;> simp <;> tauto
  · rintro ⟨h, rfl, rfl, rfl⟩
    rcases h with ⟨h, h'⟩ | h
    · rw [h] at h'; cases h'
    · exact i1 h.2
  · rintro ⟨h, h'⟩
    cases p1 <;> cases q1 <;> simp at h h'
    · exact i1 (i2 h h')
    · exact i1 (i2 h h')
  · rintro ⟨⟨rfl, rfl, rfl⟩, h⟩
    rcases h with ⟨h, h'⟩ | h
    · rw [h] at h'; cases h'
    · exact i1 h.2
  · cases p1 <;> cases q1 <;> cases r1 <;> simp <;> assumption

example := C54_order_total exCfg.val exCfg_val (true, 7, []) (false, 9, "a".toList) (false, 9, "b".toList)

theorem anyLt_v4 (val : Char → Int) (a b : List (BitVec 8)) :
    AnyLt val (anyMeaning (.v4 a)) (anyMeaning (.v4 b)) ↔ beValue a < beValue b := by
  simp [AnyLt, anyMeaning, V6Lt, scopeLt_nil]

theorem anyLt_v6 (val : Char → Int) (a b : V6) :
    AnyLt val (anyMeaning (.v6 a)) (anyMeaning (.v6 b)) ↔
      V6Lt val (beValue a.bytes) a.scope.contents (beValue b.bytes) b.scope.contents := by
  simp [AnyLt, anyMeaning]

theorem any_eq_cmp (c : Cfg) (hv : ∀ x y, c.val x = c.val y → x = y) (a b : AnyAddr) (ha : AddrOkAny c a) (hb : AddrOkAny c b) :
    ∃ e o, anyEquals c.val a b = .ok e ∧ anyCompare c.val a b = .ok o ∧ (e = true ↔ anyMeaning a = anyMeaning b) ∧
      (o = .lt ↔ AnyLt c.val (anyMeaning a) (anyMeaning b)) ∧ (o = .eq ↔ anyMeaning a = anyMeaning b) ∧
      (o = .gt ↔ AnyLt c.val (anyMeaning b) (anyMeaning a)) := by
  cases a with
  | v4 a =>
    cases b with
    | v4 b =>
      have hl : a.length = b.length := Eq.trans ha (Eq.symm hb)
      obtain ⟨h1, _, h2, _⟩ := C06_order_numeric a b hl
      obtain ⟨n1, n2, n3⟩ := nat_compare (beValue a) (beValue b)
      refine ⟨_, _, rfl, rfl, ?_, ?_, ?_, ?_⟩
      · rw [h1]; simp [anyMeaning]
      · rw [h2, n1, anyLt_v4]
      · rw [h2, n2]; simp [anyMeaning]
      · rw [h2, n3, anyLt_v4]
    | v6 b => exact ⟨_, _, rfl, rfl, by simp [anyMeaning], by simp [anyMeaning, AnyLt], by simp [anyMeaning], by simp [anyMeaning, AnyLt]⟩
  | v6 a =>
    cases b with
    | v4 b => exact ⟨_, _, rfl, rfl, by simp [anyMeaning], by simp [anyMeaning, AnyLt], by simp [anyMeaning], by simp [anyMeaning, AnyLt]⟩
    | v6 b =>
      obtain ⟨o, e, h1, h2, h3, h4, h5, h6⟩ := C15_v6_compare c.val hv c.M a b ha hb
      have hi : a.bytes = b.bytes ↔ beValue a.bytes = beValue b.bytes :=
        ⟨fun h => by rw [h], beValue_inj _ _ (by rw [ha.1, hb.1])⟩
      refine ⟨e, o, h2, h1, ?_, by rw [h3, anyLt_v6], ?_, by rw [h4, anyLt_v6]⟩
      · rw [h6, hi]; simp [anyMeaning]
      · rw [h5, hi]; simp [anyMeaning]

/-- C54 (partial): the comparison operators of `ip_address` are those of the order "IPv4 before IPv6, then by value,
then by scope id", in both language modes.  Missing: without `<=>`, IPv6 addresses that differ in value and in scope
id (`C54_order_wrong`). -/
theorem C54_order_partial (c : Cfg) (hv : ∀ x y, c.val x = c.val y → x = y) (a b : AnyAddr)
    (ha : AddrOkAny c a) (hb : AddrOkAny c b)
    (hx : c.spaceship = true ∨ (anyMeaning a).2.1 = (anyMeaning b).2.1 ∨ (anyMeaning a).2.2 = (anyMeaning b).2.2) :
    ∃ r, anyCmpOps c a b = .ok r ∧ Describes r (AnyLt c.val (anyMeaning a) (anyMeaning b)) (anyMeaning a = anyMeaning b)
      (AnyLt c.val (anyMeaning b) (anyMeaning a)) := by
  obtain ⟨e, o, e1, o1, h1, h2, h3, h4⟩ := any_eq_cmp c hv a b ha hb
  have t := (C54_order_total c.val hv (anyMeaning a) (anyMeaning b) (anyMeaning b)).1
  unfold anyCmpOps cmpOps
  by_cases hs : c.spaceship = true
  · rw [if_pos hs]
    exact opsCmp_describes e1 o1 h1 h2 h3 h4
  · rw [if_neg hs]
    have hx := hx.resolve_left hs
    have key : ∀ a b : AnyAddr, AddrOkAny c a → AddrOkAny c b →
        (anyMeaning a).2.1 = (anyMeaning b).2.1 ∨ (anyMeaning a).2.2 = (anyMeaning b).2.2 →
        ∃ l, anyLess c.val a b = .ok l ∧ (l = true ↔ AnyLt c.val (anyMeaning a) (anyMeaning b)) := by
      intro a b ha hb hx
      cases a with
      | v4 a =>
        cases b with
        | v4 b =>
          have hl : a.length = b.length := Eq.trans ha (Eq.symm hb)
          exact ⟨_, rfl, by rw [anyLt_v4]; exact (C06_order_numeric a b hl).2.1⟩
        | v6 b => exact ⟨_, rfl, by simp [anyMeaning, AnyLt]⟩
      | v6 a =>
        cases b with
        | v4 b => exact ⟨_, rfl, by simp [anyMeaning, AnyLt]⟩
        | v6 b =>
          rw [anyLt_v6]
          refine C15_v6_less_partial c.val hv c.M a b ha hb ?_
          rintro ⟨k1, k2⟩
          rcases hx with hx | hx
          · simp only [anyMeaning] at hx; omega
          · simp only [anyMeaning] at hx
            rw [hx] at k2
            exact (C15_v6_order_total c.val hv 0 0 0 b.scope.contents [] []).1 (.inr ⟨rfl, k2⟩)
    obtain ⟨l, l1, l2⟩ := key a b ha hb hx
    obtain ⟨g, g1, g2⟩ := key b a hb ha (hx.imp Eq.symm Eq.symm)
    exact opsLess_describes t e1 l1 g1 h1 l2 g2

example : (anyMeaning (.v4 [1, 2, 3, 4])).2.2 = (anyMeaning (.v4 [5, 6, 7, 8])).2.2 := rfl
example : anyCmpOps exCfg (.v4 [255, 0, 0, 0]) (.v6 exScoped) = .ok ⟨false, true, true, false, true, false⟩ := by decide +kernel

/-- C54, negation without `<=>`: `::2%a` and `::1%b` are both less than, and both greater than, each other. -/
theorem C54_order_wrong : ∃ a b : AnyAddr, AddrOkAny { exCfg with spaceship := false } a ∧
    AddrOkAny { exCfg with spaceship := false } b ∧
    anyCmpOps { exCfg with spaceship := false } a b = .ok ⟨false, true, true, true, false, false⟩ :=
  ⟨.v6 ⟨[0, 0, 0, 0, 0, 0, 0, 0, 0, 0, 0, 0, 0, 0, 0, 2], ⟨'a' :: List.replicate 15 '\x00', 1⟩⟩,
   .v6 ⟨[0, 0, 0, 0, 0, 0, 0, 0, 0, 0, 0, 0, 0, 0, 0, 1], ⟨'b' :: List.replicate 15 '\x00', 1⟩⟩,
   ⟨rfl, by simp [FStr.WF], by simp [exCfg]⟩, ⟨rfl, by simp [FStr.WF], by simp [exCfg]⟩, by decide +kernel⟩

end Ip
