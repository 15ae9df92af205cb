import Verif.Props.Unicode
import Verif.Props.NetIter
import Verif.Props.NetText
import Verif.Props.Throw
import Verif.Spec.AnyNet
import Verif.Lemmas.AnyNetParse
/-
Version agnostic networks: C49, and `ip_network` for C19, C50, C51 and C53.  Little endian hosts.
-/
set_option autoImplicit false

namespace Ip
open Spec

/-- The invariant of `ip_network` objects. -/
def NetOkAny (c : Cfg) : AnyNet → Prop
  | .v4 n => NetOk4 n
  | .v6 n => NetOk6 c n

/-- The invariant of `ip_address` objects. -/
def AddrOkAny (c : Cfg) : AnyAddr → Prop
  | .v4 a => a.length = 4
  | .v6 a => a.WF c.M

/-- No scope id. -/
def PlainAny (c : Cfg) : AnyNet → Prop
  | .v4 _ => True
  | .v6 n => n.addr.scope = emptyScope c.M

/-! ### Construction -/

/-- The text with undefined behaviour of the IPv4 parser is rejected by the IPv6 parser. -/
theorem parseNet6_of_ub4 (c : Cfg) (hc : c.le = true) (evs : List Ev) (strict : Bool)
    (h : (fam4 true).parseNet evs strict = .ub) : ∃ e v, (fam6 c).parseNet evs strict = .err e v := by
  obtain ⟨a, rfl, h1, h2⟩ := ((C26_parser_safe c hc evs strict).2).1 h
  rw [parseNet_slash (fam6 c) a _ h1 (by show a.length ≤ 41 + c.M; omega), if_neg (by simp [dotted]), if_neg (by decide), parseTail]
  have : ∃ e v, v6ParseNetmask (readChars (dotted 0 0 0 0)) = .err e v := ⟨.invalid_netmask, 0, by decide +kernel⟩
  obtain ⟨e, v, hm⟩ := this
  have hm : (fam6 c).parseNetmask (readChars (dotted 0 0 0 0)) = .err e v := by
    show (v6ParseNetmask _ >>= _) = _
    rw [hm]; rfl
  exact ⟨e, v, by rw [hm]; rfl⟩

/-- C49: `ip_network::parse` accepts exactly the texts accepted by one of the two parsers (no text is
accepted by both), with that result; its error is the error of the IPv6 parser; the only undefined
behaviour is that of the IPv4 parser. -/
theorem C49_parse (c : Cfg) (hc : c.le = true) (evs : List Ev) (strict : Bool) :
    (∀ n, anyNetFromEvents c evs strict = .ok (.v4 n) ↔ (fam4 true).parseNet evs strict = .ok n) ∧
    (∀ n, anyNetFromEvents c evs strict = .ok (.v6 n) ↔ (fam6 c).parseNet evs strict = .ok n) ∧
    (∀ e v, anyNetFromEvents c evs strict = .err e v ↔
      (∃ e' v', (fam4 true).parseNet evs strict = .err e' v') ∧ (fam6 c).parseNet evs strict = .err e v) ∧
    (anyNetFromEvents c evs strict = .ub ↔ (fam4 true).parseNet evs strict = .ub) ∧
    (∀ n m, ¬ ((fam4 true).parseNet evs strict = .ok n ∧ (fam6 c).parseNet evs strict = .ok m)) := by
  have hd : ∀ n m, ¬ ((fam4 true).parseNet evs strict = .ok n ∧ (fam6 c).parseNet evs strict = .ok m) :=
    fun n m h => parseNet_disjoint c evs strict n m h.1 h.2
  have hu := (C26_parser_safe c hc evs strict).1
  have hub := parseNet6_of_ub4 c hc evs strict
  unfold anyNetFromEvents
  rw [hc]
  cases h4 : (fam4 true).parseNet evs strict with
  | ub =>
    obtain ⟨e, v, h⟩ := hub h4
    simp [h]
  | ok b =>
    have hd' : ∀ m, (fam6 c).parseNet evs strict ≠ .ok m := fun m h => hd b m ⟨h4, h⟩
    simp [hd']
  | err e v =>
    cases h6 : (fam6 c).parseNet evs strict with
    | ok a => simp
    | err e v => simp
    | ub => exact absurd h6 hu

example : anyNetFromEvents exCfg (readChars "fe80::/10".toList) true =
    .ok (.v6 ⟨⟨[0xfe, 0x80, 0, 0, 0, 0, 0, 0, 0, 0, 0, 0, 0, 0, 0, 0], emptyScope 16⟩,
      ⟨[255, 0xc0, 0, 0, 0, 0, 0, 0, 0, 0, 0, 0, 0, 0, 0, 0], emptyScope 16⟩, 10⟩) := by decide +kernel
example : anyNetFromEvents exCfg (readChars "192.168.0.0/16".toList) true = .ok (.v4 ex16) := by decide +kernel

/-- C49: every `ip_network` obtained by parsing any input, from an address, or by default construction
satisfies the invariant. -/
theorem C49_invariant (c : Cfg) (hc : c.le = true) :
    (∀ evs strict n, anyNetFromEvents c evs strict = .ok n → NetOkAny c n) ∧
    (∀ a p strict n, AddrOkAny c a → anyNetFromAddress c a p strict = .ok n → NetOkAny c n ∧ anyNetPlen n = p) ∧
    (∃ n, anyNetDefault c = .ok n ∧ NetOkAny c n ∧ anyNetValue n = (false, 0, 32)) := by
  obtain ⟨i1, i2, i3⟩ := C24_invariant_v4
  obtain ⟨j1, j2, j3⟩ := C24_invariant_v6 c hc
  refine ⟨?_, ?_, ?_⟩
  · intro evs strict n h
    unfold anyNetFromEvents at h
    rw [hc] at h
    split at h
    · rename_i b hb; cases h; exact i2 _ _ _ hb
    · obtain ⟨b, hb, h⟩ := Res.bind_eq_ok.1 h; cases h; exact j2 _ _ _ hb
    · cases h
  · intro a p strict n ha h
    unfold anyNetFromAddress at h
    rw [hc] at h
    cases a with
    | v4 a => obtain ⟨b, hb, h⟩ := Res.bind_eq_ok.1 h; cases h; exact i1 _ _ _ _ ha hb
    | v6 a => obtain ⟨b, hb, h⟩ := Res.bind_eq_ok.1 h; cases h; exact j1 _ _ _ _ ha hb
  · refine ⟨.v4 ⟨[0, 0, 0, 0], [255, 255, 255, 255], 32⟩, ?_, ⟨rfl, by decide, ⟨_, rfl, rfl, by decide⟩, by decide⟩, by decide⟩
    unfold anyNetDefault
    rw [hc]
    decide

example := C49_invariant exCfg rfl

/-- C49: `from_address` reports host bits in strict mode and clears them otherwise, for both versions. -/
theorem C49_from_address (c : Cfg) (hc : c.le = true) (a : AnyAddr) (ha : AddrOkAny c a) (p : Nat)
    (hp : p ≤ if (anyAddrValue a).1 then 128 else 32) :
    ((anyNetFromAddress c a p true = .err .has_host_bits_set 0 ↔
        ∃ i, i < (if (anyAddrValue a).1 then 128 else 32) - p ∧ (anyAddrValue a).2.testBit i = true) ∧
      ((¬ ∃ i, i < (if (anyAddrValue a).1 then 128 else 32) - p ∧ (anyAddrValue a).2.testBit i = true) →
        ∃ n, anyNetFromAddress c a p true = .ok n ∧ anyNetAddress n = a ∧ anyNetPlen n = p)) ∧
    ∃ n, anyNetFromAddress c a p false = .ok n ∧ anyNetPlen n = p ∧ (anyNetValue n).1 = (anyAddrValue a).1 ∧
      ∀ i, (anyNetValue n).2.1.testBit i =
        ((anyAddrValue a).2.testBit i && decide ((if (anyAddrValue a).1 then 128 else 32) - p ≤ i)) := by
  cases a with
  | v4 a =>
    obtain ⟨⟨h1, h2⟩, n, h3, h4, h5⟩ := C24_from_address_v4 a ha p hp
    simp only [anyNetFromAddress, hc, anyAddrValue, Bool.false_eq_true, if_false]
    refine ⟨⟨?_, fun h => ?_⟩, .v4 n, ?_, h4, rfl, h5⟩
    · rw [← h1]; cases (fam4 true).fromAddress a p true <;> simp
    · obtain ⟨n, g1, g2, g3⟩ := h2 h
      exact ⟨.v4 n, by rw [g1]; rfl, by simp [anyNetAddress, g2], g3⟩
    · rw [h3]; rfl
  | v6 a =>
    obtain ⟨⟨h1, h2⟩, n, h3, h4, h5⟩ := C24_from_address_v6 c hc a ha p hp
    simp only [anyNetFromAddress, anyAddrValue, if_true]
    refine ⟨⟨?_, fun h => ?_⟩, .v6 n, ?_, h4, rfl, h5⟩
    · rw [← h1]; cases (fam6 c).fromAddress a p true <;> simp
    · obtain ⟨n, g1, g2, g3⟩ := h2 h
      exact ⟨.v6 n, by rw [g1]; rfl, by simp [anyNetAddress, g2], g3⟩
    · rw [h3]; rfl

example : AddrOkAny exCfg (.v4 [192, 168, 3, 4]) := rfl
example : anyNetFromAddress exCfg (.v4 [192, 168, 3, 4]) 16 false = .ok (.v4 ex16) := by decide +kernel

/-- C49: the text of a network (with storable scope id) is parsed back to an equal network. -/
theorem C49_round_trip (c : Cfg) (hc : c.le = true) (hv : ∀ x y, c.val x = c.val y → x = y) (n : AnyNet) (hn : NetOkAny c n)
    (hg : ∀ m, n = .v6 m → m.addr.Good c.spaces c.M) (fmt : Format) (strict : Bool) :
    ∃ t n', anyNetToString c fmt n = .ok t ∧ anyNetFromEvents c (readChars t) strict = .ok n' ∧
      anyNetValue n' = anyNetValue n ∧ anyNetScope n' = anyNetScope n ∧ anyNetEq c n n' = .ok true := by
  cases n with
  | v4 n =>
    obtain ⟨t, h1, h2⟩ := C25_round_trip_v4 n hn fmt strict
    refine ⟨t, .v4 n, by simp only [anyNetToString, hc, h1], ((C49_parse c hc _ _).1 n).2 h2, rfl, rfl, ?_⟩
    obtain ⟨e, o, l, k1, _, _, k2, _⟩ := C38_order_v4 n n hn hn
    simp only [anyNetEq, hc, k1, k2.2 ⟨rfl, rfl⟩]
  | v6 n =>
    obtain ⟨t, n', h1, h2, h3, h4, h5, h6, h7, h8⟩ := C25_round_trip_v6 c hc hv n hn (hg n rfl) fmt strict
    refine ⟨t, .v6 n', h1, ?_, by simp [anyNetValue, h4, h5], by simp [anyNetScope, h6], h8⟩
    exact ((C49_parse c hc _ _).2.1 n').2 h2

example := C49_round_trip exCfg rfl exCfg_val (.v6 ex32) ex32_ok (fun _ h => by cases h; exact ex32_good) .full true

/-! ### Relations -/

theorem inAnyNet_self (c : Cfg) (hc : c.le = true) (n : AnyNet) (hn : NetOkAny c n) :
    InAnyNet n (anyNetValue n).1 (anyNetValue n).2.1 := by
  cases n with
  | v4 n =>
    have := (inNet_interval fam4Law n hn (beValue n.addr)).2 ⟨Nat.le_refl _, by
      have := Nat.two_pow_pos ((fam4 true).maxPrefix - n.plen)
      show beValue n.addr < beValue n.addr + _
      omega⟩
    exact ⟨rfl, this⟩
  | v6 n =>
    have := (inNet_interval (fam6Law c hc) n hn (beValue n.addr.bytes)).2 ⟨Nat.le_refl _, by
      have := Nat.two_pow_pos ((fam6 c).maxPrefix - n.plen)
      show beValue n.addr.bytes < beValue n.addr.bytes + _
      omega⟩
    exact ⟨rfl, this⟩

/-- C49: `contains` holds iff the address is one of the addresses of the network; never for an address
of the other version. -/
theorem C49_contains (c : Cfg) (hc : c.le = true) (n : AnyNet) (a : AnyAddr) (hn : NetOkAny c n) (ha : AddrOkAny c a) :
    ∃ r, anyNetContains c n a = .ok r ∧ (r = true ↔ InAnyNet n (anyAddrValue a).1 (anyAddrValue a).2) := by
  cases n with
  | v4 n =>
    cases a with
    | v4 a =>
      obtain ⟨r, b, h1, h2, h3, h4⟩ := C27_contains_v4 n hn a ha
      exact ⟨r, by simp only [anyNetContains, hc, h1], by simp [InAnyNet, anyAddrValue, h3]⟩
    | v6 a => exact ⟨false, rfl, by simp [InAnyNet, anyAddrValue]⟩
  | v6 n =>
    cases a with
    | v4 a => exact ⟨false, rfl, by simp [InAnyNet, anyAddrValue]⟩
    | v6 a =>
      obtain ⟨r, b, h1, h2, h3, h4⟩ := C27_contains_v6 c hc n hn a ha
      exact ⟨r, h1, by simp [InAnyNet, anyAddrValue, h3]⟩

example := C49_contains exCfg rfl (.v4 ex16) (.v4 [192, 168, 3, 4]) ex16_ok rfl

/-- C49: `overlaps` holds iff there is a common address; it is symmetric. -/
theorem C49_overlaps (c : Cfg) (hc : c.le = true) (a b : AnyNet) (ha : NetOkAny c a) (hb : NetOkAny c b) :
    ∃ r, anyNetOverlaps c a b = .ok r ∧ anyNetOverlaps c b a = .ok r ∧
      (r = true ↔ ∃ six x, InAnyNet a six x ∧ InAnyNet b six x) := by
  cases a with
  | v4 a =>
    cases b with
    | v4 b =>
      obtain ⟨r, h1, h2, h3, _⟩ := C28_overlaps_v4 a b ha hb
      exact ⟨r, by simp only [anyNetOverlaps, hc, h1], by simp only [anyNetOverlaps, hc, h2], by simp [InAnyNet, h3]⟩
    | v6 b => exact ⟨false, rfl, rfl, by simp [InAnyNet]⟩
  | v6 a =>
    cases b with
    | v4 b => exact ⟨false, rfl, rfl, by simp [InAnyNet]⟩
    | v6 b =>
      obtain ⟨r, h1, h2, h3, _⟩ := C28_overlaps_v6 c hc a b ha hb
      exact ⟨r, h1, h2, by simp [InAnyNet, h3]⟩

example := C49_overlaps exCfg rfl (.v4 ex16) (.v4 ex17) ex16_ok ex17_ok

/-- C49: `subnet_of` is inclusion of the sets of addresses and `supernet_of` its converse, for networks
without scope id (for scoped IPv6 networks see `C29_scoped_inconsistent`). -/
theorem C49_subnet (c : Cfg) (hc : c.le = true) (a b : AnyNet) (ha : NetOkAny c a) (hb : NetOkAny c b)
    (sa : PlainAny c a) (sb : PlainAny c b) :
    ∃ r, anyNetSubnetOf c a b = .ok r ∧ anyNetSupernetOf c b a = .ok r ∧
      (r = true ↔ ∀ six x, InAnyNet a six x → InAnyNet b six x) := by
  have hself := inAnyNet_self c hc a ha
  cases a with
  | v4 a =>
    cases b with
    | v4 b =>
      obtain ⟨r, h1, h2, h3⟩ := C29_subnet_v4 a b ha hb
      exact ⟨r, by simp only [anyNetSubnetOf, hc, h1], by simp only [anyNetSupernetOf, hc, h2], by simp [InAnyNet, h3]⟩
    | v6 b =>
      refine ⟨false, rfl, rfl, by simp, fun h => ?_⟩
      have := (h _ _ hself).1
      simp [anyNetValue] at this
  | v6 a =>
    cases b with
    | v4 b =>
      refine ⟨false, rfl, rfl, by simp, fun h => ?_⟩
      have := (h _ _ hself).1
      simp [anyNetValue] at this
    | v6 b =>
      obtain ⟨r, h1, h2, h3⟩ := C29_subnet_v6 c hc a b ha hb sa sb
      exact ⟨r, h1, h2, by simp [InAnyNet, h3]⟩

example := C49_subnet exCfg rfl (.v4 ex17) (.v6 ex32) ex17_ok ex32_ok trivial rfl

/-- C49: relations of networks of different versions, with any scope id. -/
theorem C49_versions_differ (c : Cfg) (a : Net (List (BitVec 8))) (b : Net V6) (x : List (BitVec 8)) (y : V6) :
    anyNetContains c (.v4 a) (.v6 y) = .ok false ∧ anyNetContains c (.v6 b) (.v4 x) = .ok false ∧
    anyNetOverlaps c (.v4 a) (.v6 b) = .ok false ∧ anyNetOverlaps c (.v6 b) (.v4 a) = .ok false ∧
    anyNetSubnetOf c (.v4 a) (.v6 b) = .ok false ∧ anyNetSubnetOf c (.v6 b) (.v4 a) = .ok false ∧
    anyNetSupernetOf c (.v4 a) (.v6 b) = .ok false ∧ anyNetSupernetOf c (.v6 b) (.v4 a) = .ok false ∧
    anyNetEq c (.v4 a) (.v6 b) = .ok false ∧ anyNetEq c (.v6 b) (.v4 a) = .ok false ∧
    anyNetExclude c (.v4 a) (.v6 b) = .err .invalid_version 0 ∧ anyNetExclude c (.v6 b) (.v4 a) = .err .invalid_version 0 :=
  ⟨rfl, rfl, rfl, rfl, rfl, rfl, rfl, rfl, rfl, rfl, rfl, rfl⟩

example : NetOkAny exCfg (.v4 ex16) ∧ NetOkAny exCfg (.v6 exAll6) ∧ PlainAny exCfg (.v6 exAll6) := ⟨ex16_ok, exAll6_ok, rfl⟩
example : anyNetContains exCfg (.v4 ex16) (.v4 [192, 168, 1, 1]) = .ok true := by decide +kernel
example : anyNetSubnetOf exCfg (.v4 ex17) (.v4 ex16) = .ok true ∧ anyNetSubnetOf exCfg (.v4 ex16) (.v4 ex17) = .ok false := by decide +kernel

/-! ### Order -/

/-- C49: the order of `<=>`: IPv4 before IPv6, then as the networks of the version; `==` holds iff version,
address, scope id and prefix length are the same, iff `<=>` yields equal. -/
theorem C49_order (c : Cfg) (hc : c.le = true) (hv : ∀ x y, c.val x = c.val y → x = y) (a b : AnyNet)
    (ha : NetOkAny c a) (hb : NetOkAny c b) :
    ∃ e o, anyNetEq c a b = .ok e ∧ anyNetCmp c a b = .ok o ∧
      (e = true ↔ anyNetValue a = anyNetValue b ∧ anyNetScope a = anyNetScope b) ∧ (e = true ↔ o = .eq) ∧
      (o = .lt ↔ ((anyNetValue a).1 = false ∧ (anyNetValue b).1 = true) ∨
        ((anyNetValue a).1 = (anyNetValue b).1 ∧
          (V6Lt c.val (anyNetValue a).2.1 (anyNetScope a) (anyNetValue b).2.1 (anyNetScope b) ∨
            ((anyNetValue a).2.1 = (anyNetValue b).2.1 ∧ anyNetScope a = anyNetScope b ∧ (anyNetValue a).2.2 < (anyNetValue b).2.2)))) ∧
      (c.spaceship = true → anyNetLt c a b = .ok (decide (o = .lt))) := by
  cases a with
  | v4 a =>
    cases b with
    | v4 b =>
      obtain ⟨e, o, l, h1, h2, h3, h4, h5, h6, h7⟩ := C38_order_v4 a b ha hb
      have hl : o = .lt ↔ (beValue a.addr < beValue b.addr ∨ beValue a.addr = beValue b.addr ∧ a.plen < b.plen) := by
        rw [h5]
        rcases Nat.lt_trichotomy (beValue a.addr) (beValue b.addr) with h | h | h
        · simp [Nat.compare_eq_lt.mpr h, Ordering.then, h]
        · simp [h, Ordering.then, Nat.compare_eq_lt]
        · simp [Nat.compare_eq_gt.mpr h, Ordering.then]; omega
      refine ⟨e, o, by simp only [anyNetEq, hc, h1], by simp only [anyNetCmp, hc, h2], ?_, h7, ?_, fun _ => ?_⟩
      · simp [anyNetValue, anyNetScope, h4]
      · rw [hl]
        simp only [anyNetValue, anyNetScope]
        have : V6Lt c.val (beValue a.addr) [] (beValue b.addr) [] ↔ beValue a.addr < beValue b.addr := by
          simp [V6Lt, ScopeLt]
        simp [this]
      · simp only [anyNetLt, hc, h3]
        congr 1
        rw [Bool.eq_iff_iff, h6, decide_eq_true_iff]
    | v6 b => exact ⟨false, .lt, rfl, rfl, by simp [anyNetValue], by simp, by simp [anyNetValue], fun _ => rfl⟩
  | v6 a =>
    cases b with
    | v4 b => exact ⟨false, .gt, rfl, rfl, by simp [anyNetValue], by simp, by simp [anyNetValue], fun _ => rfl⟩
    | v6 b =>
      obtain ⟨e, o, h1, h2, h3, h4, h5, h6⟩ := C38_order_v6 c hc hv a b ha hb
      have hi : a.addr.bytes = b.addr.bytes ↔ beValue a.addr.bytes = beValue b.addr.bytes :=
        ⟨fun h => by rw [h], beValue_inj _ _ (by rw [ha.wf.1, hb.wf.1])⟩
      rw [hi] at h3 h5
      refine ⟨e, o, h1, h2, ?_, h4, ?_, h6⟩
      · rw [h3]; simp only [anyNetValue, anyNetScope, Prod.mk.injEq, true_and]; exact ⟨fun h => ⟨⟨h.1.1, h.2⟩, h.1.2⟩, fun h => ⟨⟨h.1.1, h.2⟩, h.1.2⟩⟩
      · rw [h5]; simp [anyNetValue, anyNetScope]

example := C49_order exCfg rfl exCfg_val (.v4 ex17) (.v6 ex32) ex17_ok ex32_ok

/-- C49: `<=>` is a strict total order with `==` as its equality. -/
theorem C49_total (c : Cfg) (hc : c.le = true) (hv : ∀ x y, c.val x = c.val y → x = y) (a b d : AnyNet)
    (ha : NetOkAny c a) (hb : NetOkAny c b) (hd : NetOkAny c d) :
    anyNetCmp c a a = .ok .eq ∧
    (anyNetCmp c a b = .ok .lt → anyNetCmp c b d = .ok .lt → anyNetCmp c a d = .ok .lt) ∧
    (anyNetCmp c a b = .ok .lt ∨ anyNetEq c a b = .ok true ∨ anyNetCmp c b a = .ok .lt) := by
  have k4 : ∀ a b, NetOk4 a → NetOk4 b → ((fam4 true).netCmp a b = .ok .lt ↔ (fam4 true).netLt a b = .ok true) := by
    intro a b ha hb
    obtain ⟨e, o, l, h1, h2, h3, h4, h5, h6, h7⟩ := C38_order_v4 a b ha hb
    rw [h2, h3]
    constructor
    · intro h; cases h; rw [h6.2 rfl]
    · intro h; cases h; rw [h6.1 rfl]
  refine ⟨?_, ?_, ?_⟩
  · obtain ⟨e, o, _, h2, h3, h4, _⟩ := C49_order c hc hv a a ha ha
    rw [h2, h4.1 (h3.2 ⟨rfl, rfl⟩)]
  · cases a <;> cases b <;> cases d <;> simp only [anyNetCmp, hc, reduceCtorEq, Res.ok.injEq, false_imp_iff, imp_true_iff, forall_true_left, imp_false, not_false_iff]
    · rename_i a b d
      rw [k4 a b ha hb, k4 b d hb hd, k4 a d ha hd]
      exact (C38_total_v4 a b d ha hb hd).2.1
    · rename_i a b d
      exact (C38_total_v6 c hc hv a b d ha hb hd).2.1
  · cases a <;> cases b <;> simp only [anyNetCmp, anyNetEq, hc, reduceCtorEq, true_or, or_true]
    · rename_i a b
      rw [k4 a b ha hb, k4 b a hb ha]
      exact (C38_total_v4 a b a ha hb ha).2.2
    · rename_i a b
      exact (C38_total_v6 c hc hv a b a ha hb ha).2.2

example := C49_total exCfg rfl exCfg_val (.v4 ex17) (.v6 ex32) (.v4 ex16) ex17_ok ex32_ok ex16_ok

/-- C49 (partial): `<` without `<=>`.  Missing: pairs of IPv6 networks whose scope ids are ordered against
the addresses, see `C15_v6_less_wrong`. -/
theorem C49_less_partial (c : Cfg) (hc : c.le = true) (hv : ∀ x y, c.val x = c.val y → x = y) (a b : AnyNet)
    (ha : NetOkAny c a) (hb : NetOkAny c b)
    (hx : ¬ ((anyNetValue b).2.1 < (anyNetValue a).2.1 ∧ ScopeLt c.val (anyNetScope a) (anyNetScope b))) :
    ∃ o, anyNetCmp c a b = .ok o ∧ anyNetLt c a b = .ok (decide (o = .lt)) := by
  cases hs : c.spaceship with
  | true =>
    obtain ⟨e, o, _, h2, _, _, _, h6⟩ := C49_order c hc hv a b ha hb
    exact ⟨o, h2, h6 hs⟩
  | false =>
    cases a with
    | v4 a =>
      cases b with
      | v4 b =>
        obtain ⟨e, o, l, h1, h2, h3, h4, h5, h6, h7⟩ := C38_order_v4 a b ha hb
        refine ⟨o, by simp only [anyNetCmp, hc, h2], ?_⟩
        simp only [anyNetLt, hc, h3]
        congr 1
        rw [Bool.eq_iff_iff, h6, decide_eq_true_iff]
      | v6 b => exact ⟨.lt, rfl, rfl⟩
    | v6 a =>
      cases b with
      | v4 b => exact ⟨.gt, rfl, rfl⟩
      | v6 b => exact C38_less_v6_partial c hc hv hs a b ha hb hx

example : anyNetCmp exCfg (.v4 ex16) (.v6 exAll6) = .ok .lt ∧ anyNetCmp exCfg (.v4 ex16) (.v4 ex17) = .ok .lt := by decide +kernel

/-! ### Observers -/

/-- C49: `broadcast_address` is the largest address of the network, `netmask` and `hostmask` are the masks of the prefix
length. -/
theorem C49_broadcast (c : Cfg) (hc : c.le = true) (n : AnyNet) (hn : NetOkAny c n) :
    IsMask (anyNetWidth n) (anyNetPlen n) (anyAddrValue (anyNetMask n)).2 ∧
    IsHostMask (anyNetWidth n) (anyNetPlen n) (anyAddrValue (anyNetHostmask c n)).2 ∧
    (anyAddrValue (anyNetMask n)).1 = (anyNetValue n).1 ∧ (anyAddrValue (anyNetHostmask c n)).1 = (anyNetValue n).1 ∧
    ∃ b, anyNetBroadcast c n = .ok b ∧ AddrOkAny c b ∧ InAnyNet n (anyAddrValue b).1 (anyAddrValue b).2 ∧
      ∀ six x, InAnyNet n six x → x ≤ (anyAddrValue b).2 := by
  cases n with
  | v4 n =>
    obtain ⟨⟨h1, _⟩, b, b1, b2, b3, b4⟩ := C30_broadcast_v4 n hn
    refine ⟨(C24_no_host_bits_v4 n hn).1, ?_, rfl, ?_, .v4 b, ?_, b2, ⟨rfl, b3⟩, fun six x h => b4 x h.2⟩
    · simp only [anyNetHostmask, hc]; exact h1
    · rfl
    · simp only [anyNetBroadcast, hc, b1, Res.ok_bind]
  | v6 n =>
    obtain ⟨⟨h1, _⟩, b, b1, b2, b3, b4⟩ := C30_broadcast_v6 c hc n hn
    exact ⟨(C24_no_host_bits_v6 c hc n hn).1, h1, rfl, rfl, .v6 b, by simp only [anyNetBroadcast, b1, Res.ok_bind], b2, ⟨rfl, b3⟩,
      fun six x h => b4 x h.2⟩

example := C49_broadcast exCfg rfl (.v6 ex32) ex32_ok

/-- C49 (partial): unless the prefix length is 0, `addresses_count` is the number of addresses.  Missing:
prefix length 0, see `C49_count_wraps`. -/
theorem C49_count_partial (c : Cfg) (hc : c.le = true) (n : AnyNet) (hn : NetOkAny c n) (h0 : anyNetPlen n ≠ 0) :
    ∃ u, anyNetCount c n = .ok u ∧
      ∀ six x, InAnyNet n six x ↔ six = (anyNetValue n).1 ∧ ∃ i, i < u.val ∧ x = (anyNetValue n).2.1 + i := by
  cases n with
  | v4 n =>
    obtain ⟨u, h1, h2⟩ := C30_count_v4_partial n hn h0
    refine ⟨U128.ofU64 (u.setWidth 64), by simp only [anyNetCount, hc, h1, Res.ok_bind], fun six x => ?_⟩
    rw [ofU64_val32]
    simp [InAnyNet, anyNetValue, h2]
  | v6 n =>
    obtain ⟨u, h1, h2⟩ := C30_count_v6_partial c hc n hn h0
    refine ⟨u, h1, fun six x => ?_⟩
    simp [InAnyNet, anyNetValue, h2]

example := C49_count_partial exCfg rfl (.v6 ex32) ex32_ok (by decide)

/-- C49, negation: although the count is a 128 bit number, that of `0.0.0.0/0` is 0 instead of `2^32`. -/
theorem C49_count_wraps : anyNetCount exCfg (.v4 exAll4) = .ok ⟨0#64, 0#64⟩ ∧ anyNetCount exCfg (.v6 exAll6) = .ok ⟨0#64, 0#64⟩ := by
  decide +kernel

example : anyNetCount exCfg (.v4 ex16) = .ok ⟨0#64, 65536#64⟩ := by decide +kernel

/-- C49 (partial): `supernet` is the unique network of the same version of prefix length `prefixlen() - diff` that contains the
network.  Missing: the difference of the full width, see `C33_supernet_undefined`. -/
theorem C49_supernet_partial (c : Cfg) (hc : c.le = true) (n : AnyNet) (hn : NetOkAny c n) (h0 : anyNetPlen n ≠ 0) (d : Nat)
    (hd : d ≤ anyNetPlen n) (hw : d < anyNetWidth n) :
    ∃ r, anyNetSupernet c n d none = .ok r ∧ anyNetSupernet c n 1 (some (anyNetPlen n - d)) = .ok r ∧
      NetOkAny c r ∧ anyNetPlen r = anyNetPlen n - d ∧ (∀ six x, InAnyNet n six x → InAnyNet r six x) ∧
      ∀ r', NetOkAny c r' → anyNetPlen r' = anyNetPlen n - d → (∀ six x, InAnyNet n six x → InAnyNet r' six x) →
        anyNetValue r' = anyNetValue r := by
  have hself := inAnyNet_self c hc n hn
  cases n with
  | v4 n =>
    obtain ⟨r, h1, h2, h3, h4, h5, h6⟩ := C33_supernet_v4_partial n hn h0 d hd hw
    refine ⟨.v4 r, by simp only [anyNetSupernet, hc, h1, Res.ok_bind], ?_, h3, h4, fun six x h => ⟨h.1, h5 x h.2⟩, ?_⟩
    · simp only [anyNetSupernet, anyNetPlen, hc, h2, Res.ok_bind]
    · intro r' k1 k2 k3
      cases r' with
      | v4 r' =>
        have := h6 r' k1 k2 (fun x h => (k3 false x ⟨rfl, h⟩).2)
        have k2 : r'.plen = n.plen - d := k2
        simp [anyNetValue, this, k2, h4]
      | v6 r' => exact absurd (k3 _ _ hself).1 (by simp [anyNetValue])
  | v6 n =>
    obtain ⟨r, h1, h2, h3, h4, h5, h6⟩ := C33_supernet_v6_partial c hc n hn h0 d hd hw
    refine ⟨.v6 r, by simp only [anyNetSupernet, h1, Res.ok_bind], ?_, h3, h4, fun six x h => ⟨h.1, h5 x h.2⟩, ?_⟩
    · simp only [anyNetSupernet, anyNetPlen, h2, Res.ok_bind]
    · intro r' k1 k2 k3
      cases r' with
      | v4 r' => exact absurd (k3 _ _ hself).1 (by simp [anyNetValue])
      | v6 r' =>
        have := h6 r' k1 k2 (fun x h => (k3 true x ⟨rfl, h⟩).2)
        have k2 : r'.plen = n.plen - d := k2
        simp [anyNetValue, this, k2, h4]

example : anyNetPlen (.v4 ex16) ≠ 0 ∧ 3 ≤ anyNetPlen (.v4 ex16) ∧ 3 < anyNetWidth (.v4 ex16) := by decide

/-! ### C19, C53 -/

/-- C19, `ip_network`: equal networks have equal hashes. -/
theorem C19_any_network_hash (c : Cfg) (hc : c.le = true) (hv : ∀ x y, c.val x = c.val y → x = y) (a b : AnyNet)
    (ha : NetOkAny c a) (hb : NetOkAny c b) (h : anyNetEq c a b = .ok true) :
    ∃ x, anyNetHash c a = .ok x ∧ anyNetHash c b = .ok x := by
  obtain ⟨h4, h6⟩ := C19_network_hash c hc hv
  cases a <;> cases b <;> simp only [anyNetEq, anyNetHash, hc, Res.ok.injEq, Bool.false_eq_true] at h ⊢
  · exact h4 _ _ ha hb h
  · exact h6 _ _ ha hb h

example : anyNetEq exCfg (.v4 ex16) (.v4 ex16) = .ok true := by decide +kernel

/-- C53, `ip_network`: `swap` exchanges version, address, prefix length and scope id. -/
theorem C53_any_network_swap (a b : AnyNet) :
    let r := anyNetSwap a b
    anyNetValue r.1 = anyNetValue b ∧ anyNetScope r.1 = anyNetScope b ∧ anyNetAddress r.1 = anyNetAddress b ∧ anyNetMask r.1 = anyNetMask b ∧
      anyNetValue r.2 = anyNetValue a ∧ anyNetScope r.2 = anyNetScope a ∧ anyNetAddress r.2 = anyNetAddress a ∧ anyNetMask r.2 = anyNetMask a :=
  ⟨rfl, rfl, rfl, rfl, rfl, rfl, rfl, rfl⟩

example : anyNetSwap (.v4 ex16) (.v6 exAll6) = (.v6 exAll6, .v4 ex16) := rfl

end Ip
