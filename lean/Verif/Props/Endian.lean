import Verif.Props.ClassNet
import Verif.Lemmas.V6Host
import Verif.Props.NetText
import Verif.Props.NetIter
/-
C66: the byte order of the host.  Only integers may depend on it; texts, sets of addresses, orders and
classes may not.
-/
set_option autoImplicit false

namespace Ip
open Spec

/-- The configuration `c` on a host of the byte order `le`. -/
def Cfg.onHost (c : Cfg) (le : Bool) : Cfg := { c with le := le }

section
variable {A U : Type}

/-- The family `F` with other conversions to and from integers. -/
def Fam.withUint (F : Fam A U) (t : A → Res U) (f : U → Res A) : Fam A U := { F with toUint := t, fromUint := f }

variable (F : Fam A U) (t : A → Res U) (f : U → Res A)

theorem withUint_parseLoop (evs : List Ev) (st : Fam.ParseSt) : (F.withUint t f).parseLoop evs st = F.parseLoop evs st := by
  induction evs generalizing st with
  | nil => rfl
  | cons e rest ih =>
    cases e with
    | bad => rfl
    | ch x =>
      simp only [Fam.parseLoop]
      simp only [ih]
      rfl

theorem withUint_parseNet (evs : List Ev) (strict : Bool) : (F.withUint t f).parseNet evs strict = F.parseNet evs strict := by
  simp only [Fam.parseNet, withUint_parseLoop]
  rfl

theorem withUint_textContains (s : List Char) (a : A) : (F.withUint t f).textContains s a = F.textContains s a := by
  simp only [Fam.textContains, withUint_parseNet]
  rfl

theorem withUint_tableContains (ts : List (List Char)) (a : A) :
    (F.withUint t f).tableContains ts a = F.tableContains ts a := by
  induction ts with
  | nil => rfl
  | cons s ts ih => simp only [Fam.tableContains, withUint_textContains, ih]

/-- The functions that do not use the integer conversions agree. -/
def SameNets (G H : Fam A U) : Prop :=
  (∀ evs strict, G.parseNet evs strict = H.parseNet evs strict) ∧
  (∀ fmt n, G.netToString fmt n = H.netToString fmt n) ∧
  (∀ a p strict, G.fromAddress a p strict = H.fromAddress a p strict) ∧
  (∀ n a, G.contains n a = H.contains n a) ∧
  (∀ n, G.broadcast n = H.broadcast n ∧ G.hostmask n = H.hostmask n) ∧
  (∀ m n, G.overlaps m n = H.overlaps m n ∧ G.subnetOf m n = H.subnetOf m n ∧ G.supernetOf m n = H.supernetOf m n) ∧
  (∀ m n, G.netEq m n = H.netEq m n ∧ G.netCmp m n = H.netCmp m n ∧ G.netLt m n = H.netLt m n) ∧
  (∀ n, G.netHash n = H.netHash n) ∧
  (∀ s a, G.textContains s a = H.textContains s a) ∧
  (∀ ts a, G.tableContains ts a = H.tableContains ts a)

theorem withUint_same (t' : A → Res U) (f' : U → Res A) : SameNets (F.withUint t f) (F.withUint t' f') := by
  refine ⟨fun _ _ => ?_, fun _ _ => rfl, fun _ _ _ => rfl, fun _ _ => rfl, fun _ => ⟨rfl, rfl⟩,
    fun _ _ => ⟨rfl, rfl, rfl⟩, fun _ _ => ⟨rfl, rfl, rfl⟩, fun _ => rfl, fun _ _ => ?_, fun _ _ => ?_⟩
  · rw [withUint_parseNet, withUint_parseNet]
  · rw [withUint_textContains, withUint_textContains]
  · rw [withUint_tableContains, withUint_tableContains]

end

theorem onHost_same (c : Cfg) (le le' : Bool) : SameNets (fam6 (c.onHost le)) (fam6 (c.onHost le')) :=
  withUint_same (fam6 c) (fam6 (c.onHost le)).toUint (fam6 (c.onHost le)).fromUint (fam6 (c.onHost le')).toUint
    (fam6 (c.onHost le')).fromUint

section
variable {A U : Type} (F : Fam A U) (g : List Char → Res A)

/-- Only the parsers of networks use the parser of addresses. -/
theorem withArray_same (h : ∀ arr, '.' ∉ arr → g arr = F.parseArray arr) :
    let G : Fam A U := { F with parseArray := g }
    (∀ evs strict, .ch '.' ∉ evs → G.parseNet evs strict = F.parseNet evs strict) ∧
    (∀ fmt n, G.netToString fmt n = F.netToString fmt n) ∧
    (∀ a p strict, G.fromAddress a p strict = F.fromAddress a p strict) ∧
    (∀ n a, G.contains n a = F.contains n a) ∧
    (∀ n, G.broadcast n = F.broadcast n ∧ G.hostmask n = F.hostmask n) ∧
    (∀ m n, G.overlaps m n = F.overlaps m n ∧ G.subnetOf m n = F.subnetOf m n ∧ G.supernetOf m n = F.supernetOf m n) ∧
    (∀ m n, G.netEq m n = F.netEq m n ∧ G.netCmp m n = F.netCmp m n ∧ G.netLt m n = F.netLt m n) ∧
    (∀ n, G.netHash n = F.netHash n) ∧
    (∀ s a, '.' ∉ s → G.textContains s a = F.textContains s a) := by
  refine ⟨fun evs strict hd => withArray_parseNet F g evs strict h hd, fun _ _ => rfl, fun _ _ _ => rfl, fun _ _ => rfl,
    fun _ => ⟨rfl, rfl⟩, fun _ _ => ⟨rfl, rfl, rfl⟩, fun _ _ => ⟨rfl, rfl, rfl⟩, fun _ => rfl, fun s a hd => ?_⟩
  unfold Fam.textContains
  rw [withArray_parseNet F g _ _ h fun hm => hd (readChars_chars s '.' hm)]
  rfl

end

theorem fam6On_same (c : Cfg) :
    (∀ evs strict, .ch '.' ∉ evs → (fam6On c).parseNet evs strict = (fam6 c).parseNet evs strict) ∧
    (∀ fmt n, (fam6On c).netToString fmt n = (fam6 c).netToString fmt n) ∧
    (∀ a p strict, (fam6On c).fromAddress a p strict = (fam6 c).fromAddress a p strict) ∧
    (∀ n a, (fam6On c).contains n a = (fam6 c).contains n a) ∧
    (∀ n, (fam6On c).broadcast n = (fam6 c).broadcast n ∧ (fam6On c).hostmask n = (fam6 c).hostmask n) ∧
    (∀ m n, (fam6On c).overlaps m n = (fam6 c).overlaps m n ∧ (fam6On c).subnetOf m n = (fam6 c).subnetOf m n ∧
      (fam6On c).supernetOf m n = (fam6 c).supernetOf m n) ∧
    (∀ m n, (fam6On c).netEq m n = (fam6 c).netEq m n ∧ (fam6On c).netCmp m n = (fam6 c).netCmp m n ∧
      (fam6On c).netLt m n = (fam6 c).netLt m n) ∧
    (∀ n, (fam6On c).netHash n = (fam6 c).netHash n) ∧
    (∀ s a, '.' ∉ s → (fam6On c).textContains s a = (fam6 c).textContains s a) :=
  withArray_same (fam6 c) (v6ParseArrayOn c.le c.spaces c.M) fun arr ha => v6ParseArrayOn_plain c.le c.spaces c.M arr ha

/-- C66 (partial), IPv6: every function of networks that does not compute with integers gives the same
result on hosts of both byte orders.  Missing: texts with a dot, see `C66_v6_text_exact`, the functions that compute with
integers, see `C66_v6_arithmetic_wrong`, and IPv4 networks, see `C66_v4_netmask_wrong`. -/
theorem C66_v6_same_partial (c : Cfg) (le le' : Bool) :
    let F := fam6On (c.onHost le)
    let G := fam6On (c.onHost le')
    (∀ evs strict, .ch '.' ∉ evs → F.parseNet evs strict = G.parseNet evs strict) ∧
    (∀ fmt n, F.netToString fmt n = G.netToString fmt n) ∧
    (∀ a p strict, F.fromAddress a p strict = G.fromAddress a p strict) ∧
    (∀ n a, F.contains n a = G.contains n a) ∧
    (∀ n, F.broadcast n = G.broadcast n ∧ F.hostmask n = G.hostmask n) ∧
    (∀ m n, F.overlaps m n = G.overlaps m n ∧ F.subnetOf m n = G.subnetOf m n ∧ F.supernetOf m n = G.supernetOf m n) ∧
    (∀ m n, F.netEq m n = G.netEq m n ∧ F.netCmp m n = G.netCmp m n ∧ F.netLt m n = G.netLt m n) ∧
    (∀ n, F.netHash n = G.netHash n) ∧
    (∀ s a, '.' ∉ s → F.textContains s a = G.textContains s a) ∧
    (∀ a, v6IsMulticast (c.onHost le) a = v6IsMulticast (c.onHost le') a ∧
      v6IsReserved (c.onHost le) a = v6IsReserved (c.onHost le') a ∧
      v6IsLinkLocal (c.onHost le) a = v6IsLinkLocal (c.onHost le') a ∧
      v6IsSiteLocal (c.onHost le) a = v6IsSiteLocal (c.onHost le') a) := by
  obtain ⟨h1, h2, h3, h4, h5, h6, h7, h8, h9, h10⟩ := onHost_same c le le'
  obtain ⟨a1, a2, a3, a4, a5, a6, a7, a8, a9⟩ := fam6On_same (c.onHost le)
  obtain ⟨b1, b2, b3, b4, b5, b6, b7, b8, b9⟩ := fam6On_same (c.onHost le')
  intro F G
  refine ⟨fun evs strict hd => (a1 evs strict hd).trans ((h1 evs strict).trans (b1 evs strict hd).symm),
    fun fmt n => (a2 fmt n).trans ((h2 fmt n).trans (b2 fmt n).symm),
    fun a p st => (a3 a p st).trans ((h3 a p st).trans (b3 a p st).symm),
    fun n a => (a4 n a).trans ((h4 n a).trans (b4 n a).symm),
    fun n => ⟨(a5 n).1.trans ((h5 n).1.trans (b5 n).1.symm), (a5 n).2.trans ((h5 n).2.trans (b5 n).2.symm)⟩,
    fun m n => ⟨(a6 m n).1.trans ((h6 m n).1.trans (b6 m n).1.symm), (a6 m n).2.1.trans ((h6 m n).2.1.trans (b6 m n).2.1.symm),
      (a6 m n).2.2.trans ((h6 m n).2.2.trans (b6 m n).2.2.symm)⟩,
    fun m n => ⟨(a7 m n).1.trans ((h7 m n).1.trans (b7 m n).1.symm), (a7 m n).2.1.trans ((h7 m n).2.1.trans (b7 m n).2.1.symm),
      (a7 m n).2.2.trans ((h7 m n).2.2.trans (b7 m n).2.2.symm)⟩,
    fun n => (a8 n).trans ((h8 n).trans (b8 n).symm),
    fun s a hd => (a9 s a hd).trans ((h9 s a).trans (b9 s a hd).symm),
    fun a => ⟨h9 _ a, h10 _ a, h9 _ a, h9 _ ⟨a.bytes, emptyScope c.M⟩⟩⟩

/-- The texts of the tables of classes have no dots. -/
example : '.' ∉ v6MulticastText ∧ '.' ∉ v6LinkLocalText ∧ '.' ∉ v6SiteLocalText ∧ ∀ t ∈ v6ReservedTexts, '.' ∉ t := by decide +kernel
example : ((fam6On (exCfg.onHost false)).fromAddress ex32.addr 32 true = .ok ex32) := by decide +kernel
example : (fam6On (exCfg.onHost false)).parseNet (readChars "2001:db8::/32".toList) true = .ok ex32 ∧
    Ev.ch '.' ∉ readChars "2001:db8::/32".toList := by decide +kernel

/-- C66, IPv6 texts, exactly: a big endian host reads the text of an address as a little endian host does, with the same
errors; only when there is a dotted quad after the last colon are the last four bytes reversed. -/
theorem C66_v6_text_exact (spaces : Bool) (M : Nat) (evs : List Ev) :
    (¬ DottedEnd evs → v6FromEventsOn false spaces M evs = v6FromEventsOn true spaces M evs) ∧
    (∀ e v, v6FromEventsOn false spaces M evs = .err e v ↔ v6FromEventsOn true spaces M evs = .err e v) ∧
    (v6FromEventsOn false spaces M evs = .ub ↔ v6FromEventsOn true spaces M evs = .ub) ∧
    (DottedEnd evs → ∀ a, v6FromEventsOn true spaces M evs = .ok a →
      ∃ l w x y z, l.length = 12 ∧ a.bytes = l ++ [w, x, y, z] ∧
        v6FromEventsOn false spaces M evs = .ok ⟨l ++ [z, y, x, w], a.scope⟩) := by
  have key := v6FromEventsOn_false spaces M evs
  rw [v6FromEventsOn_true, key]
  refine ⟨fun h => image_same _ _ fun a _ => if_neg h, fun e v => ?_, ?_, fun h a ha => ?_⟩
  · cases v6FromEvents spaces M evs <;> simp [Res.image]
  · cases v6FromEvents spaces M evs <;> simp [Res.image]
  · have hl : a.bytes.length = 16 := ((v6FromEvents_safe spaces M evs).2 a ha).1.1
    obtain ⟨b, s⟩ := a
    match b, hl with
    | [a0, a1, a2, a3, a4, a5, a6, a7, a8, a9, a10, a11, w, x, y, z], _ =>
      refine ⟨[a0, a1, a2, a3, a4, a5, a6, a7, a8, a9, a10, a11], w, x, y, z, rfl, rfl, ?_⟩
      rw [ha]
      exact congrArg Res.ok (if_pos h)

example : DottedEnd (readChars "::ffff:1.2.3.4%eth0".toList) ∧ ¬ DottedEnd (readChars "fe80::1%eth0.2".toList) := by decide +kernel
example : ∃ a, v6FromEventsOn true false 16 (readChars "::ffff:1.2.3.4%eth0".toList) = .ok a :=
  ⟨⟨[0, 0, 0, 0, 0, 0, 0, 0, 0, 0, 0xff, 0xff, 1, 2, 3, 4], ⟨"eth0".toList ++ List.replicate 12 '\x00', 4⟩⟩, by decide +kernel⟩

/-- C66, negation, IPv6 texts: on big endian hosts `::ffff:10.0.0.1` is the mapped form of `1.0.0.10`, and the network
`::ffff:10.0.0.0/104` is rejected. -/
theorem C66_v6_text_wrong :
    v6FromEventsOn true false 16 (readChars "::ffff:10.0.0.1".toList) =
      .ok ⟨[0, 0, 0, 0, 0, 0, 0, 0, 0, 0, 0xff, 0xff, 10, 0, 0, 1], emptyScope 16⟩ ∧
    v6FromEventsOn false false 16 (readChars "::ffff:10.0.0.1".toList) =
      .ok ⟨[0, 0, 0, 0, 0, 0, 0, 0, 0, 0, 0xff, 0xff, 1, 0, 0, 10], emptyScope 16⟩ ∧
    (∃ n, (fam6On (exCfg.onHost true)).parseNet (readChars "::ffff:10.0.0.0/104".toList) true = .ok n) ∧
    (fam6On (exCfg.onHost false)).parseNet (readChars "::ffff:10.0.0.0/104".toList) true = .err .has_host_bits_set 0 := by
  refine ⟨by decide +kernel, by decide +kernel, ⟨⟨⟨[0, 0, 0, 0, 0, 0, 0, 0, 0, 0, 0xff, 0xff, 10, 0, 0, 0], emptyScope 16⟩,
    ⟨[255, 255, 255, 255, 255, 255, 255, 255, 255, 255, 255, 255, 255, 0, 0, 0], emptyScope 16⟩, 104⟩, by decide +kernel⟩, by decide +kernel⟩

/-- C66 (partial), IPv6 on a host of any byte order: a network contains exactly the addresses with its
leading bits, networks overlap when they share an address, are subnets of each other when the sets of
addresses are included, and the classes are those of the registry. -/
theorem C66_v6_networks_partial (c : Cfg) :
    (∀ (n : Net V6) (a : V6), NetOk6 c n → a.WF c.M → ∃ r, (fam6 c).contains n a = .ok r ∧
      (r = true ↔ InNet 128 n.plen (beValue n.addr.bytes) (beValue a.bytes))) ∧
    (∀ m n : Net V6, NetOk6 c m → NetOk6 c n → ∃ r, (fam6 c).overlaps m n = .ok r ∧
      (r = true ↔ ∃ x, InNet 128 m.plen (beValue m.addr.bytes) x ∧ InNet 128 n.plen (beValue n.addr.bytes) x)) ∧
    (∀ m n : Net V6, NetOk6 c m → NetOk6 c n → m.addr.scope = emptyScope c.M → n.addr.scope = emptyScope c.M →
      ∃ r, (fam6 c).subnetOf m n = .ok r ∧
      (r = true ↔ ∀ x, InNet 128 m.plen (beValue m.addr.bytes) x → InNet 128 n.plen (beValue n.addr.bytes) x)) ∧
    (∀ a : V6, a.WF c.M → (∃ r, v6IsMulticast c a = .ok r ∧ (r = true ↔ Multicast6 (beValue a.bytes))) ∧
      (∃ r, v6IsReserved c a = .ok r ∧ (r = true ↔ Reserved6 (beValue a.bytes))) ∧
      (∃ r, v6IsLinkLocal c a = .ok r ∧ (r = true ↔ LinkLocal6 (beValue a.bytes))) ∧
      (∃ r, v6IsSiteLocal c a = .ok r ∧ (r = true ↔ SiteLocal6 (beValue a.bytes)))) := by
  obtain ⟨_, _, _, k4, _, k6, _, _, k9, k10⟩ := onHost_same c c.le true
  change ∀ n a, (fam6 c).contains n a = _ at k4
  change ∀ m n, (fam6 c).overlaps m n = _ ∧ (fam6 c).subnetOf m n = _ ∧ _ at k6
  change ∀ s a, (fam6 c).textContains s a = _ at k9
  change ∀ ts a, (fam6 c).tableContains ts a = _ at k10
  have ok : ∀ n, NetOk6 c n → NetOk6 (c.onHost true) n := fun n h => ⟨h.wf, h.plen, h.mask, h.aligned⟩
  refine ⟨fun n a hn ha => ?_, fun m n hm hn => ?_, fun m n hm hn sm sn => ?_, fun a ha => ⟨?_, ?_, ?_, ?_⟩⟩
  · obtain ⟨r, _, h1, _, h2, _⟩ := C27_contains_v6 (c.onHost true) rfl n (ok n hn) a ha
    exact ⟨r, (k4 n a).trans h1, h2⟩
  · obtain ⟨r, h1, _, h2, _⟩ := C28_overlaps_v6 (c.onHost true) rfl m n (ok m hm) (ok n hn)
    exact ⟨r, (k6 m n).1.trans h1, h2⟩
  · obtain ⟨r, h1, _, h2⟩ := C29_subnet_v6 (c.onHost true) rfl m n (ok m hm) (ok n hn) sm sn
    exact ⟨r, (k6 m n).2.1.trans h1, h2⟩
  · obtain ⟨r, h1, h2⟩ := C39_v6_multicast (c.onHost true) rfl a ha
    exact ⟨r, (k9 _ a).trans h1, h2⟩
  · obtain ⟨r, h1, h2⟩ := C39_v6_reserved (c.onHost true) rfl a ha
    exact ⟨r, (k10 _ a).trans h1, h2⟩
  · obtain ⟨r, h1, h2⟩ := C39_v6_link_local (c.onHost true) rfl a ha
    exact ⟨r, (k9 _ a).trans h1, h2⟩
  · obtain ⟨r, h1, h2⟩ := C39_v6_site_local (c.onHost true) rfl a ha
    exact ⟨r, (k9 _ ⟨a.bytes, emptyScope c.M⟩).trans h1, h2⟩

example : (fam6 (exCfg.onHost false)).contains ex32 ⟨[0x20, 1, 0xd, 0xb8, 0, 0, 0, 0, 0, 0, 0, 0, 0, 0, 0, 1], emptyScope 16⟩ =
    .ok true := by decide +kernel

/-- C66, IPv4 addresses: reverse pointers, and the texts of networks that were made already. -/
theorem C66_v4_addresses (le le' : Bool) :
    (∀ a : List (BitVec 8), a.length = 4 → v4ReversePointer le a = v4ReversePointer le' a) ∧
    (∀ fmt n, (fam4 le).netToString fmt n = (fam4 le').netToString fmt n) ∧
    (∀ m n, (fam4 le).netEq m n = (fam4 le').netEq m n ∧ (fam4 le).netCmp m n = (fam4 le').netCmp m n) ∧
    (∀ n a, (fam4 le).contains n a = (fam4 le').contains n a) := by
  refine ⟨fun a ha => ?_, fun _ _ => ?_, fun _ _ => ?_, fun _ _ => ?_⟩
  · match a, ha with
    | [x, y, z, w], _ => rw [C21_v4_reverse_pointer, C21_v4_reverse_pointer]
  · rfl
  · exact ⟨rfl, rfl⟩
  · rfl

example := (C66_v4_addresses true false).1 [192, 168, 7, 9] rfl

/-- C66, negation: on big endian hosts the IPv4 netmask of a prefix length is the right one only for the
lengths 0 and 32. -/
theorem C66_v4_netmask_wrong (p : Nat) (hp : p ≤ 32) :
    ∃ b, v4FromPrefix false p = .ok b ∧ b.length = 4 ∧ (IsMask 32 p (beValue b) ↔ p = 0 ∨ p = 32) := by
  have key : ∀ q : Fin 33, (match v4FromPrefix false q.val with
      | .ok b => decide (b.length = 4) && decide (beValue b = 2 ^ 32 - 2 ^ (32 - q.val) ↔ q.val = 0 ∨ q.val = 32)
      | _ => false) = true := by decide +kernel
  have k := key ⟨p, by omega⟩
  simp only at k
  split at k
  · rename_i b hb
    simp only [Bool.and_eq_true, decide_eq_true_iff] at k
    refine ⟨b, hb, k.1, ?_⟩
    rw [← k.2]
    constructor
    · intro h
      apply Nat.eq_of_testBit_eq
      intro i
      rw [h i]
      exact ((mask_isMask 32 p hp) i).symm
    · intro h
      rw [h]
      exact mask_isMask 32 p hp
  · cases k

example := C66_v4_netmask_wrong 16 (by decide)

/-- C66, negation: on big endian hosts `10.0.0.0/8` is rejected, and `0.0.0.0/8` consists of the addresses
with a last octet 0. -/
theorem C66_v4_networks_wrong :
    (fam4 false).parseNet (readChars "10.0.0.0/8".toList) true = .err .has_host_bits_set 0 ∧
    ∃ n, (fam4 false).parseNet (readChars "0.0.0.0/8".toList) true = .ok n ∧
      (fam4 false).contains n [10, 0, 0, 0] = .ok true ∧ (fam4 false).contains n [0, 0, 0, 1] = .ok false := by
  refine ⟨by decide +kernel, ⟨[0, 0, 0, 0], [0, 0, 0, 255], 8⟩, by decide +kernel, by decide, by decide⟩

theorem be_first : (fam4 false).parseNet (readChars "0.0.0.0/8".toList) true = .ok ⟨[0, 0, 0, 0], [0, 0, 0, 255], 8⟩ := by
  decide +kernel

/-- C66, negation: on big endian hosts `is_private` of an IPv4 address is true when its last octet is 0,
and has no value otherwise, as a network of the table does not parse.  A program that uses the table
is rejected by the compiler where the table is a constant. -/
theorem C66_v4_private_wrong (a b c d : BitVec 8) :
    v4IsPrivate false [a, b, c, d] = if d = 0#8 then .ok true else .err .has_host_bits_set 0 := by
  have h2 := C66_v4_networks_wrong.1
  rw [v4IsPrivate, v4PrivateTexts, Fam.tableContains, Fam.textContains, be_first, Res.ok_bind]
  have hc : (fam4 false).contains ⟨[0, 0, 0, 0], [0, 0, 0, 255], 8⟩ [a, b, c, d] = .ok (decide (d = 0#8)) := by
    simp only [Fam.contains, fam4, Fam.containsLoop]
    simp only [BitVec.ofNat_eq_ofNat, BitVec.and_zero, ne_eq, not_true_eq_false, if_false]
    have h1 : d &&& 255#8 = d := BitVec.and_allOnes
    by_cases h : d = 0#8
    · subst h; rfl
    · rw [if_pos (by rw [h1]; exact h)]; simp [h]
  rw [hc, Res.ok_bind]
  by_cases h : d = 0#8
  · simp [h]
  · simp only [h, decide_false, Bool.false_eq_true, if_false]
    rw [Fam.tableContains, Fam.textContains, h2]
    rfl

/-- `fd00::/16`. -/
def exFd : Net V6 := ⟨⟨[0xfd, 0, 0, 0, 0, 0, 0, 0, 0, 0, 0, 0, 0, 0, 0, 0], emptyScope 16⟩,
  ⟨[255, 255, 0, 0, 0, 0, 0, 0, 0, 0, 0, 0, 0, 0, 0, 0], emptyScope 16⟩, 16⟩

/-- `2001:db8::/120`. -/
def exDb : Net V6 := ⟨⟨[0x20, 1, 0xd, 0xb8, 0, 0, 0, 0, 0, 0, 0, 0, 0, 0, 0, 0], emptyScope 16⟩,
  ⟨[255, 255, 255, 255, 255, 255, 255, 255, 255, 255, 255, 255, 255, 255, 255, 0], emptyScope 16⟩, 120⟩

/-- C66, negation: on big endian hosts the supernet of `fd00::/16` with eight bits less is `::/8`, which
does not contain it, `2001:db8::/120` has `255 * 2^56 + 1` addresses, and its first host is
`2001:db8::100:0:0:0`, which it does not contain. -/
theorem C66_v6_arithmetic_wrong :
    NetOk6 (exCfg.onHost false) exFd ∧ NetOk6 (exCfg.onHost false) exDb ∧
    (∃ r, (fam6 (exCfg.onHost false)).supernet exFd 8 none = .ok r ∧ (fam6 (exCfg.onHost false)).contains r exFd.addr = .ok false) ∧
    (∃ k, (fam6 (exCfg.onHost false)).addressesCount exDb = .ok k ∧ k.val = 255 * 2 ^ 56 + 1) ∧
    (∃ s, (fam6 (exCfg.onHost false)).hosts exDb = .ok s ∧
      (fam6 (exCfg.onHost false)).contains exDb s.front = .ok false) := by
  refine ⟨⟨⟨rfl, Nat.zero_le _, by simp [exFd, emptyScope, exCfg, Cfg.onHost]⟩, by decide, ⟨_, rfl, rfl, by decide⟩, by decide⟩,
    ⟨⟨rfl, Nat.zero_le _, by simp [exDb, emptyScope, exCfg, Cfg.onHost]⟩, by decide, ⟨_, rfl, rfl, by decide⟩, by decide⟩, ?_, ?_, ?_⟩
  · refine ⟨⟨⟨List.replicate 16 0, emptyScope 16⟩, ⟨255 :: List.replicate 15 0, emptyScope 16⟩, 8⟩, by decide +kernel, by decide +kernel⟩
  · refine ⟨⟨0, 0xff00000000000001⟩, by decide +kernel, by decide +kernel⟩
  · refine ⟨⟨⟨⟨[0x20, 1, 0xd, 0xb8, 0, 0, 0, 0, 1, 0, 0, 0, 0, 0, 0, 0], emptyScope 16⟩, ⟨0xb80d0120, 1⟩, 0⟩,
      ⟨⟨[0x20, 1, 0xd, 0xb8, 0, 0, 0, 0, 1, 0, 0, 0, 0, 0, 0, 255], emptyScope 16⟩, ⟨0xb80d0120, 0xff00000000000001⟩, 0⟩⟩,
      by decide +kernel, by decide +kernel⟩

/-- `10.253.0.0/16`. -/
def exTen253 : Net (List (BitVec 8)) := ⟨[10, 253, 0, 0], [255, 255, 0, 0], 16⟩

/-- `fd12::/16`. -/
def exFd12 : Net V6 := ⟨⟨[0xfd, 0x12, 0, 0, 0, 0, 0, 0, 0, 0, 0, 0, 0, 0, 0, 0], emptyScope 16⟩,
  ⟨[255, 255, 0, 0, 0, 0, 0, 0, 0, 0, 0, 0, 0, 0, 0, 0], emptyScope 16⟩, 16⟩

/-- C66, negation: on big endian hosts `supernet` with eight bits less, also the variant with `error_code`, ends the program
for `10.253.0.0/16` and `fd12::/16`: `from_address` throws inside the `noexcept` function. -/
theorem C66_supernet_ends :
    NetOk4 exTen253 ∧ NetOk6 (exCfg.onHost false) exFd12 ∧
    (fam4 false).supernet exTen253 8 none = .ub ∧ (∃ r, (fam4 true).supernet exTen253 8 none = .ok r) ∧
    (fam6 (exCfg.onHost false)).supernet exFd12 8 none = .ub ∧
    (∃ r, (fam6 (exCfg.onHost true)).supernet exFd12 8 none = .ok r) := by
  refine ⟨⟨rfl, by decide, ⟨_, rfl, rfl, by decide⟩, by decide⟩,
    ⟨⟨rfl, Nat.zero_le _, by simp [exFd12, emptyScope, exCfg, Cfg.onHost]⟩, by decide, ⟨_, rfl, rfl, by decide⟩, by decide⟩,
    by decide +kernel, ⟨⟨[10, 0, 0, 0], [255, 0, 0, 0], 8⟩, by decide +kernel⟩, by decide +kernel,
    ⟨⟨⟨0xfd :: List.replicate 15 0, emptyScope 16⟩, ⟨255 :: List.replicate 15 0, emptyScope 16⟩, 8⟩, by decide +kernel⟩⟩

end Ip
