import Verif.Lemmas.TablesLaw
import Verif.Props.ExcludeCtor
/-
C93: programs that keep networks in sorted tables: routing tables, filters, allocations.
-/
set_option autoImplicit false

namespace Ip
open Spec

/-! ### IPv4 -/

/-- C93, IPv4: one pass over a sorted table that drops the networks inside of the last one kept leaves networks
of the table of which no two overlap, and that contain the same addresses. -/
theorem C93_collapse_v4 (t : List (Net (List (BitVec 8)))) (ht : ∀ n ∈ t, NetOk4 n) (ho : TableSorted (fam4 true).netLt t) :
    ∃ out, collapse (fam4 true).subnetOf t = .ok out ∧ out.Sublist t ∧ out.Pairwise (fun m n => (fam4 true).overlaps m n = .ok false) ∧
      ∀ a : List (BitVec 8), a.length = 4 →
        ((∃ n ∈ t, (fam4 true).contains n a = .ok true) ↔ ∃ n ∈ out, (fam4 true).contains n a = .ok true) :=
  collapse_spec table4 t ht ho

/-- The networks `10.0.0.0/8`, `10.0.0.0/16`, `10.2.0.0/16` and `10.2.0.0/24`. -/
def exTable4 : List (Net (List (BitVec 8))) :=
  [⟨[10, 0, 0, 0], [255, 0, 0, 0], 8⟩, ⟨[10, 0, 0, 0], [255, 255, 0, 0], 16⟩, ⟨[10, 2, 0, 0], [255, 255, 0, 0], 16⟩,
    ⟨[10, 2, 0, 0], [255, 255, 255, 0], 24⟩]

theorem exTable4_ok : (∀ n ∈ exTable4, NetOk4 n) ∧ TableSorted (fam4 true).netLt exTable4 := by
  refine ⟨?_, ?_⟩
  · intro n hn
    rcases List.mem_cons.mp hn with rfl | hn
    · exact ⟨rfl, by decide, ⟨_, rfl, rfl, by decide⟩, by decide⟩
    rcases List.mem_cons.mp hn with rfl | hn
    · exact ⟨rfl, by decide, ⟨_, rfl, rfl, by decide⟩, by decide⟩
    rcases List.mem_cons.mp hn with rfl | hn
    · exact ⟨rfl, by decide, ⟨_, rfl, rfl, by decide⟩, by decide⟩
    rcases List.mem_cons.mp hn with rfl | hn
    · exact ⟨rfl, by decide, ⟨_, rfl, rfl, by decide⟩, by decide⟩
    cases hn
  · unfold TableSorted; decide +kernel

example : collapse (fam4 true).subnetOf exTable4 = .ok [⟨[10, 0, 0, 0], [255, 0, 0, 0], 8⟩] := by decide +kernel
example : collapse (fam4 true).subnetOf exTable4.tail =
    .ok [⟨[10, 0, 0, 0], [255, 255, 0, 0], 16⟩, ⟨[10, 2, 0, 0], [255, 255, 0, 0], 16⟩] := by decide +kernel
example := C93_collapse_v4 exTable4 exTable4_ok.1 exTable4_ok.2

/-- C93, IPv4: the networks of a sorted table that are inside of a network are the ones next to each other that the
walk from `lower_bound` finds. -/
theorem C93_under_v4 (n : Net (List (BitVec 8))) (hn : NetOk4 n) (t : List (Net (List (BitVec 8)))) (ht : ∀ m ∈ t, NetOk4 m)
    (ho : TableSorted (fam4 true).netLt t) :
    ∃ l out r, under (fam4 true).netLt (fam4 true).subnetOf n t = .ok out ∧ t = l ++ out ++ r ∧
      (∀ m ∈ l, (fam4 true).subnetOf m n = .ok false) ∧ (∀ m ∈ out, (fam4 true).subnetOf m n = .ok true) ∧
      ∀ m ∈ r, (fam4 true).subnetOf m n = .ok false := under_spec table4 n hn t ht ho

example : under (fam4 true).netLt (fam4 true).subnetOf ⟨[10, 0, 0, 0], [255, 254, 0, 0], 15⟩ exTable4 =
    .ok [⟨[10, 0, 0, 0], [255, 255, 0, 0], 16⟩] := by decide +kernel

/-- C93, IPv4: the last network of a sorted table that contains an address is the most specific one: it is inside
of every other that contains it.  When none is found no network of the table contains the address. -/
theorem C93_most_specific_v4 (a : List (BitVec 8)) (ha : a.length = 4) (t : List (Net (List (BitVec 8)))) (ht : ∀ n ∈ t, NetOk4 n)
    (ho : TableSorted (fam4 true).netLt t) :
    ∃ r, firstWith (fam4 true).contains a t.reverse = .ok r ∧ (r = none ↔ ∀ n ∈ t, (fam4 true).contains n a = .ok false) ∧
      ∀ n, r = some n → n ∈ t ∧ (fam4 true).contains n a = .ok true ∧
        ∀ m ∈ t, (fam4 true).contains m a = .ok true → (fam4 true).subnetOf n m = .ok true :=
  lastWith_spec table4 a ha t ht ho

example : firstWith (fam4 true).contains [10, 2, 7, 1] exTable4.reverse = .ok (some ⟨[10, 2, 0, 0], [255, 255, 0, 0], 16⟩) := by
  decide +kernel

/-- C93, IPv4: looking up the networks around an address from the longest prefix length to the shortest finds the
network of the table with the longest prefix that contains the address, in tables in any order. -/
theorem C93_lookup_v4 (a : List (BitVec 8)) (ha : a.length = 4) (t : List (Net (List (BitVec 8)))) (ht : ∀ n ∈ t, NetOk4 n) :
    ∃ r, lookup (fun p => (fam4 true).fromAddress a p false) (fam4 true).netEq t 33 = .ok r ∧
      (r = none ↔ ∀ n ∈ t, ¬ (fam4 true).contains n a = .ok true) ∧
      ∀ n, r = some n → n ∈ t ∧ (fam4 true).contains n a = .ok true ∧
        ∀ m ∈ t, (fam4 true).contains m a = .ok true → m.plen ≤ n.plen := by
  obtain ⟨r, r1, r2, r3⟩ := lookup_spec (ok := NetOk4) (eq := (fam4 true).netEq) (len := Net.plen)
    (frm := fun p => (fam4 true).fromAddress a p false)
    (fun n => (fam4 true).contains n a = .ok true) netEq4_plain t ht 33 (fun p hp => by
      obtain ⟨m, m1, m2, m3⟩ := from_around fam4Law a ha ⟨a, rfl⟩ p hp
      exact ⟨m, m1, (plain4_iff m).mp m2, fun n hn => m3 n ((plain4_iff n).mpr hn)⟩)
  have hl : ∀ n ∈ t, n.plen < 33 := fun n hn => Nat.lt_succ_of_le (ht n hn).plen
  refine ⟨r, r1, r2.trans ⟨fun h n hn => h n hn (hl n hn), fun h n hn _ => h n hn⟩, fun n hn => ?_⟩
  obtain ⟨k1, k2, -, k4⟩ := r3 n hn
  exact ⟨k1, k2, fun m hm hc => k4 m hm hc (hl m hm)⟩

example : lookup (fun p => (fam4 true).fromAddress [10, 2, 7, 1] p false) (fam4 true).netEq exTable4 33 =
    .ok (some ⟨[10, 2, 0, 0], [255, 255, 0, 0], 16⟩) := by decide +kernel

/-! ### IPv6: networks without scope id -/

/-- C93, IPv6 (partial): tables of networks without scope id.  Missing: networks with one (`C93_scope_violated`). -/
theorem C93_collapse_v6_partial (c : Cfg) (hc : c.le = true) (hv : ∀ x y, c.val x = c.val y → x = y) (t : List (Net V6))
    (ht : ∀ n ∈ t, NetOk6 c n ∧ n.addr.scope = emptyScope c.M) (ho : TableSorted (fam6 c).netLt t) :
    ∃ out, collapse (fam6 c).subnetOf t = .ok out ∧ out.Sublist t ∧ out.Pairwise (fun m n => (fam6 c).overlaps m n = .ok false) ∧
      ∀ a : V6, a.WF c.M →
        ((∃ n ∈ t, (fam6 c).contains n a = .ok true) ↔ ∃ n ∈ out, (fam6 c).contains n a = .ok true) :=
  collapse_spec (table6 c hc hv) t ht ho

/-- C93, IPv6 (partial): see `C93_collapse_v6_partial` for what is missing. -/
theorem C93_under_v6_partial (c : Cfg) (hc : c.le = true) (hv : ∀ x y, c.val x = c.val y → x = y) (n : Net V6)
    (hn : NetOk6 c n ∧ n.addr.scope = emptyScope c.M) (t : List (Net V6))
    (ht : ∀ m ∈ t, NetOk6 c m ∧ m.addr.scope = emptyScope c.M) (ho : TableSorted (fam6 c).netLt t) :
    ∃ l out r, under (fam6 c).netLt (fam6 c).subnetOf n t = .ok out ∧ t = l ++ out ++ r ∧
      (∀ m ∈ l, (fam6 c).subnetOf m n = .ok false) ∧ (∀ m ∈ out, (fam6 c).subnetOf m n = .ok true) ∧
      ∀ m ∈ r, (fam6 c).subnetOf m n = .ok false := under_spec (table6 c hc hv) n hn t ht ho

/-- C93, IPv6 (partial): see `C93_collapse_v6_partial` for what is missing; the address may have a scope id. -/
theorem C93_most_specific_v6_partial (c : Cfg) (hc : c.le = true) (hv : ∀ x y, c.val x = c.val y → x = y) (a : V6) (ha : a.WF c.M)
    (t : List (Net V6)) (ht : ∀ n ∈ t, NetOk6 c n ∧ n.addr.scope = emptyScope c.M) (ho : TableSorted (fam6 c).netLt t) :
    ∃ r, firstWith (fam6 c).contains a t.reverse = .ok r ∧ (r = none ↔ ∀ n ∈ t, (fam6 c).contains n a = .ok false) ∧
      ∀ n, r = some n → n ∈ t ∧ (fam6 c).contains n a = .ok true ∧
        ∀ m ∈ t, (fam6 c).contains m a = .ok true → (fam6 c).subnetOf n m = .ok true :=
  lastWith_spec (table6 c hc hv) a ha t ht ho

/-- C93, IPv6 (partial): neither the networks of the table nor the address have a scope id. -/
theorem C93_lookup_v6_partial (c : Cfg) (hc : c.le = true) (hv : ∀ x y, c.val x = c.val y → x = y) (a : V6) (ha : a.WF c.M)
    (sa : a.scope = emptyScope c.M) (t : List (Net V6)) (ht : ∀ n ∈ t, NetOk6 c n ∧ n.addr.scope = emptyScope c.M) :
    ∃ r, lookup (fun p => (fam6 c).fromAddress a p false) (fam6 c).netEq t 129 = .ok r ∧
      (r = none ↔ ∀ n ∈ t, ¬ (fam6 c).contains n a = .ok true) ∧
      ∀ n, r = some n → n ∈ t ∧ (fam6 c).contains n a = .ok true ∧
        ∀ m ∈ t, (fam6 c).contains m a = .ok true → m.plen ≤ n.plen := by
  obtain ⟨r, r1, r2, r3⟩ := lookup_spec (ok := Plain6 c) (eq := (fam6 c).netEq) (len := Net.plen)
    (frm := fun p => (fam6 c).fromAddress a p false)
    (fun n => (fam6 c).contains n a = .ok true) (netEq6_plain c hc hv) t ht 129 (fun p hp => by
      obtain ⟨m, m1, m2, m3⟩ := from_around (fam6Law c hc) a ha ⟨a.bytes, by cases a; cases sa; rfl⟩ p hp
      exact ⟨m, m1, (plain6_iff c m).mp m2, fun n hn => m3 n ((plain6_iff c n).mpr hn)⟩)
  have hl : ∀ n ∈ t, n.plen < 129 := fun n hn => Nat.lt_succ_of_le (ht n hn).1.plen
  refine ⟨r, r1, r2.trans ⟨fun h n hn => h n hn (hl n hn), fun h n hn _ => h n hn⟩, fun n hn => ?_⟩
  obtain ⟨k1, k2, -, k4⟩ := r3 n hn
  exact ⟨k1, k2, fun m hm hc => k4 m hm hc (hl m hm)⟩

/-- The networks `::/0` and `fe80::/64`. -/
def exTable6 : List (Net V6) := [exAll6, exPlain64]

theorem exTable6_ok : (∀ n ∈ exTable6, NetOk6 exCfg n ∧ n.addr.scope = emptyScope exCfg.M) ∧ TableSorted (fam6 exCfg).netLt exTable6 := by
  refine ⟨fun n hn => ?_, by unfold TableSorted; decide +kernel⟩
  rcases List.mem_cons.mp hn with rfl | hn
  · exact ⟨exAll6_ok, rfl⟩
  rcases List.mem_cons.mp hn with rfl | hn
  · exact ⟨exScope10_ok.2, rfl⟩
  cases hn

example := C93_collapse_v6_partial exCfg rfl exCfg_val exTable6 exTable6_ok.1 exTable6_ok.2
example : collapse (fam6 exCfg).subnetOf exTable6 = .ok [exAll6] := by decide +kernel
example := C93_under_v6_partial exCfg rfl exCfg_val exAll6 ⟨exAll6_ok, rfl⟩ exTable6 exTable6_ok.1 exTable6_ok.2
example : under (fam6 exCfg).netLt (fam6 exCfg).subnetOf exPlain64 exTable6 = .ok [exPlain64] := by decide +kernel
example := C93_most_specific_v6_partial exCfg rfl exCfg_val exPlain64.addr exScope10_ok.2.wf exTable6 exTable6_ok.1 exTable6_ok.2
example : firstWith (fam6 exCfg).contains exScope10.addr exTable6.reverse = .ok (some exPlain64) := by decide +kernel
example := C93_lookup_v6_partial exCfg rfl exCfg_val exPlain64.addr exScope10_ok.2.wf rfl exTable6 exTable6_ok.1

/-! ### Both versions -/

/-- C93, `ip_network` (partial): tables of networks of both versions, the IPv6 networks without scope id. -/
theorem C93_collapse_any_partial (c : Cfg) (hc : c.le = true) (hv : ∀ x y, c.val x = c.val y → x = y) (t : List AnyNet)
    (ht : ∀ n ∈ t, NetOkAny c n ∧ PlainAny c n) (ho : TableSorted (anyNetLt c) t) :
    ∃ out, collapse (anyNetSubnetOf c) t = .ok out ∧ out.Sublist t ∧ out.Pairwise (fun m n => anyNetOverlaps c m n = .ok false) ∧
      ∀ a, AddrOkAny c a →
        ((∃ n ∈ t, anyNetContains c n a = .ok true) ↔ ∃ n ∈ out, anyNetContains c n a = .ok true) :=
  collapse_spec (tableAny c hc hv) t (fun n hn => tableNet_iff.mpr (ht n hn)) ho

/-- C93, `ip_network` (partial): the walk from `lower_bound`; see `C93_collapse_any_partial`. -/
theorem C93_under_any_partial (c : Cfg) (hc : c.le = true) (hv : ∀ x y, c.val x = c.val y → x = y) (n : AnyNet)
    (hn : NetOkAny c n ∧ PlainAny c n) (t : List AnyNet) (ht : ∀ n ∈ t, NetOkAny c n ∧ PlainAny c n) (ho : TableSorted (anyNetLt c) t) :
    ∃ l out r, under (anyNetLt c) (anyNetSubnetOf c) n t = .ok out ∧ t = l ++ out ++ r ∧
      (∀ m ∈ l, anyNetSubnetOf c m n = .ok false) ∧ (∀ m ∈ out, anyNetSubnetOf c m n = .ok true) ∧
      ∀ m ∈ r, anyNetSubnetOf c m n = .ok false :=
  under_spec (tableAny c hc hv) n (tableNet_iff.mpr hn) t (fun n hn => tableNet_iff.mpr (ht n hn)) ho

/-- C93, `ip_network` (partial): the last network that contains an address; see `C93_collapse_any_partial`. -/
theorem C93_most_specific_any_partial (c : Cfg) (hc : c.le = true) (hv : ∀ x y, c.val x = c.val y → x = y) (a : AnyAddr)
    (ha : AddrOkAny c a) (t : List AnyNet) (ht : ∀ n ∈ t, NetOkAny c n ∧ PlainAny c n) (ho : TableSorted (anyNetLt c) t) :
    ∃ r, firstWith (anyNetContains c) a t.reverse = .ok r ∧ (r = none ↔ ∀ n ∈ t, anyNetContains c n a = .ok false) ∧
      ∀ n, r = some n → n ∈ t ∧ anyNetContains c n a = .ok true ∧
        ∀ m ∈ t, anyNetContains c m a = .ok true → anyNetSubnetOf c n m = .ok true :=
  lastWith_spec (tableAny c hc hv) a ha t (fun n hn => tableNet_iff.mpr (ht n hn)) ho

/-- The networks of both tables. -/
def exTableAny : List AnyNet := exTable4.map .v4 ++ exTable6.map .v6

theorem exTableAny_ok : (∀ n ∈ exTableAny, NetOkAny exCfg n ∧ PlainAny exCfg n) ∧ TableSorted (anyNetLt exCfg) exTableAny := by
  refine ⟨fun n hn => ?_, by unfold TableSorted; decide +kernel⟩
  rcases List.mem_append.mp hn with hn | hn
  · obtain ⟨m, hm, rfl⟩ := List.mem_map.mp hn
    exact ⟨exTable4_ok.1 m hm, trivial⟩
  · obtain ⟨m, hm, rfl⟩ := List.mem_map.mp hn
    exact exTable6_ok.1 m hm

example := C93_collapse_any_partial exCfg rfl exCfg_val exTableAny exTableAny_ok.1 exTableAny_ok.2
example := C93_under_any_partial exCfg rfl exCfg_val (.v6 exAll6) ⟨exAll6_ok, rfl⟩ exTableAny exTableAny_ok.1 exTableAny_ok.2
example := C93_most_specific_any_partial exCfg rfl exCfg_val (.v4 [10, 2, 7, 1]) rfl exTableAny exTableAny_ok.1 exTableAny_ok.2
example : collapse (anyNetSubnetOf exCfg) exTableAny = .ok [.v4 ⟨[10, 0, 0, 0], [255, 0, 0, 0], 8⟩, .v6 exAll6] := by decide +kernel

/-! ### Scope ids -/

/-- `fe80::%k/p` for a character `k`. -/
def exLink (k : Char) (mask : List (BitVec 8)) (p : Nat) : Net V6 :=
  ⟨⟨[0xfe, 0x80, 0, 0, 0, 0, 0, 0, 0, 0, 0, 0, 0, 0, 0, 0], ⟨k :: List.replicate 15 '\x00', 1⟩⟩, ⟨mask, emptyScope 16⟩, p⟩

/-- `fe80::%1/64`, `fe80::%2/10` and `fe80::%3/64`. -/
def exLinks : List (Net V6) :=
  [exLink '1' [255, 255, 255, 255, 255, 255, 255, 255, 0, 0, 0, 0, 0, 0, 0, 0] 64,
    exLink '2' [255, 0xc0, 0, 0, 0, 0, 0, 0, 0, 0, 0, 0, 0, 0, 0, 0] 10,
    exLink '3' [255, 255, 255, 255, 255, 255, 255, 255, 0, 0, 0, 0, 0, 0, 0, 0] 64]

theorem exLinks_ok : (∀ n ∈ exLinks, NetOk6 exCfg n) ∧ TableSorted (fam6 exCfg).netLt exLinks := by
  refine ⟨fun n hn => ?_, by unfold TableSorted; decide +kernel⟩
  rcases List.mem_cons.mp hn with rfl | hn
  · exact ⟨⟨rfl, by unfold FStr.WF; decide, by simp [exLink, exCfg]⟩, by decide, ⟨_, rfl, rfl, by decide⟩, by decide⟩
  rcases List.mem_cons.mp hn with rfl | hn
  · exact ⟨⟨rfl, by unfold FStr.WF; decide, by simp [exLink, exCfg]⟩, by decide, ⟨_, rfl, rfl, by decide⟩, by decide⟩
  rcases List.mem_cons.mp hn with rfl | hn
  · exact ⟨⟨rfl, by unfold FStr.WF; decide, by simp [exLink, exCfg]⟩, by decide, ⟨_, rfl, rfl, by decide⟩, by decide⟩
  cases hn

/-- C93, negation with scope ids, in the sorted table `fe80::%1/64`, `fe80::%2/10`, `fe80::%3/64`: collapsing
leaves networks that overlap; the walk from `fe80::%1/64` misses `fe80::%3/64`, which the library counts as its
subnet; of the first two networks, which both contain `fe80::1%1`, the last is the larger; and the lookup of
`fe80::1%1` finds none of the three, which all contain it. -/
theorem C93_scope_violated :
    (∃ m n, collapse (fam6 exCfg).subnetOf exLinks = .ok [m, n] ∧ (fam6 exCfg).overlaps m n = .ok true) ∧
    under (fam6 exCfg).netLt (fam6 exCfg).subnetOf exLinks[0] exLinks = .ok [exLinks[0]] ∧
    (fam6 exCfg).subnetOf exLinks[2] exLinks[0] = .ok true ∧
    (∃ a : V6, a.WF 16 ∧ (∀ n ∈ exLinks, (fam6 exCfg).contains n a = .ok true) ∧
      firstWith (fam6 exCfg).contains a (exLinks.take 2).reverse = .ok (some exLinks[1]) ∧
      (fam6 exCfg).subnetOf exLinks[1] exLinks[0] = .ok false ∧
      lookup (fun p => (fam6 exCfg).fromAddress a p false) (fam6 exCfg).netEq exLinks 129 = .ok none) := by
  refine ⟨⟨exLinks[0], exLinks[1], by decide +kernel, by decide +kernel⟩, by decide +kernel, by decide +kernel,
    ⟨[0xfe, 0x80, 0, 0, 0, 0, 0, 0, 0, 0, 0, 0, 0, 0, 0, 1], ⟨'1' :: List.replicate 15 '\x00', 1⟩⟩,
    ⟨rfl, by unfold FStr.WF; decide, by simp⟩, by decide +kernel, by decide +kernel, by decide +kernel, by decide +kernel⟩

end Ip
