import Verif.Lemmas.RefsLoop
import Verif.Lemmas.AnyProgram
import Verif.Props.StdAlgo
/-
References to the elements of iterators (C91).  Little endian hosts.
-/
set_option autoImplicit false

namespace Ip
open Spec

/-- For blocks that compile, with iterators of `P`: the outcome is undefined exactly when a statement of the block
dangles, otherwise the block runs to its end; and it does the same with every reference replaced by the iterator that
the reference belongs to. -/
def RefsExact {I V U : Type} (O : RaOps I V U) (P : I → Prop) : Prop :=
  ∀ p : List (RStmt I), BlockCompiles p → (∀ x, RStmt.make x ∈ p → P x) →
    ((RState.start : RState I V).run O p = .ub ↔ SomeDangles p) ∧
    (¬ SomeDangles p → ∃ s, (RState.start : RState I V).run O p = .ok s) ∧
    (RState.start : RState I V).run O p = (RState.start : RState I V).run O (direct [] p)

theorem refsExact {I V U : Type} {O : RaOps I V U} {P : I → Prop} (T : RTotal O P) : RefsExact O P := by
  intro p hc hm
  have h0 : RAfter P [] (RState.start : RState I V) :=
    RInv.congr (RInv.start P) (fun i => by simp) []
  obtain ⟨h1, h2, h3⟩ := run_total T p [] RState.start h0 (fun b q c e => hc b q c e) hm
  refine ⟨⟨fun h => ?_, h1⟩, fun h => ?_, h3⟩
  · by_cases hd : SomeDangles p
    · exact hd
    · obtain ⟨s, e, -⟩ := h2 hd
      rw [e] at h
      cases h
  · obtain ⟨s, e, -⟩ := h2 h
    exact ⟨s, e⟩

/-! ### Exactly which blocks are undefined -/

/-- C91, IPv4 addresses: with `hosts()` iterators and their reverse iterators `ip_reverse_iterator`, a reference or pointer
to an element is the iterator it came from.  A block that keeps references is undefined exactly when it reads one
whose iterator is gone (a temporary, or out of scope), or uses `std::reverse_iterator`. -/
theorem C91_exact_v4 : RefsExact (fam4 true).aiRa (ItOk (fam4 true) WF4 BitVec.toNat) ∧
    RefsExact (fam4 true).aiRa.rev (fun r => ItOk (fam4 true) WF4 BitVec.toNat r.it) :=
  ⟨refsExact (ai_total fam4Law), refsExact (ai_total fam4Law).rev⟩

/-- C91, IPv6 addresses. -/
theorem C91_exact_v6 (c : Cfg) (hc : c.le = true) : RefsExact (fam6 c).aiRa (ItOk (fam6 c) (V6.WF c.M) U128.val) ∧
    RefsExact (fam6 c).aiRa.rev (fun r => ItOk (fam6 c) (V6.WF c.M) U128.val r.it) :=
  ⟨refsExact (ai_total (fam6Law c hc)), refsExact (ai_total (fam6Law c hc)).rev⟩

example := C91_exact_v6 exCfg rfl

/-- C91, networks of `subnets()`. -/
theorem C91_exact_networks (c : Cfg) (hc : c.le = true) :
    RefsExact (fam4 true).niRa (NitSafe (fam4 true) WF4 BitVec.toNat) ∧
    RefsExact (fam4 true).niRa.rev (fun r => NitSafe (fam4 true) WF4 BitVec.toNat r.it) ∧
    RefsExact (fam6 c).niRa (NitSafe (fam6 c) (V6.WF c.M) U128.val) ∧
    RefsExact (fam6 c).niRa.rev (fun r => NitSafe (fam6 c) (V6.WF c.M) U128.val r.it) :=
  ⟨refsExact (ni_total fam4Law), refsExact (ni_total fam4Law).rev, refsExact (ni_total (fam6Law c hc)),
    refsExact (ni_total (fam6Law c hc)).rev⟩

example := C91_exact_networks exCfg rfl

theorem anyHosts_total (c : Cfg) (hc : c.le = true) : RTotal (anyHostsOps c).ra
    (AnyItIs (ItOk (fam4 true) WF4 BitVec.toNat) (ItOk (fam6 c) (V6.WF c.M) U128.val)) := by
  have L6 := fam6Law c hc
  refine any_total _ _ _ ?_ ?_ ?_ ?_ ?_ ?_
  · intro x n h
    obtain ⟨y, h1, h2, -⟩ := aiAdd_yields fam4Law x h n
    rw [← hc] at h1
    exact ⟨y, h1, h2⟩
  · intro x n h
    obtain ⟨y, h1, h2, -⟩ := aiSub_yields fam4Law x h n
    rw [← hc] at h1
    exact ⟨y, h1, h2⟩
  · intro x n _
    obtain ⟨y, h1, -⟩ := fromUint_yields fam4Law ((fam4 true).ops.add x.off n)
    rw [← hc] at h1
    exact ⟨y, h1⟩
  · intro x n h
    obtain ⟨y, h1, h2, -⟩ := aiAdd_yields L6 x h n
    exact ⟨y, h1, h2⟩
  · intro x n h
    obtain ⟨y, h1, h2, -⟩ := aiSub_yields L6 x h n
    exact ⟨y, h1, h2⟩
  · intro x n _
    obtain ⟨y, h1, -⟩ := fromUint_yields L6 ((fam6 c).ops.add x.off n)
    exact ⟨y, h1⟩

theorem anySubnets_total (c : Cfg) (hc : c.le = true) : RTotal (anySubnetsOps c).ra
    (AnyItIs (NitSafe (fam4 true) WF4 BitVec.toNat) (NitSafe (fam6 c) (V6.WF c.M) U128.val)) := by
  have L6 := fam6Law c hc
  refine any_total _ _ _ ?_ ?_ ?_ ?_ ?_ ?_
  · intro x n h
    obtain ⟨y, h1, h2⟩ := niAdd_yields fam4Law x h n
    rw [← hc] at h1
    exact ⟨y, h1, h2⟩
  · intro x n h
    obtain ⟨y, h1, h2⟩ := niSub_yields fam4Law x h n
    rw [← hc] at h1
    exact ⟨y, h1, h2⟩
  · intro x n h
    obtain ⟨y, h1, -⟩ := niAt_yields fam4Law x h n
    rw [← hc] at h1
    exact ⟨y, h1⟩
  · intro x n h
    exact niAdd_yields L6 x h n
  · intro x n h
    exact niSub_yields L6 x h n
  · intro x n h
    obtain ⟨y, h1, -⟩ := niAt_yields L6 x h n
    exact ⟨y, h1⟩

/-- C91, `ip_address` and `ip_network`. -/
theorem C91_exact_any (c : Cfg) (hc : c.le = true) :
    RefsExact (anyHostsOps c).ra (AnyItIs (ItOk (fam4 true) WF4 BitVec.toNat) (ItOk (fam6 c) (V6.WF c.M) U128.val)) ∧
    RefsExact (anyHostsOps c).ra.rev
      (fun r => AnyItIs (ItOk (fam4 true) WF4 BitVec.toNat) (ItOk (fam6 c) (V6.WF c.M) U128.val) r.it) ∧
    RefsExact (anySubnetsOps c).ra (AnyItIs (NitSafe (fam4 true) WF4 BitVec.toNat) (NitSafe (fam6 c) (V6.WF c.M) U128.val)) ∧
    RefsExact (anySubnetsOps c).ra.rev
      (fun r => AnyItIs (NitSafe (fam4 true) WF4 BitVec.toNat) (NitSafe (fam6 c) (V6.WF c.M) U128.val) r.it) :=
  ⟨refsExact (anyHosts_total c hc), refsExact (anyHosts_total c hc).rev, refsExact (anySubnets_total c hc),
    refsExact (anySubnets_total c hc).rev⟩

example := C91_exact_any exCfg rfl

/-- The iterators of `hosts()` are among those of `C91_exact_v4`. -/
theorem hosts_ok4 (n : Net (List (BitVec 8))) (hn : NetOk4 n) : ∃ s, (fam4 true).hosts n = .ok s ∧
    ItOk (fam4 true) WF4 BitVec.toNat s.first ∧ ItOk (fam4 true) WF4 BitVec.toNat s.last := hosts_yields fam4Law n hn

example : ∃ s, (fam4 true).hosts ex16 = .ok s ∧ ItOk (fam4 true) WF4 BitVec.toNat s.first :=
  let ⟨s, h1, h2, _⟩ := hosts_ok4 ex16 ex16_ok
  ⟨s, h1, h2⟩

/-- `auto it = x; const auto& r = *it; ++it; out(r); const auto& q = *(it + 2); auto jt = it; out(*jt);` -/
def exBlock {I : Type} (x : I) : List (RStmt I) := [.make x, .bind 0, .move 0 .inc, .read 0, .bindTemp 0 (.plus 2), .copy 0, .value 1]

/-- The iterator at `192.168.1.1`. -/
def exIt : AIter (List (BitVec 8)) (BitVec 32) := ⟨[192, 168, 1, 1], 0xC0A80101#32, 0⟩

theorem exIt_ok : ItOk (fam4 true) WF4 BitVec.toNat exIt := ⟨rfl, by decide, .inl rfl⟩

example : (RState.start.run (fam4 true).aiRa (exBlock exIt)).image RState.out = .ok [[192, 168, 1, 2], [192, 168, 1, 2]] := by decide +kernel
example : (RState.start.run (fam4 true).aiRa (exBlock exIt ++ [.read 1])).image RState.out = .ub := by decide +kernel
example : SomeDangles (exBlock exIt ++ [.read 1]) :=
  ⟨exBlock exIt, .read 1, [], rfl, .inr (.inl ⟨1, rfl, .inl rfl⟩)⟩
example : direct [] (exBlock exIt) = [.make exIt, .bind 0, .move 0 .inc, .value 0, .bindTemp 0 (.plus 2), .copy 0, .value 1] := rfl

/-! ### Moving the iterator changes what its references show -/

/-- C91, negation: a reference to an element does not stay with the element.  After `const auto& r = *it; ++it;`, reading
`r` gives the next address, which is never the one that `r` was bound to. -/
theorem C91_moved_v4_violated (x : AIter (List (BitVec 8)) (BitVec 32)) (hx : ItOk (fam4 true) WF4 BitVec.toNat x) :
    ∃ s b, (RState.start : RState _ _).run (fam4 true).aiRa [.make x, .bind 0, .move 0 .inc, .read 0] = .ok s ∧ s.out = [b] ∧
      beValue b = (beValue x.cur + 1) % 2 ^ 32 ∧ b ≠ x.cur := by
  obtain ⟨y, h1, h2, h3⟩ := aiAdd_yields fam4Law x hx ((fam4 true).ops.ofI64 1#64)
  have hv : beValue y.cur = (beValue x.cur + 1) % 2 ^ 32 := by
    have a := h2.off
    have b := hx.off
    change y.off.toNat = beValue y.cur at a
    change x.off.toNat = beValue x.cur at b
    rw [← a, ← b]
    exact h3
  have hlt : beValue x.cur < 2 ^ 32 := fam4Law.v_lt _ hx.wf
  refine ⟨⟨[some y], [0], [0], [y.cur]⟩, y.cur, ?_, rfl, hv, ?_⟩
  · exact moved_run (fam4 true).aiRa x y h1
  · intro e
    rw [e] at hv
    omega

example := C91_moved_v4_violated exIt exIt_ok

/-- C91, negation: equal iterators do not refer to the same object, as the standard asks of forward iterators.  A copy
of an iterator is equal to it, and moving the copy changes what a reference from the copy shows, and not what a reference
from the original shows. -/
theorem C91_copies_v4_violated (x : AIter (List (BitVec 8)) (BitVec 32)) (hx : ItOk (fam4 true) WF4 BitVec.toNat x) :
    (fam4 true).aiEq x x = .ok true ∧
    ∃ s b, (RState.start : RState _ _).run (fam4 true).aiRa [.make x, .copy 0, .bind 0, .bind 1, .move 1 .inc, .read 0, .read 1] = .ok s ∧
      s.out = [x.cur, b] ∧ b ≠ x.cur := by
  obtain ⟨y, h1, h2, h3⟩ := aiAdd_yields fam4Law x hx ((fam4 true).ops.ofI64 1#64)
  refine ⟨?_, ⟨[some x, some y], [0, 1], [0, 1], [x.cur, y.cur]⟩, y.cur, ?_, rfl, ?_⟩
  · show (if x.carry = x.carry then (fam4 true).eq x.cur x.cur else _) = _
    rw [if_pos rfl]
    have := fam4Law.eq x.cur x.cur (by rw [show x.cur.length = 4 from hx.wf]; rfl) (by rw [show x.cur.length = 4 from hx.wf]; rfl)
    exact this.trans (by simp)
  · exact copies_run (fam4 true).aiRa x y h1
  · intro e
    have a := h2.off
    have b := hx.off
    change y.off.toNat = beValue y.cur at a
    change x.off.toNat = beValue x.cur at b
    change y.off.toNat = (x.off.toNat + 1) % 2 ^ 32 at h3
    rw [e] at a
    have := x.off.isLt
    omega

example := C91_copies_v4_violated exIt exIt_ok

/-! ### `std::reverse_iterator` -/

/-- C91, negation: the iterators cannot be used with `std::reverse_iterator` (`std::make_reverse_iterator`,
`std::views::reverse`): every reading of an element is undefined, whatever the iterator. -/
theorem C91_std_reverse_violated {I V U : Type} (O : RaOps I V U) (P : I → Prop) (h : RefsExact O P) (x : I) (hx : P x) :
    (RState.start : RState I V).run O [.make x, .valueStdRev 0] = .ub ∧
    (RState.start : RState I V).run O [.make x, .bindStdRev 0, .read 0] = .ub := by
  constructor
  · refine (h _ ?_ ?_).1.2 ⟨[.make x], .valueStdRev 0, [], rfl, .inr (.inr ⟨0, rfl⟩)⟩
    · intro a s b e
      match a, e with
      | [], e => cases e; exact ⟨(by intro i hi; cases hi), by intro k hk; cases hk⟩
      | [_], e => cases e; exact ⟨(by intro i hi; rw [List.mem_singleton.1 hi]; exact Nat.one_pos), by intro k hk; cases hk⟩
      | _ :: _ :: a, e => cases a <;> cases e
    · intro y hy
      rcases List.mem_cons.1 hy with e | hy
      · cases e; exact hx
      · cases List.mem_singleton.1 hy
  · refine (h _ ?_ ?_).1.2 ⟨[.make x, .bindStdRev 0], .read 0, [], rfl, .inr (.inl ⟨0, rfl, .inl rfl⟩)⟩
    · intro a s b e
      match a, e with
      | [], e => cases e; exact ⟨(by intro i hi; cases hi), by intro k hk; cases hk⟩
      | [_], e => cases e; exact ⟨(by intro i hi; rw [List.mem_singleton.1 hi]; exact Nat.one_pos), by intro k hk; cases hk⟩
      | [_, _], e => cases e; exact ⟨(by intro i hi; cases hi), by intro k hk; cases hk; exact Nat.one_pos⟩
      | _ :: _ :: _ :: a, e => cases a <;> cases e
    · intro y hy
      rcases List.mem_cons.1 hy with e | hy
      · cases e; exact hx
      · rcases List.mem_cons.1 hy with e | hy
        · cases e
        · cases List.mem_singleton.1 hy

example := C91_std_reverse_violated _ _ C91_exact_v4.1 exIt exIt_ok
example := C91_std_reverse_violated _ _ C91_exact_v4.2 ⟨exIt⟩ exIt_ok

/-! ### Loops -/

/-- C91: `for (const auto& a : range)` is safe, and reading `a` in the body gives the elements in order: those that
`std::copy` copies. -/
theorem C91_loop {I V U : Type} (O : RaOps I V U) (fuel : Nat) (first last : I) (l : List V) (h : O.copy fuel first last = .ok l) :
    ∃ s, (RState.start : RState I V).run O (.make first :: rangeFor 0 l.length) = .ok s ∧ s.out = l := by
  obtain ⟨x, refs, h1, -⟩ := rangeFor_run O [] [] fuel first last l h
  exact ⟨_, h1, rfl⟩

/-- C91, negation: addresses of the elements, kept in such a loop, are useless.  While the iterator of the loop lives,
all of them show the element of the iterator at the end of the range, and when the loop has ended reading any of them is
undefined. -/
theorem C91_kept_violated {I V U : Type} (O : RaOps I V U) (fuel : Nat) (first last : I) (l : List V)
    (h : O.copy fuel first last = .ok l) :
    (∃ s x, (RState.start : RState I V).run O (.make first :: keepFor l.length ++ readAll l.length) = .ok s ∧
      O.eq x last = .ok true ∧ s.out = List.replicate l.length (O.deref x)) ∧
    ∀ k < l.length, (RState.start : RState I V).run O (.make first :: keepFor l.length ++ [.drop 0, .read k]) = .ub := by
  obtain ⟨x, h1, h2⟩ := keepFor_run O [] [] fuel first last l h
  rw [List.nil_append] at h1
  have e : (RState.start : RState I V).run O (.make first :: keepFor l.length) = .ok ⟨[some x], [0], List.replicate l.length 0, []⟩ := h1
  refine ⟨⟨⟨[some x], [0], List.replicate l.length 0, List.replicate l.length (O.deref x)⟩, x, ?_, h2, rfl⟩, fun k hk => ?_⟩
  · rw [run_append, e]
    show RState.run O _ (readAll l.length) = _
    unfold readAll
    rw [readAll_run O x (List.range l.length) l.length (fun k hk => List.mem_range.1 hk) [], List.length_range]
    rfl
  · rw [run_append, e]
    show ((⟨[none], [0], List.replicate l.length 0, []⟩ : RState I V).step O (.read k) >>= fun s => _) = _
    have : (⟨[none], [0], List.replicate l.length 0, []⟩ : RState I V).step O (.read k) = .ub := by
      show (match (List.replicate l.length 0)[k]? with
        | some r => _
        | none => _) = _
      rw [List.getElem?_replicate_of_lt hk]
      rfl
    rw [this]
    rfl

/-- C91, hosts of IPv4 networks: the loop gives the usable hosts in increasing order, and the kept addresses of the
elements do not. -/
theorem C91_hosts_v4_partial (n : Net (List (BitVec 8))) (hn : NetOk4 n) (hf : ¬ (n.plen = 31 ∧ beValue n.addr = 2 ^ 32 - 2)) :
    ∃ s l t, (fam4 true).hosts n = .ok s ∧ Lists (l.map beValue) (IsHost 32 n.plen (beValue n.addr) false) ∧
      (RState.start : RState _ _).run (fam4 true).aiRa (.make s.first :: rangeFor 0 l.length) = .ok t ∧ t.out = l ∧
      ∀ k < l.length, (RState.start : RState _ _).run (fam4 true).aiRa (.make s.first :: keepFor l.length ++ [.drop 0, .read k]) = .ub := by
  obtain ⟨s, l, r1, r2, h1, h2, -, -, h3⟩ := C69_hosts_v4_partial n hn hf
  have hc := (h3.1.1 (l.length + 1) (Nat.lt_succ_self _)).1
  obtain ⟨t, t1, t2⟩ := C91_loop _ _ _ _ _ hc
  exact ⟨s, l, t, h1, h2, t1, t2, (C91_kept_violated _ _ _ _ _ hc).2⟩

example := C91_hosts_v4_partial ex16 ex16_ok (by decide)

/-- `192.168.1.0/30`. -/
def exRefs30 : Net (List (BitVec 8)) := ⟨[192, 168, 1, 0], [255, 255, 255, 252], 30⟩

/-- The iterators of the hosts of `192.168.1.0/30`. -/
theorem exCopied : (fam4 true).aiRa.copy 5 exIt ⟨[192, 168, 1, 3], 0xC0A80103#32, 0⟩ = .ok [[192, 168, 1, 1], [192, 168, 1, 2]] := by decide +kernel

example := C91_loop _ _ _ _ _ exCopied
example := C91_kept_violated _ _ _ _ _ exCopied

example : ∃ s, (fam4 true).hosts exRefs30 = .ok s ∧
    (RState.start.run (fam4 true).aiRa (.make s.first :: rangeFor 0 2)).image RState.out = .ok [[192, 168, 1, 1], [192, 168, 1, 2]] ∧
    (RState.start.run (fam4 true).aiRa (.make s.first :: keepFor 2 ++ readAll 2)).image RState.out =
      .ok [[192, 168, 1, 3], [192, 168, 1, 3]] := ⟨_, rfl, by decide +kernel, by decide +kernel⟩

end Ip
