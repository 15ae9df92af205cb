import Verif.Lemmas.AnyHeld
/-
C86: programs over the version agnostic classes.  Little endian hosts.
-/
set_option autoImplicit false

namespace Ip
open Spec

/-- C86, IPv4: a program over the version agnostic classes that starts with IPv4 addresses does what the same program
over the IPv4 classes does, with the numbers it gives to iterators modulo 2^32: the same objects, the same exceptions, the
same undefined behaviour. -/
theorem C86_v4 (c : Cfg) (hc : c.le = true) (prog : List (Stmt U128)) (hp : ∀ s ∈ prog, SharedStmt s) (addrs : List (List (BitVec 8)))
    (h : ∀ a ∈ addrs, a.length = 4) :
    anyRun c prog (addrs.map fun a => .addr (.v4 a)) =
      match (fam4 true).run (prog.map (Stmt.on cut)) (addrs.map .addr) with
      | .ok st => .ok (st.map as4)
      | .err e v => .err e v
      | .ub => .ub := by
  have k := simRun4 c hc prog (addrs.map .addr) (start_ok true addrs h) hp
  rw [List.map_map] at k
  rw [show (fun a => AnyObj.addr (.v4 a)) = as4 ∘ Obj.addr from rfl, k]
  cases (fam4 true).run (prog.map (Stmt.on cut)) (addrs.map .addr) <;> rfl

/-- C86, IPv6: the same for programs without default objects, which are of IPv4, without exclusions, whose iterators
become such objects at the end, and without exchanges. -/
theorem C86_v6_partial (c : Cfg) (prog : List (Stmt U128)) (hp : ∀ s ∈ prog, SharedStmt6 s) (addrs : List V6) :
    anyRun c prog (addrs.map fun a => .addr (.v6 a)) =
      match (fam6 c).run prog (addrs.map .addr) with
      | .ok st => .ok (st.map as6)
      | .err e v => .err e v
      | .ub => .ub := by
  have k := simRun6 c prog (addrs.map .addr) (by simp [noExclusion]) hp
  rw [List.map_map] at k
  rw [show (fun a => AnyObj.addr (.v6 a)) = as6 ∘ Obj.addr from rfl, k]
  cases (fam6 c).run prog (addrs.map .addr) <;> rfl

theorem anyStart (c : Cfg) (addrs : List AnyAddr) (h : ∀ a ∈ addrs, AddrOkAny c a) : ∀ o ∈ addrs.map AnyObj.addr, AnyHeld c o := by
  intro o ho
  obtain ⟨a, ha, rfl⟩ := List.mem_map.1 ho
  have := h a ha
  cases a with
  | v4 a => exact .inl ⟨.addr a, rfl, this⟩
  | v6 a => exact .inr (.inl ⟨.addr a, rfl, rfl, this⟩)

theorem anyOk_isNetwork (c : Cfg) (hc : c.le = true) (n : AnyNet) (h : NetOkAny c n) : AnyIsNetwork n := by
  cases n with
  | v4 n => exact netOk_isNetwork fam4Law n h
  | v6 n => exact netOk_isNetwork (fam6Law c hc) n h

theorem held_nets (c : Cfg) (hc : c.le = true) (o : AnyObj) (ho : AnyHeld c o) : ∀ n ∈ anyNetsIn o, AnyIsNetwork n := by
  intro n hn
  refine anyOk_isNetwork c hc n ?_
  rcases ho with ⟨p, rfl, h⟩ | ⟨p, rfl, hx, h⟩ | ⟨x, rfl, h⟩ | ⟨x, y, rfl, h⟩
  · cases p with
    | addr | ait | rait | hosts => cases hn
    | net m => rw [List.mem_singleton.1 hn]; exact h
    | nit x => 
      simp only [as4, anyNetsIn, List.mem_cons, List.not_mem_nil, or_false, or_self] at hn
      subst hn; exact h.net
    | rnit x =>
      simp only [as4, anyNetsIn, List.mem_cons, List.not_mem_nil, or_false, or_self] at hn
      subst hn; exact h.net
    | subs s =>
      simp only [as4, anyNetsIn, List.cons_append, List.nil_append, List.mem_cons, List.not_mem_nil, or_false] at hn
      rcases hn with rfl | rfl | rfl | rfl
      · exact h.1.net
      · exact h.1.net
      · exact h.2.net
      · exact h.2.net
    | exit x => rw [List.mem_singleton.1 hn]; exact h.cur
    | exs s =>
      simp only [as4, anyNetsIn, List.mem_cons, List.not_mem_nil, or_false] at hn
      rcases hn with rfl | rfl
      · exact h.1.cur
      · exact h.2.cur
  · cases p with
    | addr | ait | rait | hosts => cases hn
    | net m => rw [List.mem_singleton.1 hn]; exact h
    | nit x => 
      simp only [as6, anyNetsIn, List.mem_cons, List.not_mem_nil, or_false, or_self] at hn
      subst hn; exact h.net
    | rnit x =>
      simp only [as6, anyNetsIn, List.mem_cons, List.not_mem_nil, or_false, or_self] at hn
      subst hn; exact h.net
    | subs s =>
      simp only [as6, anyNetsIn, List.cons_append, List.nil_append, List.mem_cons, List.not_mem_nil, or_false] at hn
      rcases hn with rfl | rfl | rfl | rfl
      · exact h.1.net
      · exact h.1.net
      · exact h.2.net
      · exact h.2.net
    | exit x => cases hx
    | exs s => cases hx
  · rw [List.mem_singleton.1 hn]; exact h.cur
  · simp only [anyNetsIn, List.mem_cons, List.not_mem_nil, or_false] at hn
    rcases hn with rfl | rfl
    · exact h.1.cur
    · exact h.2.cur

/-- C86, networks: whatever a program does with objects of either version, also mixed, every network it can see is a
network of its version. -/
theorem C86_networks (c : Cfg) (hc : c.le = true) (prog : List (Stmt U128)) (addrs : List AnyAddr) (h : ∀ a ∈ addrs, AddrOkAny c a)
    (st : List AnyObj) (hr : anyRun c prog (addrs.map .addr) = .ok st) : ∀ o ∈ st, ∀ n ∈ anyNetsIn o, AnyIsNetwork n :=
  fun o ho => held_nets c hc o (anyRun_held c hc prog _ (anyStart c addrs h) st hr o ho)

/-- C86, iterators: every iterator shows what the iterator of one version inside it shows, at the number with which that
computes. -/
theorem C86_iterators (c : Cfg) (hc : c.le = true) (prog : List (Stmt U128)) (addrs : List AnyAddr) (h : ∀ a ∈ addrs, AddrOkAny c a)
    (st : List AnyObj) (hr : anyRun c prog (addrs.map .addr) = .ok st) :
    ∀ o ∈ st, (∀ x ∈ hostItsIn o, HostItShows x) ∧ ∀ x ∈ netItsIn o, NetItShows x := by
  intro o ho
  rcases anyRun_held c hc prog _ (anyStart c addrs h) st hr o ho with ⟨p, rfl, h⟩ | ⟨p, rfl, -, h⟩ | ⟨x, rfl, -⟩ | ⟨x, y, rfl, -⟩
  · cases p with
    | ait x => exact ⟨fun y hy => by rw [List.mem_singleton.1 hy]; exact ⟨rfl, h.off⟩, fun y hy => nomatch hy⟩
    | rait x => exact ⟨fun y hy => by rw [List.mem_singleton.1 hy]; exact ⟨rfl, h.off⟩, fun y hy => nomatch hy⟩
    | hosts s =>
      refine ⟨fun y hy => ?_, fun y hy => nomatch hy⟩
      simp only [as4, hostItsIn, List.mem_cons, List.not_mem_nil, or_false] at hy
      rcases hy with rfl | rfl
      · exact ⟨rfl, h.1.off⟩
      · exact ⟨rfl, h.2.off⟩
    | nit x => exact ⟨fun y hy => (nomatch hy), fun y hy => by rw [List.mem_singleton.1 hy]; exact ⟨rfl, h.same.symm⟩⟩
    | rnit x => exact ⟨fun y hy => (nomatch hy), fun y hy => by rw [List.mem_singleton.1 hy]; exact ⟨rfl, h.same.symm⟩⟩
    | subs s =>
      refine ⟨fun y hy => (nomatch hy), fun y hy => ?_⟩
      simp only [as4, netItsIn, List.mem_cons, List.not_mem_nil, or_false] at hy
      rcases hy with rfl | rfl
      · exact ⟨rfl, h.1.same.symm⟩
      · exact ⟨rfl, h.2.same.symm⟩
    | _ => exact ⟨fun y hy => (nomatch hy), fun y hy => (nomatch hy)⟩
  · cases p with
    | ait x => exact ⟨fun y hy => by rw [List.mem_singleton.1 hy]; exact ⟨rfl, h.off⟩, fun y hy => nomatch hy⟩
    | rait x => exact ⟨fun y hy => by rw [List.mem_singleton.1 hy]; exact ⟨rfl, h.off⟩, fun y hy => nomatch hy⟩
    | hosts s =>
      refine ⟨fun y hy => ?_, fun y hy => nomatch hy⟩
      simp only [as6, hostItsIn, List.mem_cons, List.not_mem_nil, or_false] at hy
      rcases hy with rfl | rfl
      · exact ⟨rfl, h.1.off⟩
      · exact ⟨rfl, h.2.off⟩
    | nit x => exact ⟨fun y hy => (nomatch hy), fun y hy => by rw [List.mem_singleton.1 hy]; exact ⟨rfl, h.same.symm⟩⟩
    | rnit x => exact ⟨fun y hy => (nomatch hy), fun y hy => by rw [List.mem_singleton.1 hy]; exact ⟨rfl, h.same.symm⟩⟩
    | subs s =>
      refine ⟨fun y hy => (nomatch hy), fun y hy => ?_⟩
      simp only [as6, netItsIn, List.mem_cons, List.not_mem_nil, or_false] at hy
      rcases hy with rfl | rfl
      · exact ⟨rfl, h.1.same.symm⟩
      · exact ⟨rfl, h.2.same.symm⟩
    | _ => exact ⟨fun y hy => (nomatch hy), fun y hy => (nomatch hy)⟩
  · exact ⟨fun y hy => (nomatch hy), fun y hy => (nomatch hy)⟩
  · exact ⟨fun y hy => (nomatch hy), fun y hy => (nomatch hy)⟩

theorem forward_cut (m : Move U128) : ∃ t : Int, forward BitVec.toNat (Move.on cut m) = forward U128.val m + 2 ^ 32 * t := by
  have k : ∀ n : U128, ∃ t : Int, ((cut n).toNat : Int) = n.val + 2 ^ 32 * t := by
    intro n
    refine ⟨-((n.val / 2 ^ 32 : Nat) : Int), ?_⟩
    simp only [cut, BitVec.toNat_ofNat]
    omega
  cases m with
  | inc => exact ⟨0, rfl⟩
  | dec => exact ⟨0, rfl⟩
  | add n => exact k n
  | sub n =>
    obtain ⟨t, ht⟩ := k n
    refine ⟨-t, ?_⟩
    show -((cut n).toNat : Int) = -(n.val : Int) + _
    omega
  | addI n => exact ⟨0, by simp only [Move.on, forward]; omega⟩
  | subI n => exact ⟨0, by simp only [Move.on, forward]; omega⟩

theorem moved4 (m : Move U128) (p q : Obj (List (BitVec 8)) (BitVec 32))
    (h : MovedBy beValue BitVec.toNat (2 ^ 32) (forward BitVec.toNat (Move.on cut m)) p q) :
    AnyMovedBy (forward U128.val m) (as4 p) (as4 q) := by
  obtain ⟨t, ht⟩ := forward_cut m
  rw [ht] at h
  cases p with
  | ait x =>
    cases q <;> first | exact False.elim h | skip
    next y =>
    show (beValue y.cur : Int) = (beValue x.cur + _) % 2 ^ 32
    have h : (beValue y.cur : Int) = (beValue x.cur + (forward U128.val m + 2 ^ 32 * t)) % (2 ^ 32 : Nat) := h
    omega
  | rait x =>
    cases q <;> first | exact False.elim h | skip
    next y =>
    show (beValue y.it.cur : Int) = (beValue x.it.cur + _) % 2 ^ 32
    have h : (beValue y.it.cur : Int) = (beValue x.it.cur - (forward U128.val m + 2 ^ 32 * t)) % (2 ^ 32 : Nat) := h
    omega
  | nit x =>
    cases q <;> first | exact False.elim h | skip
    next y =>
    obtain ⟨h1, h2⟩ : (beValue y.cur.addr : Int) = (beValue x.cur.addr + x.step.toNat * (forward U128.val m + 2 ^ 32 * t)) % (2 ^ 32 : Nat) ∧
      y.step = x.step := h
    refine ⟨?_, congrArg BitVec.toNat h2⟩
    show (beValue y.cur.addr : Int) = (beValue x.cur.addr + x.step.toNat * _) % 2 ^ 32
    rw [h1, Int.mul_add, ← Int.mul_assoc, Int.mul_comm (x.step.toNat : Int) (2 ^ 32), Int.mul_assoc]
    generalize (x.step.toNat : Int) * t = u
    generalize (x.step.toNat : Int) * forward U128.val m = w
    omega
  | rnit x =>
    cases q <;> first | exact False.elim h | skip
    next y =>
    obtain ⟨h1, h2⟩ : (beValue y.it.cur.addr : Int) = (beValue x.it.cur.addr - x.it.step.toNat * (forward U128.val m + 2 ^ 32 * t)) % (2 ^ 32 : Nat) ∧
      y.it.step = x.it.step := h
    refine ⟨?_, congrArg BitVec.toNat h2⟩
    show (beValue y.it.cur.addr : Int) = (beValue x.it.cur.addr + x.it.step.toNat * -_) % 2 ^ 32
    rw [h1, Int.mul_add, ← Int.mul_assoc, Int.mul_comm (x.it.step.toNat : Int) (2 ^ 32), Int.mul_assoc, Int.mul_neg]
    generalize (x.it.step.toNat : Int) * t = u
    generalize (x.it.step.toNat : Int) * forward U128.val m = w
    omega
  | exit x => cases q <;> first | exact False.elim h | trivial
  | _ => exact False.elim h

theorem moved6 (m : Move U128) (p q : Obj V6 U128)
    (h : MovedBy (fun a : V6 => beValue a.bytes) U128.val (2 ^ 128) (forward U128.val m) p q) :
    AnyMovedBy (forward U128.val m) (as6 p) (as6 q) := by
  cases p with
  | ait x => cases q <;> first | exact False.elim h | exact h
  | rait x => 
    cases q <;> first | exact False.elim h | skip
    next y =>
    show (beValue y.it.cur.bytes : Int) = (beValue x.it.cur.bytes + -_) % 2 ^ 128
    rw [← Int.sub_eq_add_neg]
    exact h
  | nit x => 
    cases q <;> first | exact False.elim h | skip
    exact ⟨h.1, congrArg U128.val h.2⟩
  | rnit x =>
    cases q <;> first | exact False.elim h | skip
    next y =>
    refine ⟨?_, congrArg U128.val h.2⟩
    show (beValue y.it.cur.addr.bytes : Int) = (beValue x.it.cur.addr.bytes + x.it.step.val * -_) % 2 ^ 128
    rw [Int.mul_neg, ← Int.sub_eq_add_neg]
    exact h.1
  | exit x => cases q <;> first | exact False.elim h | trivial
  | _ => exact False.elim h

/-- C86, moves: after any program, an operator moves a version agnostic iterator by the number of addresses or networks it
is given, forward or, for a reverse iterator, backward. -/
theorem C86_moves (c : Cfg) (hc : c.le = true) (prog : List (Stmt U128)) (addrs : List AnyAddr) (h : ∀ a ∈ addrs, AddrOkAny c a)
    (st : List AnyObj) (hr : anyRun c prog (addrs.map .addr) = .ok st) (i : Nat) (m : Move U128) (o o' : AnyObj) (ho : st[i]? = some o)
    (he : anyEval c st (.move i m) = some (.ok o')) : AnyMovedBy (forward U128.val m) o o' := by
  have ok := anyRun_held c hc prog _ (anyStart c addrs h) st hr o (List.mem_of_getElem? ho)
  rw [anyEval_local c (.move i m) i rfl st (List.replicate (i + 1) o) (by rw [ho, rep_get])] at he
  rcases ok with ⟨p, rfl, hp⟩ | ⟨p, rfl, hn, hp⟩ | ⟨x, rfl, -⟩ | ⟨x, y, rfl, -⟩
  · have hst : ∀ o ∈ List.replicate (i + 1) p, HeldOk (fam4 true) WF4 BitVec.toNat true o :=
      fun o ho => by rw [List.eq_of_mem_replicate ho]; exact hp
    rw [← List.map_replicate, simEval4 c hc true _ hst _ rfl, hc] at he
    obtain ⟨r, h1, h2⟩ := Option.map_eq_some_iff.1 he
    obtain ⟨q, rfl, rfl⟩ := image_eq_ok h2
    exact moved4 m p q (moved_held fam4Law _ i (Move.on cut m) p q hp (rep_get i p) h1)
  · have hst : ∀ o ∈ List.replicate (i + 1) p, noExclusion o = true :=
      fun o ho => by rw [List.eq_of_mem_replicate ho]; exact hn
    rw [← List.map_replicate, simEval6 c _ hst _ rfl rfl] at he
    obtain ⟨r, h1, h2⟩ := Option.map_eq_some_iff.1 he
    obtain ⟨q, rfl, rfl⟩ := image_eq_ok h2
    exact moved6 m p q (moved_held (fam6Law c hc) _ i m p q hp (rep_get i p) h1)
  · simp only [anyEval, rep_get, Option.some.injEq] at he
    obtain ⟨y, -, h2⟩ := Res.bind_eq_ok.1 he
    cases h2
    trivial
  · simp [anyEval] at he

/-- A program on `10.1.2.3`: its network of prefix length 16, the subnets of length 18, the end iterator moved back, its
network, the exclusion of that, its first iterator, and an exchange. -/
def exAnyProg : List (Stmt U128) :=
  [.new (.fromAddress 0 16 false), .new (.subnets 1 2 none), .new (.last 2), .put 3 (.move 3 (.sub ⟨0, 1⟩)), .new (.deref 3),
    .new (.exclude 1 4), .new (.first 5), .new (.deref 6), .swap 1 7, .new (.supernet 1 33 none)]

/-- It runs to its end. -/
theorem exAnyProg_runs : ∃ st, anyRun exCfg exAnyProg [.addr (.v4 [10, 1, 2, 3])] = .ok st ∧
    (st.flatMap anyNetsIn).map (fun n => match n with | .v4 n => (n.addr, n.plen) | .v6 n => (n.addr.bytes, n.plen)) =
      [([10, 1, 0, 0], 17), ([10, 1, 0, 0], 18), ([10, 1, 0, 0], 18), ([10, 2, 0, 0], 18), ([10, 2, 0, 0], 18),
        ([10, 1, 192, 0], 18), ([10, 1, 192, 0], 18), ([10, 1, 192, 0], 18), ([10, 1, 0, 0], 17), ([0, 0, 0, 0], 32),
        ([10, 1, 0, 0], 17), ([10, 1, 0, 0], 16)] :=
  ⟨_, rfl, by decide +kernel⟩

example := C86_v4 exCfg rfl exAnyProg (by simp [exAnyProg, SharedStmt, bothHave]) [[10, 1, 2, 3]] (by decide)
example := C86_networks exCfg rfl exAnyProg [.v4 [10, 1, 2, 3]] (by simp [AddrOkAny]) _ exAnyProg_runs.choose_spec.1
example := C86_iterators exCfg rfl exAnyProg [.v4 [10, 1, 2, 3]] (by simp [AddrOkAny]) _ exAnyProg_runs.choose_spec.1

/-- A program with addresses of both versions: the networks `10.1.0.0/16` and `fe80::/64`, their subnets, and an iterator of
each that is moved. -/
def exMixed : List (Stmt U128) :=
  [.new (.fromAddress 0 16 false), .new (.fromAddress 1 64 false), .new (.subnets 2 2 none), .new (.subnets 3 2 none), .new (.first 4),
    .new (.last 5), .put 6 (.move 6 .inc), .put 7 (.move 7 (.subI 2)), .new (.exclude 2 3), .swap 2 3]

theorem exMixed_runs : ∃ st o o', anyRun exCfg exMixed [.addr (.v4 [10, 1, 2, 3]), .addr (.v6 exScoped)] = .ok st ∧ st[7]? = some o ∧
    anyEval exCfg st (.move 7 (.addI (-1))) = some (.ok o') ∧ st.length = 8 :=
  ⟨_, _, _, rfl, rfl, rfl, by decide +kernel⟩

example : ∃ o o', AnyMovedBy (-1) o o' := by
  obtain ⟨st, o, o', h1, h2, h3, -⟩ := exMixed_runs
  refine ⟨o, o', C86_moves exCfg rfl exMixed [.v4 [10, 1, 2, 3], .v6 exScoped] ?_ st h1 7 (.addI (-1)) o o' h2 h3⟩
  intro a ha
  simp only [List.mem_cons, List.not_mem_nil, or_false] at ha
  rcases ha with rfl | rfl
  · rfl
  · exact exScoped_start _ (List.mem_singleton.2 rfl)

/-- A program for IPv6 without the excepted functions. -/
def exAny6 : List (Stmt U128) :=
  [.new (.fromAddress 0 64 false), .new (.subnets 1 2 none), .new (.first 2), .put 3 (.move 3 .inc), .new (.deref 3)]

example : ∃ st, anyRun exCfg exAny6 [.addr (.v6 exScoped)] = .ok st := ⟨_, rfl⟩
example := C86_v6_partial exCfg exAny6 (by simp [exAny6, SharedStmt6, bothHave, noDefault]) [exScoped]

/-- C86, the claim fails for IPv6 at the end of an exclusion: the iterator of `fe80::/64` without its second half,
incremented, shows the IPv4 network `0.0.0.0/32`, where the one of `ipv6_network` shows `::/128`. -/
theorem C86_ended_violated :
    ∃ st st', anyRun exCfg [.new (.fromAddress 0 64 false), .new (.subnets 1 1 none), .new (.back 2), .new (.exclude 1 3), .new (.first 4),
        .put 5 (.move 5 .inc), .new (.deref 5)] [.addr (.v6 exScoped)] = .ok st ∧
      (fam6 exCfg).run [.new (.fromAddress 0 64 false), .new (.subnets 1 1 none), .new (.back 2), .new (.exclude 1 3), .new (.first 4),
        .put 5 (.move 5 .inc), .new (.deref 5)] [.addr exScoped] = .ok st' ∧
      (st[6]?.map anyNetsIn) = some [.v4 ⟨[0, 0, 0, 0], [255, 255, 255, 255], 32⟩] ∧
      (st'[6]?.map netsIn) = some [⟨⟨List.replicate 16 0, emptyScope 16⟩, ⟨List.replicate 16 255, emptyScope 16⟩, 128⟩] :=
  ⟨_, _, rfl, rfl, by decide +kernel, by decide +kernel⟩

end Ip
