import Verif.Lemmas.Program
import Verif.Props.NetText
/-
C78: what programs hold that use networks, iterators and sequences in any order.
-/
set_option autoImplicit false

namespace Ip
open Spec

theorem low_bits_zero (v k : Nat) (h : v % 2 ^ k = 0) (i : Nat) (hi : i < k) : v.testBit i = false := by
  have := Nat.testBit_mod_two_pow v k i
  rw [h, Nat.zero_testBit] at this
  simpa [hi] using this.symm

theorem HeldOk.nets {A U : Type} {F : Fam A U} {WF : A → Prop} {val : U → Nat} {d : Bool} {o : Obj A U} (h : HeldOk F WF val d o) :
    ∀ n ∈ netsIn o, NetOk F WF n := by
  cases o with
  | addr a => intro n hn; cases hn
  | net n => intro m hm; rw [List.mem_singleton.1 hm]; exact h
  | ait x => intro n hn; cases hn
  | rait r => intro n hn; cases hn
  | nit x => intro m hm; rw [List.mem_singleton.1 hm]; exact NitOk.net h
  | rnit r => intro m hm; rw [List.mem_singleton.1 hm]; exact NitOk.net h
  | hosts s => intro n hn; cases hn
  | subs s =>
    intro m hm
    rcases List.mem_cons.1 hm with rfl | hm
    · exact h.1.net
    · rw [List.mem_singleton.1 hm]; exact h.2.net
  | exit x => intro m hm; rw [List.mem_singleton.1 hm]; exact ExOk.cur h
  | exs s =>
    intro m hm
    rcases List.mem_cons.1 hm with rfl | hm
    · exact h.1.cur
    · rw [List.mem_singleton.1 hm]; exact h.2.cur

theorem HeldOk.niters {A U : Type} {F : Fam A U} {WF : A → Prop} {val : U → Nat} {d : Bool} {o : Obj A U} (h : HeldOk F WF val d o) :
    ∀ x ∈ nitersIn o, NitOk F WF val d x := by
  cases o with
  | nit x => intro m hm; rw [List.mem_singleton.1 hm]; exact h
  | rnit r => intro m hm; rw [List.mem_singleton.1 hm]; exact h
  | subs s =>
    intro m hm
    rcases List.mem_cons.1 hm with rfl | hm
    · exact h.1
    · rw [List.mem_singleton.1 hm]; exact h.2
  | _ => intro n hn; cases hn

theorem HeldOk.aiters {A U : Type} {F : Fam A U} {WF : A → Prop} {val : U → Nat} {d : Bool} {o : Obj A U} (h : HeldOk F WF val d o) :
    ∀ x ∈ aitersIn o, ItOk F WF val x := by
  cases o with
  | ait x => intro m hm; rw [List.mem_singleton.1 hm]; exact h
  | rait r => intro m hm; rw [List.mem_singleton.1 hm]; exact h
  | nit x => intro m hm; rw [List.mem_singleton.1 hm]; exact NitOk.it h
  | rnit r => intro m hm; rw [List.mem_singleton.1 hm]; exact NitOk.it h
  | hosts s =>
    intro m hm
    rcases List.mem_cons.1 hm with rfl | hm
    · exact h.1
    · rw [List.mem_singleton.1 hm]; exact h.2
  | subs s =>
    intro m hm
    rcases List.mem_cons.1 hm with rfl | hm
    · exact h.1.it
    · rw [List.mem_singleton.1 hm]; exact h.2.it
  | _ => intro n hn; cases hn

theorem netOk_isNetwork {A U : Type} {F : Fam A U} {WF : A → Prop} {val : U → Nat} (L : F.Law WF val) (n : Net A)
    (h : NetOk F WF n) : IsNetwork F.maxPrefix n.plen (F.bytes n.addr) (F.bytes n.mask) := by
  obtain ⟨m, m1, m2, m3⟩ := h.mask
  refine ⟨L.len _ h.wf, ?_, h.plen, ?_, low_bits_zero _ _ h.aligned⟩
  · rw [m1, L.bytes_ofBytes]; exact m2
  · rw [m1, L.bytes_ofBytes, m3]; exact mask_isMask _ _ h.plen

theorem progLaw4 : ProgLaw (fam4 true) WF4 where
  parse evs s n h := parseNet_ok fam4Law fam4_parseArray_ok fam4_parseNetmask_ok evs s n h
  swap a b ha hb r h := by
    rw [C53_network_swap_v4 a b ha hb] at h
    cases h
    exact ⟨hb, ha⟩

theorem progLaw6 (c : Cfg) (hc : c.le = true) : ProgLaw (fam6 c) (V6.WF c.M) where
  parse evs s n h := parseNet_ok (fam6Law c hc) (fam6_parseArray_ok c) (fam6_parseNetmask_ok c) evs s n h
  swap a b ha hb r h := by
    obtain ⟨m, m1, m2, m3⟩ := ha.mask
    obtain ⟨m', n1, n2, n3⟩ := hb.mask
    obtain ⟨x, y, h1, h2, h3, h4, h5, -⟩ := C53_v6_swap c.M a.addr b.addr ha.wf hb.wf
    have hm : v6Swap a.mask b.mask = .ok (b.mask, a.mask) := by
      rw [m1, n1]
      show (Res.ok (emptyScope c.M, emptyScope c.M) >>= fun s : FStr × FStr =>
        Res.ok ((⟨(bytesSwap m m').1, s.1⟩ : V6), (⟨(bytesSwap m m').2, s.2⟩ : V6))) = _
      rw [bytesSwap_eq m m' (by omega)]
      rfl
    replace h : (v6Swap a.addr b.addr >>= fun x => v6Swap a.mask b.mask >>= fun y =>
      Res.ok ((⟨x.1, y.1, b.plen⟩ : Net V6), (⟨x.2, y.2, a.plen⟩ : Net V6))) = .ok r := h
    rw [h1, hm] at h
    cases h
    refine ⟨⟨h2, hb.plen, hb.mask, ?_⟩, ⟨h3, ha.plen, ha.mask, ?_⟩⟩
    · show beValue x.bytes % _ = 0
      rw [h4]; exact hb.aligned
    · show beValue y.bytes % _ = 0
      rw [h5]; exact ha.aligned

theorem start_ok {A U : Type} {F : Fam A U} {WF : A → Prop} {val : U → Nat} (d : Bool) (addrs : List A) (h : ∀ a ∈ addrs, WF a) :
    ∀ o ∈ addrs.map (Obj.addr (U := U)), HeldOk F WF val d o := by
  intro o ho
  obtain ⟨a, ha, rfl⟩ := List.mem_map.1 ho
  exact h a ha

/-- C78, IPv4: whatever a program does, every network that it can see is a network. -/
theorem C78_networks_v4 (prog : List (Stmt (BitVec 32))) (addrs : List (List (BitVec 8))) (h : ∀ a ∈ addrs, a.length = 4)
    (st : List (Obj (List (BitVec 8)) (BitVec 32))) (hr : (fam4 true).run prog (addrs.map .addr) = .ok st) :
    ∀ o ∈ st, ∀ n ∈ netsIn o, IsNetwork 32 n.plen n.addr n.mask :=
  fun o ho n hn => netOk_isNetwork fam4Law n
    ((run_ok fam4Law progLaw4 true prog _ (start_ok true addrs h) (fun _ _ _ => rfl) st hr o ho).nets n hn)

/-- C78, IPv6. -/
theorem C78_networks_v6 (c : Cfg) (hc : c.le = true) (prog : List (Stmt U128)) (addrs : List V6) (h : ∀ a ∈ addrs, a.WF c.M)
    (st : List (Obj V6 U128)) (hr : (fam6 c).run prog (addrs.map .addr) = .ok st) :
    ∀ o ∈ st, ∀ n ∈ netsIn o, IsNetwork 128 n.plen n.addr.bytes n.mask.bytes :=
  fun o ho n hn => netOk_isNetwork (fam6Law c hc) n
    ((run_ok (fam6Law c hc) (progLaw6 c hc) true prog _ (start_ok true addrs h) (fun _ _ _ => rfl) st hr o ho).nets n hn)

/-- C78, texts: every IPv4 network that a program can see is printed and parsed back. -/
theorem C78_text_v4 (prog : List (Stmt (BitVec 32))) (addrs : List (List (BitVec 8))) (h : ∀ a ∈ addrs, a.length = 4)
    (st : List (Obj (List (BitVec 8)) (BitVec 32))) (hr : (fam4 true).run prog (addrs.map .addr) = .ok st)
    (fmt : Format) (strict : Bool) :
    ∀ o ∈ st, ∀ n ∈ netsIn o, ∃ t, (fam4 true).netToString fmt n = .ok t ∧ (fam4 true).parseNet (readChars t) strict = .ok n :=
  fun o ho n hn => C25_round_trip_v4 n
    ((run_ok fam4Law progLaw4 true prog _ (start_ok true addrs h) (fun _ _ _ => rfl) st hr o ho).nets n hn) fmt strict

/-- C78, iterators: the address that an iterator shows is the one of the number with which it computes, and the
network that a network iterator shows is at that address, whatever the program has done. -/
theorem C78_iterators_v4 (prog : List (Stmt (BitVec 32))) (addrs : List (List (BitVec 8))) (h : ∀ a ∈ addrs, a.length = 4)
    (st : List (Obj (List (BitVec 8)) (BitVec 32))) (hr : (fam4 true).run prog (addrs.map .addr) = .ok st) :
    ∀ o ∈ st, (∀ x ∈ aitersIn o, x.off.toNat = beValue x.cur ∧ (x.carry = 0 ∨ x.carry = 1)) ∧
      ∀ x ∈ nitersIn o, beValue x.cur.addr = x.it.off.toNat := by
  intro o ho
  have k := run_ok fam4Law progLaw4 true prog _ (start_ok true addrs h) (fun _ _ _ => rfl) st hr o ho
  exact ⟨fun x hx => ⟨(k.aiters x hx).off, (k.aiters x hx).carry⟩, fun x hx => (k.niters x hx).same⟩

/-- C78, iterators of IPv6. -/
theorem C78_iterators_v6 (c : Cfg) (hc : c.le = true) (prog : List (Stmt U128)) (addrs : List V6) (h : ∀ a ∈ addrs, a.WF c.M)
    (st : List (Obj V6 U128)) (hr : (fam6 c).run prog (addrs.map .addr) = .ok st) :
    ∀ o ∈ st, (∀ x ∈ aitersIn o, x.off.val = beValue x.cur.bytes ∧ (x.carry = 0 ∨ x.carry = 1)) ∧
      ∀ x ∈ nitersIn o, beValue x.cur.addr.bytes = x.it.off.val := by
  intro o ho
  have k := run_ok (fam6Law c hc) (progLaw6 c hc) true prog _ (start_ok true addrs h) (fun _ _ _ => rfl) st hr o ho
  exact ⟨fun x hx => ⟨(k.aiters x hx).off, (k.aiters x hx).carry⟩, fun x hx => (k.niters x hx).same⟩

theorem prefix_kept {A U : Type} {F : Fam A U} {WF : A → Prop} {val : U → Nat} (L : F.Law WF val) (G : ProgLaw F WF)
    (prog : List (Stmt U)) (hp : ∀ s ∈ prog, stmtMakesDefault s = false) (addrs : List A) (h : ∀ a ∈ addrs, WF a)
    (st : List (Obj A U)) (hr : F.run prog (addrs.map .addr) = .ok st) :
    ∀ o ∈ st, ∀ x ∈ nitersIn o, (∀ m y, F.niMove m x = .ok y → y.cur.plen = x.cur.plen) ∧
      ∀ k n, F.niAt x k = .ok n → n.plen = x.cur.plen := by
  intro o ho x hx
  have k := (run_ok L G false prog _ (start_ok false addrs h) (fun s hs e => by rw [hp s hs] at e; cases e) st hr o ho).niters x hx
  refine ⟨fun m y hy => ?_, fun j n hn => ?_⟩
  · obtain ⟨q1, q2⟩ := niMove_it L false m x k y hy
    rw [q1.plen rfl, q2, k.plen rfl]
  · obtain ⟨a, h1, h2⟩ := Res.bind_eq_ok.1 hn
    rw [(fromAddress_ok L _ (aiAdd_it L _ k.it _ a h1).wf _ _ n h2).2.1, k.plen rfl]

/-- C78, prefix lengths, IPv4: moving a network iterator keeps the prefix length, in programs that have no default
constructed network iterators.  Missing for the whole claim: those; there it fails (`C78_default_violated`). -/
theorem C78_prefix_v4_partial (prog : List (Stmt (BitVec 32))) (hp : ∀ s ∈ prog, stmtMakesDefault s = false)
    (addrs : List (List (BitVec 8))) (h : ∀ a ∈ addrs, a.length = 4)
    (st : List (Obj (List (BitVec 8)) (BitVec 32))) (hr : (fam4 true).run prog (addrs.map .addr) = .ok st) :
    ∀ o ∈ st, ∀ x ∈ nitersIn o, (∀ m y, (fam4 true).niMove m x = .ok y → y.cur.plen = x.cur.plen) ∧
      ∀ k n, (fam4 true).niAt x k = .ok n → n.plen = x.cur.plen :=
  prefix_kept fam4Law progLaw4 prog hp addrs h st hr

/-- C78, prefix lengths, IPv6. -/
theorem C78_prefix_v6_partial (c : Cfg) (hc : c.le = true) (prog : List (Stmt U128)) (hp : ∀ s ∈ prog, stmtMakesDefault s = false)
    (addrs : List V6) (h : ∀ a ∈ addrs, a.WF c.M) (st : List (Obj V6 U128)) (hr : (fam6 c).run prog (addrs.map .addr) = .ok st) :
    ∀ o ∈ st, ∀ x ∈ nitersIn o, (∀ m y, (fam6 c).niMove m x = .ok y → y.cur.plen = x.cur.plen) ∧
      ∀ k n, (fam6 c).niAt x k = .ok n → n.plen = x.cur.plen :=
  prefix_kept (fam6Law c hc) (progLaw6 c hc) prog hp addrs h st hr

/-- C78, the claim fails for default constructed network iterators: they show `0.0.0.0/32`, and after `+= 0`, `++`
or `--` they show `0.0.0.0/0`; the difference of two of them divides by zero. -/
theorem C78_default_violated : ∃ x y, (fam4 true).niDefault = .ok x ∧ x.cur = ⟨[0, 0, 0, 0], [255, 255, 255, 255], 32⟩ ∧
    (fam4 true).niMove (.add 0) x = .ok y ∧ (fam4 true).niMove .inc x = .ok y ∧ (fam4 true).niMove .dec x = .ok y ∧
    y.cur = ⟨[0, 0, 0, 0], [0, 0, 0, 0], 0⟩ ∧ (fam4 true).niUintDiff x x = .ub := by
  exact ⟨⟨⟨[0, 0, 0, 0], [255, 255, 255, 255], 32⟩, ⟨[0, 0, 0, 0], 0, 0⟩, 0, 0⟩,
    ⟨⟨[0, 0, 0, 0], [0, 0, 0, 0], 0⟩, ⟨[0, 0, 0, 0], 0, 0⟩, 0, 0⟩, by decide, by decide, by decide, by decide, by decide,
    by decide, by decide⟩

/-- A program: `10.1.2.3/16` (not strict), its subnets of prefix length 18, the last iterator moved back by one,
its network, `address_exclude` of that from the first network, and an exchange. -/
def exProg : List (Stmt (BitVec 32)) :=
  [.new (.fromAddress 0 16 false), .new (.subnets 1 2 none), .new (.last 2), .put 3 (.move 3 (.sub 1)), .new (.deref 3),
    .new (.exclude 1 4), .new (.first 5), .new (.deref 6), .swap 1 7, .new (.supernet 1 33 none)]

/-- It runs to its end; the store then has these networks. -/
theorem exProg_runs : ∃ st, (fam4 true).run exProg ([[10, 1, 2, 3]].map .addr) = .ok st ∧
    (st.flatMap netsIn).map (fun n => (n.addr, n.plen)) =
      [([10, 1, 0, 0], 17), ([10, 1, 0, 0], 18), ([10, 2, 0, 0], 18), ([10, 1, 192, 0], 18), ([10, 1, 192, 0], 18),
        ([10, 1, 0, 0], 17), ([0, 0, 0, 0], 32), ([10, 1, 0, 0], 17), ([10, 1, 0, 0], 16)] := by
  exact ⟨_, rfl, by decide +kernel⟩

example := C78_networks_v4 exProg [[10, 1, 2, 3]] (by decide) _ exProg_runs.choose_spec.1
example := C78_text_v4 exProg [[10, 1, 2, 3]] (by decide) _ exProg_runs.choose_spec.1 .compressed true
example := C78_iterators_v4 exProg [[10, 1, 2, 3]] (by decide) _ exProg_runs.choose_spec.1
example := C78_prefix_v4_partial exProg (by decide) [[10, 1, 2, 3]] (by decide) _ exProg_runs.choose_spec.1

/-- A program on `fe80::1%a`: its network of prefix length 64 with the scope id, the subnets of length 66, the second. -/
def exProg6 : List (Stmt U128) :=
  [.new (.fromAddress 0 64 false), .new (.subnets 1 2 none), .new (.first 2), .put 3 (.move 3 .inc), .new (.deref 3), .swap 1 4]

/-- It runs to its end. -/
theorem exProg6_runs : ∃ st, (fam6 exCfg).run exProg6 ([exScoped].map .addr) = .ok st ∧
    (st.flatMap netsIn).map (fun n => (n.addr.bytes, n.addr.scope.contents, n.plen)) =
      [([0xfe, 0x80, 0, 0, 0, 0, 0, 0, 0x40, 0, 0, 0, 0, 0, 0, 0], [], 66),
        ([0xfe, 0x80, 0, 0, 0, 0, 0, 0, 0, 0, 0, 0, 0, 0, 0, 0], [], 66),
        ([0xfe, 0x80, 0, 0, 0, 0, 0, 1, 0, 0, 0, 0, 0, 0, 0, 0], [], 66),
        ([0xfe, 0x80, 0, 0, 0, 0, 0, 0, 0x40, 0, 0, 0, 0, 0, 0, 0], [], 66),
        ([0xfe, 0x80, 0, 0, 0, 0, 0, 0, 0, 0, 0, 0, 0, 0, 0, 0], [], 64)] := by
  exact ⟨_, rfl, by decide +kernel⟩

theorem exScoped_start : ∀ a ∈ [exScoped], a.WF exCfg.M := fun a ha => by rw [List.mem_singleton.1 ha]; exact exScoped_ok

example := C78_networks_v6 exCfg rfl exProg6 [exScoped] exScoped_start _ exProg6_runs.choose_spec.1
example := C78_iterators_v6 exCfg rfl exProg6 [exScoped] exScoped_start _ exProg6_runs.choose_spec.1
example := C78_prefix_v6_partial exCfg rfl exProg6 (by decide) [exScoped] exScoped_start _ exProg6_runs.choose_spec.1

theorem moved_held {A U : Type} {F : Fam A U} {WF : A → Prop} {val : U → Nat} (L : F.Law WF val) (st : List (Obj A U))
    (i : Nat) (m : Move U) (o o' : Obj A U) (ok : HeldOk F WF val true o) (ho : st[i]? = some o)
    (he : F.eval st (.move i m) = some (.ok o')) : MovedBy F.v val (2 ^ F.maxPrefix) (forward val m) o o' := by
  cases o with
  | addr a => simp [Fam.eval, ho] at he
  | net n => simp [Fam.eval, ho] at he
  | ait x =>
    simp only [Fam.eval, ho, Option.some.injEq] at he
    obtain ⟨y, h1, h2⟩ := Res.bind_eq_ok.1 he
    cases h2
    have hx : ItOk F WF val x := ok
    show (F.v y.cur : Int) = _
    rw [← (aiMove_it L m x hx y h1).off, aiMove_forward L m x y h1, hx.off]
  | rait r =>
    simp only [Fam.eval, ho, Option.some.injEq] at he
    obtain ⟨y, h1, h2⟩ := Res.bind_eq_ok.1 he
    cases h2
    have hx : ItOk F WF val r.it := ok
    show (F.v y.cur : Int) = _
    rw [← (aiMove_it L _ r.it hx y h1).off, aiMove_forward L _ r.it y h1, hx.off, forward_opposite, ← Int.sub_eq_add_neg]
  | nit x =>
    simp only [Fam.eval, ho, Option.some.injEq] at he
    obtain ⟨y, h1, h2⟩ := Res.bind_eq_ok.1 he
    cases h2
    have hx : NitOk F WF val true x := ok
    have hm := niMove_forward L m x y h1
    refine ⟨?_, hm.2⟩
    rw [(niMove_it L true m x hx y h1).1.same, hm.1, hx.same]
  | rnit r =>
    simp only [Fam.eval, ho, Option.some.injEq] at he
    obtain ⟨y, h1, h2⟩ := Res.bind_eq_ok.1 he
    cases h2
    have hx : NitOk F WF val true r.it := ok
    have hm := niMove_forward L _ r.it y h1
    refine ⟨?_, hm.2⟩
    show (F.v y.cur.addr : Int) = _
    rw [(niMove_it L true _ r.it hx y h1).1.same, hm.1, hx.same, forward_opposite, Int.mul_neg, ← Int.sub_eq_add_neg]
  | exit x =>
    simp only [Fam.eval, ho, Option.some.injEq] at he
    obtain ⟨y, h1, h2⟩ := Res.bind_eq_ok.1 he
    cases h2
    trivial
  | subs s => simp [Fam.eval, ho] at he
  | _ => simp [Fam.eval, ho] at he

theorem move_moved {A U : Type} {F : Fam A U} {WF : A → Prop} {val : U → Nat} (L : F.Law WF val) (P : ProgLaw F WF)
    (prog : List (Stmt U)) (addrs : List A) (h : ∀ a ∈ addrs, WF a) (st : List (Obj A U)) (hr : F.run prog (addrs.map .addr) = .ok st)
    (i : Nat) (m : Move U) (o o' : Obj A U) (ho : st[i]? = some o) (he : F.eval st (.move i m) = some (.ok o')) :
    MovedBy F.v val (2 ^ F.maxPrefix) (forward val m) o o' :=
  moved_held L st i m o o' (run_ok L P true prog _ (start_ok true addrs h) (fun _ _ _ => rfl) st hr o (List.mem_of_getElem? ho)) ho he

/-- C78, moves, IPv4: after any program, an operator moves an iterator by the distance it is given, forward or, for a
reverse iterator, backward. -/
theorem C78_moves_v4 (prog : List (Stmt (BitVec 32))) (addrs : List (List (BitVec 8))) (h : ∀ a ∈ addrs, a.length = 4)
    (st : List (Obj (List (BitVec 8)) (BitVec 32))) (hr : (fam4 true).run prog (addrs.map .addr) = .ok st)
    (i : Nat) (m : Move (BitVec 32)) (o o' : Obj (List (BitVec 8)) (BitVec 32)) (ho : st[i]? = some o)
    (he : (fam4 true).eval st (.move i m) = some (.ok o')) :
    MovedBy beValue BitVec.toNat (2 ^ 32) (forward BitVec.toNat m) o o' :=
  move_moved fam4Law progLaw4 prog addrs h st hr i m o o' ho he

/-- C78, moves, IPv6. -/
theorem C78_moves_v6 (c : Cfg) (hc : c.le = true) (prog : List (Stmt U128)) (addrs : List V6) (h : ∀ a ∈ addrs, a.WF c.M)
    (st : List (Obj V6 U128)) (hr : (fam6 c).run prog (addrs.map .addr) = .ok st)
    (i : Nat) (m : Move U128) (o o' : Obj V6 U128) (ho : st[i]? = some o)
    (he : (fam6 c).eval st (.move i m) = some (.ok o')) :
    MovedBy (fun a => beValue a.bytes) U128.val (2 ^ 128) (forward U128.val m) o o' :=
  move_moved (fam6Law c hc) (progLaw6 c hc) prog addrs h st hr i m o o' ho he

/-- The subnets of length 18 of `10.1.0.0/16`, the end iterator and its reverse iterator. -/
def exMoves : List (Stmt (BitVec 32)) :=
  [.new (.fromAddress 0 16 false), .new (.subnets 1 2 none), .new (.last 2), .new (.reverse 3)]

/-- The reverse iterator, at the last subnet, moved by `+= 2`. -/
theorem exMoves_runs : ∃ st o o', (fam4 true).run exMoves ([[10, 1, 2, 3]].map .addr) = .ok st ∧ st[4]? = some o ∧
    (fam4 true).eval st (.move 4 (.add 2)) = some (.ok o') ∧ (netsIn o).map (·.addr) = [[10, 1, 192, 0]] ∧
    (netsIn o').map (·.addr) = [[10, 1, 64, 0]] := by
  exact ⟨_, _, _, rfl, rfl, rfl, by decide +kernel, by decide +kernel⟩

example : ∃ o o' : Obj (List (BitVec 8)) (BitVec 32), MovedBy beValue BitVec.toNat (2 ^ 32) 2 o o' ∧ (netsIn o).map (·.addr) = [[10, 1, 192, 0]] ∧
    (netsIn o').map (·.addr) = [[10, 1, 64, 0]] := by
  obtain ⟨st, o, o', h1, h2, h3, h4, h5⟩ := exMoves_runs
  exact ⟨o, o', C78_moves_v4 exMoves _ (by decide) st h1 4 (.add 2) o o' h2 h3, h4, h5⟩

/-- The second subnet of `exProg6`, moved by `-= 1`. -/
example : ∃ o o' : Obj V6 U128, MovedBy (fun a : V6 => beValue a.bytes) U128.val (2 ^ 128) (forward U128.val (.sub ⟨0, 1⟩)) o o' := by
  obtain ⟨st, o, o', h1, h2, h3⟩ : ∃ st o o', (fam6 exCfg).run exProg6 ([exScoped].map .addr) = .ok st ∧ st[3]? = some o ∧
    (fam6 exCfg).eval st (.move 3 (.sub ⟨0, 1⟩)) = some (.ok o') := ⟨_, _, _, rfl, rfl, rfl⟩
  exact ⟨o, o', C78_moves_v6 exCfg rfl exProg6 [exScoped] exScoped_start st h1 3 (.sub ⟨0, 1⟩) o o' h2 h3⟩

end Ip
