import Verif.Lemmas.UndefinedAll
import Verif.Props.ExcludeCtor
/-
C80: which programs end in undefined behaviour, in `std::terminate` or with `std::out_of_range`, with all
constructors of iterators and sequences.
-/
set_option autoImplicit false

namespace Ip
open Spec

theorem tameLaw4 : TameLaw (fam4 true) WF4 BitVec.toNat where
  total a b _ _ := ⟨_, rfl⟩
  tame o ho := by
    have hoi := ho.isNet fam4Law ⟨_, rfl⟩
    refine ⟨true, fun p v m hm => ⟨?_, subnetOf_isNet fam4Law hoi hm⟩⟩
    rw [netEq_isNet fam4Law hm hoi, Bool.and_true]
  shr x n h := ⟨fun _ => if_neg (by have h : 32 < n := h; omega), fun h => by cases h⟩

theorem tameLaw6 (c : Cfg) (hc : c.le = true) (hv : ∀ x y, c.val x = c.val y → x = y) :
    TameLaw (fam6 c) (V6.WF c.M) U128.val where
  total := v6Equals_total c
  tame o ho := by
    have L := fam6Law c hc
    refine ⟨decide (o.addr.scope.contents = []), fun p v m hm => ⟨?_, subnetOf6 c hc hv o ho hm⟩⟩
    have hmk := hm.netOk L
    obtain ⟨x, x1, x2, x3⟩ := hmk.mask
    obtain ⟨y, y1, y2, y3⟩ := ho.mask
    have hpl := hmk.plen
    have e1 : (fam6 c).eq m.addr o.addr = .ok (decide (v = (fam6 c).v o.addr) && decide (o.addr.scope.contents = [])) := by
      show v6Equals c.val m.addr o.addr = _
      unfold v6Equals
      rw [FStr.compare_eq c.val m.addr.scope o.addr.scope hmk.wf.2.1 ho.wf.2.1, isNet6_scope c hm,
        bytesEq_dec m.addr.bytes o.addr.bytes (hmk.wf.1.trans ho.wf.1.symm),
        show beValue m.addr.bytes = v from hm.v_eq L, show beValue o.addr.bytes = (fam6 c).v o.addr from rfl]
      by_cases h : v = (fam6 c).v o.addr
      · rw [if_pos (decide_eq_true h), decide_eq_true h, Res.ok_bind, Bool.true_and]
        congr 1
        rw [decide_eq_decide, FStr.lexCmp_zero c.val hv, eq_comm]
      · rw [if_neg (by rw [decide_eq_true_iff]; exact h), decide_eq_false h, Bool.false_and]
    simp only [Fam.netEq, e1, Res.ok_bind, x1, y1, L.eq x y x2 y2, x3, y3]
    have e2 : (2 ^ (fam6 c).maxPrefix - 2 ^ ((fam6 c).maxPrefix - m.plen) = 2 ^ (fam6 c).maxPrefix - 2 ^ ((fam6 c).maxPrefix - o.plen)) ↔
        p = o.plen := by
      rw [← hm.plen]
      exact ⟨pow_inj_le _ _ _ hpl ho.plen, fun h => by rw [h]⟩
    simp only [e2]
    by_cases h1 : v = (fam6 c).v o.addr <;> by_cases h2 : o.addr.scope.contents = [] <;> simp [h1, h2] <;> rfl
  shr x n h := by
    refine ⟨fun h => (by cases h), fun _ => ⟨⟨0, 0⟩, ?_, by simp [U128.val]⟩⟩
    have h : 128 < n := h
    show U128.shr x n = _
    unfold U128.shr
    rw [if_neg (by omega), if_neg (by omega), if_neg (by omega)]

theorem start_held {A U : Type} {F : Fam A U} {WF : A → Prop} {val : U → Nat} (addrs : List A) (h : ∀ a ∈ addrs, WF a) :
    ∀ o ∈ addrs.map (Obj.addr (U := U)), HeldObj F WF val o := by
  intro o ho
  obtain ⟨a, ha, rfl⟩ := List.mem_map.1 ho
  exact h a ha

theorem run_exact_any {A U : Type} {F : Fam A U} {WF : A → Prop} {val : U → Nat} (L : F.Law WF val) (G : ProgLaw F WF)
    (S : SafeLaw F WF val) (T : TameLaw F WF val) (prog : List (Stmt U)) (st : List (Obj A U)) (hst : ∀ o ∈ st, HeldObj F WF val o)
    (hp : ∀ s ∈ prog, sizeStmt s) :
    (F.run prog st = .ub ↔ ∃ before s rest st', prog = before ++ s :: rest ∧ F.run before st = .ok st' ∧
      UndefinedAnyStmt F.maxPrefix F.isV6 val F.v st' s) ∧ ∀ e v, F.run prog st ≠ .err e v := by
  rcases run_any L G S T prog st hst hp with ⟨h1, h2⟩ | ⟨⟨st', h1, -⟩, h2⟩
  · exact ⟨⟨fun _ => h2, fun _ => h1⟩, fun e v h => by rw [h1] at h; cases h⟩
  · refine ⟨⟨fun h => (by rw [h1] at h; cases h), ?_⟩, fun e v h => (by rw [h1] at h; cases h)⟩
    rintro ⟨b, s, r, st'', e1, e2, e3⟩
    exact (h2 b s r st'' e1 e2 e3).elim

/-- C80, IPv4, all programs: a program ends in undefined behaviour, in `std::terminate` or with `std::out_of_range`
exactly if it comes to one of the calls listed in `UndefinedAny`.  All constructors of iterators and sequences can be
used with any arguments. -/
theorem C80_all_v4 (prog : List (Stmt (BitVec 32))) (hp : ∀ s ∈ prog, sizeStmt s) (addrs : List (List (BitVec 8)))
    (h : ∀ a ∈ addrs, a.length = 4) :
    ((fam4 true).run prog (addrs.map .addr) = .ub ↔ ∃ before s rest st, prog = before ++ s :: rest ∧
      (fam4 true).run before (addrs.map .addr) = .ok st ∧ UndefinedAnyStmt 32 false BitVec.toNat beValue st s) ∧
    ∀ e v, (fam4 true).run prog (addrs.map .addr) ≠ .err e v :=
  run_exact_any fam4Law progLaw4 safeLaw4 tameLaw4 prog _ (start_held addrs h) hp

/-- C80, IPv6, all programs; the networks and addresses can have scope ids. -/
theorem C80_all_v6 (c : Cfg) (hc : c.le = true) (hv : ∀ x y, c.val x = c.val y → x = y) (prog : List (Stmt U128))
    (hp : ∀ s ∈ prog, sizeStmt s) (addrs : List V6) (h : ∀ a ∈ addrs, a.WF c.M) :
    ((fam6 c).run prog (addrs.map .addr) = .ub ↔ ∃ before s rest st, prog = before ++ s :: rest ∧
      (fam6 c).run before (addrs.map .addr) = .ok st ∧ UndefinedAnyStmt 128 true U128.val (fun a => beValue a.bytes) st s) ∧
    ∀ e v, (fam6 c).run prog (addrs.map .addr) ≠ .err e v :=
  run_exact_any (fam6Law c hc) (progLaw6 c hc) (safeLaw6 c hc) (tameLaw6 c hc hv) prog _ (start_held addrs h) hp

/-- C89, IPv6, for all networks with any scope ids: the constructors end the program exactly when the excluded network
is neither strictly inside, nor one of the two special networks for a network of one address. -/
theorem C89_defined_all_v6 (c : Cfg) (hc : c.le = true) (hv : ∀ x y, c.val x = c.val y → x = y) (n o : Net V6) (hn : NetOk6 c n)
    (ho : NetOk6 c o) :
    ((fam6 c).exMk n o = .ub ↔ ¬ (StrictlyInside 128 o.plen (beValue o.addr.bytes) n.plen (beValue n.addr.bytes) ∨
      SelfOrNext 128 o.plen (beValue o.addr.bytes) n.plen (beValue n.addr.bytes))) ∧
    ((fam6 c).exSeqMk n o = .ub ↔ (fam6 c).exMk n o = .ub) ∧ ∀ e v, (fam6 c).exMk n o ≠ .err e v := by
  obtain ⟨h1, h2⟩ := exMk_out (fam6Law c hc) (safeLaw6 c hc) (tameLaw6 c hc hv) n o hn ho
  have h3 := exSeqMk_out (fam6Law c hc) (safeLaw6 c hc) (tameLaw6 c hc hv) n o hn ho
  exact ⟨h1.1, h3.1.trans h1.1.symm, h2⟩

/-- `operator++` of an excluding iterator in any state that a program can reach: it throws `std::out_of_range` exactly
when the excluded network is in none of the two halves. -/
theorem C89_increment_v6 (c : Cfg) (hc : c.le = true) (hv : ∀ x y, c.val x = c.val y → x = y) (x : ExIter V6)
    (hx : ExHeld (fam6 c) (V6.WF c.M) x) :
    (fam6 c).exInc x = .ub ↔ Leaves 128 (fun a => beValue a.bytes) x.other x.s1 ∧ Leaves 128 (fun a => beValue a.bytes) x.other x.s2 :=
  (exInc_out (fam6Law c hc) (safeLaw6 c hc) (tameLaw6 c hc hv) x hx).1

/-- Programs that use the constructors: each statement before the last one is fine and the last one is not. -/
theorem C80_constructors_violated_v4 :
    (fam4 true).run [.new (.fromUint 0x0A000001#32), .new (.nitMk 0 1#32 24 false)] [] = .ub ∧
    (fam4 true).run [.new (.fromUint 0x0A000000#32), .new (.nitMk 0 1#32 24 false), .new (.reverse 1)] [] = .ub ∧
    (fam4 true).run [.new (.fromUint 0x0A000000#32), .new (.subnetsMk1 0 24)] [] = .ub ∧
    (fam4 true).run [.new (.fromUint 0#32), .new (.fromUint 0xFFFFFFFF#32), .new (.subnetsMk 0 1 1 0 8)] [] = .ub ∧
    (fam4 true).run [.new .defNet, .new (.fromUint 0x0A000000#32), .new (.fromAddress 1 8 true), .new (.exitMk 2 0)] [] = .ub := by
  simp only [Res.isUb_iff]
  decide +kernel

/-- A program that uses a network iterator with a step of half a network: two steps at once are fine, one step ends the
program. -/
def exHalfStep : List (Stmt (BitVec 32)) :=
  [.new (.fromUint 0x0A000000#32), .new (.nitMk 0 128#32 24 false), .new (.move 1 (.add 2#32)), .new (.move 2 (.subI (-4#64)))]

example : ((fam4 true).run exHalfStep []).isUb = false ∧ ((fam4 true).run (exHalfStep ++ [.new (.move 1 .inc)]) []).isUb = true := by
  decide +kernel

theorem exHalfStep_size : ∀ s ∈ exHalfStep, sizeStmt s := by simp [exHalfStep, sizeStmt, sizeArgs]

example := C80_all_v4 exHalfStep exHalfStep_size [[1, 2, 3, 4]] (by simp)
example := C80_all_v6 exCfg rfl exCfg_val [.new (.fromAddress 0 64 false), .new (.subnetsMk1 0 128), .new (.exsMk 1 1)]
  (by simp [sizeStmt, sizeArgs]) [exScoped] (by intro a ha; rw [List.mem_singleton.1 ha]; exact exScoped_ok)
/-- The excluding iterator of `::/126` and `::1%a/128`. -/
example : ∃ x, (fam6 exCfg).exMk (exLocal 0 (emptyScope 16) [252] 126) (exLocal 1 exScopeA [255] 128) = .ok x ∧ ((fam6 exCfg).exInc x = .ub ↔
    Leaves 128 (fun a => beValue a.bytes) x.other x.s1 ∧ Leaves 128 (fun a => beValue a.bytes) x.other x.s2) := by
  obtain ⟨h, _⟩ := exMk_out (fam6Law exCfg rfl) (safeLaw6 exCfg rfl) (tameLaw6 exCfg rfl exCfg_val) _ _ exLocal_ok.1 exLocal_ok.2.1
  generalize hx : (fam6 exCfg).exMk (exLocal 0 (emptyScope 16) [252] 126) (exLocal 1 exScopeA [255] 128) = r
  have ok : ∃ x, r = .ok x := by
    have : r.isUb = false ∧ ∀ e v, r ≠ .err e v := by subst hx; exact ⟨by decide +kernel, ‹_›⟩
    cases r with
    | ok x => exact ⟨x, rfl⟩
    | err e v => exact (this.2 e v rfl).elim
    | ub => exact absurd this.1 (by simp [Res.isUb])
  obtain ⟨x, rfl⟩ := ok
  exact ⟨x, rfl, C89_increment_v6 exCfg rfl exCfg_val x (h.2 x hx)⟩
example := C89_defined_all_v6 exCfg rfl exCfg_val _ _ exLocal_ok.2.1 exLocal_ok.2.2

end Ip
