import Verif.Lemmas.Undefined
import Verif.Props.Program
/-
C80: which programs end in undefined behaviour or in `std::terminate`.
-/
set_option autoImplicit false

namespace Ip
open Spec

theorem safeLaw4 : SafeLaw (fam4 true) WF4 BitVec.toNat where
  size := by decide
  plain _ a := ⟨a, rfl⟩
  parse evs s := by
    refine (C26_parser_safe exCfg rfl evs s).2.trans ⟨fun h => ⟨rfl, h⟩, fun h => h.2⟩
  swap a b ha hb := ⟨_, C53_network_swap_v4 a b ha hb⟩
  div a b h := by
    have : b = 0#32 := BitVec.eq_of_toNat_eq h
    subst this
    exact ⟨⟨fun _ => rfl, fun _ => rfl⟩, fun e v h => (by cases h)⟩

theorem safeLaw6 (c : Cfg) (hc : c.le = true) : SafeLaw (fam6 c) (V6.WF c.M) U128.val where
  size := by show 128 < 2 ^ 64; decide
  plain h := by cases h
  parse evs s := ⟨fun h => ((C26_parser_safe c hc evs s).1 h).elim, fun h => (by cases h.1)⟩
  swap a b ha hb := by
    obtain ⟨m, m1, m2, m3⟩ := ha.mask
    obtain ⟨m', n1, n2, n3⟩ := hb.mask
    obtain ⟨x, y, h1, -⟩ := C53_v6_swap c.M a.addr b.addr ha.wf hb.wf
    have hm : v6Swap a.mask b.mask = .ok (b.mask, a.mask) := by
      rw [m1, n1]
      show (Res.ok (emptyScope c.M, emptyScope c.M) >>= fun s : FStr × FStr =>
        Res.ok ((⟨(bytesSwap m m').1, s.1⟩ : V6), (⟨(bytesSwap m m').2, s.2⟩ : V6))) = _
      rw [bytesSwap_eq m m' (by omega)]
      rfl
    refine ⟨(⟨x, b.mask, b.plen⟩, ⟨y, a.mask, a.plen⟩), ?_⟩
    show (v6Swap a.addr b.addr >>= fun x => v6Swap a.mask b.mask >>= fun y =>
      Res.ok ((⟨x.1, y.1, b.plen⟩ : Net V6), (⟨x.2, y.2, a.plen⟩ : Net V6))) = _
    rw [h1, hm]
    rfl
  div a b h := by
    obtain ⟨r, r1, -⟩ := U128.div_eq a b
    have r1 : (fam6 c).ops.div a b = .ok r := r1
    rw [r1]
    exact ⟨⟨fun h => (by cases h), fun h => (by cases h)⟩, fun e v h => (by cases h)⟩

/-- No result at all. -/
def Res.isUb {α : Type} : Res α → Bool
  | .ub => true
  | _ => false

theorem Res.isUb_iff {α : Type} (r : Res α) : r = .ub ↔ r.isUb = true := by
  cases r <;> simp [Res.isUb]

theorem start_safe {A U : Type} {F : Fam A U} {WF : A → Prop} {val : U → Nat} (addrs : List A) (h : ∀ a ∈ addrs, WF a) :
    ∀ o ∈ addrs.map (Obj.addr (U := U)), SafeObj F WF val o := by
  intro o ho
  obtain ⟨a, ha, rfl⟩ := List.mem_map.1 ho
  exact h a ha

theorem run_exact {A U : Type} {F : Fam A U} {WF : A → Prop} {val : U → Nat} (L : F.Law WF val) (G : ProgLaw F WF)
    (S : SafeLaw F WF val) (prog : List (Stmt U)) (st : List (Obj A U)) (hst : ∀ o ∈ st, SafeObj F WF val o)
    (hp : ∀ s ∈ prog, UsualStmt s) :
    (F.run prog st = .ub ↔ ∃ before s rest st', prog = before ++ s :: rest ∧ F.run before st = .ok st' ∧
      UndefinedStmt F.maxPrefix F.isV6 st' s) ∧ ∀ e v, F.run prog st ≠ .err e v := by
  rcases run_out L G S prog st hst hp with ⟨h1, h2⟩ | ⟨⟨st', h1, -⟩, h2⟩
  · exact ⟨⟨fun _ => h2, fun _ => h1⟩, fun e v h => by rw [h1] at h; cases h⟩
  · refine ⟨⟨fun h => (by rw [h1] at h; cases h), ?_⟩, fun e v h => (by rw [h1] at h; cases h)⟩
    rintro ⟨b, s, r, st'', e1, e2, e3⟩
    exact (h2 b s r st'' e1 e2 e3).elim

/-- A careful statement has a defined outcome, whatever the objects are. -/
theorem careful_defined {A U : Type} (w : Nat) (six : Bool) (hw : 2 * w < 2 ^ 64) (st : List (Obj A U)) (s : Stmt U)
    (h : CarefulStmt w six s) : ¬ UndefinedStmt w six st s := by
  have sup : ∀ (i d : Nat) (newp : Option Nat), ((newp = none → d ≠ w) ∧ newp ≠ some 0) →
      ¬ ∃ n : Net A, st[i]? = some (.net n) ∧ n.plen = w ∧ ((newp = none ∧ d = w) ∨ (newp = some 0 ∧ d = 1)) := by
    rintro i d newp h ⟨n, -, -, ⟨h1, h2⟩ | ⟨h1, -⟩⟩
    · exact h.1 h1 h2
    · exact h.2 h1
  have sub : ∀ (i d : Nat) (newp : Option Nat), ((newp = none → 0 < d ∧ d < w) ∧ ∀ p, newp = some p → 0 < p ∧ p < w) →
      ¬ ∃ n : Net A, st[i]? = some (.net n) ∧ n.plen < w ∧ ∃ k, Extends n.plen d newp k ∧
      (2 ^ 64 ≤ n.plen + k ∨ (n.plen = 0 ∧ k = w) ∨ (six = false ∧ n.plen = 0 ∧ k = 0)) := by
    rintro i d newp h ⟨n, -, h1, k, ⟨e, rfl⟩ | ⟨p, e, -, h2, rfl⟩, h3⟩
    · have := h.1 e
      omega
    · have := h.2 p e
      omega
  have key : ∀ e : Expr U, Careful w six e → ¬ Undefined w six st e := by
    intro e he
    cases e with
    | fromAddress i p s => intro hu; exact absurd hu.2 (Nat.not_lt.2 he)
    | fromAddressCode i p s => intro hu; exact absurd hu.2 (Nat.not_lt.2 he)
    | parse evs s =>
      rintro ⟨h1, a, h2, -⟩
      rcases he with h | h
      · rw [h] at h1; cases h1
      · exact h a h2
    | supernet i d newp => exact sup i d newp he
    | supernetCode i d newp => exact sup i d newp he
    | subnets i d newp => exact sub i d newp he
    | subnetsCode i d newp => exact sub i d newp he
    | _ => exact not_false
  cases s with
  | new e => exact key e h
  | put i e => exact key e h
  | swap i j => exact not_false

/-- C80, IPv4, all programs that use networks, iterators and sequences through their functions: a program ends in
undefined behaviour or `std::terminate` exactly if it comes to one of the calls listed in `Undefined`. -/
theorem C80_exact_v4 (prog : List (Stmt (BitVec 32))) (hp : ∀ s ∈ prog, UsualStmt s) (addrs : List (List (BitVec 8)))
    (h : ∀ a ∈ addrs, a.length = 4) :
    ((fam4 true).run prog (addrs.map .addr) = .ub ↔ ∃ before s rest st, prog = before ++ s :: rest ∧
      (fam4 true).run before (addrs.map .addr) = .ok st ∧ UndefinedStmt 32 false st s) ∧
    ∀ e v, (fam4 true).run prog (addrs.map .addr) ≠ .err e v :=
  run_exact fam4Law progLaw4 safeLaw4 prog _ (start_safe addrs h) hp

/-- C80, IPv6. -/
theorem C80_exact_v6 (c : Cfg) (hc : c.le = true) (prog : List (Stmt U128)) (hp : ∀ s ∈ prog, UsualStmt s) (addrs : List V6)
    (h : ∀ a ∈ addrs, a.WF c.M) :
    ((fam6 c).run prog (addrs.map .addr) = .ub ↔ ∃ before s rest st, prog = before ++ s :: rest ∧
      (fam6 c).run before (addrs.map .addr) = .ok st ∧ UndefinedStmt 128 true st s) ∧
    ∀ e v, (fam6 c).run prog (addrs.map .addr) ≠ .err e v :=
  run_exact (fam6Law c hc) (progLaw6 c hc) (safeLaw6 c hc) prog _ (start_safe addrs h) hp

/-- C80 (partial), IPv4: a program that keeps to the rule `Careful` always runs to its end.  Missing: the calls
that the rule forbids, see `C80_violated_v4`. -/
theorem C80_careful_v4_partial (prog : List (Stmt (BitVec 32))) (hp : ∀ s ∈ prog, UsualStmt s ∧ CarefulStmt 32 false s)
    (addrs : List (List (BitVec 8))) (h : ∀ a ∈ addrs, a.length = 4) :
    ∃ st, (fam4 true).run prog (addrs.map .addr) = .ok st := by
  rcases run_out fam4Law progLaw4 safeLaw4 prog _ (start_safe addrs h) (fun s hs => (hp s hs).1) with
    ⟨-, b, s, r, st, e1, -, e3⟩ | ⟨⟨st, h1, -⟩, -⟩
  · exact (careful_defined 32 false (by decide) st s (hp s (by rw [e1]; simp)).2 e3).elim
  · exact ⟨st, h1⟩

/-- C80 (partial), IPv6. -/
theorem C80_careful_v6_partial (c : Cfg) (hc : c.le = true) (prog : List (Stmt U128))
    (hp : ∀ s ∈ prog, UsualStmt s ∧ CarefulStmt 128 true s) (addrs : List V6) (h : ∀ a ∈ addrs, a.WF c.M) :
    ∃ st, (fam6 c).run prog (addrs.map .addr) = .ok st := by
  rcases run_out (fam6Law c hc) (progLaw6 c hc) (safeLaw6 c hc) prog _ (start_safe addrs h) (fun s hs => (hp s hs).1) with
    ⟨-, b, s, r, st, e1, -, e3⟩ | ⟨⟨st, h1, -⟩, -⟩
  · exact (careful_defined 128 true (by decide) st s (hp s (by rw [e1]; simp)).2 e3).elim
  · exact ⟨st, h1⟩

/-- C80, negation: IPv4 programs of two or three statements that end in undefined behaviour or `std::terminate`,
one for each line of `Undefined`; the last one shows that an iterator made by its constructor with a step that
does not fit ends in `std::terminate` when it is incremented. -/
theorem C80_violated_v4 :
    (fam4 true).run [.new (.fromUint 0#32), .new (.fromAddress 0 33 false)] [] = .ub ∧
    (fam4 true).run [.new (.parse (readChars "10.0.0.0/0.0.0.0".toList) false)] [] = .ub ∧
    (fam4 true).run [.new .defNet, .new (.supernet 0 32 none)] [] = .ub ∧
    (fam4 true).run [.new .defNet, .new (.supernet 0 1 (some 0))] [] = .ub ∧
    (fam4 true).run [.new (.fromUint 0#32), .new (.fromAddress 0 1 false), .new (.subnets 1 (2 ^ 64 - 1) none)] [] = .ub ∧
    (fam4 true).run [.new (.fromUint 0#32), .new (.fromAddress 0 0 false), .new (.subnetsCode 1 32 none)] [] = .ub ∧
    (fam4 true).run [.new (.fromUint 0#32), .new (.fromAddress 0 0 false), .new (.subnets 1 0 none)] [] = .ub ∧
    (fam4 true).run [.new (.fromUint 0#32), .new (.nitMk 0 1#32 24 false), .new (.move 1 .inc)] [] = .ub := by
  simp only [Res.isUb_iff]
  decide +kernel

/-- C80, negation, IPv6. -/
theorem C80_violated_v6 :
    (fam6 exCfg).run [.new (.fromUint ⟨0, 0⟩), .new (.fromAddress 0 129 false)] [] = .ub ∧
    (fam6 exCfg).run [.new .defNet, .new (.supernet 0 128 none)] [] = .ub ∧
    (fam6 exCfg).run [.new .defNet, .new (.supernetCode 0 1 (some 0))] [] = .ub ∧
    (fam6 exCfg).run [.new (.fromUint ⟨0, 0⟩), .new (.fromAddress 0 1 false), .new (.subnets 1 (2 ^ 64 - 1) none)] [] = .ub ∧
    (fam6 exCfg).run [.new (.fromUint ⟨0, 0⟩), .new (.fromAddress 0 0 false), .new (.subnets 1 1 (some 128))] [] = .ub := by
  simp only [Res.isUb_iff]
  decide +kernel

/-- A careful program that uses most functions. -/
def exCareful : List (Stmt (BitVec 32)) :=
  [.new (.fromUint 0x0A000000#32), .new (.fromAddress 0 8 true), .new (.subnets 1 3 none), .new (.first 2),
    .new (.move 3 (.add 5#32)), .new (.deref 4), .new (.exclude 1 5), .new (.first 6), .put 7 (.move 7 .inc),
    .new (.deref 7), .new (.hosts 9), .new (.elem 10 77#32), .new (.supernet 9 4 none), .swap 1 12,
    .new (.reverse 4), .new (.base 14)]

theorem exCareful_ok : ∀ s ∈ exCareful, UsualStmt s ∧ CarefulStmt 32 false s := by
  simp [exCareful, UsualStmt, CarefulStmt, Usual, Careful, directConstructor, sizeArgs]

example := C80_careful_v4_partial exCareful exCareful_ok [] (by simp)
example := C80_exact_v4 exCareful (fun s hs => (exCareful_ok s hs).1) [[1, 2, 3, 4]] (by simp)
example := C80_careful_v6_partial exCfg rfl
  [.new (.fromAddress 0 64 false), .new (.subnets 1 2 none), .new (.back 2), .new (.exclude 1 3)]
  (by simp [UsualStmt, CarefulStmt, Usual, Careful, directConstructor, sizeArgs]) [exScoped] (by intro a ha; rw [List.mem_singleton.1 ha]; exact exScoped_ok)
example := C80_exact_v6 exCfg rfl [.new .defNet, .new (.supernet 0 128 none)]
  (by simp [UsualStmt, Usual, directConstructor, sizeArgs]) [] (by simp)

end Ip
