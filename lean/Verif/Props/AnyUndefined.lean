import Verif.Lemmas.AnyUndefined
import Verif.Props.AnyProgram
/-
C87: which programs over the version agnostic classes end in undefined behaviour or in `std::terminate`.
-/
set_option autoImplicit false

namespace Ip
open Spec

theorem anyStart_safe (c : Cfg) (addrs : List AnyAddr) (h : ∀ a ∈ addrs, AddrOkAny c a) : ∀ o ∈ addrs.map AnyObj.addr, AnySafe c o := by
  intro o ho
  obtain ⟨a, ha, rfl⟩ := List.mem_map.1 ho
  have := h a ha
  cases a with
  | v4 a => exact .inl ⟨.addr a, rfl, rfl, this, this⟩
  | v6 a => exact .inr (.inl ⟨.addr a, rfl, rfl, this⟩)

/-- A careful statement has a defined outcome, whatever the objects are. -/
theorem anyCareful_defined (st : List AnyObj) (s : Stmt U128) (h : AnyCarefulStmt s) : ¬ AnyUndefinedStmt st s := by
  have bits : ∀ a, bitsOf a = 32 ∨ bitsOf a = 128 := fun a => by cases a <;> simp [bitsOf]
  have sup : ∀ (i d : Nat) (newp : Option Nat), ((newp = none → d ≠ 32 ∧ d ≠ 128) ∧ newp ≠ some 0) →
      ¬ ∃ n, st[i]? = some (.net n) ∧ SupernetUndefined n d newp := by
    rintro i d newp h ⟨n, -, -, ⟨h1, h2⟩ | ⟨h1, -⟩⟩
    · have := h.1 h1
      rcases bits (netAt n) with hb | hb <;> omega
    · exact h.2 h1
  have sub : ∀ (i d : Nat) (newp : Option Nat), ((newp = none → 0 < d ∧ d < 32) ∧ ∀ p, newp = some p → 0 < p ∧ p ≠ 32 ∧ p < 128) →
      ¬ ∃ n, st[i]? = some (.net n) ∧ SubnetsUndefined n d newp := by
    rintro i d newp h ⟨n, -, h1, k, ⟨e, rfl⟩ | ⟨p, e, -, h2, rfl⟩, h3⟩
    · have := h.1 e
      rcases bits (netAt n) with hb | hb <;> omega
    · have := h.2 p e
      rcases bits (netAt n) with hb | hb <;> omega
  have key : ∀ e : Expr U128, AnyCareful e → ¬ AnyUndefined st e := by
    intro e he
    cases e with
    | fromAddress i p s =>
      rintro ⟨a, -, h⟩
      have he : p ≤ 32 := he
      rcases bits a with hb | hb <;> omega
    | fromAddressCode i p s =>
      rintro ⟨a, -, h⟩
      have he : p ≤ 32 := he
      rcases bits a with hb | hb <;> omega
    | parse evs s =>
      rintro ⟨a, h2, -⟩
      exact he a h2
    | supernet i d newp => exact sup i d newp he
    | supernetCode i d newp => exact sup i d newp he
    | subnets i d newp => exact sub i d newp he
    | subnetsCode i d newp => exact sub i d newp he
    | _ => exact not_false
  cases s with
  | new e => exact key e h
  | put i e => exact key e h
  | swap i j => exact not_false

/-- C87, all programs that use networks, iterators and sequences of both versions through their functions: a program ends in
undefined behaviour or `std::terminate` exactly if it comes to one of the calls listed in `AnyUndefined`; it never ends with an
error.  In particular comparing, excluding and exchanging objects of different versions always has a defined outcome. -/
theorem C87_exact (c : Cfg) (hc : c.le = true) (prog : List (Stmt U128)) (hp : ∀ s ∈ prog, UsualStmt s) (addrs : List AnyAddr)
    (h : ∀ a ∈ addrs, AddrOkAny c a) :
    (anyRun c prog (addrs.map .addr) = .ub ↔ ∃ before s rest st, prog = before ++ s :: rest ∧
      anyRun c before (addrs.map .addr) = .ok st ∧ AnyUndefinedStmt st s) ∧
    ∀ e v, anyRun c prog (addrs.map .addr) ≠ .err e v := by
  rcases anyRun_out c hc prog _ (anyStart_safe c addrs h) hp with ⟨h1, h2⟩ | ⟨⟨st', h1, -⟩, h2⟩
  · exact ⟨⟨fun _ => h2, fun _ => h1⟩, fun e v h => by rw [h1] at h; cases h⟩
  · refine ⟨⟨fun h => (by rw [h1] at h; cases h), ?_⟩, fun e v h => (by rw [h1] at h; cases h)⟩
    rintro ⟨b, s, r, st'', e1, e2, e3⟩
    exact (h2 b s r st'' e1 e2 e3).elim

/-- C87 (partial): a program that keeps to the rule `AnyCareful` always runs to its end.  Missing: the calls that the rule
forbids, see `C87_violated`. -/
theorem C87_careful_partial (c : Cfg) (hc : c.le = true) (prog : List (Stmt U128)) (hp : ∀ s ∈ prog, UsualStmt s ∧ AnyCarefulStmt s)
    (addrs : List AnyAddr) (h : ∀ a ∈ addrs, AddrOkAny c a) : ∃ st, anyRun c prog (addrs.map .addr) = .ok st := by
  rcases anyRun_out c hc prog _ (anyStart_safe c addrs h) (fun s hs => (hp s hs).1) with
    ⟨-, b, s, r, st, e1, -, e3⟩ | ⟨⟨st, h1, -⟩, -⟩
  · exact (anyCareful_defined st s (hp s (by rw [e1]; simp)).2 e3).elim
  · exact ⟨st, h1⟩

/-- C87, negation: programs on the addresses `0.0.0.0` and `fe80::…%…` that end in undefined behaviour or `std::terminate`, one
for each line of `AnyUndefined`; the last one shows that an iterator of exclusions made by its constructor from networks of
different versions does so too. -/
theorem C87_violated :
    anyRun exCfg [.new (.fromAddress 0 33 false)] [.addr (.v4 [0, 0, 0, 0]), .addr (.v6 exScoped)] = .ub ∧
    anyRun exCfg [.new (.fromAddressCode 1 129 false)] [.addr (.v4 [0, 0, 0, 0]), .addr (.v6 exScoped)] = .ub ∧
    anyRun exCfg [.new (.parse (readChars "10.0.0.0/0.0.0.0".toList) false)] [] = .ub ∧
    anyRun exCfg [.new .defNet, .new (.supernet 0 32 none)] [] = .ub ∧
    anyRun exCfg [.new (.fromAddress 1 128 false), .new (.supernetCode 2 1 (some 0))] [.addr (.v4 [0, 0, 0, 0]), .addr (.v6 exScoped)] = .ub ∧
    anyRun exCfg [.new (.fromAddress 1 1 false), .new (.subnets 2 (2 ^ 64 - 1) none)] [.addr (.v4 [0, 0, 0, 0]), .addr (.v6 exScoped)] = .ub ∧
    anyRun exCfg [.new (.fromAddress 0 0 false), .new (.subnets 2 32 none)] [.addr (.v4 [0, 0, 0, 0]), .addr (.v6 exScoped)] = .ub ∧
    anyRun exCfg [.new (.fromAddress 0 0 false), .new (.subnetsCode 2 0 none)] [.addr (.v4 [0, 0, 0, 0]), .addr (.v6 exScoped)] = .ub ∧
    anyRun exCfg [.new (.fromAddress 0 16 false), .new (.fromAddress 1 32 false), .new (.exitMk 2 3)]
      [.addr (.v4 [0, 0, 0, 0]), .addr (.v6 exScoped)] = .ub := by
  simp only [Res.isUb_iff]
  decide +kernel

/-- A careful program on addresses of both versions that uses most functions. -/
def exAnyCareful : List (Stmt U128) :=
  [.new (.fromAddress 0 16 false), .new (.fromAddress 1 32 false), .new (.subnets 2 2 none), .new (.subnets 3 2 none), .new (.first 4),
    .new (.last 5), .put 6 (.move 6 .inc), .put 7 (.move 7 (.subI 2)), .new (.exclude 2 3), .new (.deref 7), .new (.exclude 3 8),
    .new (.first 9), .put 10 (.move 10 .inc), .new (.hosts 2), .new (.elem 11 ⟨0, 77⟩), .swap 2 3, .new .defExit, .put 13 (.move 13 .inc)]

theorem exAnyCareful_ok : ∀ s ∈ exAnyCareful, UsualStmt s ∧ AnyCarefulStmt s := by
  simp [exAnyCareful, UsualStmt, AnyCarefulStmt, Usual, AnyCareful, directConstructor, sizeArgs]

theorem exBoth_ok : ∀ a ∈ [AnyAddr.v4 [10, 1, 2, 3], .v6 exScoped], AddrOkAny exCfg a := by
  intro a ha
  simp only [List.mem_cons, List.not_mem_nil, or_false] at ha
  rcases ha with rfl | rfl
  · rfl
  · exact exScoped_ok

/-- It runs to its end and leaves 14 objects. -/
example : ∃ st, anyRun exCfg exAnyCareful [.addr (.v4 [10, 1, 2, 3]), .addr (.v6 exScoped)] = .ok st ∧ st.length = 14 := ⟨_, rfl, by decide +kernel⟩

example := C87_careful_partial exCfg rfl exAnyCareful exAnyCareful_ok [.v4 [10, 1, 2, 3], .v6 exScoped] exBoth_ok
example := C87_exact exCfg rfl exAnyCareful (fun s hs => (exAnyCareful_ok s hs).1) [.v4 [10, 1, 2, 3], .v6 exScoped] exBoth_ok

end Ip
