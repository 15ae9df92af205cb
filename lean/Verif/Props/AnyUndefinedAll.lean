import Verif.Lemmas.AnyUndefinedAll
import Verif.Props.AnyUndefined
/-
C87: which programs over the version agnostic classes end in undefined behaviour, in `std::terminate` or with
`std::out_of_range`, with the constructors of excluding iterators and sequences.
-/
set_option autoImplicit false

namespace Ip
open Spec

/-- C87, all programs over the version agnostic classes: a program ends in undefined behaviour, in `std::terminate` or with
`std::out_of_range` exactly if it comes to one of the calls listed in `AnyUndefinedAll`.  The constructors of excluding
iterators and sequences can be used with any networks of any versions; the networks can have scope ids. -/
theorem C87_all (c : Cfg) (hc : c.le = true) (hv : ∀ x y, c.val x = c.val y → x = y) (prog : List (Stmt U128))
    (hp : ∀ s ∈ prog, sizeStmt s) (addrs : List AnyAddr) (h : ∀ a ∈ addrs, AddrOkAny c a) :
    (anyRun c prog (addrs.map .addr) = .ub ↔ ∃ before s rest st, prog = before ++ s :: rest ∧
      anyRun c before (addrs.map .addr) = .ok st ∧ AnyUndefinedAllStmt st s) ∧
    ∀ e v, anyRun c prog (addrs.map .addr) ≠ .err e v := by
  rcases anyRun_any c hc hv prog _ (fun o ho => (anyStart_safe c addrs h o ho).tame c hc) hp with ⟨h1, h2⟩ | ⟨⟨st', h1, -⟩, h2⟩
  · exact ⟨⟨fun _ => h2, fun _ => h1⟩, fun e v h => by rw [h1] at h; cases h⟩
  · refine ⟨⟨fun h => (by rw [h1] at h; cases h), ?_⟩, fun e v h => (by rw [h1] at h; cases h)⟩
    rintro ⟨b, s, r, st'', e1, e2, e3⟩
    exact (h2 b s r st'' e1 e2 e3).elim

/-- The constructor of an excluding iterator alone: it has a defined outcome exactly if the networks are of the same version
and fit together; networks of different versions are accepted by the compiler and always end the program. -/
theorem C87_constructor (c : Cfg) (hc : c.le = true) (hv : ∀ x y, c.val x = c.val y → x = y) (n o : AnyNet) (hn : NetOkAny c n)
    (ho : NetOkAny c o) : (anyExMk c n o = .ub ↔ ¬ CanExclude n o) ∧
      (∀ a b, n = .v4 a → o = .v6 b → anyExMk c n o = .ub) ∧ (∀ a b, n = .v6 a → o = .v4 b → anyExMk c n o = .ub) := by
  have h := (anyExMk_held c hc hv n o hn ho).1
  exact ⟨h, fun a b e1 e2 => h.2 (by subst e1 e2; exact not_false), fun a b e1 e2 => h.2 (by subst e1 e2; exact not_false)⟩

example := C87_constructor exCfg rfl exCfg_val (.v4 ex16) (.v6 ex32) ex16_ok ex32_ok

/-- Programs on `10.1.2.3` and a scoped IPv6 address: an excluding iterator for a network of one address and itself is fine
and can be incremented, in both versions; for a network that is not inside, or of the other version, the constructor ends the
program. -/
def exOwnExclusion : List (Stmt U128) :=
  [.new (.fromAddress 0 32 false), .new (.exitMk 2 2), .put 3 (.move 3 .inc), .put 3 (.move 3 .inc), .new (.deref 3),
    .new (.fromAddress 1 128 false), .new (.exsMk 5 5), .new (.first 6), .put 7 (.move 7 .inc), .new (.fromAddress 1 64 false),
    .new (.exsMk 8 5), .new (.first 9)]

theorem exOwnExclusion_size : ∀ s ∈ exOwnExclusion, sizeStmt s := by simp [exOwnExclusion, sizeStmt, sizeArgs]

example : (anyRun exCfg exOwnExclusion [.addr (.v4 [10, 1, 2, 3]), .addr (.v6 exScoped)]).isUb = false ∧
    (anyRun exCfg (exOwnExclusion ++ [.new (.exitMk 5 8)]) [.addr (.v4 [10, 1, 2, 3]), .addr (.v6 exScoped)]).isUb = true ∧
    (anyRun exCfg (exOwnExclusion ++ [.new (.exsMk 8 2)]) [.addr (.v4 [10, 1, 2, 3]), .addr (.v6 exScoped)]).isUb = true := by
  decide +kernel

example := C87_all exCfg rfl exCfg_val exOwnExclusion exOwnExclusion_size [.v4 [10, 1, 2, 3], .v6 exScoped] exBoth_ok

end Ip
