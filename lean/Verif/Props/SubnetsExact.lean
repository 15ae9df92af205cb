import Verif.Props.NetIter
/-
C35: the errors of `subnets` for all arguments.
-/
set_option autoImplicit false

namespace Ip
open Spec

/-- What `subnets(d, newp)` of a network with prefix length `plen` should report, in the order of the tests: a new
prefix that is shorter, a new prefix together with a difference, a prefix length above the number of bits.  A
network of one address has no inadmissible arguments. -/
inductive Spec.SubnetsReports (w plen d : Nat) : Option Nat → ErrorCode → Prop
  | shorter (p : Nat) : plen < w → p < plen → Spec.SubnetsReports w plen d (some p) .new_prefix_must_be_longer
  | both (p : Nat) : plen < w → plen ≤ p → d ≠ 1 → Spec.SubnetsReports w plen d (some p) .cannot_set_prefixlen_diff_and_new_prefix
  | tooLong (p : Nat) : plen < w → d = 1 → w < p → Spec.SubnetsReports w plen d (some p) .invalid_prefixlen_diff
  | tooMany : plen < w → w < plen + d → Spec.SubnetsReports w plen d none .invalid_prefixlen_diff

section
variable {A U : Type} {F : Fam A U} {WF : A → Prop} {val : U → Nat}

theorem subnets_reports (L : F.Law WF val) (hw : F.maxPrefix < 2 ^ 64) (n : Net A) (hn : NetOk F WF n) (d : Nat) (newp : Option Nat)
    (hd : d < 2 ^ 64) (hp : ∀ p, newp = some p → p < 2 ^ 64) (e : ErrorCode) (v : Nat) :
    F.subnets n d newp = .err e v ↔ v = 0 ∧ SubnetsReports F.maxPrefix n.plen d newp e ∧ (newp = none → n.plen + d < 2 ^ 64) := by
  obtain ⟨h1, h2, h3, h4⟩ := subnets_errors L n hn d
  rcases Nat.lt_or_ge n.plen F.maxPrefix with hlt | hge
  · cases newp with
    | none =>
      by_cases c : n.plen + d < 2 ^ 64
      · constructor
        · intro h
          obtain ⟨rfl, g⟩ := h4 none e v h
          have g' : e = .invalid_prefixlen_diff := by
            by_contra hne
            by_cases c' : n.plen + d > F.maxPrefix
            · rw [(h2 hlt c).1 c'] at h
              cases h
              exact hne rfl
            · simp only [Fam.subnets, L.removeScope _ hn.wf, Fam.noexcept, Res.ok_bind,
                if_neg (show ¬ n.plen = F.maxPrefix by omega), Nat.mod_eq_of_lt c, if_neg c'] at h
              split at h <;> cases h
          subst g'
          exact ⟨rfl, .tooMany hlt ((h2 hlt c).2 h), fun _ => c⟩
        · rintro ⟨rfl, g, -⟩
          cases g with
          | tooMany _ g => exact (h2 hlt c).1 g
      · constructor
        · intro h
          rw [subnets_sizet_wrap L n hn d hlt hw hd (by omega)] at h
          cases h
        · rintro ⟨-, -, g⟩
          exact (c (g rfl)).elim
    | some p =>
      obtain ⟨a, b, c⟩ := h3 p hlt (hp p rfl)
      constructor
      · intro h
        obtain ⟨rfl, rfl | rfl | rfl⟩ := h4 (some p) e v h
        · obtain ⟨g1, g2⟩ := c.2 h
          exact ⟨rfl, .tooLong p hlt g2 g1, fun h => (by cases h)⟩
        · exact ⟨rfl, .shorter p hlt (a.2 h), fun h => (by cases h)⟩
        · obtain ⟨g1, g2⟩ := b.2 h
          exact ⟨rfl, .both p hlt g1 g2, fun h => (by cases h)⟩
      · rintro ⟨rfl, g, -⟩
        cases g with
        | shorter _ _ g => exact a.1 g
        | both _ _ g1 g2 => exact b.1 ⟨g1, g2⟩
        | tooLong _ _ g1 g2 => exact c.1 ⟨g2, g1⟩
  · have e1 : n.plen = F.maxPrefix := Nat.le_antisymm hn.plen hge
    obtain ⟨s, s1, -⟩ := h1 e1 newp
    rw [s1]
    refine ⟨fun h => (by cases h), ?_⟩
    rintro ⟨-, g, -⟩
    cases g <;> omega

end

/-- C35, `subnets` of IPv4 networks, all values of `size_t`: the error is the one that the arguments deserve, except
that none is reported when the sum of prefix length and difference leaves the range of `size_t`. -/
theorem C35_subnets_v4_exact (n : Net (List (BitVec 8))) (hn : NetOk4 n) (d : Nat) (newp : Option Nat) (hd : d < 2 ^ 64)
    (hp : ∀ p, newp = some p → p < 2 ^ 64) (e : ErrorCode) (v : Nat) :
    (fam4 true).subnets n d newp = .err e v ↔ v = 0 ∧ SubnetsReports 32 n.plen d newp e ∧ (newp = none → n.plen + d < 2 ^ 64) :=
  subnets_reports fam4Law (by decide) n hn d newp hd hp e v

/-- C35, `subnets` of IPv6 networks, all values of `size_t`. -/
theorem C35_subnets_v6_exact (c : Cfg) (hc : c.le = true) (n : Net V6) (hn : NetOk6 c n) (d : Nat) (newp : Option Nat)
    (hd : d < 2 ^ 64) (hp : ∀ p, newp = some p → p < 2 ^ 64) (e : ErrorCode) (v : Nat) :
    (fam6 c).subnets n d newp = .err e v ↔ v = 0 ∧ SubnetsReports 128 n.plen d newp e ∧ (newp = none → n.plen + d < 2 ^ 64) :=
  subnets_reports (fam6Law c hc) (by show 128 < 2 ^ 64; decide) n hn d newp hd hp e v

example := C35_subnets_v4_exact ex16 ex16_ok 17 none (by decide) (fun _ h => (by cases h))
example : SubnetsReports 32 ex16.plen 17 none .invalid_prefixlen_diff := .tooMany (by decide) (by decide)
example := C35_subnets_v6_exact exCfg rfl ex32 ex32_ok 2 (some 40) (by decide) (fun _ h => (by cases h; decide))
example : SubnetsReports 128 ex32.plen 2 (some 40) .cannot_set_prefixlen_diff_and_new_prefix := .both 40 (by decide) (by decide) (by decide)

end Ip
