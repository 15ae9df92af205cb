import Verif.Lemmas.V6Nul
import Verif.Props.V6Text
/-
Properties C09 and C10 for all texts: exactly what the IPv6 parser accepts.
-/
set_option autoImplicit false

namespace Ip
open Spec

/-- C09, for all texts: what the parser accepts is exactly `TakenText`, with the groups and the zone
id it denotes; every other text is reported as an error.  With `C09_v6_nul_accepted` this says which
texts beyond RFC 4291 are accepted, and how they are read. -/
theorem C09_v6_exact (spaces : Bool) (M : Nat) (s : List Char) :
    (∀ z vs, TakenText spaces M s z vs → ∃ a, v6Parse spaces M s = .ok a ∧ a.WF M ∧ a.bytes = groupBytes vs ∧
      a.scope.contents = cutNul z) ∧
    (∀ a, v6Parse spaces M s = .ok a → ∃ z vs, TakenText spaces M s z vs ∧ a.bytes = groupBytes vs ∧
      a.scope.contents = cutNul z) ∧
    ((¬ ∃ z vs, TakenText spaces M s z vs) → ∃ e v, v6Parse spaces M s = .err e v) := by
  rcases v6Parse_all spaces M s with ⟨z, vs, a, h1, h2, h3, h4, h5⟩ | ⟨h1, h2⟩
  · refine ⟨fun z' vs' h => ?_, fun b hb => ?_, fun h => absurd ⟨z, vs, h1⟩ h⟩
    · obtain ⟨rfl, e⟩ := h1.unique h
      exact ⟨a, h2, h3, by rw [h4, e], h5⟩
    · rw [h2] at hb
      cases hb
      exact ⟨z, vs, h1, h4, h5⟩
  · refine ⟨fun z vs h => absurd ⟨z, vs, h⟩ h1, fun b hb => ?_, fun _ => h2⟩
    obtain ⟨e, v, h2⟩ := h2
    rw [h2] at hb
    cases hb

example : v6Parse false 16 "1\x00zz:\x00!::%e\x001".toList =
    .err .most_one_double_colon_permitted 4 := by decide +kernel
example : v6Parse false 16 "1\x00zz:\x00!:2%e\x001".toList =
    .ok ⟨[0, 1, 0, 0, 0, 0, 0, 0, 0, 0, 0, 0, 0, 0, 0, 2], ⟨'e' :: List.replicate 15 '\x00', 1⟩⟩ := by decide +kernel
/-- That text is one of the taken ones. -/
example : TakenText false 16 "1\x00zz:\x00!:2%e\x001".toList "e\x001".toList [1, 0, 0, 0, 0, 0, 0, 2] :=
  ⟨"1\x00zz:\x00!:2".toList, "1::2".toList, by decide, by decide,
    ⟨["1\x00zz".toList, "\x00!".toList], ['2'], by decide, by decide, by decide, by decide, by decide, by decide⟩,
    V6Text.compressed ['1'] [1] ['2'] [2] (Or.inr (Groups.one _ _ (group_one '1' 1 rfl)))
      (Or.inr (GroupsV4.one _ _ (group_one '2' 2 rfl))) (by decide), by decide,
    ⟨by decide, by decide⟩, by decide⟩

/-- C10, for all texts of the grammar: a text of RFC 4291 with a legal zone id is accepted if and only
if a dotted quad in it comes with at most six colons; accepted, it has the value it denotes. -/
theorem C10_v6_complete_iff (spaces : Bool) (M : Nat) (ip z : List Char) (vs : List Nat) (h : V6Text ip vs)
    (hz : ZoneOk spaces M z) (hn : '\x00' ∉ z) :
    (('.' ∈ ip → ip.count ':' ≤ 6) → ∃ a, v6Parse spaces M (ip ++ zoneText z) = .ok a ∧ a.WF M ∧
      a.bytes = groupBytes vs ∧ a.scope.contents = z) ∧
    (¬ ('.' ∈ ip → ip.count ':' ≤ 6) → ∃ e v, v6Parse spaces M (ip ++ zoneText z) = .err e v) := by
  refine ⟨fun hd => ?_, fun hd => ?_⟩
  · exact v6Parse_of_accepts spaces M _ ip z vs ⟨rfl, h, hd, hz⟩ (by rintro c hc rfl; exact hn hc)
  · have hnul : ∀ c ∈ ip ++ zoneText z, c ≠ '\x00' := by
      intro c hc
      rcases List.mem_append.1 hc with hc | hc
      · exact (V6Text.chars h c hc).1
      · unfold zoneText at hc
        split at hc
        · simp at hc
        · rcases List.mem_cons.1 hc with rfl | hc
          · decide
          · rintro rfl; exact hn hc
    rcases v6Parse_rel spaces M _ hnul with ⟨ip', z', vs', b, b1, _⟩ | ⟨_, e⟩
    · obtain ⟨rfl, rfl⟩ := zone_split_unique ip ip' z z' (fun c hc => (V6Text.chars h c hc).2)
        (fun c hc => (V6Text.chars b1.2.1 c hc).2) b1.1
      exact absurd b1.2.2.1 hd
    · exact e

example := C10_v6_complete_iff false 16 "::ffff:1.2.3.4".toList "eth0".toList _ exMapped (by unfold ZoneOk; decide) (by decide)

end Ip
