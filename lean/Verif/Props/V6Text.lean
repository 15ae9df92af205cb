import Verif.Lemmas.V6Text
import Verif.Lemmas.Samples
/-
Properties C08 - C13: IPv6 text.
-/
set_option autoImplicit false

namespace Ip
open Spec

/-- C08.  Whatever the format, the text of an address with a storable scope id is parsed back to
the same bytes and the same scope id.  (`V6.Good` holds of every address the parser produces, see
`C13_v6_parser_safe`.) -/
theorem C08_v6_round_trip (spaces : Bool) (M : Nat) (a : V6) (ha : a.Good spaces M) (fmt : Format) :
    ∃ t b, v6ToString M a fmt = .ok t ∧ v6Parse spaces M t = .ok b ∧ b.WF M ∧
      b.bytes = a.bytes ∧ b.scope.contents = a.scope.contents := by
  obtain ⟨hw, hz, hn⟩ := ha
  obtain ⟨g1, g2, g3⟩ := groupBytes_groupsOf 8 a.bytes hw.1
  obtain ⟨t, h1, h2, h3⟩ := v6ToString_eq M a hw fmt
  obtain ⟨h4, h5⟩ := h1.text g2 g3
  obtain ⟨b, b1, b2, b3, b4⟩ := v6Parse_of_accepts spaces M _ t a.scope.contents (groupsOf a.bytes)
    ⟨rfl, h4, fun h => absurd h h5, hz⟩ hn
  exact ⟨_, b, h3, b1, b2, by rw [b3, g1], b4⟩

example : v6ToString 16 ⟨[0x20, 1, 0xd, 0xb8, 0, 0, 0, 0, 0, 0, 0, 0, 0, 0, 0, 1], ⟨"eth0".toList ++ List.replicate 12 '\x00', 4⟩⟩
    .compressed = .ok "2001:db8::1%eth0".toList := by decide +kernel
example : (v6Parse false 16 "2001:db8::1%eth0".toList) =
    .ok ⟨[0x20, 1, 0xd, 0xb8, 0, 0, 0, 0, 0, 0, 0, 0, 0, 0, 0, 1], ⟨"eth0".toList ++ List.replicate 12 '\x00', 4⟩⟩ := by
  decide +kernel

/-- An address in one of its usual notations. -/
theorem exMapped : V6Text "::ffff:1.2.3.4".toList [0, 0, 0, 0, 0, 0xffff, 0x102, 0x304] := by
  refine V6Text.compressed [] [] "ffff:1.2.3.4".toList [0xffff, 0x102, 0x304] (Or.inl ⟨rfl, rfl⟩)
    (Or.inr (GroupsV4.cons "ffff".toList 0xffff _ _ ⟨by decide, by decide, ?_⟩ (GroupsV4.quad 1 2 3 4))) (by decide)
  have := hex4_HexNum 0xffff (by omega)
  exact this

/-- And another one. -/
theorem exHexText : V6Text "fe80::1".toList [0xfe80, 0, 0, 0, 0, 0, 0, 1] := by
  refine V6Text.compressed "fe80".toList [0xfe80] "1".toList [1] (Or.inr (Groups.one _ _ ⟨by decide, by decide, ?_⟩))
    (Or.inr (GroupsV4.one _ _ ⟨by decide, by decide, ?_⟩)) (by decide)
  · exact hex4_HexNum 0xfe80 (by omega)
  · exact HexNum.snoc [] '1' 0 1 HexNum.nil (Or.inl rfl)

/-- C09 (partial).  Every accepted text *without NUL characters* is an RFC 4291 text with an
optional legal zone id; bytes and scope id are those it denotes.  Missing: texts containing NUL,
see `C09_v6_nul_accepted`. -/
theorem C09_v6_sound_partial (spaces : Bool) (M : Nat) (s : List Char) (hn : ∀ c ∈ s, c ≠ '\x00') (a : V6)
    (h : v6Parse spaces M s = .ok a) :
    ∃ ip z vs, s = ip ++ zoneText z ∧ V6Text ip vs ∧ ZoneOk spaces M z ∧
      a.bytes = groupBytes vs ∧ a.scope.contents = z := by
  rcases v6Parse_rel spaces M s hn with ⟨ip, z, vs, b, b1, b2, b3, b4, b5⟩ | ⟨_, e, v, he⟩
  · rw [b2] at h
    cases h
    exact ⟨ip, z, vs, b1.1, b1.2.1, b1.2.2.2, b4, b5⟩
  · rw [he] at h; cases h

example : ∃ a, v6Parse false 16 "fe80::1%a".toList = .ok a ∧ ∀ c ∈ "fe80::1%a".toList, c ≠ '\x00' := ⟨exScoped, by decide +kernel, by decide⟩

/-- C09 fails in general: a group holding a NUL character followed by anything is accepted. -/
theorem C09_v6_nul_accepted : ∃ s a, v6Parse false 16 s = .ok a ∧
    ¬ ∃ ip z vs, s = ip ++ zoneText z ∧ V6Text ip vs := by
  refine ⟨['1', '\x00', 'z', 'z', ':', ':'], ⟨[0, 1, 0, 0, 0, 0, 0, 0, 0, 0, 0, 0, 0, 0, 0, 0], emptyScope 16⟩,
    by decide +kernel, ?_⟩
  rintro ⟨ip, z, vs, h1, h2⟩
  have hz : z = [] := by
    by_cases hz : z = []
    · exact hz
    · exfalso
      rw [zoneText, if_neg hz] at h1
      have : '%' ∈ (['1', '\x00', 'z', 'z', ':', ':'] : List Char) := by rw [h1]; simp
      revert this
      decide
  rw [hz, zoneText, if_pos rfl, List.append_nil] at h1
  exact (V6Text.chars h2 '\x00' (by rw [← h1]; decide)).1 rfl

/-- C10 (partial).  Every RFC 4291 text with an optional legal zone id is accepted with the value
it denotes, *provided a dotted quad comes with at most six colons*.  Missing: texts
like `::a:b:c:d:e:1.2.3.4`, see `C10_v6_seven_colons_rejected`. -/
theorem C10_v6_complete_partial (spaces : Bool) (M : Nat) (ip z : List Char) (vs : List Nat) (h : V6Text ip vs)
    (hz : ZoneOk spaces M z) (hn : ∀ c ∈ z, c ≠ '\x00') (hd : '.' ∈ ip → ip.count ':' ≤ 6) :
    ∃ a, v6Parse spaces M (ip ++ zoneText z) = .ok a ∧ a.WF M ∧ a.bytes = groupBytes vs ∧
      a.scope.contents = z :=
  v6Parse_of_accepts spaces M _ ip z vs ⟨rfl, h, hd, hz⟩ hn

example := C10_v6_complete_partial false 16 "::ffff:1.2.3.4".toList "eth0".toList _ exMapped (by unfold ZoneOk; decide) (by decide) (by decide)

/-- The restriction in `C10_v6_complete_partial` concerns only dotted quads: texts made of
hexadecimal groups are all accepted. -/
theorem C10_v6_complete_hex (spaces : Bool) (M : Nat) (ip : List Char) (vs : List Nat) (h : V6Text ip vs)
    (hd : '.' ∉ ip) : ∃ a, v6Parse spaces M ip = .ok a ∧ a.bytes = groupBytes vs ∧ a.scope.contents = [] := by
  obtain ⟨a, h1, _, h2, h3⟩ := C10_v6_complete_partial spaces M ip [] vs h (by simp [ZoneOk]) (by simp)
    (fun h => absurd h hd)
  rw [zoneText, if_pos rfl, List.append_nil] at h1
  exact ⟨a, h1, h2, h3⟩

example := C10_v6_complete_hex false 16 "fe80::1".toList _ exHexText (by decide)

theorem group_one (c : Char) (d : Nat) (h : hexLower[d]? = some c) : Group [c] d :=
  ⟨by simp, by simp, by have := HexNum.snoc [] c 0 d HexNum.nil (Or.inl h); simpa using this⟩

/-- C10 fails in general: `::1:2:3:4:5:1.2.3.4` is a text of RFC 4291 and is rejected. -/
theorem C10_v6_seven_colons_rejected :
    V6Text "::1:2:3:4:5:1.2.3.4".toList [0, 1, 2, 3, 4, 5, 0x102, 0x304] ∧
    ∃ e v, v6Parse false 16 "::1:2:3:4:5:1.2.3.4".toList = .err e v := by
  constructor
  · exact V6Text.compressed [] [] "1:2:3:4:5:1.2.3.4".toList [1, 2, 3, 4, 5, 0x102, 0x304] (Or.inl ⟨rfl, rfl⟩)
      (Or.inr (GroupsV4.cons ['1'] 1 _ _ (group_one '1' 1 rfl) (GroupsV4.cons ['2'] 2 _ _ (group_one '2' 2 rfl)
        (GroupsV4.cons ['3'] 3 _ _ (group_one '3' 3 rfl) (GroupsV4.cons ['4'] 4 _ _ (group_one '4' 4 rfl)
          (GroupsV4.cons ['5'] 5 _ _ (group_one '5' 5 rfl) (GroupsV4.quad 1 2 3 4))))))) (by decide)
  · exact ⟨.most_8_colons_permitted, 7, by decide +kernel⟩

/-- C11.  The compressed text of an address is the canonical text of RFC 5952 of its eight groups:
`::` stands for the leftmost longest run of at least two zero groups, and only for that. -/
theorem C11_v6_canonical (M : Nat) (a : V6) (ha : a.WF M) :
    ∃ vs t, vs.length = 8 ∧ (∀ v ∈ vs, v < 65536) ∧ a.bytes = groupBytes vs ∧ Canonical vs t ∧
      v6ToString M a .compressed = .ok (t ++ zoneText a.scope.contents) := by
  obtain ⟨g1, g2, g3⟩ := groupBytes_groupsOf 8 a.bytes ha.1
  obtain ⟨t, h1, h2, h3⟩ := v6ToString_eq M a ha .compressed
  refine ⟨_, t, g2, g3, g1.symm, ?_, h3⟩
  cases h1 with
  | compressed x hx => exact hx.canonical g2

example := C11_v6_canonical 16 exScoped exScoped_ok

/-- The full and the compact text: all eight groups with four digits, or without leading zeros. -/
theorem C11_v6_full_compact (M : Nat) (a : V6) (ha : a.WF M) :
    ∃ vs, vs.length = 8 ∧ (∀ v ∈ vs, v < 65536) ∧ a.bytes = groupBytes vs ∧
      v6ToString M a .full = .ok (colons (vs.map hex4) ++ zoneText a.scope.contents) ∧
      v6ToString M a .compact = .ok (colons (vs.map hexShort) ++ zoneText a.scope.contents) := by
  obtain ⟨g1, g2, g3⟩ := groupBytes_groupsOf 8 a.bytes ha.1
  obtain ⟨t, h1, _, h3⟩ := v6ToString_eq M a ha .full
  obtain ⟨t', h1', _, h3'⟩ := v6ToString_eq M a ha .compact
  cases h1
  cases h1'
  exact ⟨_, g2, g3, g1.symm, h3, h3'⟩

example := C11_v6_full_compact 16 exScoped exScoped_ok

/-- The canonical text is unique, so C11 determines the output. -/
theorem C11_canonical_unique (vs : List Nat) (s t : List Char) (hs : Canonical vs s) (ht : Canonical vs t) : s = t := by
  rcases hs with ⟨p, l, h1, h2, h3, rfl⟩ | ⟨h1, rfl⟩ <;> rcases ht with ⟨p', l', h1', h2', h3', rfl⟩ | ⟨h1', rfl⟩
  · have e1 := h3 _ _ h2'
    have e2 := h3' _ _ h2
    obtain rfl : l = l' := by omega
    obtain rfl : p = p' := by have := e1.2 rfl; have := e2.2 rfl; omega
    rfl
  · have := h1' _ _ h2; omega
  · have := h1 _ _ h2'; omega
  · rfl

example : v6ToString 0 ⟨[0, 1, 0, 0, 0, 0, 0, 1, 0, 0, 0, 0, 0, 0, 0, 1], emptyScope 0⟩ .compressed =
    .ok "1:0:0:1::1".toList := by decide +kernel
example : v6ToString 0 ⟨[0, 0, 0, 1, 0, 0, 0, 1, 0, 1, 0, 1, 0, 1, 0xab, 1], emptyScope 0⟩ .compressed =
    .ok "0:1:0:1:1:1:1:ab01".toList := by decide +kernel

/-- C12.  Formatting never leaves the buffers: whatever the result buffer held, it receives a text
of at most `40 + M` characters and a terminator, and the length reported is that of the text. -/
theorem C12_v6_buffer (M : Nat) (a : V6) (ha : a.WF M) (fmt : Format) (buf : List Char)
    (hb : buf.length = 42 + M) :
    ∃ t rest, v6ToChars a.bytes a.scope fmt buf = .ok (t ++ '\x00' :: rest, t.length) ∧
      (t ++ '\x00' :: rest).length = 42 + M ∧ t.length ≤ 40 + M ∧ v6ToString M a fmt = .ok t := by
  have hs : a.scope.data.length = M := ha.2.2
  obtain ⟨t, rest, h1, h2, h3, h4⟩ := v6ToChars_eq a.bytes ha.1 a.scope ha.2.1 fmt buf (by omega)
  obtain ⟨t', h1', _, h3'⟩ := v6ToString_eq M a ha fmt
  have ht : t = t' := by
    have c8 := (groupBytes_groupsOf 8 a.bytes ha.1).2.1
    cases h1 with
    | full => cases h1'; rfl
    | compact => cases h1'; rfl
    | compressed x hx =>
      cases h1' with
      | compressed y hy => exact C11_canonical_unique _ _ _ (hx.canonical c8) (hy.canonical c8)
  refine ⟨t ++ zoneText a.scope.contents, rest, h3, by omega, ?_, by rw [h3', ht]⟩
  have hc : a.scope.contents.length ≤ M := by rw [FStr.contents, List.length_take]; omega
  rw [List.length_append]
  unfold zoneText
  split
  · simp; omega
  · simp; omega

example := C12_v6_buffer 16 exScoped exScoped_ok .full (List.replicate 58 'x') (by decide)

/-- C13.  On every input (also one with ill-formed characters) the IPv6 parser stays within its
buffers, and a successful result is a valid address whose scope id is legal. -/
theorem C13_v6_parser_safe (spaces : Bool) (M : Nat) (evs : List Ev) :
    v6FromEvents spaces M evs ≠ .ub ∧ ∀ a, v6FromEvents spaces M evs = .ok a → a.Good spaces M :=
  v6FromEvents_safe spaces M evs

example : v6FromEvents false 3 (readChars "fe80::1%abcd".toList) = .err .scope_id_is_too_long 0 := by decide +kernel
example : v6FromEvents false 4 (readChars "1:2:3:4:5:6:7:8:9:a:b".toList) = .err .most_8_colons_permitted 9 := by decide +kernel

end Ip
