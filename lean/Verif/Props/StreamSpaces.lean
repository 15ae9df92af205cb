import Verif.Props.Stream
import Verif.Props.NetTaken
/-
Stream operators and scope ids with white space (`IPADDRESS_SCOPE_ID_SUPPORT_SPACES`): the rest of C48.
-/
set_option autoImplicit false

namespace Ip
open Spec

/-- The text of an IPv6 address as it is written, whatever its scope id. -/
theorem v6_written (M : Nat) (a : V6) (ha : a.WF M) (fmt : Format) (upper : Bool) :
    ∃ u t, v6ToString M a fmt = .ok u ∧ upperText u = .ok (upcase u) ∧ shown upper u = t ++ zoneText a.scope.contents ∧
      V6Text t (groupsOf a.bytes) ∧ '.' ∉ t ∧ t.length ≤ 39 ∧ ∀ c ∈ t, c ∈ addrChars := by
  obtain ⟨g1, g2, g3⟩ := groupBytes_groupsOf 8 a.bytes ha.1
  obtain ⟨t, h1, h2, h3⟩ := v6ToString_eq M a ha fmt
  obtain ⟨h4, h5⟩ := h1.text g2 g3
  obtain ⟨h6, h7⟩ := V6Text_upper h4
  have hp : ∀ c ∈ t, c.toNat < 128 ∧ c ≠ '%' := fun c hc => ⟨(addrChars_facts c (h6 c hc)).1, (addrChars_facts c (h6 c hc)).2.2.1⟩
  refine ⟨_, if upper then t.map Char.toUpper else t, h3, upperText_eq _ _ hp (zoneText_or _), ?_, ?_⟩
  · cases upper
    · rfl
    · exact upcase_split _ _ (fun c hc => (hp c hc).2) (zoneText_or _)
  · cases upper
    · exact ⟨h4, h5, h2, h6⟩
    · have hm : ∀ c ∈ t.map Char.toUpper, c ∈ addrChars := by
        intro c hc
        obtain ⟨x, hx, rfl⟩ := List.mem_map.1 hc
        exact (addrChars_facts x (h6 x hx)).2.2.2.2.2
      refine ⟨h7, ?_, by simpa using h2, hm⟩
      intro hc
      obtain ⟨x, hx, e⟩ := List.mem_map.1 hc
      have key : ∀ x ∈ addrChars, x.toUpper = '.' → x = '.' := by decide
      exact h5 (key x (h6 x hx) e ▸ hx)

/-- An address with an empty zone id is no text of an address. -/
theorem emptyZone_not (spaces : Bool) (M : Nat) (t : List Char) (vs : List Nat) (ht : V6Text t vs) :
    ¬ ∃ ip z ws, Accepts spaces M (t ++ ['%']) ip z ws := by
  rintro ⟨ip, z, ws, h1, h2, -, -⟩
  have p1 : '%' ∉ t := fun h => (V6Text.chars ht _ h).2 rfl
  have p2 : '%' ∉ ip := fun h => (V6Text.chars h2 _ h).2 rfl
  unfold zoneText at h1
  split at h1
  · rw [List.append_nil] at h1
    exact p2 (h1 ▸ (by simp))
  · rename_i hz
    have q1 : (t ++ ['%']).takeWhile (· ≠ '%') = t := by
      rw [List.takeWhile_append_of_pos (by intro c hc; simp; rintro rfl; exact p1 hc)]
      simp
    have q2 : (ip ++ '%' :: z).takeWhile (· ≠ '%') = ip := by
      rw [List.takeWhile_append_of_pos (by intro c hc; simp; rintro rfl; exact p2 hc)]
      simp
    rw [h1, q2] at q1
    rw [q1] at h1
    have := List.append_cancel_left h1
    simp only [List.cons.injEq, true_and] at this
    exact hz this.symm

theorem emptyZone_nul (t : List Char) (vs : List Nat) (ht : V6Text t vs) : ∀ c ∈ t ++ ['%'], c ≠ '\x00' := by
  intro c hc
  rcases List.mem_append.1 hc with hc | hc
  · exact (V6Text.chars ht c hc).1
  · rw [List.mem_singleton.1 hc]
    decide

/-- An empty zone id is rejected. -/
theorem v6Parse_emptyZone (spaces : Bool) (M : Nat) (t : List Char) (vs : List Nat) (ht : V6Text t vs) :
    ∃ e v, v6Parse spaces M (t ++ ['%']) = .err e v := by
  rcases v6Parse_rel spaces M (t ++ ['%']) (emptyZone_nul t vs ht) with ⟨ip, z, ws, b, b1, _⟩ | ⟨_, e, v, he⟩
  · exact absurd ⟨ip, z, ws, b1⟩ (emptyZone_not spaces M t vs ht)
  · exact ⟨e, v, he⟩

/-- A text with `%` is no text of an IPv4 address. -/
theorem v4_percent (s : List Char) (h : '%' ∈ s) (b : List (BitVec 8)) : v4FromEvents (readChars s) ≠ .ok b := by
  intro e
  obtain ⟨w, x, y, z, -, rfl⟩ := (v4Parse_ok_iff s b).1 e
  have := (dotted_upper w x y z).1 _ h
  revert this
  decide

/-- Reading a text up to its first white space. -/
theorem isRead_cut {U α : Type} {W : Wide U} (hW : W.Ok) (parse : List Ev → Res α) (w : List Char) (hk : ∀ c ∈ w, W.Keeps c)
    (hs : ∀ c ∈ w, isSpaceC c = false) (hn : w ≠ []) (x : U) (tail : List U) (hx : W.space x = true) (i : IStr U) (ws : List U)
    (h1 : i.eof = false) (h2 : i.fail = false) (h3 : i.input = ws ++ w.map W.conv ++ x :: tail) (h4 : ∀ u ∈ ws, W.space u = true) :
    (∀ a, parse (readChars w) = .ok a → isRead W parse i = .ok (some a, { i with input := x :: tail, eof := false })) ∧
    (∀ e v, parse (readChars w) = .err e v →
      isRead W parse i = .ok (none, { i with input := x :: tail, eof := false, fail := true })) := by
  have hr := readWord_eq W i ⟨h1, h2⟩ (w.map W.conv) (x :: tail)
    (by rw [h3]; exact firstWord_text W w hk hs hn ws (x :: tail) h4 (.inr ⟨x, tail, rfl, hx⟩))
  refine ⟨fun a ha => ?_, fun e v he => ?_⟩
  · unfold isRead
    simp only
    rw [hr, events_map W hW.law w hk, ha]
    rfl
  · unfold isRead
    simp only
    rw [hr, events_map W hW.law w hk, he]
    rfl

/-- What becomes of a text with a scope id that has white space: the part before it, `z`, and the rest, `x :: z2`. -/
def CutRead {U α : Type} (W : Wide U) (read : IStr U → Res (Option α × IStr U)) (t : List U) (z : List Char) (x : Char) (z2 : List Char)
    (tail : List Char) (good : α → Prop) : Prop :=
  ∀ (i : IStr U) (ws rest : List U), i.eof = false → i.fail = false → i.input = ws ++ t ++ rest →
    (∀ u ∈ ws, W.space u = true) →
    ∃ i', i'.input = (x :: z2 ++ tail).map W.conv ++ rest ∧ i'.eof = false ∧
      (z = [] → read i = .ok (none, i') ∧ i'.fail = true) ∧
      (z ≠ [] → ∃ a, read i = .ok (some a, i') ∧ i'.fail = false ∧ good a)

theorem cutRead_of {U α : Type} {W : Wide U} (hW : W.Ok) (parse : List Ev → Bool → Res α) (t z : List Char) (x : Char) (z2 tail : List Char)
    (good : α → Prop) (ht : ∀ c ∈ t, c ∈ addrChars) (hk : ∀ c ∈ z ++ [x], W.Keeps c) (hz : ∀ c ∈ z, isSpaceC c = false)
    (hx : isSpaceC x = true)
    (hp : ∀ strict, (z = [] → ∃ e v, parse (readChars (t ++ ['%'])) strict = .err e v) ∧
      (z ≠ [] → ∃ a, parse (readChars (t ++ '%' :: z)) strict = .ok a ∧ good a)) :
    CutRead W (isReadNet W parse) ((t ++ '%' :: (z ++ x :: z2) ++ tail).map W.conv) z x z2 tail good ∧
    CutRead W (isRead W (fun e => parse e true)) ((t ++ '%' :: (z ++ x :: z2) ++ tail).map W.conv) z x z2 tail good := by
  have hkw : ∀ c ∈ t ++ '%' :: z, W.Keeps c ∧ isSpaceC c = false := by
    intro c hc
    rcases List.mem_append.1 hc with hc | hc
    · exact ⟨hW.ascii c (addrChars_facts c (ht c hc)).1, (addrChars_facts c (ht c hc)).2.1⟩
    · rcases List.mem_cons.1 hc with rfl | hc
      · exact ⟨hW.ascii _ (by decide), by decide⟩
      · exact ⟨hk c (by simp [hc]), hz c hc⟩
  have hsx : W.space (W.conv x) = true := by rw [(hk x (by simp)).2, hx]
  have core : ∀ (strict : Bool) (i : IStr U) (ws rest : List U), i.eof = false → i.fail = false →
      i.input = ws ++ (t ++ '%' :: (z ++ x :: z2) ++ tail).map W.conv ++ rest → (∀ u ∈ ws, W.space u = true) →
      ∃ i', i'.input = (x :: z2 ++ tail).map W.conv ++ rest ∧ i'.eof = false ∧
        (z = [] → isRead W (fun e => parse e strict) i = .ok (none, i') ∧ i'.fail = true) ∧
        (z ≠ [] → ∃ a, isRead W (fun e => parse e strict) i = .ok (some a, i') ∧ i'.fail = false ∧ good a) := by
    intro strict i ws rest h1 h2 h3 h4
    obtain ⟨p1, p2⟩ := hp strict
    have e3 : i.input = ws ++ (t ++ '%' :: z).map W.conv ++ W.conv x :: ((z2 ++ tail).map W.conv ++ rest) := by
      rw [h3]
      simp only [List.map_append, List.map_cons, List.append_assoc, List.cons_append]
    obtain ⟨c1, c2⟩ := isRead_cut hW (fun e => parse e strict) (t ++ '%' :: z) (fun c hc => (hkw c hc).1) (fun c hc => (hkw c hc).2)
      (by simp) (W.conv x) ((z2 ++ tail).map W.conv ++ rest) hsx i ws h1 h2 e3 h4
    refine ⟨{ i with input := W.conv x :: ((z2 ++ tail).map W.conv ++ rest), eof := false, fail := z.isEmpty }, by simp, rfl, ?_, ?_⟩
    · rintro rfl
      obtain ⟨e, v, he⟩ := p1 rfl
      exact ⟨c2 e v he, rfl⟩
    · intro hne
      obtain ⟨a, a1, a2⟩ := p2 hne
      have hemp : z.isEmpty = false := by simpa using hne
      refine ⟨a, ?_, hemp, a2⟩
      rw [c1 a a1, hemp, ← h2]
  refine ⟨?_, core true⟩
  intro i ws rest h1 h2 h3 h4
  exact core (i.word == 0) { i with word := 0 } ws rest h1 h2 h3 h4

/-- C48, scope ids with white space: the output of an address is read up to the first white space of its scope id, and
the rest stays in the stream.  The address read has the part before it as its scope id; if there is nothing before it,
`failbit` is set. -/
theorem C48_spaces {U : Type} (W : Wide U) (hW : W.Ok) (M : Nat) (a : V6) (ha : a.Good true M) (z : List Char) (x : Char) (z2 : List Char)
    (he : a.scope.contents = z ++ x :: z2) (hk : ∀ c ∈ z ++ [x], W.Keeps c) (hz : ∀ c ∈ z, isSpaceC c = false)
    (hx : isSpaceC x = true) (s : OStr U) (fmt : Format) (hs : formatOfWord s.word = .ok fmt) :
    ∃ u, v6ToString M a fmt = .ok u ∧
      osV6 W M a s = .ok { s with word := 0, out := s.out ++ (shown s.upper u).map W.conv } ∧
      CutRead W (isRead W (v6FromEvents true M)) ((shown s.upper u).map W.conv) z x z2 []
        (fun b => b.WF M ∧ b.bytes = a.bytes ∧ b.scope.contents = z) ∧
      CutRead W (isRead W (anyFromEvents true M)) ((shown s.upper u).map W.conv) z x z2 []
        (fun y => ∃ b, y = .v6 b ∧ b.WF M ∧ b.bytes = a.bytes ∧ b.scope.contents = z) := by
  obtain ⟨u, t, h1, h2, h3, h4, h5, h6, h7⟩ := v6_written M a ha.1 fmt s.upper
  have hsh : shown s.upper u = t ++ '%' :: (z ++ x :: z2) ++ [] := by
    rw [h3, he, List.append_nil, zoneText, if_neg (by simp)]
  obtain ⟨g1, g2, g3⟩ := groupBytes_groupsOf 8 a.bytes ha.1.1
  have hbad := v6Parse_emptyZone true M t _ h4
  have hgood : z ≠ [] → ∃ b, v6Parse true M (t ++ '%' :: z) = .ok b ∧ b.WF M ∧ b.bytes = a.bytes ∧ b.scope.contents = z := by
    intro hne
    have hsub : ∀ c ∈ z, c ∈ a.scope.contents := fun c hc => by rw [he]; simp [hc]
    obtain ⟨b, b1, b2, b3, b4⟩ := v6Parse_of_accepts true M _ t z (groupsOf a.bytes)
      ⟨rfl, h4, fun h => absurd h h5, ⟨by
        have := ha.2.1.1
        rw [he, List.length_append] at this
        omega, fun c hc => ha.2.1.2 c (hsub c hc)⟩⟩ (fun c hc => ha.2.2 c (hsub c hc))
    rw [zoneText, if_neg hne] at b1
    exact ⟨b, b1, b2, by rw [b3, g1], b4⟩
  refine ⟨u, h1, osWrite_eq W _ s fmt hs u h1 h2, ?_, ?_⟩
  · rw [hsh]
    exact (cutRead_of hW (fun e _ => v6FromEvents true M e) t z x z2 [] _ h7 hk hz hx
      (fun _ => ⟨fun _ => hbad, hgood⟩)).2
  · rw [hsh]
    refine (cutRead_of hW (fun e _ => anyFromEvents true M e) t z x z2 [] _ h7 hk hz hx (fun _ => ⟨fun _ => ?_, fun hne => ?_⟩)).2
    · obtain ⟨e, v, h⟩ := hbad
      exact ⟨e, v, ((C20_any_parse true M _).2.2.1 e v).2 ⟨v4_percent _ (by simp), h⟩⟩
    · obtain ⟨b, b1, b2⟩ := hgood hne
      exact ⟨.v6 b, ((C20_any_parse true M _).2.1 _).2 b1, b, rfl, b2⟩

/-- A text without dots and slashes is no text of an IPv4 network. -/
theorem parseNet4_dotless (s : List Char) (h : '.' ∉ s) (hs : '/' ∉ s) (strict : Bool) :
    ∃ e v, (fam4 true).parseNet (readChars s) strict = .err e v := by
  obtain ⟨a1, a2⟩ := parts_of_noslash s hs
  refine ((C26_v4_exact s strict).2 (by rw [a2]; simp)).2 ?_
  rintro ⟨x, p, ⟨a, b, c, d, -, hx⟩, -⟩
  have hd : '.' ∈ addrRead 15 s := by rw [hx]; simp [dotted]
  have hsub : ∀ l : List Char, ∀ y ∈ cutNul l, y ∈ l := by
    intro l
    induction l with
    | nil => simp [cutNul]
    | cons k l ih =>
      intro y hy
      rw [cutNul] at hy
      split at hy
      · cases hy
      · rcases List.mem_cons.1 hy with rfl | hy
        · simp
        · simp [ih y hy]
  exact h (a1 ▸ List.mem_of_mem_take (hsub _ _ hd))

/-- C48, scope ids with white space: the output of a network is read up to the first white space of the scope id, so
the prefix length is not read: the network read has the single address.  If there is nothing before the white space,
`failbit` is set.  The same holds for `ip_network`. -/
theorem C48_spaces_net {U : Type} (W : Wide U) (hW : W.Ok) (c : Cfg) (hc : c.le = true) (hsp : c.spaces = true) (n : Net V6)
    (hg : n.addr.Good true c.M) (z : List Char) (x : Char) (z2 : List Char)
    (he : n.addr.scope.contents = z ++ x :: z2) (hk : ∀ ch ∈ z ++ [x], W.Keeps ch) (hz : ∀ ch ∈ z, isSpaceC ch = false)
    (hx : isSpaceC x = true) (s : OStr U) (fmt : Format) (hs : formatOfWord s.word = .ok fmt) :
    ∃ u, (fam6 c).netToString fmt n = .ok u ∧
      osNet W (fam6 c) n s = .ok { s with word := 0, out := s.out ++ (shown s.upper u).map W.conv } ∧
      CutRead W (isReadNet W (fam6 c).parseNet) ((shown s.upper u).map W.conv) z x z2 ('/' :: Nat.toDigits 10 n.plen)
        (fun m => m.plen = 128 ∧ m.addr.bytes = n.addr.bytes ∧ m.addr.scope.contents = z) ∧
      osAnyNet W c (.v6 n) s = .ok { s with word := 0, out := s.out ++ (shown s.upper u).map W.conv } ∧
      CutRead W (isReadNet W (anyNetFromEvents c)) ((shown s.upper u).map W.conv) z x z2 ('/' :: Nat.toDigits 10 n.plen)
        (fun y => ∃ m, y = .v6 m ∧ m.plen = 128 ∧ m.addr.bytes = n.addr.bytes ∧ m.addr.scope.contents = z) := by
  obtain ⟨u, t, h1, h2, h3, h4, h5, h6, h7⟩ := v6_written c.M n.addr hg.1 fmt s.upper
  obtain ⟨g1, g2, g3⟩ := groupBytes_groupsOf 8 n.addr.bytes hg.1.1
  obtain ⟨t0, f1, f2, f3⟩ := v6ToString_eq c.M n.addr hg.1 fmt
  have hu : u = t0 ++ zoneText n.addr.scope.contents := by
    rw [h1] at f3
    cases f3
    rfl
  obtain ⟨f4, f5⟩ := f1.text g2 g3
  obtain ⟨f6, f7⟩ := V6Text_upper f4
  have hp : ∀ c ∈ t0, c.toNat < 128 ∧ c ≠ '%' := fun c hc => ⟨(addrChars_facts c (f6 c hc)).1, (addrChars_facts c (f6 c hc)).2.2.1⟩
  obtain ⟨k1, k2⟩ := upcase_net t0 (zoneText n.addr.scope.contents) n.plen hp (zoneText_or _)
  have hsh : shown s.upper (u ++ '/' :: Nat.toDigits 10 n.plen) = t ++ '%' :: (z ++ x :: z2) ++ '/' :: Nat.toDigits 10 n.plen := by
    have e1 : t ++ '%' :: (z ++ x :: z2) = t ++ zoneText n.addr.scope.contents := by rw [he, zoneText, if_neg (by simp)]
    rw [e1, ← h3, hu]
    cases s.upper
    · rfl
    · show upcase _ = upcase _ ++ _
      rw [k1, upcase_split t0 _ (fun c hc => (hp c hc).2) (zoneText_or _)]
  have ht : (fam6 c).netToString fmt n = .ok (u ++ '/' :: Nat.toDigits 10 n.plen) := by
    show (v6ToString c.M n.addr fmt >>= _) = _
    rw [h1]
    rfl
  have hslash : '/' ∉ t := fun h => (addrChars_facts _ (h7 _ h)).2.2.2.1 rfl
  have hlen : z.length ≤ c.M := by
    have := hg.2.1.1
    rw [he, List.length_append] at this
    omega
  have hsub : ∀ ch ∈ z, ch ∈ n.addr.scope.contents := fun ch hc => by rw [he]; simp [hc]
  have key : ∀ strict, (z = [] → ∃ e v, (fam6 c).parseNet (readChars (t ++ ['%'])) strict = .err e v) ∧
      (z ≠ [] → ∃ m, (fam6 c).parseNet (readChars (t ++ '%' :: z)) strict = .ok m ∧
        m.plen = 128 ∧ m.addr.bytes = n.addr.bytes ∧ m.addr.scope.contents = z) := by
    refine fun strict => ⟨fun _ => ?_, fun hne => ?_⟩
    · obtain ⟨a1, a2⟩ := parts_of_noslash (t ++ ['%']) (by simp [hslash])
      refine (C26_v6_partial c hc (t ++ ['%']) (by rw [a1]; exact emptyZone_nul t _ h4) (by rw [a1]; simp; omega)
        (by rw [a2]; simp) strict).2 ?_
      rintro ⟨b, y, p, ⟨ip, vs, h, -⟩, -⟩
      rw [a1] at h
      exact emptyZone_not _ _ t _ h4 ⟨ip, y, vs, h⟩
    · have hnz : '/' ∉ t ++ '%' :: z := by
        simp only [List.mem_append, List.mem_cons, not_or]
        exact ⟨hslash, by decide, fun h => (hg.2.1.2 _ (hsub _ h)).2.1 rfl⟩
      obtain ⟨a1, a2⟩ := parts_of_noslash (t ++ '%' :: z) hnz
      obtain ⟨m, m1, m2, m3, m4⟩ := ((C26_v6_partial c hc (t ++ '%' :: z) (by
        rw [a1]
        intro ch hch
        rcases List.mem_append.1 hch with hch | hch
        · exact (V6Text.chars h4 ch hch).1
        · rcases List.mem_cons.1 hch with rfl | hch
          · decide
          · exact hg.2.2 ch (hsub ch hch)) (by rw [a1]; simp; omega) (by rw [a2]; simp) strict).1 n.addr.bytes z 128
          ⟨⟨t, groupsOf n.addr.bytes, ⟨by rw [a1, zoneText, if_neg hne], h4, fun h => absurd h h5, hlen, fun ch hch => by
            have := hg.2.1.2 ch (hsub ch hch)
            exact ⟨this.1, this.2.1, fun e => by rw [hsp] at e; cases e⟩⟩, by rw [g1]⟩, .inl ⟨a2, rfl⟩⟩).1
          (by rintro ⟨i, hi, -⟩; omega)
      exact ⟨m, m1, m4, m2, m3⟩
  have hw := osWrite_eq W (fun fmt => (fam6 c).netToString fmt n) s fmt hs _ ht (by rw [hu]; exact k2)
  refine ⟨_, ht, hw, ?_, hw, ?_⟩
  · rw [hsh]
    exact (cutRead_of hW (fam6 c).parseNet t z x z2 _ _ h7 hk hz hx key).1
  · rw [hsh]
    refine (cutRead_of hW (anyNetFromEvents c) t z x z2 _ _ h7 hk hz hx (fun strict => ⟨fun he => ?_, fun hne => ?_⟩)).1
    · obtain ⟨e, v, h⟩ := (key strict).1 he
      exact ⟨e, v, ((C49_parse c hc _ strict).2.2.1 e v).2 ⟨parseNet4_dotless _ (by simp [h5]) (by simp [hslash]) strict, h⟩⟩
    · obtain ⟨m, m1, m2⟩ := (key strict).2 hne
      exact ⟨.v6 m, ((C49_parse c hc _ strict).2.1 m).2 m1, m, rfl, m2⟩

/-- `fe80::1%a b`. -/
def exSpaced : V6 := ⟨[0xfe, 0x80, 0, 0, 0, 0, 0, 0, 0, 0, 0, 0, 0, 0, 0, 1], ⟨"a b".toList ++ List.replicate 13 '\x00', 3⟩⟩

theorem exSpaced_good : exSpaced.Good true 16 := by
  unfold V6.Good ZoneOk V6.WF FStr.WF
  decide +kernel

/-- The configuration of the examples with spaces in scope ids. -/
def exSpaces : Cfg := { exCfg with spaces := true }

example := C48_spaces wideChar wideChar_ok 16 exSpaced exSpaced_good ['a'] ' ' ['b'] (by decide +kernel) (fun c _ => wideChar_keeps c)
  (by decide) (by decide) ⟨1, true, false, false, []⟩ .full rfl

example := C48_spaces_net wide16 wide16_ok exSpaces rfl rfl ⟨exSpaced, ⟨List.replicate 16 255, emptyScope 16⟩, 128⟩ exSpaced_good ['a'] ' ' ['b']
  (by decide +kernel) (by intro c hc; exact wide16_keeps c (by revert c; decide)) (by decide) (by decide) ⟨1, true, false, false, []⟩ .full rfl

/-- A network `fe80::1%a b/64`, read with `non_strict`, becomes `fe80::1%a/128`. -/
example : (isReadNet wideChar (fam6 exSpaces).parseNet (isNonStrict ⟨0, false, false, "fe80::%a b/64".toList, false, false⟩) >>= fun r =>
    .ok (r.1.map (·.plen), r.2.input, r.2.fail)) = .ok (some 128, " b/64".toList, false) := by
  decide +kernel

end Ip
