import Verif.Props.StreamSpaces
import Verif.Lemmas.DiagNet
/-
Stream operators of wide characters and scope ids with characters other than those of ASCII: the rest of C48.
-/
set_option autoImplicit false

namespace Ip
open Spec

/-- What the stream writes for `x` is not white space and is rejected by the reader. -/
def Wide.Garbles {U : Type} (W : Wide U) (x : Char) : Prop :=
  W.space (W.conv x) = false ∧ ∀ r, ∃ code sym r', W.enc.next (W.conv x) r = (.bad code sym, r')

theorem signExt_neg256 (n : Nat) (x : Char) (h : 128 ≤ x.toNat) : signExt n x = BitVec.ofInt n ((x.toNat : Int) - 256) := if_neg (by omega)

theorem wide32_garbles (x : Char) (h : 128 ≤ x.toNat) (h' : x.toNat < 256) : wide32.Garbles x := by
  have key : ∀ k : Fin 128, wide32.space (BitVec.ofInt 32 (((k.val + 128 : Nat) : Int) - 256)) = false ∧
      (BitVec.ofInt 32 (((k.val + 128 : Nat) : Int) - 256)).toNat > 127 := by decide +kernel
  have k := key ⟨x.toNat - 128, by omega⟩
  have e : wide32.conv x = BitVec.ofInt 32 (((x.toNat - 128 + 128 : Nat) : Int) - 256) := by
    rw [Nat.sub_add_cancel h]
    exact signExt_neg256 32 x h
  rw [Wide.Garbles, e]
  refine ⟨k.1, fun r => ⟨.unexpected_symbol, (BitVec.ofInt 32 (((x.toNat - 128 + 128 : Nat) : Int) - 256)).toNat, r, ?_⟩⟩
  have k2 := k.2
  generalize BitVec.ofInt 32 (((x.toNat - 128 + 128 : Nat) : Int) - 256) = u at k2 ⊢
  show ((if u.toNat > 127 then Ev.bad .unexpected_symbol u.toNat else .ch (Char.ofNat u.toNat)), r) = _
  rw [if_pos k2]

theorem wide16_garbles (x : Char) (h : 128 ≤ x.toNat) (h' : x.toNat < 256) : wide16.Garbles x := by
  have key : ∀ k : Fin 128, wide16.space (BitVec.ofInt 16 (((k.val + 128 : Nat) : Int) - 256)) = false ∧
      ((BitVec.ofInt 16 (((k.val + 128 : Nat) : Int) - 256)).setWidth 32).toNat > 127 ∧
      (utf16CodePoint (BitVec.ofInt 16 (((k.val + 128 : Nat) : Int) - 256))).2 = 1 := by decide +kernel
  have k := key ⟨x.toNat - 128, by omega⟩
  have e : wide16.conv x = BitVec.ofInt 16 (((x.toNat - 128 + 128 : Nat) : Int) - 256) := by
    rw [Nat.sub_add_cancel h]
    exact signExt_neg256 16 x h
  rw [Wide.Garbles, e]
  refine ⟨k.1, fun r => ⟨.unexpected_symbol, ((BitVec.ofInt 16 (((x.toNat - 128 + 128 : Nat) : Int) - 256)).setWidth 32).toNat, r, ?_⟩⟩
  show utf16Next _ r = _
  unfold utf16Next
  have k3 := k.2.2
  have k2 := k.2.1
  simp only at k2 k3 ⊢
  rw [if_pos k3, if_pos k2]

/-- What is read of a text `t` that the stream does not read back: the word with it is consumed and `failbit` is set, whatever
precedes and follows. -/
def LostRead {U α : Type} (W : Wide U) (read : IStr U → Res (Option α × IStr U)) (t : List U) : Prop :=
  ∀ (i : IStr U) (ws rest : List U), i.eof = false → i.fail = false → i.input = ws ++ t ++ rest → (∀ u ∈ ws, W.space u = true) →
    ∃ w rest' i', FirstWord W.space i.input w rest' ∧ read i = .ok (none, i') ∧ i'.input = rest' ∧ i'.fail = true

theorem lostRead_of {U α : Type} {W : Wide U} (hW : W.Ok) (parse : List Ev → Bool → Res α) (t : List Char) (x : Char) (t2 : List Char)
    (ht : ∀ c ∈ t, W.Keeps c ∧ isSpaceC c = false) (hx : W.Garbles x)
    (hp : ∀ strict code sym, ∃ e v, parse (readChars t ++ [.bad code sym]) strict = .err e v) :
    LostRead W (isReadNet W parse) ((t ++ x :: t2).map W.conv) ∧
    LostRead W (isRead W (fun e => parse e true)) ((t ++ x :: t2).map W.conv) := by
  have core : ∀ strict, LostRead W (isRead W (fun e => parse e strict)) ((t ++ x :: t2).map W.conv) := by
    intro strict i ws rest h1 h2 h3 h4
    have hf : FirstWord W.space i.input
        (t.map W.conv ++ W.conv x :: (t2.map W.conv ++ rest).takeWhile (fun u => !W.space u))
        ((t2.map W.conv ++ rest).dropWhile (fun u => !W.space u)) := by
      refine ⟨ws, ?_, h4, by simp, ?_, ?_⟩
      · rw [h3]
        simp only [List.map_append, List.map_cons, List.append_assoc, List.cons_append]
        rw [List.takeWhile_append_dropWhile]
      · intro u hu
        rcases List.mem_append.1 hu with hu | hu
        · obtain ⟨c, hc, rfl⟩ := List.mem_map.1 hu
          rw [(ht c hc).1.2, (ht c hc).2]
        · rcases List.mem_cons.1 hu with rfl | hu
          · exact hx.1
          · simpa using List.all_eq_true.1 (List.all_takeWhile (p := fun u => !W.space u)) u hu
      · cases hd : (t2.map W.conv ++ rest).dropWhile (fun u => !W.space u) with
        | nil => exact .inl rfl
        | cons y r =>
          refine .inr ⟨y, r, rfl, ?_⟩
          have := List.head?_dropWhile_not (fun u => !W.space u) (t2.map W.conv ++ rest)
          rw [hd] at this
          simpa using this
    refine ⟨_, _, { i with input := (t2.map W.conv ++ rest).dropWhile (fun u => !W.space u)
                           eof := ((t2.map W.conv ++ rest).dropWhile (fun u => !W.space u)).isEmpty, fail := true }, hf, ?_, rfl, rfl⟩
    · obtain ⟨code, sym, r', hb⟩ := hx.2 ((t2.map W.conv ++ rest).takeWhile (fun u => !W.space u))
      have he : ∀ l : List Char, (∀ c ∈ l, W.Keeps c ∧ isSpaceC c = false) →
          W.enc.events (l.map W.conv ++ W.conv x :: (t2.map W.conv ++ rest).takeWhile (fun u => !W.space u)) =
            readChars l ++ [.bad code sym] := by
        intro l
        induction l with
        | nil => exact fun _ => hW.law.cons_bad _ _ _ _ _ hb
        | cons c l ih =>
          intro hl
          rw [List.map_cons, List.cons_append, hW.law.cons_ch _ _ _ _ ((hl c (by simp)).1.1 _), ih (fun d hd => hl d (by simp [hd]))]
          rfl
      obtain ⟨e, v, hev⟩ := hp strict code sym
      unfold isRead
      simp only
      rw [readWord_eq W i ⟨h1, h2⟩ _ _ hf, he t ht, hev]
  refine ⟨?_, core true⟩
  intro i ws rest h1 h2 h3 h4
  exact core (i.word == 0) { i with word := 0 } ws rest h1 h2 h3 h4

/-- The text of an IPv6 address up to a character of the scope id that the stream does not represent. -/
theorem v6_bad (spaces : Bool) (M : Nat) (t : List Char) (vs : List Nat) (ht : V6Text t vs) (hdot : '.' ∉ t) (z : List Char)
    (hz : ZoneOk spaces M z) (hl : z.length < M) (hn : ∀ c ∈ z, c ≠ '\x00') (code : ErrorCode) (sym : Nat) :
    v6FromEvents spaces M (readChars (t ++ '%' :: z) ++ [.bad code sym]) = .err code sym := by
  have h1 : ∀ c ∈ z ++ ['1'], c ∈ z ∨ c = '1' := by simp
  obtain ⟨b, b1, -⟩ := v6Parse_of_accepts spaces M _ t (z ++ ['1']) vs ⟨rfl, ht, fun h => absurd h hdot, by simp; omega, fun c hc => by
    rcases h1 c hc with h | rfl
    · exact hz.2 c h
    · exact ⟨by decide, by decide, fun _ => by decide⟩⟩ (fun c hc => by
    rcases h1 c hc with h | rfl
    · exact hn c h
    · decide)
  rw [zoneText, if_neg (by simp)] at b1
  refine v6FromEvents_bad spaces M (readChars (t ++ '%' :: z)) (readChars ['1']) b ?_ code sym []
  rw [← b1, v6Parse]
  simp [readChars]

theorem leadChars_read (s : List Char) (h : '/' ∉ s) : ∀ evs, (evs = [] ∨ ∃ c v r, evs = .bad c v :: r) → leadChars (readChars s ++ evs) = s := by
  induction s with
  | nil => rintro evs (rfl | ⟨c, v, r, rfl⟩) <;> rfl
  | cons x s ih =>
    intro evs he
    have hx : x ≠ '/' := fun e => h (by simp [e])
    show (if x = '/' then [] else x :: leadChars (readChars s ++ evs)) = _
    rw [if_neg hx, ih (fun e => h (by simp [e])) evs he]

/-- The IPv4 network parser rejects a text that begins as an IPv6 address does. -/
theorem net4_rejects (c : Cfg) (hc : c.le = true) (t : List Char) (vs : List Nat) (ht : V6Text t vs) (y : List Char) (hs : '/' ∉ t ++ y)
    (evs : List Ev) (he : evs = [] ∨ ∃ c v r, evs = .bad c v :: r) (strict : Bool) :
    ∃ e v, (fam4 true).parseNet (readChars (t ++ y) ++ evs) strict = .err e v := by
  cases h : (fam4 true).parseNet (readChars (t ++ y) ++ evs) strict with
  | err e v => exact ⟨e, v, rfl⟩
  | ub =>
    obtain ⟨a, e, -⟩ := ((C26_parser_safe c hc _ strict).2).1 h
    have hm : Ev.ch '/' ∈ readChars (t ++ y) ++ evs := by rw [e]; simp [readChars]
    have hb : ∀ c v, Ev.bad c v ∉ readChars (t ++ y) ++ evs := by rw [e]; simp [readChars]
    rcases he with rfl | ⟨c', v, r, rfl⟩
    · simp only [readChars, List.append_nil, List.mem_map, Ev.ch.injEq] at hm
      obtain ⟨x, hx, rfl⟩ := hm
      exact absurd hx hs
    · exact absurd (by simp) (hb c' v)
  | ok n =>
    exfalso
    obtain ⟨r4, f4, a4, g1, g2, g3⟩ := parseNet_text (fam4 true) _ strict n h
    have g3 : v4ParseArray r4 = .ok a4 := g3
    rw [v4ParseArray, g1, Res.ok_bind, g2] at g3
    obtain ⟨p, q, r, s, -, e⟩ := v4FromEvents_ok g3
    have e : (cstr (leadChars (readChars (t ++ y) ++ evs))).take 15 = dotted p q r s := by
      simp only [readChars] at e
      exact (List.map_inj_right (fun _ _ h => by cases h; rfl)).1 e
    rw [leadChars_read _ hs evs he] at e
    obtain ⟨g, r', hg, hd⟩ := V6Text_split t vs ht
    have hp : dotted p q r s <+: g ++ ':' :: (r' ++ y) := by
      rw [← e]
      have : t ++ y = g ++ ':' :: (r' ++ y) := by rw [hg]; simp
      rw [this]
      exact (List.take_prefix _ _).trans (List.takeWhile_prefix _)
    exact noDot_prefix _ g _ hp (fun h => (dotted_noColon p q r s ':' h).1 rfl) hd (by simp [dotted])

/-- C48, scope ids with a character that the stream does not represent (`x`), before any white space: the output of an address is not
read back; the word is consumed and `failbit` is set. -/
theorem C48_wide {U : Type} (W : Wide U) (hW : W.Ok) (spaces : Bool) (M : Nat) (a : V6) (ha : a.Good spaces M) (z : List Char) (x : Char)
    (z2 : List Char) (he : a.scope.contents = z ++ x :: z2) (hz : ScopeShown W z) (hx : W.Garbles x) (s : OStr U) (fmt : Format)
    (hs : formatOfWord s.word = .ok fmt) :
    ∃ u, v6ToString M a fmt = .ok u ∧
      osV6 W M a s = .ok { s with word := 0, out := s.out ++ (shown s.upper u).map W.conv } ∧
      LostRead W (isRead W (v6FromEvents spaces M)) ((shown s.upper u).map W.conv) ∧
      LostRead W (isRead W (anyFromEvents spaces M)) ((shown s.upper u).map W.conv) := by
  obtain ⟨u, t, h1, h2, h3, h4, h5, h6, h7⟩ := v6_written M a ha.1 fmt s.upper
  have hsh : shown s.upper u = (t ++ '%' :: z) ++ x :: z2 := by
    rw [h3, he, zoneText, if_neg (by simp)]
    simp
  have hsub : ∀ c ∈ z, c ∈ a.scope.contents := fun c hc => by rw [he]; simp [hc]
  have hlen : z.length < M := by
    have := ha.2.1.1
    rw [he, List.length_append, List.length_cons] at this
    omega
  have hbad := v6_bad spaces M t _ h4 h5 z ⟨by omega, fun c hc => ha.2.1.2 c (hsub c hc)⟩ hlen (fun c hc => ha.2.2 c (hsub c hc))
  have hk : ∀ c ∈ t ++ '%' :: z, W.Keeps c ∧ isSpaceC c = false := by
    intro c hc
    rcases List.mem_append.1 hc with hc | hc
    · exact ⟨hW.ascii c (addrChars_facts c (h7 c hc)).1, (addrChars_facts c (h7 c hc)).2.1⟩
    · rcases List.mem_cons.1 hc with rfl | hc
      · exact ⟨hW.ascii _ (by decide), by decide⟩
      · exact hz c hc
  refine ⟨u, h1, osWrite_eq W _ s fmt hs u h1 h2, ?_, ?_⟩
  · rw [hsh]
    exact (lostRead_of hW (fun e _ => v6FromEvents spaces M e) _ x z2 hk hx (fun _ code sym => ⟨_, _, hbad code sym⟩)).2
  · rw [hsh]
    refine (lostRead_of hW (fun e _ => anyFromEvents spaces M e) _ x z2 hk hx (fun _ code sym => ⟨code, sym, ?_⟩)).2
    refine ((C20_any_parse spaces M _).2.2.1 _ _).2 ⟨fun b hb => ?_, hbad code sym⟩
    obtain ⟨p, q, r, y, -, e⟩ := v4FromEvents_ok hb
    have : Ev.bad code sym ∈ readChars (dotted p q r y) := by rw [← e]; simp
    simp [readChars] at this

/-- C48, networks with such a scope id: likewise. -/
theorem C48_wide_net {U : Type} (W : Wide U) (hW : W.Ok) (c : Cfg) (hc : c.le = true) (n : Net V6) (hg : n.addr.Good c.spaces c.M)
    (z : List Char) (x : Char) (z2 : List Char) (he : n.addr.scope.contents = z ++ x :: z2) (hz : ScopeShown W z) (hx : W.Garbles x)
    (s : OStr U) (fmt : Format) (hs : formatOfWord s.word = .ok fmt) :
    ∃ u, (fam6 c).netToString fmt n = .ok u ∧
      osNet W (fam6 c) n s = .ok { s with word := 0, out := s.out ++ (shown s.upper u).map W.conv } ∧
      LostRead W (isReadNet W (fam6 c).parseNet) ((shown s.upper u).map W.conv) ∧
      LostRead W (isReadNet W (anyNetFromEvents c)) ((shown s.upper u).map W.conv) := by
  obtain ⟨u, t, h1, h2, h3, h4, h5, h6, h7⟩ := v6_written c.M n.addr hg.1 fmt s.upper
  obtain ⟨g1, g2, g3⟩ := groupBytes_groupsOf 8 n.addr.bytes hg.1.1
  obtain ⟨t0, f1, f2, f3⟩ := v6ToString_eq c.M n.addr hg.1 fmt
  have hu : u = t0 ++ zoneText n.addr.scope.contents := by
    rw [h1] at f3
    cases f3
    rfl
  obtain ⟨f4, f5⟩ := f1.text g2 g3
  obtain ⟨f6, f7⟩ := V6Text_upper f4
  have hp : ∀ c ∈ t0, c.toNat < 128 ∧ c ≠ '%' := fun c hc => ⟨(addrChars_facts c (f6 c hc)).1, (addrChars_facts c (f6 c hc)).2.2.1⟩
  obtain ⟨k1, k2⟩ := upcase_net t0 (zoneText n.addr.scope.contents) n.plen hp (zoneText_or _)
  have hsh : shown s.upper (u ++ '/' :: Nat.toDigits 10 n.plen) = (t ++ '%' :: z) ++ x :: (z2 ++ '/' :: Nat.toDigits 10 n.plen) := by
    have e1 : (t ++ '%' :: z) ++ x :: (z2 ++ '/' :: Nat.toDigits 10 n.plen) = t ++ zoneText n.addr.scope.contents ++ '/' :: Nat.toDigits 10 n.plen := by
      rw [he, zoneText, if_neg (by simp)]
      simp
    rw [e1, ← h3, hu]
    cases s.upper
    · rfl
    · show upcase _ = upcase _ ++ _
      rw [k1, upcase_split t0 _ (fun c hc => (hp c hc).2) (zoneText_or _)]
  have ht : (fam6 c).netToString fmt n = .ok (u ++ '/' :: Nat.toDigits 10 n.plen) := by
    show (v6ToString c.M n.addr fmt >>= _) = _
    rw [h1]
    rfl
  have hsub : ∀ ch ∈ z, ch ∈ n.addr.scope.contents := fun ch hc => by rw [he]; simp [hc]
  have hslash : '/' ∉ t ++ '%' :: z := by
    simp only [List.mem_append, List.mem_cons, not_or]
    exact ⟨fun h => (addrChars_facts _ (h7 _ h)).2.2.2.1 rfl, by decide, fun h => (hg.2.1.2 _ (hsub _ h)).2.1 rfl⟩
  have hlen : z.length < c.M := by
    have := hg.2.1.1
    rw [he, List.length_append, List.length_cons] at this
    omega
  have hk : ∀ ch ∈ t ++ '%' :: z, W.Keeps ch ∧ isSpaceC ch = false := by
    intro ch hch
    rcases List.mem_append.1 hch with hch | hch
    · exact ⟨hW.ascii ch (addrChars_facts ch (h7 ch hch)).1, (addrChars_facts ch (h7 ch hch)).2.1⟩
    · rcases List.mem_cons.1 hch with rfl | hch
      · exact ⟨hW.ascii _ (by decide), by decide⟩
      · exact hz ch hch
  obtain ⟨a1, a2⟩ := parts_of_noslash _ hslash
  have hbad : ∀ strict code sym, (fam6 c).parseNet (readChars (t ++ '%' :: z) ++ [.bad code sym]) strict = .err code sym := by
    intro strict code sym
    refine ((parseNet_bad (F := fam6 c) (t ++ '%' :: z) code sym [] strict).1 ?_).2 ?_
    · rw [a1]
      show (t ++ '%' :: z).length ≤ 41 + c.M
      simp
      omega
    · rintro ⟨m, hm, -⟩
      rw [a2] at hm
      cases hm
  refine ⟨_, ht, osWrite_eq W _ s fmt hs _ ht (by rw [hu]; exact k2), ?_, ?_⟩
  · rw [hsh]
    exact (lostRead_of hW (fam6 c).parseNet _ x _ hk hx (fun strict code sym => ⟨_, _, hbad strict code sym⟩)).1
  · rw [hsh]
    refine (lostRead_of hW (anyNetFromEvents c) _ x _ hk hx (fun strict code sym => ⟨code, sym, ?_⟩)).1
    exact ((C49_parse c hc _ strict).2.2.1 _ _).2
      ⟨net4_rejects c hc t _ h4 _ hslash _ (.inr ⟨_, _, _, rfl⟩) strict, hbad strict code sym⟩

/-- `fe80::1%é` with the two bytes of UTF-8. -/
def exAccent : V6 := ⟨[0xfe, 0x80, 0, 0, 0, 0, 0, 0, 0, 0, 0, 0, 0, 0, 0, 1], ⟨[Char.ofNat 0xc3, Char.ofNat 0xa9] ++ List.replicate 14 '\x00', 2⟩⟩

theorem exAccent_good : exAccent.Good false 16 := by
  unfold V6.Good ZoneOk V6.WF FStr.WF
  decide +kernel

example := C48_wide wide32 wide32_ok false 16 exAccent exAccent_good [] (Char.ofNat 0xc3) [Char.ofNat 0xa9] (by decide +kernel) (by simp [ScopeShown])
  (wide32_garbles _ (by decide) (by decide)) ⟨1, true, false, false, []⟩ .full rfl

example := C48_wide_net wide16 wide16_ok exCfg rfl ⟨exAccent, ⟨List.replicate 16 255, emptyScope 16⟩, 128⟩ exAccent_good [] (Char.ofNat 0xc3)
  [Char.ofNat 0xa9] (by decide +kernel) (by simp [ScopeShown]) (wide16_garbles _ (by decide) (by decide)) ⟨1, true, false, false, []⟩ .full rfl

/-- The list up to its first element without `p`. -/
theorem first_without (p : Char → Prop) [DecidablePred p] : ∀ l : List Char, (∀ c ∈ l, p c) ∨ ∃ z x z2, l = z ++ x :: z2 ∧ (∀ c ∈ z, p c) ∧ ¬ p x
  | [] => .inl (by simp)
  | c :: l => by
    by_cases h : p c
    · rcases first_without p l with hl | ⟨z, x, z2, e, h1, h2⟩
      · exact .inl (by simpa [h] using hl)
      · exact .inr ⟨c :: z, x, z2, by rw [e]; rfl, by simpa [h] using h1, h2⟩
    · exact .inr ⟨[], c, l, rfl, by simp, h⟩

/-- C48: with streams of 16 and of 32 bit characters, the output of an IPv6 address is read back exactly if its scope id has only
characters of ASCII and no white space; the address read is then the one written.  Else see `C48_wide` and `C48_spaces`.  (`hb`: the
scope id consists of bytes.) -/
theorem C48_wide_exact {U : Type} (W : Wide U) (hW : W.Ok) (hl : ∀ x : Char, 128 ≤ x.toNat → x.toNat < 256 → W.Garbles x)
    (spaces : Bool) (M : Nat) (a : V6) (ha : a.Good spaces M) (hb : ∀ c ∈ a.scope.contents, c.toNat < 256) (s : OStr U) (fmt : Format)
    (hs : formatOfWord s.word = .ok fmt) :
    ∃ t, osV6 W M a s = .ok { s with word := 0, out := s.out ++ t } ∧
      (ReadsBack W (isRead W (v6FromEvents spaces M)) t (fun b => b.WF M ∧ b.bytes = a.bytes ∧ b.scope.contents = a.scope.contents) ↔
        ∀ c ∈ a.scope.contents, c.toNat < 128 ∧ isSpaceC c = false) := by
  have hsp : spaces = false → ∀ c ∈ a.scope.contents, isSpaceC c = false := by
    rintro rfl c hc
    exact (scopeShown_char M _ ha.2.1 c hc).2
  rcases first_without (fun c => c.toNat < 128 ∧ isSpaceC c = false) a.scope.contents with h | ⟨z, x, z2, e, h1, h2⟩
  · obtain ⟨u, -, u2, u3⟩ := C48_v6 W hW spaces M a ha (fun c hc => ⟨hW.ascii c (h c hc).1, (h c hc).2⟩) s fmt hs
    exact ⟨_, u2, fun _ => h, fun _ => u3⟩
  · have hx : x ∈ a.scope.contents := by rw [e]; simp
    have hshown : ScopeShown W z := fun c hc => ⟨hW.ascii c (h1 c hc).1, (h1 c hc).2⟩
    have hno : ¬ ∀ c ∈ a.scope.contents, c.toNat < 128 ∧ isSpaceC c = false := fun h => h2 (h x hx)
    by_cases hx8 : x.toNat < 128
    · have hxs : isSpaceC x = true := by
        cases hi : isSpaceC x with
        | true => rfl
        | false => exact absurd ⟨hx8, hi⟩ h2
      cases spaces with
      | false => rw [hsp rfl x hx] at hxs; cases hxs
      | true =>
        obtain ⟨u, -, u2, u3, -⟩ := C48_spaces W hW M a ha z x z2 e (fun c hc => by
          rcases List.mem_append.1 hc with hc | hc
          · exact (hshown c hc).1
          · rw [List.mem_singleton.1 hc]; exact hW.ascii x hx8) (fun c hc => (h1 c hc).2) hxs s fmt hs
        refine ⟨_, u2, fun hr => ?_, fun h => absurd h hno⟩
        exfalso
        obtain ⟨b, i1, r1, -, r3, -⟩ := hr ⟨0, false, false, (shown s.upper u).map W.conv, false, false⟩ [] [] rfl rfl (by simp) (by simp) (.inl rfl)
        obtain ⟨i2, q1, -, q3, q4⟩ := u3 ⟨0, false, false, (shown s.upper u).map W.conv, false, false⟩ [] [] rfl rfl (by simp) (by simp)
        have hi : i1 = i2 := by
          by_cases hz : z = []
          · have := (q3 hz).1
            rw [r1] at this
            cases this
          · obtain ⟨b', h', -⟩ := q4 hz
            rw [r1] at h'
            cases h'
            rfl
        rw [← hi, r3] at q1
        simp at q1
    · obtain ⟨u, -, u2, u3, -⟩ := C48_wide W hW spaces M a ha z x z2 e hshown (hl x (by omega) (hb x hx)) s fmt hs
      refine ⟨_, u2, fun hr => ?_, fun h => absurd h hno⟩
      exfalso
      obtain ⟨b, i1, r1, -⟩ := hr ⟨0, false, false, (shown s.upper u).map W.conv, false, false⟩ [] [] rfl rfl (by simp) (by simp) (.inl rfl)
      obtain ⟨w, r', i2, -, q2, -⟩ := u3 ⟨0, false, false, (shown s.upper u).map W.conv, false, false⟩ [] [] rfl rfl (by simp) (by simp)
      rw [r1] at q2
      cases q2

example := C48_wide_exact wide32 wide32_ok wide32_garbles false 16 exAccent exAccent_good (by decide +kernel) ⟨0, true, false, false, []⟩ .compressed rfl
example := C48_wide_exact wide16 wide16_ok wide16_garbles true 16 exSpaced exSpaced_good (by decide +kernel) ⟨2, false, false, false, []⟩ .compact rfl

end Ip
