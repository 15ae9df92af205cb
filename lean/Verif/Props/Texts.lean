import Verif.Model.Texts
import Verif.Props.Stream
import Verif.Props.Unicode
import Verif.Props.AnyAddr
/-
Texts in other character types: C59.  Networks on little endian hosts.
-/
set_option autoImplicit false

namespace Ip
open Spec

theorem wide8_keeps (c : Char) (h : c.toNat < 128) : wide8.Keeps c := by
  have hn : (BitVec.ofNat 8 c.toNat).toNat = c.toNat := by rw [BitVec.toNat_ofNat]; omega
  refine ⟨fun r => ?_, ?_⟩
  · show utf8Next (signExt 8 c) r = _
    rw [signExt_ascii 8 c h]
    have k1 : ∀ n : Fin 128, utf8CodePoint (BitVec.ofNat 8 n) = ((BitVec.ofNat 8 n).setWidth 32, 1) := by decide +kernel
    have k1 := k1 ⟨c.toNat, h⟩
    have hm : ((BitVec.ofNat 8 c.toNat).setWidth 32).toNat = c.toNat := by
      rw [BitVec.toNat_setWidth, hn]; omega
    unfold utf8Next
    simp only at k1 ⊢
    rw [k1]
    simp only [Nat.sub_self, utf8Trail]
    rw [hm, if_neg (by omega), if_neg (by simp), if_neg (by omega), Char.ofNat_toNat]
  · show (decide (signExt 8 c = 32) || (decide (9 ≤ (signExt 8 c).toNat) && decide ((signExt 8 c).toNat ≤ 13))) = _
    rw [signExt_ascii 8 c h, hn, space_ascii]
    congr 1
    rw [decide_eq_decide]
    constructor
    · intro e
      have := congrArg BitVec.toNat e
      rw [hn] at this
      exact this
    · intro e
      rw [e]; rfl

theorem wide8_ok : wide8.Ok := ⟨encUtf8_law, wide8_keeps⟩

/-- Every character of the scope id is represented faithfully in `T`. -/
def ScopeKept {U : Type} (W : Wide U) (z : List Char) : Prop := ∀ c ∈ z, W.Keeps c

/-- Scope ids in ASCII are kept by every character type, and all scope ids by `char`. -/
theorem scopeKept_ascii {U : Type} {W : Wide U} (hW : W.Ok) (z : List Char) (h : ∀ c ∈ z, c.toNat < 128) : ScopeKept W z :=
  fun c hc => hW.ascii c (h c hc)

theorem scopeKept_char (z : List Char) : ScopeKept wideChar z := fun c _ => wideChar_keeps c

theorem textAs_eq {U F : Type} (W : Wide U) (toStr : F → Res (List Char)) (fmt : F) (u : List Char) (h : toStr fmt = .ok u) :
    textAs W toStr fmt = .ok (u.map W.conv) := by
  unfold textAs
  rw [h]; rfl

/-- C59, IPv4 addresses: the text has the code units of the dotted decimal text, and parsing it in its own character
type yields the address. -/
theorem C59_v4 {U : Type} (W : Wide U) (hW : W.Ok) (a b c d : BitVec 8) (fmt : Format) :
    textAs W (fun _ => v4ToString [a, b, c, d]) fmt = .ok ((dotted a b c d).map W.conv) ∧
    v4FromEvents (W.enc.events ((dotted a b c d).map W.conv)) = .ok [a, b, c, d] := by
  obtain ⟨-, -, -, h4⟩ := dotted_ok a b c d
  refine ⟨textAs_eq W _ fmt _ (v4ToString_eq a b c d), ?_⟩
  rw [events_map W hW.law _ (fun x hx => hW.ascii x (h4 x hx).1)]
  exact v4FromEvents_dotted a b c d

example := C59_v4 wide8 wide8_ok 10 0 0 1 .full

theorem v6_kept {U : Type} {W : Wide U} (hW : W.Ok) (M : Nat) (a : V6) (ha : a.WF M) (hz : ScopeKept W a.scope.contents) (fmt : Format) :
    ∃ t, v6ToString M a fmt = .ok (t ++ zoneText a.scope.contents) ∧ V6Text t (groupsOf a.bytes) ∧ '.' ∉ t ∧ '/' ∉ t ∧
      t.length ≤ 39 ∧ ∀ c ∈ t ++ zoneText a.scope.contents, W.Keeps c := by
  obtain ⟨g1, g2, g3⟩ := groupBytes_groupsOf 8 a.bytes ha.1
  obtain ⟨t, h1, h2, h3⟩ := v6ToString_eq M a ha fmt
  obtain ⟨h4, h5⟩ := h1.text g2 g3
  refine ⟨t, h3, h4, h5, h1.noslash g2 g3, h2, ?_⟩
  intro c hc
  rcases List.mem_append.1 hc with hc | hc
  · exact hW.ascii c (addrChars_facts c ((V6Text_upper h4).1 c hc)).1
  · unfold zoneText at hc
    split at hc
    · cases hc
    · rcases List.mem_cons.1 hc with rfl | hc
      · exact hW.ascii _ (by decide)
      · exact hz c hc

/-- C59, IPv6 addresses: the text in any character type is the text in `char` converted character by character, and
parsing it in its own character type yields the same address and scope id. -/
theorem C59_v6 {U : Type} (W : Wide U) (hW : W.Ok) (spaces : Bool) (M : Nat) (a : V6) (ha : a.Good spaces M)
    (hz : ScopeKept W a.scope.contents) (fmt : Format) :
    ∃ u b, v6ToString M a fmt = .ok u ∧ textAs W (v6ToString M a) fmt = .ok (u.map W.conv) ∧
      v6FromEvents spaces M (W.enc.events (u.map W.conv)) = .ok b ∧ b.WF M ∧ b.bytes = a.bytes ∧
      b.scope.contents = a.scope.contents := by
  obtain ⟨t, h1, h2, h3, h4, h5, h6⟩ := v6_kept hW M a ha.1 hz fmt
  obtain ⟨g1, g2, g3⟩ := groupBytes_groupsOf 8 a.bytes ha.1.1
  obtain ⟨b, b1, b2, b3, b4⟩ := v6Parse_of_accepts spaces M _ t a.scope.contents (groupsOf a.bytes)
    ⟨rfl, h2, fun h => absurd h h3, ha.2.1⟩ ha.2.2
  refine ⟨_, b, h1, textAs_eq W _ fmt _ h1, ?_, b2, by rw [b3, g1], b4⟩
  rw [events_map W hW.law _ h6]
  exact b1

example : exScoped.Good false 16 ∧ ScopeKept wide16 exScoped.scope.contents ∧
    textAs wide16 (v6ToString 16 exScoped) .compressed = .ok [0x66, 0x65, 0x38, 0x30, 0x3a, 0x3a, 0x31, 0x25, 0x61] := by
  refine ⟨⟨exScoped_ok, ?_⟩, scopeKept_ascii wide16_ok _ (by decide +kernel), by decide +kernel⟩
  unfold ZoneOk
  decide +kernel

/-- C59, addresses of either version. -/
theorem C59_any {U : Type} (W : Wide U) (hW : W.Ok) (spaces : Bool) (M : Nat) (fmt : Format) :
    (∀ a b c d : BitVec 8, ∃ t, textAs W (fun f => anyToString M f (.v4 [a, b, c, d])) fmt = .ok t ∧
      anyFromEvents spaces M (W.enc.events t) = .ok (.v4 [a, b, c, d])) ∧
    (∀ a : V6, a.Good spaces M → ScopeKept W a.scope.contents →
      ∃ t b, textAs W (fun f => anyToString M f (.v6 a)) fmt = .ok t ∧
        anyFromEvents spaces M (W.enc.events t) = .ok (.v6 b) ∧ b.WF M ∧ b.bytes = a.bytes ∧
        b.scope.contents = a.scope.contents) := by
  constructor
  · intro a b c d
    obtain ⟨h1, h2⟩ := C59_v4 W hW a b c d fmt
    exact ⟨_, h1, ((C20_any_parse spaces M _).1 _).2 h2⟩
  · intro a ha hz
    obtain ⟨u, b, h1, h2, h3, h4⟩ := C59_v6 W hW spaces M a ha hz fmt
    exact ⟨_, b, h2, ((C20_any_parse spaces M _).2.1 _).2 h3, h4⟩

example := C59_any wide8 wide8_ok false 16 .full

/-- C59, IPv4 networks. -/
theorem C59_net4 {U : Type} (W : Wide U) (hW : W.Ok) (n : Net (List (BitVec 8))) (hn : NetOk4 n) (fmt : Format) (strict : Bool) :
    ∃ t, textAs W (fun f => (fam4 true).netToString f n) fmt = .ok t ∧
      (fam4 true).parseNet (W.enc.events t) strict = .ok n := by
  have hl : n.addr.length = 4 := hn.wf
  obtain ⟨a, b, c, d, e⟩ : ∃ a b c d, n.addr = [a, b, c, d] := by
    match n.addr, hl with
    | [a, b, c, d], _ => exact ⟨a, b, c, d, rfl⟩
  obtain ⟨t, g1, g2⟩ := C25_round_trip_v4 n hn fmt strict
  have ht : (fam4 true).netToString fmt n = .ok (dotted a b c d ++ '/' :: Nat.toDigits 10 n.plen) := by
    show (v4ToString n.addr >>= _) = _
    rw [e, v4ToString_eq]
    rfl
  have htt : t = dotted a b c d ++ '/' :: Nat.toDigits 10 n.plen := by
    rw [ht] at g1
    cases g1
    rfl
  refine ⟨_, textAs_eq W _ fmt t g1, ?_⟩
  rw [events_map W hW.law, g2]
  intro x hx
  rw [htt] at hx
  obtain ⟨-, -, -, h4⟩ := dotted_ok a b c d
  rcases List.mem_append.1 hx with hx | hx
  · exact hW.ascii x (h4 x hx).1
  · exact hW.ascii x (toDigits_chars n.plen x hx).1

example : NetOk4 ex16 ∧ textAs wide8 (fun f => (fam4 true).netToString f ex16) .full = .ok ("192.168.0.0/16".toList.map (signExt 8)) :=
  ⟨ex16_ok, by decide +kernel⟩

/-- C59, IPv6 networks. -/
theorem C59_net6 {U : Type} (W : Wide U) (hW : W.Ok) (c : Cfg) (hc : c.le = true) (hv : ∀ x y, c.val x = c.val y → x = y)
    (n : Net V6) (hn : NetOk6 c n) (hg : n.addr.Good c.spaces c.M) (hz : ScopeKept W n.addr.scope.contents)
    (fmt : Format) (strict : Bool) :
    ∃ t m, textAs W (fun f => (fam6 c).netToString f n) fmt = .ok t ∧
      (fam6 c).parseNet (W.enc.events t) strict = .ok m ∧ NetOk6 c m ∧ m.plen = n.plen ∧ m.addr.bytes = n.addr.bytes ∧
      m.addr.scope.contents = n.addr.scope.contents ∧ (fam6 c).netEq n m = .ok true := by
  obtain ⟨t, h1, h2, h3, h4, h5, h6⟩ := v6_kept hW c.M n.addr hg.1 hz fmt
  obtain ⟨m, g1, g2, g3, g4, g5, _, g7⟩ := parseNet_v6_text c hc hv n hn hg t h2 h3 h4 h5 strict
  have ht : (fam6 c).netToString fmt n = .ok (t ++ zoneText n.addr.scope.contents ++ '/' :: Nat.toDigits 10 n.plen) := by
    show (v6ToString c.M n.addr fmt >>= _) = _
    rw [h1]
    rfl
  refine ⟨_, m, textAs_eq W _ fmt _ ht, ?_, g2, g3, g4, g5, g7⟩
  rw [events_map W hW.law, g1]
  intro x hx
  rcases List.mem_append.1 hx with hx | hx
  · exact h6 x hx
  · exact hW.ascii x (toDigits_chars n.plen x hx).1

example := C59_net6 wide8 wide8_ok exCfg rfl exCfg_val ex32 ex32_ok ex32_good (scopeKept_ascii wide8_ok _ (by decide)) .full true

/-- C59, networks of either version. -/
theorem C59_any_net {U : Type} (W : Wide U) (hW : W.Ok) (c : Cfg) (hc : c.le = true) (hv : ∀ x y, c.val x = c.val y → x = y)
    (n : AnyNet) (hn : NetOkAny c n) (hg : ∀ m, n = .v6 m → m.addr.Good c.spaces c.M ∧ ScopeKept W m.addr.scope.contents)
    (fmt : Format) (strict : Bool) :
    ∃ t n', textAs W (fun f => anyNetToString c f n) fmt = .ok t ∧ anyNetFromEvents c (W.enc.events t) strict = .ok n' ∧
      anyNetValue n' = anyNetValue n ∧ anyNetScope n' = anyNetScope n ∧ anyNetEq c n n' = .ok true := by
  obtain ⟨t, n', h1, h2, h3⟩ := C49_round_trip c hc hv n hn (fun m hm => (hg m hm).1) fmt strict
  cases n with
  | v4 n =>
    obtain ⟨u, k1, k2⟩ := C59_net4 W hW n hn fmt strict
    have e : n' = .v4 n := by
      obtain ⟨t', g1, g2⟩ := C25_round_trip_v4 n hn fmt strict
      have : t' = t := by
        unfold anyNetToString at h1
        rw [hc] at h1
        simp only at h1
        rw [h1] at g1
        cases g1; rfl
      rw [this] at g2
      rw [((C49_parse c hc _ _).1 n).2 g2] at h2
      cases h2; rfl
    refine ⟨u, n', ?_, ?_, h3⟩
    · simp only [anyNetToString, hc]
      exact k1
    · rw [e]
      exact ((C49_parse c hc _ _).1 n).2 k2
  | v6 n =>
    obtain ⟨hg1, hz⟩ := hg n rfl
    obtain ⟨t0, f1, f2, f3, f4, f5, f6⟩ := v6_kept hW c.M n.addr hg1.1 hz fmt
    have ht : anyNetToString c fmt (.v6 n) = .ok (t0 ++ zoneText n.addr.scope.contents ++ '/' :: Nat.toDigits 10 n.plen) := by
      show (v6ToString c.M n.addr fmt >>= _) = _
      rw [f1]
      rfl
    rw [ht] at h1
    refine ⟨_, n', textAs_eq W _ fmt _ ht, ?_, h3⟩
    rw [events_map W hW.law]
    · cases h1
      exact h2
    · intro x hx
      rcases List.mem_append.1 hx with hx | hx
      · exact f6 x hx
      · exact hW.ascii x (toDigits_chars n.plen x hx).1

example := C59_any_net wide8 wide8_ok exCfg rfl exCfg_val (.v6 ex32) ex32_ok
  (fun _ h => by cases h; exact ⟨ex32_good, scopeKept_ascii wide8_ok _ (by decide)⟩) .full true

/-- C59, `uint128_t`: its text in every base and character type is read back. -/
theorem C59_uint {U : Type} (W : Wide U) (hW : W.Ok) (x : U128) (base : U128.Base) :
    ∃ t, textAs W x.toText base = .ok t ∧ U128.fromText base (W.enc.events t) = some x := by
  obtain ⟨cs, h1, h2⟩ := C44_round_trip x base
  obtain ⟨cs', ds, k1, k2, _⟩ := C44_to_string x base
  have : cs' = cs := by
    rw [h1] at k1
    cases k1; rfl
  refine ⟨_, textAs_eq W _ base cs h1, ?_⟩
  rw [events_map W hW.law, h2]
  intro c hc
  exact hW.ascii c ((digitText_upper _ _ _ k2).2 c (this ▸ hc)).1

example := C59_uint wide8 wide8_ok ⟨7, 9⟩ .hexadecimal

/-! ### Scope ids that are not ASCII -/

theorem signExt_high (n : Nat) (hn : 8 ≤ n) (c : Char) (h1 : 128 ≤ c.toNat) (h2 : c.toNat < 256) :
    (signExt n c).toNat = 2 ^ n - 256 + c.toNat := by
  have hp : 2 ^ 8 ≤ 2 ^ n := Nat.pow_le_pow_right (by decide) hn
  unfold signExt
  rw [if_neg (by omega), BitVec.toNat_ofInt]
  have e : (((c.toNat : Int) - 256) % ((2 ^ n : Nat) : Int)) = ((2 ^ n - 256 + c.toNat : Nat) : Int) := by
    rw [← Int.add_emod_right]
    rw [Int.emod_eq_of_lt (by omega) (by omega)]
    omega
  rw [e]
  exact Int.toNat_natCast _

/-- `T` does not represent the `char`: the reader of the library reports an error. -/
def Wide.Loses {U : Type} (W : Wide U) (c : Char) : Prop := ∀ r, ∃ code sym r', W.enc.next (W.conv c) r = (.bad code sym, r')

theorem wide32_loses (c : Char) (h1 : 128 ≤ c.toNat) (h2 : c.toNat < 256) : wide32.Loses c := by
  intro r
  have h := signExt_high 32 (by decide) c h1 h2
  refine ⟨.unexpected_symbol, (signExt 32 c).toNat, r, ?_⟩
  show (if (signExt 32 c).toNat > 127 then _ else _, r) = _
  rw [if_pos (by omega)]
  rfl

theorem wide16_loses (c : Char) (h1 : 128 ≤ c.toNat) (h2 : c.toNat < 256) : wide16.Loses c := by
  intro r
  have h := signExt_high 16 (by decide) c h1 h2
  have hs : signExt 16 c = BitVec.ofNat 16 (65280 + c.toNat) := by
    apply BitVec.eq_of_toNat_eq
    rw [h, BitVec.toNat_ofNat]
    omega
  have key : ∀ n : Fin 128, (utf16CodePoint (BitVec.ofNat 16 (65280 + (128 + n)))).2 = 1 := by decide +kernel
  have k1 := key ⟨c.toNat - 128, by omega⟩
  simp only [Nat.add_sub_cancel' h1] at k1
  have hm : ((signExt 16 c).setWidth 32).toNat = (signExt 16 c).toNat := by
    rw [BitVec.toNat_setWidth, h]; omega
  refine ⟨.unexpected_symbol, (signExt 16 c).toNat, r, ?_⟩
  show utf16Next (signExt 16 c) r = _
  unfold utf16Next
  simp only
  rw [hs, if_pos k1, ← hs, hm, if_pos (by omega)]

theorem events_lost {U : Type} (W : Wide U) (L : W.enc.Law) (t : List Char)
    (h : ∀ c ∈ t, W.Keeps c ∨ W.Loses c) (hl : ∃ c ∈ t, W.Loses c) :
    ∃ pre code sym, W.enc.events (t.map W.conv) = readChars pre ++ [.bad code sym] := by
  induction t with
  | nil => obtain ⟨c, hc, _⟩ := hl; cases hc
  | cons c t ih =>
    by_cases hcl : W.Loses c
    · obtain ⟨code, sym, r', e⟩ := hcl (t.map W.conv)
      exact ⟨[], code, sym, by rw [List.map_cons, L.cons_bad _ _ _ _ _ e]; rfl⟩
    · have hk := (h c (by simp)).resolve_right hcl
      obtain ⟨x, hx, hxl⟩ := hl
      have hx : x ∈ t := by
        rcases List.mem_cons.1 hx with rfl | hx
        · exact absurd hxl hcl
        · exact hx
      obtain ⟨pre, code, sym, e⟩ := ih (fun y hy => h y (by simp [hy])) ⟨x, hx, hxl⟩
      exact ⟨c :: pre, code, sym, by rw [List.map_cons, L.cons_ch _ _ _ _ (hk.1 _), e]; rfl⟩

/-- C59, limit: in UTF-16 and UTF-32 the text of an address with a scope id that is not ASCII is never read back; it is
rejected as an error. -/
theorem C59_scope_lost {U : Type} (W : Wide U) (hW : W.Ok) (hl : ∀ c : Char, 128 ≤ c.toNat → c.toNat < 256 → W.Loses c)
    (spaces : Bool) (M : Nat) (a : V6) (ha : a.WF M) (hb : ∀ c ∈ a.scope.contents, c.toNat < 256)
    (hx : ∃ c ∈ a.scope.contents, 128 ≤ c.toNat) (fmt : Format) :
    ∃ t, textAs W (v6ToString M a) fmt = .ok t ∧ ∃ code v, v6FromEvents spaces M (W.enc.events t) = .err code v := by
  obtain ⟨g1, g2, g3⟩ := groupBytes_groupsOf 8 a.bytes ha.1
  obtain ⟨t, h1, h2, h3⟩ := v6ToString_eq M a ha fmt
  obtain ⟨h4, h5⟩ := h1.text g2 g3
  refine ⟨_, textAs_eq W _ fmt _ h3, ?_⟩
  have hbyte : ∀ c ∈ t ++ zoneText a.scope.contents, W.Keeps c ∨ W.Loses c := by
    intro c hc
    have hlt : c.toNat < 256 := by
      rcases List.mem_append.1 hc with hc | hc
      · have := (addrChars_facts c ((V6Text_upper h4).1 c hc)).1
        omega
      · unfold zoneText at hc
        split at hc
        · cases hc
        · rcases List.mem_cons.1 hc with rfl | hc
          · decide
          · exact hb c hc
    rcases Nat.lt_or_ge c.toNat 128 with h | h
    · exact .inl (hW.ascii c h)
    · exact .inr (hl c h hlt)
  obtain ⟨c, hc, hc1⟩ := hx
  have hmem : c ∈ t ++ zoneText a.scope.contents := by
    apply List.mem_append_right
    unfold zoneText
    split
    · rename_i hn
      rw [hn] at hc; cases hc
    · exact List.mem_cons_of_mem _ hc
  obtain ⟨pre, code, sym, e⟩ := events_lost W hW.law _ hbyte ⟨c, hmem, hl c hc1 (hb c hc)⟩
  rw [e]
  cases h : v6FromEvents spaces M (readChars pre ++ [.bad code sym]) with
  | ok b =>
    obtain ⟨s, hs, _⟩ := v6FromEvents_ok spaces M _ _ h
    exact absurd hs (readChars_bad _ _ _ _ _)
  | err code v => exact ⟨code, v, rfl⟩
  | ub => exact absurd h (v6FromEvents_safe spaces M _).1

/-- UTF-16 and UTF-32 meet the hypothesis on the character type. -/
example : (∀ c : Char, 128 ≤ c.toNat → c.toNat < 256 → wide16.Loses c) ∧
    (∀ c : Char, 128 ≤ c.toNat → c.toNat < 256 → wide32.Loses c) := ⟨wide16_loses, wide32_loses⟩

/-- The address `fe80::1%é` with the scope id in UTF-8 meets the others. -/
example : ∃ a : V6, a.WF 16 ∧ (∀ c ∈ a.scope.contents, c.toNat < 256) ∧ (∃ c ∈ a.scope.contents, 128 ≤ c.toNat) ∧
    v6Parse false 16 ("fe80::1%".toList ++ [Char.ofNat 0xc3, Char.ofNat 0xa9]) = .ok a := by
  refine ⟨⟨[0xfe, 0x80, 0, 0, 0, 0, 0, 0, 0, 0, 0, 0, 0, 0, 0, 1], ⟨[Char.ofNat 0xc3, Char.ofNat 0xa9] ++ List.replicate 14 '\x00', 2⟩⟩, ?_⟩
  unfold V6.WF FStr.WF
  decide +kernel

/-- C59, limit: in UTF-8 (`to_u8string`) the bytes of the scope id are read as UTF-8.  A scope id accepted from `char`
text can come back as a different scope id, because overlong sequences are decoded: the bytes `C1 81` are read as `A`. -/
theorem C59_utf8_scope_changes : ∃ (a b : V6) (t : List (BitVec 8)), a.Good false 16 ∧ b.WF 16 ∧
    v6Parse false 16 ("fe80::1%".toList ++ [Char.ofNat 0xc1, Char.ofNat 0x81]) = .ok a ∧
    textAs wide8 (v6ToString 16 a) .compressed = .ok t ∧
    v6FromEvents false 16 (utf8Events t) = .ok b ∧
    b.scope.contents = ['A'] ∧ a.scope.contents = [Char.ofNat 0xc1, Char.ofNat 0x81] := by
  refine ⟨⟨[0xfe, 0x80, 0, 0, 0, 0, 0, 0, 0, 0, 0, 0, 0, 0, 0, 1], ⟨[Char.ofNat 0xc1, Char.ofNat 0x81] ++ List.replicate 14 '\x00', 2⟩⟩,
    ⟨[0xfe, 0x80, 0, 0, 0, 0, 0, 0, 0, 0, 0, 0, 0, 0, 0, 1], ⟨['A'] ++ List.replicate 15 '\x00', 1⟩⟩,
    "fe80::1%".toList.map (signExt 8) ++ [0xc1, 0x81], ?_, ?_, ?_, ?_, ?_, ?_, ?_⟩
  · unfold V6.Good ZoneOk V6.WF FStr.WF
    decide +kernel
  · unfold V6.WF FStr.WF
    decide +kernel
  all_goals decide +kernel

end Ip
