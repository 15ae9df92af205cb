import Verif.Props.DiagNet
import Verif.Model.AnyNet
/-
Property C77: what `ip_address::parse` and `ip_network::parse` report for a text of neither version.
-/
set_option autoImplicit false

namespace Ip
open Spec

/-- C77, addresses: a text is rejected exactly when it is wrong as an address of both versions, and what is
reported is what is wrong with it as an IPv6 address. -/
theorem C77_address (spaces : Bool) (M : Nat) (s : List Char) (hs : s ≠ []) (code : ErrorCode) (v : Nat) :
    anyParse spaces M s = .err code v ↔
      (∃ code' v', V4Fault s code' v' ∨ V4EndFault s code' v') ∧ V6Fault spaces M s code v := by
  unfold anyParse anyFromEvents
  cases h : v4FromEvents (readChars s) with
  | ub => exact absurd h (v4FromEvents_ne_ub _)
  | ok b =>
    constructor
    · intro h'; cases h'
    · rintro ⟨⟨e, u, h'⟩, _⟩
      rw [(C74_v4 s hs e u).2 h'] at h
      cases h
  | err e u =>
    rw [← C75_v6 spaces M s hs code v]
    have h4 := (C74_v4 s hs e u).1 h
    cases h6 : v6FromEvents spaces M (readChars s) with
    | ub => exact ⟨fun h' => (by cases h'), fun h' => (by cases h'.2)⟩
    | ok a => exact ⟨fun h' => (by cases h'), fun h' => (by cases h'.2)⟩
    | err e' u' => exact ⟨fun h' => (by cases h'; exact ⟨⟨e, u, h4⟩, rfl⟩), fun h' => (by cases h'.2; rfl)⟩

example := (C77_address false 16 "1.2.3.256".toList (by decide) .octet_exceeded_255 0).2
  ⟨⟨.octet_exceeded_255, 3, .inr (.large [1, 2, 3] 256 rfl (by decide) (by decide) (by decide))⟩,
    (C75_v6 _ _ _ (by decide) _ _).1 (by decide +kernel)⟩

/-- C77, the exception of `ip_address::parse`. -/
theorem C77_address_exception (c : Cfg) (s : List Char) (hs : s ≠ []) (hz : ∀ x ∈ s, x ≠ '\x00') (code' : ErrorCode) (v' : Nat)
    (h4 : V4Fault s code' v' ∨ V4EndFault s code' v') (code : ErrorCode) (v : Nat) (h6 : V6Fault c.spaces c.M s code v) :
    anyParseThrow c encChar s = .thrown (exnOf code v (shown s)) := by
  unfold anyParseThrow
  rw [show encChar.events s = readChars s from rfl, (C74_v4 s hs code' v').2 h4]
  simp only [C75_v6_exception c s hs hz code v h6]

example := C77_address_exception exCfg "1.2.3.256".toList (by decide) (by decide) .octet_exceeded_255 3
  (.inr (.large [1, 2, 3] 256 rfl (by decide) (by decide) (by decide))) .octet_exceeded_255 0 ((C75_v6 _ _ _ (by decide) _ _).1 (by decide +kernel))

/-- C77, networks. -/
theorem C77_network (c : Cfg) (hc : c.le = true) (s : List Char) (strict : Bool) (code : ErrorCode) (v : Nat) :
    anyNetFromEvents c (readChars s) strict = .err code v ↔
      (∃ code' v', NetFault4 strict s code' v') ∧ NetFault6 c.spaces c.M strict s code v := by
  unfold anyNetFromEvents
  rw [hc, ← C76_v6 c hc s strict code v]
  cases h : (fam4 true).parseNet (readChars s) strict with
  | ub =>
    constructor
    · intro h'; cases h'
    · rintro ⟨⟨e, u, h'⟩, _⟩
      rw [(C76_v4 s strict e u).2 h'] at h
      cases h
  | ok b =>
    constructor
    · intro h'; cases h'
    · rintro ⟨⟨e, u, h'⟩, _⟩
      rw [(C76_v4 s strict e u).2 h'] at h
      cases h
  | err e u =>
    have h4 := (C76_v4 s strict e u).1 h
    cases h6 : (fam6 c).parseNet (readChars s) strict with
    | ub => exact ⟨fun h' => (by cases h'), fun h' => (by cases h'.2)⟩
    | ok a => exact ⟨fun h' => (by cases h'), fun h' => (by cases h'.2)⟩
    | err e' u' => exact ⟨fun h' => (by cases h'; exact ⟨⟨e, u, h4⟩, rfl⟩), fun h' => (by cases h'.2; rfl)⟩

example := (C77_network exCfg rfl "1.2.3.4/24".toList true .least_3_parts 0).2
  ⟨⟨_, _, exHost⟩, (C76_v6 _ rfl _ _ _ _).1 (by decide +kernel)⟩

/-- C77, the exception of `ip_network::parse`. -/
theorem C77_network_exception (c : Cfg) (hc : c.le = true) (s : List Char) (hz : ∀ x ∈ s, x ≠ '\x00') (strict : Bool)
    (code' : ErrorCode) (v' : Nat) (h4 : NetFault4 strict s code' v') (code : ErrorCode) (v : Nat)
    (h6 : NetFault6 c.spaces c.M strict s code v) :
    anyNetParseThrow c encChar s strict = .thrown (exnOf code v (shown s)) := by
  unfold anyNetParseThrow
  rw [show encChar.events s = readChars s from rfl, hc, (C76_v4 s strict code' v').2 h4]
  simp only [(C76_exception c hc s hz strict code v).2 h6]

example := C77_network_exception exCfg rfl "1.2.3.4/24".toList (by decide) true _ _ exHost .least_3_parts 0 ((C76_v6 _ rfl _ _ _ _).1 (by decide +kernel))

/-- C77 (partial): a text that can only be meant as an IPv4 address, as it has a dot but no colon.  What is
reported is what is wrong with it as an IPv4 address.  Missing: the number of the octet is not that octet but 0. -/
theorem C77_dotted_partial (spaces : Bool) (M : Nat) (s : List Char) (hd : '.' ∈ s) (hc : ':' ∉ s) (hp : '%' ∉ s)
    (hz : '\x00' ∉ s) (hl : s.length ≤ 16) (code : ErrorCode) (v : Nat) :
    anyParse spaces M s = .err code v ↔ v = 0 ∧ ∃ w, V4Fault s code w ∨ V4EndFault s code w := by
  have hs : s ≠ [] := by rintro rfl; simp at hd
  have hu : upToNul s = s := by
    rw [upToNul_eq]
    exact cstr_eq_self s fun c h e => hz (e ▸ h)
  have hf : ∀ code w, V4Fault s code w ∨ V4EndFault s code w → V6Fault spaces M s code 0 := by
    intro code w h
    refine .address s [s] code 0 hp ⟨by simp, by simpa using hc, rfl⟩ (.split _ _ ?_)
    exact SplitFault.quad [] s code w (by decide) (by decide) hl hd (by rw [hu]; exact hs) (by rw [hu]; exact h)
  rw [C77_address spaces M s hs]
  constructor
  · rintro ⟨⟨e, w, h⟩, h6⟩
    obtain ⟨rfl, rfl⟩ := C75_v6_one spaces M s hs _ _ _ _ h6 (hf e w h)
    exact ⟨rfl, w, h⟩
  · rintro ⟨rfl, w, h⟩
    exact ⟨⟨code, w, h⟩, hf code w h⟩

example := (C77_dotted_partial false 16 "1.2.3.256".toList (by decide) (by decide) (by decide) (by decide) (by decide)
  .octet_exceeded_255 0).2 ⟨rfl, 3, .inr (.large [1, 2, 3] 256 rfl (by decide) (by decide) (by decide))⟩

/-- C77 refuted, for all IPv4 networks: the text of an IPv4 address with a prefix length that `ipv4_network` rejects,
because of host bits or because it is above 32, is reported as an IPv6 address of too few parts. -/
theorem C77_network_violated (c : Cfg) (hc : c.le = true) (x y z w : BitVec 8) (m : List Char) (n : Nat) (hm : DecText m n)
    (hn : n % 2 ^ 64 ≤ 128) (strict : Bool)
    (h : 32 < n % 2 ^ 64 ∨ (strict = true ∧ ∃ i, i < 32 - n % 2 ^ 64 ∧ (beValue [x, y, z, w]).testBit i = true)) :
    anyNetFromEvents c (readChars (dotted x y z w ++ '/' :: m)) strict = .err .least_3_parts 0 := by
  obtain ⟨p1, p2⟩ := parts_of_slash (dotted x y z w) m (dotted_noslash x y z w)
  have hl := (dotted_length x y z w).1
  have hr : ∀ k, 15 ≤ k → maskRead k (dotted x y z w ++ '/' :: m) = some m ∧
      addrRead k (dotted x y z w ++ '/' :: m) = dotted x y z w := by
    intro k hk
    rw [maskRead, addrRead, p1, p2, if_pos (by omega), cutNul_eq, List.take_of_length_le (by omega), cstr_dotted]
    exact ⟨rfl, rfl⟩
  obtain ⟨r1, r2⟩ := hr 15 (by decide)
  obtain ⟨q1, q2⟩ := hr (41 + c.M) (by omega)
  rw [C77_network c hc]
  constructor
  · rcases h with h | ⟨rfl, h⟩
    · exact ⟨_, _, .mask m _ _ r1 hm.1 (decText_noslash m n hm) (.large m n hm h)⟩
    · refine ⟨_, _, .host (n % 2 ^ 64) 0 ?_ ?_ rfl⟩
      · rw [r1]
        refine .number m n hm ?_
        obtain ⟨i, hi, _⟩ := h
        omega
      · rw [r2]
        exact ⟨x, y, z, w, rfl, h⟩
  · refine .address (n % 2 ^ 64) 0 _ ?_ ?_
    · rw [q1]
      exact .number m n hm hn
    · rw [q2]
      have hd := dotted_noColon x y z w
      refine .inr ⟨dotted_ne_nil x y z w, 2, .address _ [dotted x y z w] _ _ (fun h => (hd _ h).2.2 rfl)
        ⟨by simp, by simpa using fun h => (hd _ h).1 rfl, rfl⟩ ?_⟩
      exact .few _ (.quad [] (dotted x y z w) x y z w (by decide) (by decide) (by omega) (dot_mem_dotted x y z w)
        (by rw [upToNul_eq, cstr_dotted])) (Nat.lt_succ_self 2)

example := C77_network_violated exCfg rfl 1 2 3 4 ['2', '4'] 24
  ⟨by simp, [2, 4], by simp [DigitText, digitChars], by decide⟩ (by decide) true (.inr ⟨rfl, 2, by decide, by decide⟩)

/-- C77 refuted: the octet named is not the wrong one, and the host bits are not mentioned. -/
theorem C77_violated :
    anyParseThrow exCfg encChar "1.2.3.256".toList =
      .thrown ⟨.parse, .octet_exceeded_255, "octet 0 of address 1.2.3.256 exceeded 255".toList⟩ ∧
    anyNetParseThrow exCfg encChar "1.2.3.4/24".toList true =
      .thrown ⟨.parse, .least_3_parts, "least 3 parts in address 1.2.3.4/24".toList⟩ ∧
    anyNetParseThrow exCfg encChar "1.2.3.4/255.255.255.0".toList true =
      .thrown ⟨.parse, .invalid_netmask, "is not a valid netmask in address 1.2.3.4/255.255.255.0".toList⟩ := by
  decide +kernel

end Ip
