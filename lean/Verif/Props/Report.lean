import Verif.Lemmas.Report
import Verif.Props.Throw
import Verif.Props.AnyNetIter
import Verif.Props.AnyAddr
/-
C60 (error codes of calls), C61 (programs without exceptions).
-/
set_option autoImplicit false

namespace Ip
open Spec

theorem default4 (le : Bool) : (fam4 le).defaultNet = .ok zeroNet4 := by cases le <;> decide

theorem default6 (c : Cfg) : (fam6 c).defaultNet = .ok (zeroNet6 c.M) := by
  have : v6FromPrefix 128 = .ok (List.replicate 16 255#8) := by decide
  show (v6FromPrefix 128 >>= _) >>= _ = _
  rw [this]
  rfl

theorem anyDefNet (c : Cfg) : anyNetDefault c = .ok (.v4 zeroNet4) := by
  unfold anyNetDefault
  rw [default4]
  rfl

/-! ### C60 -/

/-- C60: parsing a string of any character type. -/
theorem C60_parse {U : Type} (enc : Enc U) (L : enc.Law) (c : Cfg) (le strict : Bool) (s : List U) :
    Reports (v4ParseThrow enc s) [0, 0, 0, 0] (v4Code (enc.events s)) ∧
    Reports (v6ParseThrow c enc s) (zero6 c.M) (v6Code c (enc.events s)) ∧
    Reports (anyParseThrow c enc s) (.v4 [0, 0, 0, 0]) (anyAddrCode c (enc.events s)) ∧
    Reports ((fam4 le).parseNetThrow enc s strict) zeroNet4 ((fam4 le).parseNetCode strict (enc.events s)) ∧
    Reports ((fam6 c).parseNetThrow enc s strict) (zeroNet6 c.M) ((fam6 c).parseNetCode strict (enc.events s)) ∧
    Reports (anyNetParseThrow c enc s strict) (.v4 zeroNet4) (anyNetCode c strict (enc.events s)) := by
  obtain ⟨h1, h2, h3, h4, h5⟩ := C50_parse enc L c le strict s
  refine ⟨setCode_reports h1 rfl, setCode_reports h2 rfl, ?_, setCode_reports h4 (default4 le), setCode_reports h5 (default6 c), ?_⟩
  · have e : anyFromEvents c.spaces c.M (enc.events s) =
        twoParses .v4 .v6 (v4FromEvents (enc.events s)) (v6FromEvents c.spaces c.M (enc.events s)) := by
      unfold anyFromEvents twoParses; cases v4FromEvents (enc.events s) <;> rfl
    rw [e] at h3
    have := setCode_reports (d := .ok (.v4 (List.replicate 4 0#8))) h3 rfl
    intro code
    have g := anyCode_eq AnyAddr.v4 AnyAddr.v6 (d := .ok (.v4 (List.replicate 4 0#8))) (d4 := .ok (List.replicate 4 0#8))
      (d6 := .ok (fam6 c).zero) rfl rfl (v4FromEvents (enc.events s)) (v6FromEvents c.spaces c.M (enc.events s)) code
    have g' : anyAddrCode c (enc.events s) code = _ := g
    rw [g']
    exact this code
  · have h6 := (C50_any_network_parse enc L c strict s).1
    have e : anyNetFromEvents c (enc.events s) strict =
        twoParses .v4 .v6 ((fam4 c.le).parseNet (enc.events s) strict) ((fam6 c).parseNet (enc.events s) strict) := by
      unfold anyNetFromEvents twoParses; cases (fam4 c.le).parseNet (enc.events s) strict <;> rfl
    rw [e] at h6
    have := setCode_reports h6 (anyDefNet c)
    intro code
    have g := anyCode_eq AnyNet.v4 AnyNet.v6 (d := anyNetDefault c) (default4 c.le) (default6 c)
      ((fam4 c.le).parseNet (enc.events s) strict) ((fam6 c).parseNet (enc.events s) strict) code
    have g' : anyNetCode c strict (enc.events s) code = _ := g
    rw [g']
    exact this code

example := C60_parse encChar encChar_law exCfg true true "10.0.0.x".toList

/-- C60: parsing an array of any character type, also an empty one. -/
theorem C60_parse_array {U : Type} (enc : Enc U) (L : enc.Law) (c : Cfg) (le strict : Bool) (s : List U) :
    Reports (arrayParseThrow enc v4FromEvents s) [0, 0, 0, 0] (arrayCode enc (.ok (List.replicate 4 0#8)) v4Code s) ∧
    Reports (arrayParseThrow enc (v6FromEvents c.spaces c.M) s) (zero6 c.M) (arrayCode enc (.ok (fam6 c).zero) (v6Code c) s) ∧
    Reports (anyArrayParseThrow c enc s) (.v4 [0, 0, 0, 0]) (anyAddrArrayCode c enc s) ∧
    Reports (arrayParseThrow enc (fun evs => (fam4 le).parseNet evs strict) s) zeroNet4
      (arrayCode enc (fam4 le).defaultNet ((fam4 le).parseNetCode strict) s) ∧
    Reports (arrayParseThrow enc (fun evs => (fam6 c).parseNet evs strict) s) (zeroNet6 c.M)
      (arrayCode enc (fam6 c).defaultNet ((fam6 c).parseNetCode strict) s) ∧
    Reports (anyNetArrayParseThrow c enc s strict) (.v4 zeroNet4) (anyNetArrayCode c strict enc s) := by
  obtain ⟨h1, h2, h3, h4, h5⟩ := C50_parse_array enc L c le strict s
  have a4 : arrayCode enc (.ok (List.replicate 4 0#8)) v4Code s =
      fun _ => setCode (.ok (List.replicate 4 0#8)) (arrayParse enc v4FromEvents s) none :=
    funext fun code => arrayCode_eq enc rfl v4FromEvents s code
  have a6 : arrayCode enc (.ok (fam6 c).zero) (v6Code c) s =
      fun _ => setCode (.ok (fam6 c).zero) (arrayParse enc (v6FromEvents c.spaces c.M) s) none :=
    funext fun code => arrayCode_eq enc rfl (v6FromEvents c.spaces c.M) s code
  have n4 : ∀ le, arrayCode enc (fam4 le).defaultNet ((fam4 le).parseNetCode strict) s =
      fun _ => setCode (fam4 le).defaultNet (arrayParse enc (fun evs => (fam4 le).parseNet evs strict) s) none :=
    fun le => funext fun code => arrayCode_eq enc (default4 le) (fun evs => (fam4 le).parseNet evs strict) s code
  have n6 : arrayCode enc (fam6 c).defaultNet ((fam6 c).parseNetCode strict) s =
      fun _ => setCode (fam6 c).defaultNet (arrayParse enc (fun evs => (fam6 c).parseNet evs strict) s) none :=
    funext fun code => arrayCode_eq enc (default6 c) (fun evs => (fam6 c).parseNet evs strict) s code
  refine ⟨?_, ?_, ?_, ?_, ?_, ?_⟩
  · rw [a4]; exact setCode_reports h1 rfl
  · rw [a6]; exact setCode_reports h2 rfl
  · have e : anyArrayParse c enc s =
        twoParses .v4 .v6 (arrayParse enc v4FromEvents s) (arrayParse enc (v6FromEvents c.spaces c.M) s) := by
      unfold anyArrayParse twoParses; cases arrayParse enc v4FromEvents s <;> rfl
    rw [e] at h3
    have := setCode_reports (d := .ok (.v4 (List.replicate 4 0#8))) h3 rfl
    intro code
    unfold anyAddrArrayCode
    rw [a4, a6, anyCode_eq _ _ rfl rfl]
    exact this code
  · rw [n4]; exact setCode_reports h4 (default4 le)
  · rw [n6]; exact setCode_reports h5 (default6 c)
  · have h6 := (C50_any_network_parse enc L c strict s).2
    have e : anyNetArrayParse c enc s strict =
        twoParses .v4 .v6 (arrayParse enc (fun evs => (fam4 c.le).parseNet evs strict) s)
          (arrayParse enc (fun evs => (fam6 c).parseNet evs strict) s) := by
      unfold anyNetArrayParse twoParses; cases arrayParse enc (fun evs => (fam4 c.le).parseNet evs strict) s <;> rfl
    rw [e] at h6
    have := setCode_reports h6 (anyDefNet c)
    intro code
    unfold anyNetArrayCode
    rw [n4, n6, anyCode_eq _ _ (default4 c.le) (default6 c)]
    exact this code

example := C60_parse_array encChar encChar_law exCfg true true "10.0.0.x".toList

/-- C60: `from_address` and `supernet`.  On an error the result is the default network of the same
version. -/
theorem C60_operations (c : Cfg) (hc : c.le = true) :
    (∀ a p strict, a.length = 4 →
      Reports ((fam4 true).fromAddressThrow a p strict) zeroNet4 ((fam4 true).fromAddressCode a p strict)) ∧
    (∀ (a : V6) p strict, a.WF c.M →
      Reports ((fam6 c).fromAddressThrow a p strict) (zeroNet6 c.M) ((fam6 c).fromAddressCode a p strict)) ∧
    (∀ a p strict, AddrOkAny c a → Reports (anyFromAddressThrow c a p strict)
      (match a with | .v4 _ => .v4 zeroNet4 | .v6 _ => .v6 (zeroNet6 c.M)) (anyFromAddressCode c a p strict)) ∧
    (∀ n diff newp, NetOk4 n → Reports ((fam4 true).supernetThrow n diff newp) zeroNet4 ((fam4 true).supernetCode n diff newp)) ∧
    (∀ n diff newp, NetOk6 c n → Reports ((fam6 c).supernetThrow n diff newp) (zeroNet6 c.M) ((fam6 c).supernetCode n diff newp)) ∧
    (∀ n diff newp, NetOkAny c n → Reports (anyNetSupernetThrow c n diff newp)
      (match n with | .v4 _ => .v4 zeroNet4 | .v6 _ => .v6 (zeroNet6 c.M)) (anySupernetCode c n diff newp)) := by
  have f4 : ∀ a p strict, a.length = 4 →
      Reports ((fam4 true).fromAddressThrow a p strict) zeroNet4 ((fam4 true).fromAddressCode a p strict) := fun a p strict ha =>
    setCode_reports ((C50_values encChar encChar_law c true p strict []).1 a ha) (default4 true)
  have f6 : ∀ (a : V6) p strict, a.WF c.M →
      Reports ((fam6 c).fromAddressThrow a p strict) (zeroNet6 c.M) ((fam6 c).fromAddressCode a p strict) := fun a p strict ha =>
    setCode_reports ((C50_values encChar encChar_law c true p strict []).2.1 a ha) (default6 c)
  have s4 : ∀ n diff newp, NetOk4 n → Reports ((fam4 true).supernetThrow n diff newp) zeroNet4 ((fam4 true).supernetCode n diff newp) :=
    fun n diff newp hn => setCode_reports ((C50_operations c hc diff newp).1 n n hn hn).1 (default4 true)
  have s6 : ∀ n diff newp, NetOk6 c n → Reports ((fam6 c).supernetThrow n diff newp) (zeroNet6 c.M) ((fam6 c).supernetCode n diff newp) :=
    fun n diff newp hn => setCode_reports ((C50_operations c hc diff newp).2 n n hn hn).1 (default6 c)
  refine ⟨f4, f6, fun a p strict ha => ?_, s4, s6, fun n diff newp hn => ?_⟩
  · cases a with
    | v4 a =>
      have e : anyFromAddressCode c (.v4 a) p strict = fun code => ((fam4 c.le).fromAddressCode a p strict code).onValue AnyNet.v4 := rfl
      rw [e]
      simp only [anyFromAddressThrow, hc]
      exact (f4 a p strict ha).map AnyNet.v4
    | v6 a => exact (f6 a p strict ha).map AnyNet.v6
  · cases n with
    | v4 n =>
      have e : anySupernetCode c (.v4 n) diff newp = fun code => ((fam4 c.le).supernetCode n diff newp code).onValue AnyNet.v4 := rfl
      rw [e]
      simp only [anyNetSupernetThrow, hc]
      exact (s4 n diff newp hn).map AnyNet.v4
    | v6 n => exact (s6 n diff newp hn).map AnyNet.v6

example := C60_operations exCfg rfl

/-- C60: `ip_network::address_exclude`; on an error the sequence is empty. -/
theorem C60_any_exclude (c : Cfg) (hc : c.le = true) (n o : AnyNet) (hn : NetOkAny c n) (ho : NetOkAny c o) :
    ∃ d, anyExEq c d.1 d.2 = .ok true ∧ Reports (anyNetExcludeThrow c n o) d (anyExcludeCode c n o) := by
  have h := C50_any_network_exclude c hc n o hn ho
  refine ⟨(⟨.v4 zeroNet4, .v4 zeroNet4, .v4 zeroNet4, .v4 zeroNet4⟩, ⟨.v4 zeroNet4, .v4 zeroNet4, .v4 zeroNet4, .v4 zeroNet4⟩), ?_, ?_⟩
  · show (fam4 c.le).netEq zeroNet4 zeroNet4 = .ok true
    rw [hc]; decide
  · refine setCode_reports h ?_
    simp only [anyExDefault, anyDefNet, Res.ok_bind]

example := C60_any_exclude exCfg rfl (.v4 ex16) (.v6 ex32) ex16_ok ex32_ok

/-- C60: `set_scope_id` with a scope length above zero, of an IPv6 address and of an `ip_address` that is
IPv6: on an error the address keeps its value. -/
theorem C60_set_scope {U : Type} (enc : Enc U) (L : enc.Law) (c : Cfg) (hM : c.M ≠ 0) (a : V6) (s : List U) :
    Reports (v6SetScopeThrow c enc a s) a (v6ScopeCode c a s.length (enc.events s)) ∧
    Reports (anyScopeThrow c enc (.v6 a) s) (.v6 a) (anyScopeCode c (.v6 a) s.length (enc.events s)) := by
  have h : Reports (v6SetScopeThrow c enc a s) a (v6ScopeCode c a s.length (enc.events s)) := by
    intro code
    unfold v6SetScopeThrow v6ScopeCode
    rw [if_neg hM, if_neg hM]
    cases scopeChange c.spaces c.M s.length (enc.events s) with
    | ok f => simp
    | ub => simp
    | err e v =>
      obtain ⟨w, hw⟩ := raise_eq (α := V6) L e v s
      simp only
      rw [hw]
      simp
  exact ⟨h, h.map AnyAddr.v6⟩

example := C60_set_scope encChar encChar_law exCfg (by decide) exScoped "a b".toList

/-- C60 (partial): `subnets` and `address_exclude` of `ipv4_network` and `ipv6_network` and `subnets` of
`ip_network` report their errors, with an empty sequence, but on success they keep the old value of the
variable.  Missing: `no_error` after a success for a variable that held something else, which is false,
see `C60_stale`. -/
theorem C60_sequences_partial (c : Cfg) (hc : c.le = true) (diff : Nat) (newp : Option Nat) :
    (∀ n o, NetOk4 n → NetOk4 o →
      (∃ d, (fam4 true).subnetsEmpty d = .ok true ∧ ReportsErrors ((fam4 true).subnetsThrow n diff newp) d ((fam4 true).subnetsCode n diff newp)) ∧
      ∃ d, (fam4 true).exSeqEmpty d = .ok true ∧ ReportsErrors ((fam4 true).addressExcludeThrow n o) d ((fam4 true).excludeCode n o)) ∧
    (∀ n o, NetOk6 c n → NetOk6 c o →
      (∃ d, (fam6 c).subnetsEmpty d = .ok true ∧ ReportsErrors ((fam6 c).subnetsThrow n diff newp) d ((fam6 c).subnetsCode n diff newp)) ∧
      ∃ d, (fam6 c).exSeqEmpty d = .ok true ∧ ReportsErrors ((fam6 c).addressExcludeThrow n o) d ((fam6 c).excludeCode n o)) ∧
    (∀ n, NetOkAny c n → ∃ d, (anySubnetsOps c).seqEmpty d = .ok true ∧
      ReportsErrors (anyNetSubnetsThrow c n diff newp) d (anySubnetsCode c n diff newp)) := by
  have e4 : (fam4 true).netEq zeroNet4 zeroNet4 = .ok true := by decide
  have e6 : (fam6 c).netEq (zeroNet6 c.M) (zeroNet6 c.M) = .ok true := by
    obtain ⟨d, h1, h2⟩ := default_isNet (fam6Law c hc)
    rw [default6] at h1
    cases h1
    rw [netEq_isNet (fam6Law c hc) h2 h2]
    simp
  have d4 : (fam4 true).niDefault = .ok ⟨zeroNet4, ⟨[0, 0, 0, 0], 0, 0⟩, 0, 0⟩ := by decide
  have d6 : (fam6 c).niDefault = .ok ⟨zeroNet6 c.M, ⟨zero6 c.M, (fam6 c).ops.ofI64 0#64, 0⟩, (fam6 c).ops.ofI64 0#64, 0⟩ := by
    unfold Fam.niDefault; rw [default6]; rfl
  have x4 : (fam4 true).exSeqDefault = .ok ⟨⟨zeroNet4, zeroNet4, zeroNet4, zeroNet4⟩, ⟨zeroNet4, zeroNet4, zeroNet4, zeroNet4⟩⟩ := by
    unfold Fam.exSeqDefault Fam.exDefault; rw [default4]; rfl
  have x6 : (fam6 c).exSeqDefault = .ok ⟨⟨zeroNet6 c.M, zeroNet6 c.M, zeroNet6 c.M, zeroNet6 c.M⟩, ⟨zeroNet6 c.M, zeroNet6 c.M, zeroNet6 c.M, zeroNet6 c.M⟩⟩ := by
    unfold Fam.exSeqDefault Fam.exDefault; rw [default6]; rfl
  have s4 : ∀ n, NetOk4 n → ReportsErrors ((fam4 true).subnetsThrow n diff newp)
      ⟨⟨zeroNet4, ⟨[0, 0, 0, 0], 0, 0⟩, 0, 0⟩, ⟨zeroNet4, ⟨[0, 0, 0, 0], 0, 0⟩, 0, 0⟩, 0⟩ ((fam4 true).subnetsCode n diff newp) :=
    fun n hn => setCode_errors ((C50_operations c hc diff newp).1 n n hn hn).2.1 (by unfold Fam.subnetsDefault; rw [d4]; rfl)
  have s6 : ∀ n, NetOk6 c n → ReportsErrors ((fam6 c).subnetsThrow n diff newp)
      ⟨⟨zeroNet6 c.M, ⟨zero6 c.M, (fam6 c).ops.ofI64 0#64, 0⟩, (fam6 c).ops.ofI64 0#64, 0⟩,
        ⟨zeroNet6 c.M, ⟨zero6 c.M, (fam6 c).ops.ofI64 0#64, 0⟩, (fam6 c).ops.ofI64 0#64, 0⟩, (fam6 c).ops.ofI64 0#64⟩
      ((fam6 c).subnetsCode n diff newp) :=
    fun n hn => setCode_errors ((C50_operations c hc diff newp).2 n n hn hn).2.1 (by unfold Fam.subnetsDefault; rw [d6]; rfl)
  refine ⟨fun n o hn ho => ⟨⟨_, ?_, s4 n hn⟩, ⟨_, ?_, setCode_errors ((C50_operations c hc diff newp).1 n o hn ho).2.2 x4⟩⟩,
    fun n o hn ho => ⟨⟨_, ?_, s6 n hn⟩, ⟨_, ?_, setCode_errors ((C50_operations c hc diff newp).2 n o hn ho).2.2 x6⟩⟩, fun n hn => ?_⟩
  · exact e4
  · exact e4
  · exact e6
  · exact e6
  · cases n with
    | v4 n =>
      have g := (s4 n hn).map fun s => (⟨(anySubnetsOps c).mk4 s.first, (anySubnetsOps c).mk4 s.last⟩ :
        AnySeq (NIter (List (BitVec 8)) (BitVec 32)) (NIter V6 U128) AnyNet)
      have e : anySubnetsCode c (.v4 n) diff newp = fun code => ((fam4 c.le).subnetsCode n diff newp code).onValue
        fun s => ⟨(anySubnetsOps c).mk4 s.first, (anySubnetsOps c).mk4 s.last⟩ := rfl
      refine ⟨_, ?_, by rw [e]; simp only [anyNetSubnetsThrow, hc]; exact g⟩
      show (fam4 c.le).netEq zeroNet4 zeroNet4 = .ok true
      rw [hc]; exact e4
    | v6 n =>
      refine ⟨_, ?_, (s6 n hn).map _⟩
      exact e6

example := C60_sequences_partial exCfg rfl 2 (some 20)

/-- C60, negation: a code from an earlier failure is still there after a success.  After a failed parse the
variable holds `expected_4_octets`; `subnets` and `address_exclude` of `192.168.0.0/16` succeed, as does
`set_scope_id` of an `ip_address` that is IPv4, or of an IPv6 address when scopes are compiled out, and the
variable says the same. -/
theorem C60_stale :
    (v4Code (readChars "1.2.3".toList) none = .ok (some .expected_4_octets, [0, 0, 0, 0])) ∧
    (∃ s, (fam4 true).subnetsThrow ex16 1 none = .ret s ∧
      (fam4 true).subnetsCode ex16 1 none (some .expected_4_octets) = .ok (some .expected_4_octets, s)) ∧
    (∃ s, (fam4 true).addressExcludeThrow ex16 ex17 = .ret s ∧
      (fam4 true).excludeCode ex16 ex17 (some .expected_4_octets) = .ok (some .expected_4_octets, s)) ∧
    (∃ s, anyNetSubnetsThrow exCfg (.v4 ex16) 1 none = .ret s ∧
      anySubnetsCode exCfg (.v4 ex16) 1 none (some .expected_4_octets) = .ok (some .expected_4_octets, s)) ∧
    (anyScopeThrow exCfg encChar (.v4 [1, 2, 3, 4]) "eth0".toList = .ret (.v4 [1, 2, 3, 4]) ∧
      anyScopeCode exCfg (.v4 [1, 2, 3, 4]) 4 (readChars "eth0".toList) (some .expected_4_octets) =
        .ok (some .expected_4_octets, .v4 [1, 2, 3, 4])) ∧
    ∀ (c : Cfg) (a : V6) (s : List Char) (code : Code), c.M = 0 →
      v6SetScopeThrow c encChar a s = .ret a ∧ v6ScopeCode c a s.length (readChars s) code = .ok (code, a) := by
  have key : ∀ {α : Type} (r d : Res α), r.isOk = true → ∃ s, orRaise0 r = .ret s ∧
      setCode d r (some .expected_4_octets) = .ok (some .expected_4_octets, s) := by
    intro α r d h
    cases r with
    | ok a => exact ⟨a, rfl, rfl⟩
    | err => cases h
    | ub => cases h
  refine ⟨by decide +kernel, key _ _ (by decide +kernel), key _ _ (by decide +kernel), ?_, ⟨rfl, rfl⟩, fun c a s code hM => ?_⟩
  · obtain ⟨s, h1, h2⟩ := key ((fam4 true).subnets ex16 1 none) ((fam4 true).subnetsDefault) (by decide +kernel)
    refine ⟨⟨(anySubnetsOps exCfg).mk4 s.first, (anySubnetsOps exCfg).mk4 s.last⟩, ?_, ?_⟩
    · have e : (fam4 exCfg.le).subnetsThrow ex16 1 none = .ret s := h1
      simp only [anyNetSubnetsThrow, e, Thr.map]
    · have e : (fam4 exCfg.le).subnetsCode ex16 1 none (some .expected_4_octets) = .ok (some .expected_4_octets, s) := h2
      simp only [anySubnetsCode, e, Res.onValue, Res.ok_bind]
  · unfold v6SetScopeThrow v6ScopeCode
    rw [if_pos hM, if_pos hM]
    exact ⟨rfl, rfl⟩

example : v4Code (readChars "1.2.3.4".toList) (some .expected_4_octets) = .ok (none, [1, 2, 3, 4]) := by decide +kernel
example : arrayCode encChar (.ok (List.replicate 4 0#8)) v4Code "1.2.3.4".toList (some .expected_4_octets) = .ok (none, [1, 2, 3, 4]) := by
  decide +kernel
example : arrayCode encChar (.ok (List.replicate 4 0#8)) v4Code [] (some .expected_4_octets) = .ok (some .empty_address, [0, 0, 0, 0]) := by
  decide +kernel
example : (fam4 true).supernetCode ex17 18 none none = .ok (some .invalid_prefixlen_diff, zeroNet4) := by decide +kernel

/-! ### C61 -/

/-- C61: functions other than literals return what they return with exceptions enabled, and otherwise a
default object of the version parsed last. -/
theorem C61_parse {U : Type} (enc : Enc U) (L : enc.Law) (c : Cfg) (le strict : Bool) (s : List U) :
    Quiet (v4ParseThrow enc s) [0, 0, 0, 0] (quiet (v4Code (enc.events s))) ∧
    Quiet (v6ParseThrow c enc s) (zero6 c.M) (quiet (v6Code c (enc.events s))) ∧
    Quiet (anyParseThrow c enc s) (.v6 (zero6 c.M)) (anyQuiet .v4 .v6 (v4Code (enc.events s)) (quiet (v6Code c (enc.events s)))) ∧
    Quiet ((fam4 le).parseNetThrow enc s strict) zeroNet4 (quiet ((fam4 le).parseNetCode strict (enc.events s))) ∧
    Quiet ((fam6 c).parseNetThrow enc s strict) (zeroNet6 c.M) (quiet ((fam6 c).parseNetCode strict (enc.events s))) ∧
    Quiet (anyNetParseThrow c enc s strict) (.v6 (zeroNet6 c.M))
      (anyQuiet .v4 .v6 ((fam4 c.le).parseNetCode strict (enc.events s)) (quiet ((fam6 c).parseNetCode strict (enc.events s)))) := by
  obtain ⟨h1, h2, _, h4, h5, _⟩ := C60_parse enc L c le strict s
  refine ⟨quiet_of_reports h1, quiet_of_reports h2, ?_, quiet_of_reports h4, quiet_of_reports h5, ?_⟩
  · have h3 := (C50_parse enc L c le strict s).2.2.1
    have e : anyFromEvents c.spaces c.M (enc.events s) =
        twoParses .v4 .v6 (v4FromEvents (enc.events s)) (v6FromEvents c.spaces c.M (enc.events s)) := by
      unfold anyFromEvents twoParses; cases v4FromEvents (enc.events s) <;> rfl
    rw [e] at h3
    have g := anyQuiet_eq AnyAddr.v4 AnyAddr.v6 (d4 := .ok (List.replicate 4 0#8)) (d6 := .ok (fam6 c).zero) rfl rfl
      (v4FromEvents (enc.events s)) (v6FromEvents c.spaces c.M (enc.events s))
    have g' : anyQuiet AnyAddr.v4 AnyAddr.v6 (v4Code (enc.events s)) (quiet (v6Code c (enc.events s))) = _ := g
    rw [g']
    exact quiet_of_reports (setCode_reports h3 rfl)
  · have h3 := (C50_any_network_parse enc L c strict s).1
    have e : anyNetFromEvents c (enc.events s) strict =
        twoParses .v4 .v6 ((fam4 c.le).parseNet (enc.events s) strict) ((fam6 c).parseNet (enc.events s) strict) := by
      unfold anyNetFromEvents twoParses; cases (fam4 c.le).parseNet (enc.events s) strict <;> rfl
    rw [e] at h3
    have g := anyQuiet_eq AnyNet.v4 AnyNet.v6 (default4 c.le) (default6 c)
      ((fam4 c.le).parseNet (enc.events s) strict) ((fam6 c).parseNet (enc.events s) strict)
    have g' : anyQuiet AnyNet.v4 AnyNet.v6 ((fam4 c.le).parseNetCode strict (enc.events s))
      (quiet ((fam6 c).parseNetCode strict (enc.events s))) = _ := g
    rw [g']
    exact quiet_of_reports (setCode_reports h3 rfl)

example := C61_parse encChar encChar_law exCfg true true "10.0.0.x".toList

/-- C61: parsing an array. -/
theorem C61_parse_array {U : Type} (enc : Enc U) (L : enc.Law) (c : Cfg) (le strict : Bool) (s : List U) :
    Quiet (arrayParseThrow enc v4FromEvents s) [0, 0, 0, 0] (arrayQuiet enc (.ok (List.replicate 4 0#8)) v4Code s) ∧
    Quiet (arrayParseThrow enc (v6FromEvents c.spaces c.M) s) (zero6 c.M) (arrayQuiet enc (.ok (fam6 c).zero) (v6Code c) s) ∧
    Quiet (anyArrayParseThrow c enc s) (.v6 (zero6 c.M)) (anyAddrArrayQuiet c enc s) ∧
    Quiet (arrayParseThrow enc (fun evs => (fam4 le).parseNet evs strict) s) zeroNet4
      (arrayQuiet enc (fam4 le).defaultNet ((fam4 le).parseNetCode strict) s) ∧
    Quiet (arrayParseThrow enc (fun evs => (fam6 c).parseNet evs strict) s) (zeroNet6 c.M)
      (arrayQuiet enc (fam6 c).defaultNet ((fam6 c).parseNetCode strict) s) ∧
    Quiet (anyNetArrayParseThrow c enc s strict) (.v6 (zeroNet6 c.M)) (anyNetArrayQuiet c strict enc s) := by
  obtain ⟨h1, h2, h3, h4, h5⟩ := C50_parse_array enc L c le strict s
  have q4 := arrayQuiet_eq enc (d := .ok (List.replicate 4 0#8)) rfl v4FromEvents s
  have q6 := arrayQuiet_eq enc (d := .ok (fam6 c).zero) rfl (v6FromEvents c.spaces c.M) s
  have r4 := arrayQuiet_eq enc (default4 le) (fun evs => (fam4 le).parseNet evs strict) s
  have r6 := arrayQuiet_eq enc (default6 c) (fun evs => (fam6 c).parseNet evs strict) s
  have q4' : arrayQuiet enc (.ok (List.replicate 4 0#8)) v4Code s = _ := q4
  have q6' : arrayQuiet enc (.ok (fam6 c).zero) (v6Code c) s = _ := q6
  have r4' : arrayQuiet enc (fam4 le).defaultNet ((fam4 le).parseNetCode strict) s = _ := r4
  have r6' : arrayQuiet enc (fam6 c).defaultNet ((fam6 c).parseNetCode strict) s = _ := r6
  refine ⟨?_, ?_, ?_, ?_, ?_, ?_⟩
  · rw [q4']; exact quiet_of_reports (setCode_reports h1 rfl)
  · rw [q6']; exact quiet_of_reports (setCode_reports h2 rfl)
  · have e : anyArrayParse c enc s =
        twoParses .v4 .v6 (arrayParse enc v4FromEvents s) (arrayParse enc (v6FromEvents c.spaces c.M) s) := by
      unfold anyArrayParse twoParses; cases arrayParse enc v4FromEvents s <;> rfl
    rw [e] at h3
    have a4 : arrayCode enc (.ok (List.replicate 4 0#8)) v4Code s =
        fun _ => setCode (.ok (List.replicate 4 0#8)) (arrayParse enc v4FromEvents s) none :=
      funext fun code => arrayCode_eq enc rfl v4FromEvents s code
    unfold anyAddrArrayQuiet
    rw [q6', a4, anyQuiet_eq _ _ rfl rfl]
    exact quiet_of_reports (setCode_reports h3 rfl)
  · rw [r4']; exact quiet_of_reports (setCode_reports h4 (default4 le))
  · rw [r6']; exact quiet_of_reports (setCode_reports h5 (default6 c))
  · have h6 := (C50_any_network_parse enc L c strict s).2
    have e : anyNetArrayParse c enc s strict =
        twoParses .v4 .v6 (arrayParse enc (fun evs => (fam4 c.le).parseNet evs strict) s)
          (arrayParse enc (fun evs => (fam6 c).parseNet evs strict) s) := by
      unfold anyNetArrayParse twoParses; cases arrayParse enc (fun evs => (fam4 c.le).parseNet evs strict) s <;> rfl
    rw [e] at h6
    have a4 : arrayCode enc (fam4 c.le).defaultNet ((fam4 c.le).parseNetCode strict) s =
        fun _ => setCode (fam4 c.le).defaultNet (arrayParse enc (fun evs => (fam4 c.le).parseNet evs strict) s) none :=
      funext fun code => arrayCode_eq enc (default4 c.le) (fun evs => (fam4 c.le).parseNet evs strict) s code
    unfold anyNetArrayQuiet
    rw [r6', a4, anyQuiet_eq _ _ (default4 c.le) (default6 c)]
    exact quiet_of_reports (setCode_reports h6 rfl)

example := C61_parse_array encChar encChar_law exCfg true true "10.0.0.x".toList

/-- C61: `from_address`, `supernet`, `subnets`, `address_exclude` and `set_scope_id`. -/
theorem C61_operations {U : Type} (enc : Enc U) (L : enc.Law) (c : Cfg) (hc : c.le = true) (diff : Nat) (newp : Option Nat) :
    (∀ a p strict, AddrOkAny c a → ∃ d, NetOkAny c d ∧ Quiet (anyFromAddressThrow c a p strict) d (quiet (anyFromAddressCode c a p strict))) ∧
    (∀ n, NetOkAny c n → ∃ d, NetOkAny c d ∧ Quiet (anyNetSupernetThrow c n diff newp) d (quiet (anySupernetCode c n diff newp))) ∧
    (∀ n, NetOkAny c n → ∃ d, (anySubnetsOps c).seqEmpty d = .ok true ∧
      Quiet (anyNetSubnetsThrow c n diff newp) d (quiet (anySubnetsCode c n diff newp))) ∧
    (∀ n o, NetOkAny c n → NetOkAny c o → ∃ d, anyExEq c d.1 d.2 = .ok true ∧
      Quiet (anyNetExcludeThrow c n o) d (quiet (anyExcludeCode c n o))) ∧
    (∀ (a : V6) (s : List U), Quiet (v6SetScopeThrow c enc a s) a (quiet (v6ScopeCode c a s.length (enc.events s)))) := by
  have ok4 : NetOk4 zeroNet4 := by
    obtain ⟨n, h1, h2⟩ := C24_invariant_v4.2.2
    rw [default4] at h1; cases h1; exact h2
  have ok6 : NetOk6 c (zeroNet6 c.M) := by
    obtain ⟨n, h1, h2⟩ := (C24_invariant_v6 c hc).2.2
    rw [default6] at h1; cases h1; exact h2
  obtain ⟨_, _, h3, _, _, h6⟩ := C60_operations c hc
  refine ⟨fun a p strict ha => ⟨_, ?_, quiet_of_reports (h3 a p strict ha)⟩, fun n hn => ⟨_, ?_, quiet_of_reports (h6 n diff newp hn)⟩,
    fun n hn => ?_, fun n o hn ho => ?_, fun a s => ?_⟩
  · cases a <;> assumption
  · cases n <;> assumption
  · obtain ⟨d, h1, h2⟩ := (C60_sequences_partial c hc diff newp).2.2 n hn
    exact ⟨d, h1, quiet_of_errors h2⟩
  · obtain ⟨d, h1, h2⟩ := C60_any_exclude c hc n o hn ho
    exact ⟨d, h1, quiet_of_reports h2⟩
  · by_cases hM : c.M = 0
    · unfold v6SetScopeThrow v6ScopeCode quiet
      simp only [hM, if_true]
      exact ⟨fun b hb => (by cases hb; rfl), fun e he => (by cases he)⟩
    · exact quiet_of_reports (C60_set_scope enc L c hM a s).1

example := C61_operations encChar encChar_law exCfg rfl 2 (some 20)

/-- C61 (partial): a literal that is not too long behaves in the same way.  Missing: longer ones, see
`C61_literal_truncated`. -/
theorem C61_literal_partial {U : Type} (enc : Enc U) (L : enc.Law) (c : Cfg) (le : Bool) (s : List U) :
    (s.length ≤ 15 → Quiet (v4Literal enc s) [0, 0, 0, 0] (v4LiteralQuiet enc s)) ∧
    (s.length ≤ 41 + c.M → Quiet (v6Literal c enc s) (zero6 c.M) (v6LiteralQuiet c enc s)) ∧
    (s.length ≤ 41 + c.M → Quiet (anyLiteral c enc s) (.v6 (zero6 c.M)) (anyLiteralQuiet c enc s)) ∧
    (s.length ≤ 31 → Quiet (v4NetLiteral le enc s) zeroNet4 (v4NetLiteralQuiet le enc s)) ∧
    (s.length ≤ 45 + c.M → Quiet (v6NetLiteral c enc s) (zeroNet6 c.M) (v6NetLiteralQuiet c enc s)) ∧
    (s.length ≤ 83 + 2 * c.M → Quiet (anyNetLiteral c enc s) (.v6 (zeroNet6 c.M)) (anyNetLiteralQuiet c enc s)) := by
  have key : ∀ {α : Type} (m : Nat) (p : List U → Thr α) (d : α) (q : List U → Res α), (∀ s, Quiet (p s) d (q s)) → s.length ≤ m →
      Quiet (literal enc m p s) d (literalQuiet enc m q s) := by
    intro α m p d q hq h
    rw [literal_eq m p s h, literalQuiet_eq, List.take_of_length_le h]
    exact hq _
  have H := fun s => C61_parse_array enc L c le true s
  exact ⟨key _ _ _ _ fun s => (H s).1, key _ _ _ _ fun s => (H s).2.1, key _ _ _ _ fun s => (H s).2.2.1,
    key _ _ _ _ fun s => (H s).2.2.2.1, fun h => key _ _ _ _ (fun s => (H s).2.2.2.2.1) (by omega),
    fun h => key _ _ _ _ (fun s => (H s).2.2.2.2.2) (by omega)⟩

example := C61_literal_partial encChar encChar_law exCfg true "10.0.0.x".toList

/-- C61, negation: a literal that is too long is not refused: it has the value of its first characters,
whether they are an address or not. -/
theorem C61_literal_truncated {U : Type} (enc : Enc U) (c : Cfg) (le : Bool) (s : List U) :
    v4LiteralQuiet enc s = v4LiteralQuiet enc (s.take 15) ∧
    v6LiteralQuiet c enc s = v6LiteralQuiet c enc (s.take (41 + c.M)) ∧
    anyLiteralQuiet c enc s = anyLiteralQuiet c enc (s.take (41 + c.M)) ∧
    v4NetLiteralQuiet le enc s = v4NetLiteralQuiet le enc (s.take 31) ∧
    v6NetLiteralQuiet c enc s = v6NetLiteralQuiet c enc (s.take (45 + c.M)) ∧
    anyNetLiteralQuiet c enc s = anyNetLiteralQuiet c enc (s.take (83 + 2 * c.M)) ∧
    v4LiteralQuiet encChar "255.255.255.2550".toList = .ok [255, 255, 255, 255] ∧
    v4NetLiteralQuiet true encChar "100.100.100.128/255.255.255.1285".toList = .ok ⟨[100, 100, 100, 128], [255, 255, 255, 128], 25⟩ := by
  have key : ∀ {α : Type} (m k : Nat) (q : List U → Res α), k = m → literalQuiet enc m q s = literalQuiet enc m q (s.take k) := by
    intro α m k q hk
    subst hk
    rw [literalQuiet_eq, literalQuiet_eq, List.take_take, Nat.min_self, List.length_take]
    congr 3
    omega
  exact ⟨key _ _ _ rfl, key _ _ _ rfl, key _ _ _ rfl, key _ _ _ rfl, key _ _ _ (by omega), key _ _ _ (by omega), by decide +kernel, by decide +kernel⟩

/-- C61: the two overloads of `ip_address::parse` disagree on the object returned for a wrong text: `::`
without `error_code`, `0.0.0.0` with it. -/
theorem C61_any_default :
    anyQuiet AnyAddr.v4 AnyAddr.v6 (v4Code (readChars "x".toList)) (quiet (v6Code exCfg (readChars "x".toList))) = .ok (.v6 (zero6 16)) ∧
    ∃ e, anyAddrCode exCfg (readChars "x".toList) none = .ok (some e, .v4 [0, 0, 0, 0]) :=
  ⟨by decide +kernel, .least_3_parts, by decide +kernel⟩

example : v4LiteralQuiet encChar "1.2.3.4".toList = .ok [1, 2, 3, 4] := by decide +kernel
example : v4LiteralQuiet encChar "1.2.3.400".toList = .ok [0, 0, 0, 0] := by decide +kernel
example : anyNetLiteralQuiet exCfg encChar "192.168.0.0/16".toList = .ok (.v4 ex16) := by decide +kernel

end Ip
