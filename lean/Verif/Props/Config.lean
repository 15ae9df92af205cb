import Verif.Spec.Config
import Verif.Props.V4
import Verif.Props.V6Text
/-
C71: detection of the byte order and the other settings.  C72: errors during compilation in builds without exceptions.
-/
set_option autoImplicit false

namespace Ip
open Spec

theorem Env.defd_some {e : Env} {n : String} (h : e.defd n = true) : ∃ v, e.macros n = some v := by
  unfold Env.defd at h
  exact Option.isSome_iff_exists.1 h

theorem Env.val_some {e : Env} {n : String} {v : Int} (h : e.macros n = some v) : e.val n = v := by
  simp [Env.val, h]

theorem Env.anyOf_true {e : Env} {l : List String} : e.anyOf l = true ↔ ∃ n ∈ l, e.defd n = true := by
  simp [Env.anyOf]

/-- What `endian` finds is true if what the platform says is true. -/
theorem endian_true {e : Env} {native : ByteOrder} (h : Truthful e native) {v : Int} (hv : e.endian = some (some v)) :
    orderNumber native = some v := by
  unfold Env.endian at hv
  split at hv
  · rename_i hd
    exact h.user v (by simpa using hv)
  split at hv
  · rename_i hd
    obtain ⟨w, hw⟩ := Env.defd_some hd
    have := h.gnu w hw
    rw [Env.val_some hw] at hv
    split at hv
    · rename_i h0
      cases hv
      rw [this.1.1 h0]; rfl
    split at hv
    · rename_i h0
      cases hv
      rw [this.2.1 h0]; rfl
    · cases hv
  split at hv
  · rename_i hd
    rw [Bool.and_eq_true] at hd
    have := h.glibc hd.1
    split at hv
    · rename_i h0
      cases hv
      rw [this.1.1 h0]; rfl
    split at hv
    · rename_i h0
      cases hv
      rw [this.2.1 h0]; rfl
    · cases hv
  split at hv
  · rename_i hd
    rw [Bool.and_eq_true, Bool.not_eq_true'] at hd
    cases hv
    rw [h.posixLittle hd.1 hd.2]; rfl
  split at hv
  · rename_i hd
    rw [Bool.and_eq_true, Bool.not_eq_true'] at hd
    cases hv
    rw [h.posixBig hd.1 hd.2]; rfl
  split at hv
  · cases hv
  split at hv
  · rename_i hd
    cases hv
    obtain ⟨n, hn, hd⟩ := Env.anyOf_true.1 hd
    rw [h.littleArch n hn hd]; rfl
  split at hv
  · rename_i hd
    cases hv
    rw [Bool.and_eq_true, Bool.or_eq_true] at hd
    rw [h.arm hd.1 hd.2]; rfl
  split at hv
  · cases hv
  · cases hv

theorem stdEndian_of_undefined {e : Env} (h : e.endian = some none) : e.stdEndian = true := by
  unfold Env.endian at h
  split at h
  · rename_i hd
    obtain ⟨w, hw⟩ := Env.defd_some hd
    simp [hw] at h
  repeat' (split at h)
  all_goals first | (cases h; done) | simp_all

/-- C71: where the headers compile, `is_little_endian()` is the byte order of the host, provided that the platform does
not lie. -/
theorem C71_byte_order (e : Env) (native : ByteOrder) (h : Truthful e native) (b : Bool) (hb : e.isLittle native = some b) :
    b = true ↔ native = .little := by
  unfold Env.isLittle at hb
  split at hb
  · cases hb
  · rename_i v hv
    split at hb
    · cases hb; simp
    · split at hb
      · rename_i w
        have := endian_true h hv
        cases hb
        cases native <;> simp_all [orderNumber] <;> omega
      · cases hb

example : ∃ (e : Env) (b : Bool), Truthful e .big ∧ e.isLittle .big = some b :=
  ⟨⟨fun n => if n = "__cplusplus" then some 201703 else if n = "_BIG_ENDIAN" then some 1 else none, fun _ => false⟩, false,
   by constructor <;> simp [Env.defd], by decide +kernel⟩

/-- C71: the same for the order of the members of `uint128_t`, if the byte order was found by macros. -/
theorem C71_layout_partial (e : Env) (native : ByteOrder) (h : Truthful e native) (v : Int) (hv : e.endian = some (some v)) :
    e.upperFirst = some (native == .big) := by
  have := endian_true h hv
  unfold Env.upperFirst
  rw [hv]
  cases native <;> simp_all [orderNumber] <;> omega

example : ∃ (e : Env) (v : Int), Truthful e .big ∧ e.endian = some (some v) :=
  ⟨⟨fun n => if n = "__cplusplus" then some 201703 else if n = "_BIG_ENDIAN" then some 1 else none, fun _ => false⟩, 1,
   by constructor <;> simp [Env.defd], by decide +kernel⟩

/-- A platform of which only `std::endian` is known. -/
def exBit : Env :=
  ⟨fun n => if n = "__cplusplus" then some 202002 else if n = "__has_include" then some 1 else none, fun h => h == "<bit>"⟩

/-- C71: full statement of the previous theorem refuted: on a big endian host where only `std::endian` is known the
headers compile with the members in the order for little endian hosts. -/
theorem C71_layout : ¬ ∀ (e : Env) (native : ByteOrder), Truthful e native → ∀ b, e.upperFirst = some b → b = (native == .big) := by
  intro h
  have t : Truthful exBit .big := by
    constructor <;> simp [exBit, Env.defd]
  have := h exBit .big t false (by decide +kernel)
  revert this
  decide

/-- C71: exactly when the headers find a byte order or `std::endian`. -/
theorem C71_compiles (e : Env) :
    e.endian ≠ none ↔
      e.defd "IPADDRESS_ENDIAN" = true ∨
      (e.defd "IPADDRESS_ENDIAN" = false ∧ e.defd "__BYTE_ORDER__" = true ∧
        (e.val "__BYTE_ORDER__" = e.val "__ORDER_LITTLE_ENDIAN__" ∨ e.val "__BYTE_ORDER__" = e.val "__ORDER_BIG_ENDIAN__")) ∨
      (e.defd "IPADDRESS_ENDIAN" = false ∧ e.defd "__BYTE_ORDER__" = false ∧
        e.defd "__GLIBC__" = true ∧ e.defd "IPADDRESS_MODULE" = false ∧
        (e.val "__BYTE_ORDER" = e.val "__LITTLE_ENDIAN" ∨ e.val "__BYTE_ORDER" = e.val "__BIG_ENDIAN")) ∨
      (e.defd "IPADDRESS_ENDIAN" = false ∧ e.defd "__BYTE_ORDER__" = false ∧
        (e.defd "__GLIBC__" = false ∨ e.defd "IPADDRESS_MODULE" = true) ∧
        (e.defd "_LITTLE_ENDIAN" ≠ e.defd "_BIG_ENDIAN" ∨
          (∀ n ∈ ["__hppa", "__hpux", "__powerpc__", "__ppc__", "__s390__"], e.defd n = false) ∧
          ((∃ n ∈ ["__alpha__", "__amd64__", "__amd64", "__bfin__", "__i386__", "__ia64__", "__ia64", "__x86_64__",
              "__x86_64", "_M_ALPHA", "_M_AMD64", "_M_IA64", "_M_IX86", "_M_X64"], e.defd n = true) ∨
            (e.defd "_MSC_VER" = true ∧ (e.defd "_M_ARM" = true ∨ e.defd "_M_ARM64" = true)) ∨ e.stdEndian = true))) := by
  unfold Env.endian
  have hl := @Env.anyOf_true e Env.littleNames
  have hb : e.anyOf Env.bigNames = false ↔ ∀ n ∈ Env.bigNames, e.defd n = false := by simp [Env.anyOf]
  rw [show ["__hppa", "__hpux", "__powerpc__", "__ppc__", "__s390__"] = Env.bigNames from rfl,
    show ["__alpha__", "__amd64__", "__amd64", "__bfin__", "__i386__", "__ia64__", "__ia64", "__x86_64__",
      "__x86_64", "_M_ALPHA", "_M_AMD64", "_M_IA64", "_M_IX86", "_M_X64"] = Env.littleNames from rfl, ← hl, ← hb]
  rw [← Bool.or_eq_true, ← Bool.and_eq_true]
  generalize (e.defd "_MSC_VER" && (e.defd "_M_ARM" || e.defd "_M_ARM64")) = arm
  cases hu : e.defd "IPADDRESS_ENDIAN"
  · cases e.defd "__BYTE_ORDER__"
    · cases e.defd "__GLIBC__" <;> cases e.defd "IPADDRESS_MODULE" <;> cases e.defd "_LITTLE_ENDIAN" <;> cases e.defd "_BIG_ENDIAN" <;>
        cases e.anyOf Env.bigNames <;> cases e.anyOf Env.littleNames <;> cases arm <;> cases e.stdEndian <;> simp <;> (try (split <;> simp_all))
    · by_cases h1 : e.val "__BYTE_ORDER__" = e.val "__ORDER_LITTLE_ENDIAN__" <;>
        by_cases h2 : e.val "__BYTE_ORDER__" = e.val "__ORDER_BIG_ENDIAN__" <;> simp [h1, h2] <;> split <;> simp
  · obtain ⟨w, hw⟩ := Env.defd_some hu
    simp [hw]

/-- C71: a platform that says its byte order in one of the ways of the header, other than by the name of a big endian
architecture, is recognised. -/
theorem C71_known_partial (e : Env) (native : ByteOrder) (t : Truthful e native) (hm : native ≠ .mixed)
    (h : e.defd "IPADDRESS_ENDIAN" = true ∨ e.defd "__BYTE_ORDER__" = true ∨
      (e.defd "__GLIBC__" = true ∧ e.defd "IPADDRESS_MODULE" = false) ∨
      (e.defd "__GLIBC__" = false ∧ (e.defd "_LITTLE_ENDIAN" ≠ e.defd "_BIG_ENDIAN" ∨
        (∃ n ∈ ["__alpha__", "__amd64__", "__amd64", "__bfin__", "__i386__", "__ia64__", "__ia64", "__x86_64__",
          "__x86_64", "_M_ALPHA", "_M_AMD64", "_M_IA64", "_M_IX86", "_M_X64"], e.defd n = true) ∨
        (e.defd "_MSC_VER" = true ∧ (e.defd "_M_ARM" = true ∨ e.defd "_M_ARM64" = true))))) :
    e.isLittle native = some (native == .little) ∧ e.upperFirst = some (native == .big) := by
  have two : native = .little ∨ native = .big := by cases native <;> simp_all
  have nobig : native = .little → ∀ n ∈ ["__hppa", "__hpux", "__powerpc__", "__ppc__", "__s390__"], e.defd n = false := by
    intro hl n hn
    cases hd : e.defd n with
    | false => rfl
    | true =>
      have := t.bigArch n (List.mem_append_left ["__sparc__", "__sparc", "_MIPSEB", "_POWER"] hn) hd
      rw [hl] at this; cases this
  have three : ∀ (A B : Prop) [Decidable A] [Decidable B], A ∨ B →
      ∃ v : Int, (if A then some (some 0) else if B then some (some 1) else none : Option (Option Int)) = some (some v) := by
    intro A B _ _ h
    by_cases hA : A
    · exact ⟨0, by simp [hA]⟩
    · exact ⟨1, by simp [hA, h.resolve_left hA]⟩
  have def' : ∃ v, e.endian = some (some v) := by
    unfold Env.endian
    by_cases hu : e.defd "IPADDRESS_ENDIAN" = true
    · obtain ⟨w, hw⟩ := Env.defd_some hu
      exact ⟨w, by rw [if_pos hu, hw]⟩
    rw [if_neg hu]
    by_cases hg : e.defd "__BYTE_ORDER__" = true
    · rw [if_pos hg]
      obtain ⟨w, hw⟩ := Env.defd_some hg
      have := t.gnu w hw
      rw [Env.val_some hw]
      exact three _ _ (two.imp this.1.2 this.2.2)
    rw [if_neg hg]
    rcases h with h | h | ⟨h1, h2⟩ | ⟨h1, h⟩
    · exact absurd h hu
    · exact absurd h hg
    · rw [if_pos (by simp [h1, h2])]
      have := t.glibc h1
      exact three _ _ (two.imp this.1.2 this.2.2)
    rw [if_neg (by simp [h1])]
    by_cases p1 : (e.defd "_LITTLE_ENDIAN" && !e.defd "_BIG_ENDIAN") = true
    · exact ⟨0, by rw [if_pos p1]⟩
    rw [if_neg p1]
    by_cases p2 : (e.defd "_BIG_ENDIAN" && !e.defd "_LITTLE_ENDIAN") = true
    · exact ⟨1, by rw [if_pos p2]⟩
    rw [if_neg p2]
    have big : native = .little → ¬ e.anyOf Env.bigNames = true := by
      intro hl hb
      obtain ⟨n, hn, hd⟩ := Env.anyOf_true.1 hb
      rw [nobig hl n hn] at hd
      cases hd
    rcases h with h | ⟨n, hn, hd⟩ | h
    · exfalso
      revert p1 p2 h
      cases e.defd "_LITTLE_ENDIAN" <;> cases e.defd "_BIG_ENDIAN" <;> simp
    · rw [if_neg (big (t.littleArch n hn hd)), if_pos (Env.anyOf_true (l := Env.littleNames).2 ⟨n, hn, hd⟩)]
      exact ⟨0, rfl⟩
    · rw [if_neg (big (t.arm h.1 h.2))]
      split
      · exact ⟨0, rfl⟩
      · rw [if_pos (by simpa using h)]
        exact ⟨0, rfl⟩
  obtain ⟨v, hv⟩ := def'
  refine ⟨?_, C71_layout_partial e native t v hv⟩
  unfold Env.isLittle
  have k := endian_true t hv
  rw [hv]
  dsimp only
  split
  · rfl
  · rcases two with rfl | rfl
    · cases k; rfl
    · cases k; rfl

/-- x86-64 with GCC. -/
def exGcc (version gnuc : Int) : Env :=
  ⟨fun n => if n = "__cplusplus" then some version else if n = "__GNUC__" then some gnuc else if n = "__has_include" then some 1
    else if n = "__BYTE_ORDER__" then some 1234 else if n = "__ORDER_LITTLE_ENDIAN__" then some 1234
    else if n = "__ORDER_BIG_ENDIAN__" then some 4321 else if n = "__x86_64__" then some 1 else none, fun h => h == "<bit>"⟩

example : Truthful (exGcc 201703 8) .little := by
  constructor <;> simp [exGcc, Env.defd, Env.val]
example := C71_known_partial (exGcc 201703 8) .little (by constructor <;> simp [exGcc, Env.defd, Env.val]) (by decide) (.inr (.inl (by decide +kernel)))

/-- C71: the architectures that the header lists as big endian are never recognised by their names: for five of them the
headers do not compile, the other four are overlooked. -/
theorem C71_big_architectures (e : Env) (h : OnlyArch e) (t : Truthful e .big) (n : String)
    (hn : n ∈ ["__hppa", "__hpux", "__powerpc__", "__ppc__", "__s390__", "__sparc__", "__sparc", "_MIPSEB", "_POWER"])
    (hd : e.defd n = true) :
    (n ∈ ["__hppa", "__hpux", "__powerpc__", "__ppc__", "__s390__"] → e.endian = none) ∧
    (e.stdEndian = false → e.endian = none) ∧ e.endian ≠ some (some 1) := by
  have nl : ¬ e.anyOf Env.littleNames = true := by
    intro hb
    obtain ⟨m, hm, hd⟩ := Env.anyOf_true.1 hb
    cases t.littleArch m hm hd
  have na : ¬ (e.defd "_MSC_VER" && (e.defd "_M_ARM" || e.defd "_M_ARM64")) = true := by
    intro hb
    rw [Bool.and_eq_true, Bool.or_eq_true] at hb
    cases t.arm hb.1 hb.2
  have p1 : ¬ (e.defd "_LITTLE_ENDIAN" && !e.defd "_BIG_ENDIAN") = true := by rw [h.posix]; simp
  have p2 : ¬ (e.defd "_BIG_ENDIAN" && !e.defd "_LITTLE_ENDIAN") = true := by rw [h.posix]; simp
  have e1 : e.endian = if e.anyOf Env.bigNames then none else if !e.stdEndian then none else some none := by
    unfold Env.endian
    rw [if_neg (by simp [h.user]), if_neg (by simp [h.gnu]), if_neg (by simp [h.glibc]), if_neg p1, if_neg p2, if_neg nl, if_neg na]
  refine ⟨fun hm => ?_, fun hs => ?_, ?_⟩
  · rw [e1, if_pos (Env.anyOf_true (l := Env.bigNames).2 ⟨n, hm, hd⟩)]
  · rw [e1, hs]; simp
  · rw [e1]; split
    · simp
    · split <;> simp

example : ∃ e : Env, OnlyArch e ∧ Truthful e .big ∧ e.defd "__s390__" = true :=
  ⟨⟨fun n => if n = "__cplusplus" then some 201703 else if n = "__s390__" then some 1 else none, fun _ => false⟩,
   by constructor <;> simp [Env.defd], by constructor <;> simp [Env.defd], by decide +kernel⟩

/-- A compiler for SPARC that says nothing else. -/
def exSparc : Env := ⟨fun n => if n = "__cplusplus" then some 201703 else if n = "__sparc" then some 1 else none, fun _ => false⟩

theorem exSparc_ok : OnlyArch exSparc ∧ Truthful exSparc .big := by
  constructor
  · constructor <;> simp [exSparc, Env.defd]
  · constructor <;> simp [exSparc, Env.defd]

/-- C71: full statement refuted: a big endian architecture of the list is not recognised. -/
theorem C71_known : ¬ ∀ e : Env, OnlyArch e → Truthful e .big →
    (∃ n ∈ ["__hppa", "__hpux", "__powerpc__", "__ppc__", "__s390__", "__sparc__", "__sparc", "_MIPSEB", "_POWER"], e.defd n = true) →
    e.isLittle .big = some false := by
  intro h
  have := h exSparc exSparc_ok.1 exSparc_ok.2 ⟨"__sparc", by simp, by decide +kernel⟩
  revert this
  decide +kernel

/-- C71: `std::endian` is used exactly if the compiler says it is in a mode after C++17, by `_MSVC_LANG` or else by
`__cplusplus`, can be asked about headers, and has the header `<bit>`. -/
theorem C71_std_endian (e : Env) :
    e.stdEndian = true ↔
      (∃ v, (e.macros "_MSVC_LANG" = some v ∨ (e.macros "_MSVC_LANG" = none ∧ e.macros "__cplusplus" = some v)) ∧ 201703 < v) ∧
      e.macros "__has_include" ≠ none ∧ e.headers "<bit>" = true := by
  have key : e.stdEndian = (decide (201703 < e.cplusplus) && (e.defd "__has_include" && e.headers "<bit>")) := by
    unfold Env.stdEndian Env.cppVersion
    by_cases h1 : 201703 < e.cplusplus
    · simp [h1]
    · rw [if_neg h1, decide_eq_false h1]
      split
      · next v hv =>
        have : v < 20 := by
          split at hv
          · cases hv; decide
          · split at hv
            · cases hv; decide
            · split at hv <;> cases hv
              decide
        rw [decide_eq_false (by omega)]
        rfl
      · rfl
  rw [key, Bool.and_eq_true, Bool.and_eq_true, decide_eq_true_iff]
  simp only [Env.cplusplus, Env.defd, Env.val]
  rcases Option.eq_none_or_eq_some (e.macros "_MSVC_LANG") with h1 | ⟨v, h1⟩
  · rcases Option.eq_none_or_eq_some (e.macros "__cplusplus") with h2 | ⟨w, h2⟩ <;>
      rcases Option.eq_none_or_eq_some (e.macros "__has_include") with h3 | ⟨u, h3⟩ <;> simp [h1, h2, h3]
  · rcases Option.eq_none_or_eq_some (e.macros "__has_include") with h3 | ⟨u, h3⟩ <;> simp [h1, h3]

example : (⟨fun n => if n = "__cplusplus" then some 202002 else if n = "__has_include" then some 1 else none, fun n => n == "<bit>"⟩ : Env).stdEndian = true := by
  decide +kernel

/-- C71: a setting of the user decides unless `std::endian` is there, which then decides alone. -/
theorem C71_user (e : Env) (native : ByteOrder) (v : Int) (h : e.macros "IPADDRESS_ENDIAN" = some v) :
    e.isLittle native = some (if e.stdEndian then native == .little else v == 0) ∧ e.upperFirst = some (v == 1) := by
  have hd : e.defd "IPADDRESS_ENDIAN" = true := by simp [Env.defd, h]
  constructor
  · simp only [Env.isLittle, Env.endian, hd, if_true, h]
    split <;> rfl
  · simp only [Env.upperFirst, Env.endian, hd, if_true, h]
    rfl

example := C71_user ⟨fun n => if n = "IPADDRESS_ENDIAN" then some 1 else none, fun _ => false⟩ .big 1 rfl

/-- C71: names that are no macros count as 0.  A compiler that defines `__BYTE_ORDER__` but not
`__ORDER_LITTLE_ENDIAN__` is taken for little endian exactly if the value is 0, and with the headers of glibc but
without the names of its byte orders every machine is taken for little endian. -/
theorem C71_missing_names (e : Env) (h : e.macros "IPADDRESS_ENDIAN" = none) :
    (∀ v, e.macros "__BYTE_ORDER__" = some v → e.macros "__ORDER_LITTLE_ENDIAN__" = none →
      (e.endian = some (some 0) ↔ v = 0)) ∧
    (e.macros "__BYTE_ORDER__" = none → e.macros "__GLIBC__" ≠ none → e.macros "IPADDRESS_MODULE" = none →
      e.macros "__LITTLE_ENDIAN" = none →
      (e.endian = some (some 0) ↔ e.macros "__BYTE_ORDER" = none ∨ e.macros "__BYTE_ORDER" = some 0)) := by
  have d0 : e.defd "IPADDRESS_ENDIAN" = false := by simp [Env.defd, h]
  constructor
  · intro v h1 h2
    have d1 : e.defd "__BYTE_ORDER__" = true := by simp [Env.defd, h1]
    simp only [Env.endian, d0, d1, if_true, Env.val, h1, h2, Option.getD_some, Option.getD_none, Bool.false_eq_true, if_false]
    by_cases c : v = 0
    · simp [c]
    · rw [if_neg c]
      split <;> simp [c]
  · intro h1 h2 h3 h4
    have d1 : e.defd "__BYTE_ORDER__" = false := by simp [Env.defd, h1]
    have d2 : e.defd "__GLIBC__" = true := by simp only [Env.defd]; exact Option.isSome_iff_ne_none.mpr h2
    have d3 : e.defd "IPADDRESS_MODULE" = false := by simp [Env.defd, h3]
    have v1 : e.val "__LITTLE_ENDIAN" = 0 := by simp [Env.val, h4]
    have v2 : e.val "__BYTE_ORDER" = 0 ↔ e.macros "__BYTE_ORDER" = none ∨ e.macros "__BYTE_ORDER" = some 0 := by
      unfold Env.val
      cases k : e.macros "__BYTE_ORDER" <;> simp
    unfold Env.endian
    rw [d0, d1, d2, d3, if_neg (by decide), if_neg (by decide), if_pos (by decide : (true && !false) = true), v1, ← v2]
    by_cases c : e.val "__BYTE_ORDER" = 0
    · simp [c]
    · rw [if_neg c]
      split <;> simp [c]

example := C71_missing_names ⟨fun n => if n = "__BYTE_ORDER__" then some 0 else none, fun _ => false⟩ (by simp)

/-- C71: the length of scope ids is the one asked for, within 0 and 64, and 16 if nothing is asked for. -/
theorem C71_scope_length (e : Env) :
    0 ≤ e.scopeMax ∧ e.scopeMax ≤ 64 ∧ (e.defd "IPADDRESS_NO_IPV6_SCOPE" = true → e.scopeMax = 0) ∧
    (e.defd "IPADDRESS_NO_IPV6_SCOPE" = false →
      (∀ v, e.macros "IPADDRESS_IPV6_SCOPE_MAX_LENGTH" = some v → e.scopeMax = max 0 (min 64 v)) ∧
      (e.macros "IPADDRESS_IPV6_SCOPE_MAX_LENGTH" = none → e.scopeMax = 16)) := by
  unfold Env.scopeMax
  refine ⟨?_, ?_, fun h => by simp [h], fun h => ⟨fun v hv => ?_, fun hv => ?_⟩⟩
  · repeat' split
    all_goals omega
  · repeat' split
    all_goals omega
  · rw [if_neg (by simp [h]), if_pos (by simp [Env.defd, hv]), Env.val_some hv]
    omega
  · rw [if_neg (by simp [h]), if_neg (by simp [Env.defd, hv])]

example := ((C71_scope_length ⟨fun n => if n = "IPADDRESS_IPV6_SCOPE_MAX_LENGTH" then some 100 else none, fun _ => false⟩).2.2.2 (by decide +kernel)).1 100 (by decide +kernel)

/-- C71: the versions of the standard. -/
theorem C71_standards (e : Env) :
    (e.cplusplus = 199711 → e.cppVersion = none) ∧ (e.cplusplus = 201103 → e.cppVersion = some 11) ∧
    (e.cplusplus = 201402 → e.cppVersion = some 14) ∧ (e.cplusplus = 201703 → e.cppVersion = some 17) ∧
    (e.cplusplus ≥ 202002 → e.cppVersion = some 20) ∧
    (∀ v, e.macros "_MSVC_LANG" = some v → e.cplusplus = v) := by
  refine ⟨fun h => ?_, fun h => ?_, fun h => ?_, fun h => ?_, fun h => ?_, fun v hv => ?_⟩
  · simp [Env.cppVersion, h]
  · simp [Env.cppVersion, h]
  · simp [Env.cppVersion, h]
  · simp [Env.cppVersion, h]
  · rw [Env.cppVersion, if_pos (by omega)]
  · simp [Env.cplusplus, Env.defd, hv, Env.val]

example := (C71_standards (exGcc 201402 8)).2.2.1 (by decide +kernel)

/-! ### Errors during compilation -/

/-- The compilers with which a build without exceptions can tell the two phases apart. -/
def exModern : Env := exGcc 201703 9

/-- C72: with these compilers a constant that is initialised from a text compiles exactly if the text is accepted. -/
theorem C72_constants_partial {α : Type} (e : Env) (h : e.val "__cpp_lib_is_constant_evaluated" ≥ 201811 ∨ e.val "__GNUC__" ≥ 6)
    (dflt : α) (r : Res α) : ∀ a, e.constantNoExc dflt r = some a ↔ r = .ok a := by
  intro a
  have k : e.constEvaluated .compile = true := by
    unfold Env.constEvaluated
    split
    · rfl
    split
    · rfl
    split
    · rfl
    · omega
  cases r with
  | ok b => simp [Env.constantNoExc, Env.parseNoExc]
  | ub => simp [Env.constantNoExc, Env.parseNoExc]
  | err c v => simp [Env.constantNoExc, Env.parseNoExc, Env.raiseNoExc, k, bind, Res.bind]

example : exModern.val "__GNUC__" ≥ 6 := by decide +kernel
example : exModern.constantNoExc [0, 0, 0, 0] (v4Parse "127.0.0.1".toList) = some [127, 0, 0, 1] := by decide +kernel
example : exModern.constantNoExc [0, 0, 0, 0] (v4Parse "127.0.0.256".toList) = none := by decide +kernel

/-- C72: with the others (Clang and Visual C++ before C++20) every text compiles; a text that is not accepted is the
default constructed object. -/
theorem C72_constants_exact {α : Type} (e : Env) (h : e.val "__cpp_lib_is_constant_evaluated" < 201811) (hg : e.val "__GNUC__" < 6)
    (dflt : α) (r : Res α) (hr : r ≠ .ub) :
    ∃ a, e.constantNoExc dflt r = some a ∧ (r = .ok a ∨ (∃ code v, r = .err code v) ∧ a = dflt) := by
  have k : e.constEvaluated .compile = false := by
    unfold Env.constEvaluated
    rw [if_neg (by omega), if_neg (by omega), if_neg (by omega)]
  cases r with
  | ok b => exact ⟨b, rfl, .inl rfl⟩
  | ub => exact absurd rfl hr
  | err c v => exact ⟨dflt, by simp [Env.constantNoExc, Env.parseNoExc, Env.raiseNoExc, k], .inr ⟨⟨c, v, rfl⟩, rfl⟩⟩

example := C72_constants_exact (exGcc 201703 4) (by decide +kernel) (by decide +kernel) [0#8, 0, 0, 0] (.err .invalid_netmask 3) (by simp)

/-- Clang says that it is GCC 4. -/
def exClang : Env := exGcc 201703 4

/-- C72: full statement refuted. -/
theorem C72_constants : ¬ ∀ (e : Env) (s : List Char) (a : List (BitVec 8)),
    e.constantNoExc [0, 0, 0, 0] (v4Parse s) = some a → v4Parse s = .ok a := by
  intro h
  have := h exClang "127.0.0.256".toList [0, 0, 0, 0] (by decide +kernel)
  revert this
  decide +kernel

/-- C72: when the program runs, the functions return the address or the default constructed object, except with GCC 6
to 8 for texts whose length the compiler knows. -/
theorem C72_run_exact (e : Env) (known : Bool) :
    (e.raiseNoExc (.run known) = .ub ↔
      known = true ∧ e.val "__cpp_lib_is_constant_evaluated" < 201811 ∧ 6 ≤ e.val "__GNUC__" ∧ e.val "__GNUC__" < 9) ∧
    (e.raiseNoExc (.run known) ≠ .ub → ∀ {α : Type} (dflt : α) (r : Res α), r ≠ .ub →
      ∃ a, e.parseNoExc (.run known) dflt r = .ok a ∧ (r = .ok a ∨ (∃ code v, r = .err code v) ∧ a = dflt)) := by
  constructor
  · unfold Env.raiseNoExc Env.constEvaluated
    by_cases h1 : e.val "__cpp_lib_is_constant_evaluated" ≥ 201811
    · simp [h1]
    · by_cases h2 : e.val "__GNUC__" ≥ 9
      · simp [h1, h2]
      · by_cases h3 : e.val "__GNUC__" ≥ 6
        · cases known <;> simp [h1, h2, h3] <;> omega
        · simp [h1, h2, h3]
  · intro h α dflt r hr
    have k : e.raiseNoExc (.run known) = .ok () := by
      unfold Env.raiseNoExc at h ⊢
      split
      · rename_i h'; simp [h'] at h
      · rfl
    cases r with
    | ok b => exact ⟨b, rfl, .inl rfl⟩
    | ub => exact absurd rfl hr
    | err c v => exact ⟨dflt, by simp [Env.parseNoExc, k], .inr ⟨⟨c, v, rfl⟩, rfl⟩⟩

example := (C72_run_exact (exGcc 201703 8) true).1.2 (by decide +kernel)

/-- C72: full statement refuted: GCC 8, a literal of known length. -/
theorem C72_run : ¬ ∀ (e : Env) (known : Bool) (s : List Char), e.parseNoExc (.run known) [0#8, 0#8, 0#8, 0#8] (v4Parse s) ≠ .ub := by
  intro h
  exact h (exGcc 201703 8) true "127.0.0.256".toList (by decide +kernel)

example : exModern.raiseNoExc (.run true) ≠ .ub := by decide +kernel

end Ip
