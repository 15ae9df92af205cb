import Verif.Lemmas.NetParse
import Verif.Lemmas.NetText
import Verif.Lemmas.AnyNet
import Verif.Lemmas.Events
/-
No text is accepted by the network parsers of both versions.
-/
set_option autoImplicit false

namespace Ip
open Spec

/-- The characters before the first slash or bad code point. -/
def leadChars : List Ev → List Char
  | .ch c :: r => if c = '/' then [] else c :: leadChars r
  | .bad _ _ :: _ => []
  | [] => []

section
variable {A U : Type} (F : Fam A U)

theorem parseLoop_keep : ∀ (evs : List Ev) (st st' : Fam.ParseSt), st.netmask.isSome → F.parseLoop evs st = .ok st' →
    st'.address = st.address
  | [], st, st', _, h => by cases h; rfl
  | .bad _ _ :: _, st, st', _, h => by cases h
  | .ch c :: rest, st, st', hs, h => by
    rw [Fam.parseLoop] at h
    split at h
    · cases h
    · have e : F.storeChar c st = .ok (st, decide (st.symbol > F.maxLen)) := by
        rw [Fam.storeChar, if_neg (by cases hn : st.netmask <;> simp_all)]
      rw [e, Res.ok_bind] at h
      split at h
      · cases h; rfl
      · exact parseLoop_keep rest st st' hs h

theorem parseLoop_address : ∀ (evs : List Ev) (pre rest : List Char) (st' : Fam.ParseSt),
    pre.length + rest.length = F.maxLen + 1 → pre.length ≤ F.maxLen →
    F.parseLoop evs ⟨pre.length, pre ++ rest, none⟩ = .ok st' →
    st'.address = pre ++ ((leadChars evs).take rest.length ++ rest.drop (leadChars evs).length)
  | [], pre, rest, st', _, _, h => by cases h; simp [leadChars]
  | .bad _ _ :: _, pre, rest, st', _, _, h => by cases h
  | .ch c :: evs, pre, [], st', h1, h2, h => by simp at h1; omega
  | .ch c :: evs, pre, x :: rest, st', h1, h2, h => by
    rw [Fam.parseLoop] at h
    split at h
    · next hc =>
      simp only [Option.isSome_none, Bool.false_eq_true, if_false] at h
      split at h
      · cases h
      · simp only [Fam.storeChar, Option.isNone_some, Bool.false_eq_true, if_false, Res.ok_bind] at h
        rw [decide_eq_false (by omega)] at h
        simp only [Bool.false_eq_true, if_false] at h
        rw [parseLoop_keep F evs _ st' rfl h]
        simp [leadChars, hc]
    · next hc =>
      simp only [Fam.storeChar, Option.isNone_none, if_true, wr_append pre x c rest pre.length rfl, Res.ok_bind] at h
      simp only [List.length_cons] at h1
      have e : leadChars (.ch c :: evs) = c :: leadChars evs := by simp [leadChars, hc]
      by_cases hl : pre.length + 1 > F.maxLen
      · rw [decide_eq_true hl] at h
        cases h
        obtain rfl : rest = [] := List.length_eq_zero_iff.1 (by omega)
        simp [e]
      · rw [decide_eq_false hl] at h
        have h : F.parseLoop evs ⟨(pre ++ [c]).length, (pre ++ [c]) ++ rest, none⟩ = .ok st' := by
          simpa using h
        have := parseLoop_address evs (pre ++ [c]) rest st' (by simp; omega) (by simp; omega) h
        rw [this, e]
        simp

theorem cstr_take_eq (l : List Char) (k : Nat) : ∀ n, cstr ((l ++ List.replicate k '\x00').take n) = (cstr l).take n := by
  induction l with
  | nil =>
    intro n
    cases k with
    | zero => simp [cstr]
    | succ k => cases n <;> simp [cstr, List.replicate_succ]
  | cons c cs ih =>
    intro n
    cases n with
    | zero => simp [cstr]
    | succ n =>
      have := ih n
      simp only [cstr, List.cons_append, List.take_succ_cons, List.takeWhile_cons] at this ⊢
      split
      · rw [this]; simp
      · simp

/-- The address text a network parser sees. -/
theorem parseNet_text (evs : List Ev) (strict : Bool) (n : Net A) (h : F.parseNet evs strict = .ok n) :
    ∃ arr f a, mkFixed arr = .ok f ∧ f.contents = (cstr (leadChars evs)).take F.maxLen ∧ F.parseArray arr = .ok a := by
  rw [Fam.parseNet, Res.bind_eq_ok] at h
  obtain ⟨st, h1, h⟩ := h
  rw [Res.bind_eq_ok] at h
  obtain ⟨m, _, h⟩ := h
  rw [Res.bind_eq_ok] at h
  obtain ⟨a, h3, _⟩ := h
  have h3 := withValue_ok _ _ _ h3
  obtain ⟨f, g1, _, _, g4⟩ := mkFixed_eq st.address
  refine ⟨st.address, f, a, g1, ?_, h3⟩
  have e := parseLoop_address F evs [] (List.replicate (F.maxLen + 1) '\x00') st (by simp) (by simp) h1
  rw [g4, e]
  simp only [List.nil_append, List.length_replicate, List.drop_replicate]
  have hl : ((leadChars evs).take (F.maxLen + 1) ++ List.replicate (F.maxLen + 1 - (leadChars evs).length) '\x00').length - 1 = F.maxLen := by
    simp; omega
  rw [hl, cstr_take_eq]
  have := cstr_take_eq (leadChars evs) 0 (F.maxLen + 1)
  rw [List.replicate_zero, List.append_nil] at this
  rw [this, List.take_take, Nat.min_eq_left (by omega)]

end

theorem HexNum_dotless : ∀ (t : List Char) (v : Nat), HexNum t v → '.' ∉ t := by
  intro t v h
  induction h with
  | nil => simp
  | snoc t c v d _ hd ih =>
    have : c ≠ '.' := by
      rintro rfl
      rcases hd with hd | hd
      · have := List.mem_of_getElem? hd; simp [hexLower] at this
      · have := List.mem_of_getElem? hd; simp [hexUpper] at this
    simp [ih, Ne.symm this]

theorem Groups_colon_split (t : List Char) (vs : List Nat) (r : List Char) (h : t = [] ∨ Groups t vs) :
    ∃ g s, t ++ ':' :: r = g ++ ':' :: s ∧ '.' ∉ g := by
  rcases h with rfl | h
  · exact ⟨[], r, rfl, by simp⟩
  · cases h with
    | one _ v h => exact ⟨t, r, rfl, HexNum_dotless _ _ h.2.2⟩
    | cons g v s vs h _ => exact ⟨g, s ++ ':' :: r, by simp, HexNum_dotless _ _ h.2.2⟩

/-- Before the first colon of an IPv6 text there is no dot. -/
theorem V6Text_split (s : List Char) (vs : List Nat) (h : V6Text s vs) : ∃ g r, s = g ++ ':' :: r ∧ '.' ∉ g := by
  cases h with
  | full _ _ h hl =>
    cases h with
    | one => simp at hl
    | quad => simp at hl
    | cons g v s vs h _ => exact ⟨g, s, rfl, HexNum_dotless _ _ h.2.2⟩
  | compressed sh hi sl lo h1 _ _ =>
    exact Groups_colon_split sh hi _ (h1.imp_left And.left)

theorem noDot_prefix : ∀ (p g r : List Char), p <+: g ++ ':' :: r → ':' ∉ p → '.' ∉ g → '.' ∉ p
  | [], _, _, _, _, _ => by simp
  | c :: p, [], r, h, hc, _ => by
    obtain ⟨t, h⟩ := h
    simp only [List.cons_append, List.nil_append, List.cons.injEq] at h
    exact absurd (by simp [h.1]) hc
  | c :: p, d :: g, r, h, hc, hg => by
    obtain ⟨t, h⟩ := h
    simp only [List.cons_append, List.cons.injEq] at h
    have := noDot_prefix p g r ⟨t, h.2⟩ (fun h => hc (by simp [h])) (fun h => hg (by simp [h]))
    intro hm
    rcases List.mem_cons.1 hm with e | e
    · exact hg (by rw [e, h.1]; simp)
    · exact this e

/-- An IPv6 text does not begin with a dotted quad. -/
theorem not_v6_of_dotted (spaces : Bool) (M : Nat) (s : List Char) (hn : ∀ c ∈ s, c ≠ '\x00') (a b c d : BitVec 8)
    (hp : dotted a b c d <+: s) (x : V6) : v6FromEvents spaces M (readChars s) ≠ .ok x := by
  intro h
  rcases v6Parse_rel spaces M s hn with ⟨ip, z, vs, _, ⟨h1, h2, _⟩, _⟩ | ⟨_, e, v, he⟩
  · obtain ⟨g, r, hg, hd⟩ := V6Text_split ip vs h2
    rw [h1, hg, List.append_assoc] at hp
    have := noDot_prefix _ g _ hp (fun h => (dotted_noColon a b c d ':' h).1 rfl) hd
    exact this (by simp [dotted])
  · rw [v6Parse, h] at he
    cases he

theorem parseNet_disjoint (c : Cfg) (evs : List Ev) (strict : Bool) (n : Net (List (BitVec 8))) (m : Net V6)
    (h4 : (fam4 true).parseNet evs strict = .ok n) (h6 : (fam6 c).parseNet evs strict = .ok m) : False := by
  obtain ⟨r4, f4, a4, g1, g2, g3⟩ := parseNet_text (fam4 true) evs strict n h4
  obtain ⟨r6, f6, a6, k1, k2, k3⟩ := parseNet_text (fam6 c) evs strict m h6
  have g3 : v4ParseArray r4 = .ok a4 := g3
  have k3 : v6ParseArray c.spaces c.M r6 = .ok a6 := k3
  rw [v4ParseArray, g1, Res.ok_bind, g2] at g3
  rw [v6ParseArray, k1, Res.ok_bind, k2] at k3
  obtain ⟨p, q, r, s, _, e⟩ := v4FromEvents_ok g3
  have e : (cstr (leadChars evs)).take 15 = dotted p q r s := by
    have := e
    simp only [readChars] at this
    exact (List.map_inj_right (fun _ _ h => by cases h; rfl)).1 this
  refine not_v6_of_dotted c.spaces c.M _ ?_ p q r s ?_ a6 k3
  · intro x hx
    have hx := List.mem_of_mem_take hx
    have := List.all_eq_true.1 (List.all_takeWhile (p := fun c : Char => decide (c ≠ '\x00')) (l := leadChars evs)) x hx
    simpa using this
  · rw [← e]
    show (cstr (leadChars evs)).take 15 <+: (cstr (leadChars evs)).take (41 + c.M)
    exact List.take_prefix_take_left (by omega)

end Ip
