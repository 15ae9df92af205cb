import Verif.Lemmas.PointersFixed
import Verif.Lemmas.Diag6Shape
import Verif.Lemmas.V6Split
set_option autoImplicit false

namespace Ip
open Spec Res

section
variable {U : Type} {next : PReader U} {enc : Enc U} {Ch : Nat → List U → Prop} {span : U → Nat} (L : PLaw next enc Ch span)
include L

/-- Which units are read as the characters `s`. -/
theorem events_chars_iff (us : List U) (s : List Char) : enc.events us = readChars s ↔ Writes Ch us s := by
  constructor
  · intro h
    induction s generalizing us with
    | nil =>
      cases us with
      | nil => exact ⟨[], rfl, rfl, by simp⟩
      | cons u l =>
        cases hx : enc.next u l with
        | mk ev r =>
          cases ev with
          | ch c => rw [L.law.cons_ch _ _ _ _ hx] at h; cases h
          | bad => rw [L.law.cons_bad _ _ _ _ _ hx] at h; cases h
    | cons c s ih =>
      cases us with
      | nil => rw [L.law.nil] at h; cases h
      | cons u l =>
        cases hx : enc.next u l with
        | mk ev r =>
          cases ev with
          | bad => rw [L.law.cons_bad _ _ _ _ _ hx] at h; cases h
          | ch c' =>
            rw [L.law.cons_ch _ _ _ _ hx] at h
            simp only [readChars, List.map_cons, List.cons.injEq, Ev.ch.injEq] at h
            obtain ⟨rfl, h⟩ := h
            obtain ⟨gs, h1, h2, h3⟩ := ih r h
            have hr := L.rest u l
            rw [hx] at hr
            refine ⟨(c', u :: l.take (span u - 1)) :: gs, ?_, ?_, ?_⟩
            · rw [List.flatMap_cons, ← h1]
              simp only [List.cons_append, List.cons.injEq, true_and]
              rw [show r = l.drop (span u - 1) from hr, List.take_append_drop]
            · simp [h2]
            · intro x hm
              rcases List.mem_cons.1 hm with rfl | hm
              · exact L.taken u l c' (by rw [hx])
              · exact h3 x hm
  · rintro ⟨gs, rfl, rfl, h⟩
    induction gs with
    | nil => exact L.law.nil
    | cons g gs ih =>
      rw [List.flatMap_cons, List.map_cons]
      have hg := h g (by simp)
      have hne := L.ne _ _ hg
      obtain ⟨u, l, hul⟩ : ∃ u l, g.2 = u :: l := by
        cases hx : g.2 with
        | nil => exact absurd hx hne
        | cons u l => exact ⟨u, l, rfl⟩
      obtain ⟨c, hc, hn⟩ := L.unique _ _ u (l ++ gs.flatMap (·.2)) (gs.flatMap (·.2)) hg (by rw [hul]; rfl)
      rw [hul, List.cons_append, L.law.cons_ch _ _ _ _ hn, Char.toNat_inj.1 hc, ih (fun x hx => h x (by simp [hx]))]
      rfl

/-- A text that overruns its array ends in a wrong encoding. -/
theorem over_wrong {P : Nat → Prop} {k : Nat} {us : List U} (h : Overruns Ch span P k us) :
    Ev.bad .wrong_encoding_sequence 0 ∈ enc.events us := by
  obtain ⟨gs, u, r, rfl, hg, hk⟩ := h
  induction gs with
  | nil =>
    have := L.wrong u r (by omega)
    cases hx : enc.next u r with
    | mk ev r' =>
      rw [hx] at this
      simp only at this
      subst this
      simp only [List.flatMap_nil, List.nil_append]
      rw [L.law.cons_bad _ _ _ _ _ hx]
      simp
  | cons g gs ih =>
    rw [List.flatMap_cons, List.append_assoc]
    have hg' := (hg g (by simp)).1
    have hne := L.ne _ _ hg'
    obtain ⟨v, l, hul⟩ : ∃ u l, g.2 = u :: l := by
      cases hx : g.2 with
      | nil => exact absurd hx hne
      | cons u l => exact ⟨u, l, rfl⟩
    obtain ⟨c, hc, hn⟩ := L.unique _ _ v (l ++ (gs.flatMap (·.2) ++ u :: r)) _ hg' (by rw [hul]; rfl)
    rw [hul, List.cons_append, L.law.cons_ch _ _ _ _ hn]
    exact List.mem_cons_of_mem _ (ih fun x hx => hg x (by simp [hx]))

end

theorem split_first {c : Char} : ∀ {s : List Char}, c ∈ s → ∃ a b, s = a ++ c :: b ∧ c ∉ a
  | [], h => by cases h
  | x :: s, h => by
    by_cases hx : x = c
    · exact ⟨[], s, by rw [hx]; rfl, by simp⟩
    · obtain ⟨a, b, h1, h2⟩ := split_first (s := s) (by simpa [Ne.symm hx] using h)
      exact ⟨x :: a, b, by rw [h1]; rfl, by simp [Ne.symm hx, h2]⟩

theorem readChars_inj {a b : List Char} (h : readChars a = readChars b) : a = b := by
  induction a generalizing b with
  | nil => cases b with
    | nil => rfl
    | cons => cases h
  | cons x a ih =>
    cases b with
    | nil => cases h
    | cons y b =>
      simp only [readChars, List.map_cons, List.cons.injEq, Ev.ch.injEq] at h
      rw [h.1, ih h.2]

/-- When the address is empty after the scope was split off. -/
theorem splitScope_empty_iff (spaces : Bool) (M : Nat) (evs : List Ev) :
    (evs ≠ [] ∧ ∃ buf, splitScope spaces M evs = .ok ([], buf)) ↔ ∃ s, evs = readChars s ∧ ZoneOnly (ZoneOk spaces M) s := by
  constructor
  · rintro ⟨hne, buf, h⟩
    have h' := h
    unfold splitScope at h
    obtain ⟨st, h1, _⟩ := Res.bind_eq_ok.1 h
    obtain ⟨s, rfl⟩ := scopeLoop_ok spaces M _ _ _ h1
    refine ⟨s, rfl, ?_⟩
    by_cases hp : '%' ∈ s
    · obtain ⟨ip, z, rfl, hip⟩ : ∃ ip z, s = ip ++ '%' :: z ∧ ∀ c ∈ ip, c ≠ '%' := by
        obtain ⟨ip, z, h1, h2⟩ := split_first hp
        exact ⟨ip, z, h1, fun c hc e => h2 (e ▸ hc)⟩
      rcases splitScope_some spaces M ip z hip with ⟨h1, h2, h3, h4⟩ | ⟨_, e, v, h4⟩
      · rw [h4] at h'
        simp only [Res.ok.injEq, Prod.mk.injEq] at h'
        rw [h'.1]
        exact ⟨z, rfl, h2, h3, h1⟩
      · rw [h4] at h'; cases h'
    · rw [splitScope_none spaces M s (fun c hc e => hp (e ▸ hc))] at h'
      simp only [Res.ok.injEq, Prod.mk.injEq] at h'
      rw [h'.1] at hne
      exact absurd rfl hne
  · rintro ⟨s, rfl, z, rfl, h1, h2, h3⟩
    refine ⟨by simp [readChars], ?_⟩
    have := splitScope_zone (ip := []) (by simp) h3
    rw [List.nil_append] at this
    rw [this, if_neg (by simp [h1, h2])]
    exact ⟨_, rfl⟩

/-- The first character of the address part of a network is the first of the text. -/
theorem parseLoop_first {A V : Type} (F : Fam A V) : ∀ (evs : List Ev) (st st' : Fam.ParseSt),
    F.parseLoop evs st = .ok st' → st.address[0]? ≠ some '%' →
    (st.symbol = 0 → st.netmask.isSome = true ∨ evs.head? ≠ some (.ch '%')) → st'.address[0]? ≠ some '%'
  | [], st, st', h, h1, _ => by cases h; exact h1
  | .bad _ _ :: _, st, st', h, _, _ => by cases h
  | .ch c :: rest, st, st', h, h1, h2 => by
    have key : ∀ (st : Fam.ParseSt) r, F.storeChar c st = .ok r → st.address[0]? ≠ some '%' →
        (st.symbol = 0 → st.netmask.isSome = true ∨ c ≠ '%') →
        r.1.address[0]? ≠ some '%' ∧ (r.1.symbol = 0 → r.1.netmask.isSome = true) := by
      intro st r hr h1 h2
      unfold Fam.storeChar at hr
      split at hr
      · rename_i hn
        obtain ⟨a, hw, h4⟩ := Res.bind_eq_ok.1 hr
        cases h4
        refine ⟨?_, fun h => by simp at h⟩
        unfold wr at hw
        split at hw
        · cases hw
          simp only
          by_cases h0 : st.symbol = 0
          · rw [h0]
            rcases h2 h0 with h | h
            · simp at hn; rw [hn] at h; cases h
            · rw [List.getElem?_set]
              simp only [if_true]
              split
              · simpa using h
              · simp
          · rw [List.getElem?_set, if_neg h0]
            exact h1
        · cases hw
      · rename_i hn
        cases hr
        refine ⟨h1, fun _ => ?_⟩
        cases hm : st.netmask with
        | none => rw [hm] at hn; simp at hn
        | some => rfl
    rw [Fam.parseLoop] at h
    split at h
    · split at h
      · cases h
      · split at h
        · cases h
        · obtain ⟨r, k1, k2⟩ := Res.bind_eq_ok.1 h
          obtain ⟨m1, m2⟩ := key _ _ k1 h1 (fun _ => Or.inl rfl)
          split at k2
          · cases k2; exact m1
          · exact parseLoop_first F rest _ _ k2 m1 fun h0 => Or.inl (m2 h0)
    · obtain ⟨r, k1, k2⟩ := Res.bind_eq_ok.1 h
      obtain ⟨m1, m2⟩ := key _ _ k1 h1 (fun h0 => (h2 h0).imp id (fun h e => h (by rw [e]; rfl)))
      split at k2
      · cases k2; exact m1
      · exact parseLoop_first F rest _ _ k2 m1 fun h0 => Or.inl (m2 h0)

theorem v6ArrayP_first (arr : List Char) (nullLess spaces : Bool) (M : Nat) (h : nullLess = false ∨ arr[0]? ≠ some '%') :
    v6ArrayP charNextP arr nullLess spaces M = v6ParseArray spaces M arr := by
  rcases v6ArrayP_char arr nullLess spaces M with h' | ⟨_, h1, f, buf, h2, h3, h4⟩
  · exact h'
  · rcases h with h | h
    · rw [h] at h1; cases h1
    · exfalso
      obtain ⟨f', g1, g2, g3, g4⟩ := mkFixed_eq arr
      rw [h2] at g1
      cases g1
      have hne : readChars f.contents ≠ [] := by
        intro e
        have := congrArg List.length e
        have hl := mkFixed_len h2
        simp [readChars, FStr.contents] at this
        rcases this with h | h
        · omega
        · rw [h] at hl; simp at hl; omega
      obtain ⟨s, e1, z, rfl, _⟩ := (splitScope_empty_iff spaces M _).1 ⟨hne, buf, h4⟩
      have e2 : f.contents = '%' :: z := readChars_inj e1
      rw [g4] at e2
      unfold cstr at e2
      cases arr with
      | nil => simp at e2
      | cons a as =>
        simp only [List.length_cons, Nat.add_sub_cancel] at e2
        cases as with
        | nil => simp at e2
        | cons b bs =>
          simp only [List.length_cons, List.take_succ_cons, List.takeWhile_cons] at e2
          split at e2
          · simp only [List.cons.injEq] at e2
            rw [e2.1] at h
            simp at h
          · cases e2

end Ip
