import Verif.Lemmas.PointersPlace
/-
IPv6 networks whose text starts with a percent sign, read through pointers.
-/
set_option autoImplicit false

namespace Ip
open Spec Res

/-- All codes but one. -/
def Not3 (c : ErrorCode) : Prop := c ≠ .least_3_parts

instance (c : ErrorCode) : Decidable (Not3 c) := by unfold Not3; infer_instance

theorem Res.ErrIn.ne3 {α : Type} {x : Res α} (h : x.ErrIn Not3) (v : Nat) : x ≠ .err .least_3_parts v :=
  fun e => h _ _ e rfl

theorem scopeStep_3 (spaces : Bool) (M : Nat) (st : ScopeSt) (c : Char) : ErrIn Not3 (scopeStep spaces M st c) := by
  unfold scopeStep; errin

theorem scopeLoop_3 (spaces : Bool) (M : Nat) : ∀ (evs : List Ev) (st : ScopeSt), BadIn Not3 evs →
    ErrIn Not3 (scopeLoop spaces M st evs)
  | [], st, _ => by rw [scopeLoop]; errin
  | .bad code sym :: rest, st, h => ErrIn.err _ _ (h code sym (by simp))
  | .ch c :: rest, st, h => ErrIn.bind (scopeStep_3 spaces M st c) fun st' => scopeLoop_3 spaces M rest st' h.tail

theorem splitScope_3 (spaces : Bool) (M : Nat) (evs : List Ev) (h : BadIn Not3 evs) : ErrIn Not3 (splitScope spaces M evs) := by
  unfold splitScope
  refine ErrIn.bind (scopeLoop_3 spaces M evs _ h) fun _ => ?_
  errin

theorem digitsLoop_3 : ∀ (evs : List Ev) (p : Nat), BadIn Not3 evs → ErrIn Not3 (digitsLoop evs p)
  | [], _, _ => by rw [digitsLoop]; errin
  | .bad code sym :: rest, _, h => ErrIn.err _ _ (h code sym (by simp))
  | .ch c :: rest, p, h => by
    rw [digitsLoop]
    exact ErrIn.ite (digitsLoop_3 rest _ h.tail) (ErrIn.ok _)

theorem v6PrefixLoop_3 : ∀ (n i : Nat) (b : List (BitVec 8)), ErrIn Not3 (v6PrefixLoop n i b)
  | 0, _, _ => by rw [v6PrefixLoop]; errin
  | n + 1, i, b => by
    rw [v6PrefixLoop]
    exact ErrIn.bind (ErrIn.wr _ _ _) fun _ => v6PrefixLoop_3 n _ _

theorem v6FromPrefix_3 (p : Nat) : ErrIn Not3 (v6FromPrefix p) := by
  unfold v6FromPrefix
  exact ErrIn.bind (v6PrefixLoop_3 _ _ _) fun _ => ErrIn.ite (ErrIn.wr _ _ _) (ErrIn.ok _)

theorem v6ParseNetmask_3 (evs : List Ev) (h : BadIn Not3 evs) : ErrIn Not3 (v6ParseNetmask evs) := by
  unfold v6ParseNetmask
  refine ErrIn.bind (digitsLoop_3 evs 0 h) fun d => ?_
  split
  · exact ErrIn.ite (ErrIn.err _ _ (by decide)) (ErrIn.bind (v6FromPrefix_3 _) fun _ => ErrIn.ok _)
  · exact ErrIn.err _ _ (by decide)

theorem parseLoop_3 {A U : Type} (F : Fam A U) : ∀ (evs : List Ev) (st : Fam.ParseSt), BadIn Not3 evs →
    ErrIn Not3 (F.parseLoop evs st)
  | [], _, _ => by rw [Fam.parseLoop]; errin
  | .bad code sym :: rest, _, h => ErrIn.err _ _ (h code sym (by simp))
  | .ch c :: rest, st, h => by
    have hs : ∀ st, ErrIn Not3 (F.storeChar c st) := by intro st; unfold Fam.storeChar; errin
    rw [Fam.parseLoop]
    refine ErrIn.ite (ErrIn.ite (ErrIn.err _ _ (by decide)) (ErrIn.ite (ErrIn.err _ _ (by decide)) ?_)) ?_
    · exact ErrIn.bind (hs _) fun _ => ErrIn.ite (ErrIn.ok _) (parseLoop_3 F rest _ h.tail)
    · exact ErrIn.bind (hs _) fun _ => ErrIn.ite (ErrIn.ok _) (parseLoop_3 F rest _ h.tail)

theorem Enc.Law.bad3 {U : Type} {enc : Enc U} (L : enc.Law) : ∀ (n : Nat) (us : List U), us.length ≤ n → BadIn Not3 (enc.events us)
  | n, [], _ => by rw [L.nil]; intro c v h; cases h
  | 0, u :: r, h => by simp at h
  | n + 1, u :: r, h => by
    have hl := L.len u r
    rcases e : enc.next u r with ⟨c | ⟨c, s⟩, r'⟩
    rotate_left
    · rw [L.cons_bad _ _ _ _ _ e]
      intro c' v hm
      simp only [List.mem_singleton, Ev.bad.injEq] at hm
      rcases L.code _ _ _ _ _ e with h | h <;> (rw [hm.1, h]; decide)
    · rw [L.cons_ch _ _ _ _ e]
      rw [e] at hl
      have ih := Enc.Law.bad3 L n r' (by simp only [List.length_cons] at h; simp only at hl; omega)
      intro c' v hm
      simp only [List.mem_cons, reduceCtorEq, false_or] at hm
      exact ih c' v hm

/-- The address of a text that starts with a percent sign starts with one. -/
theorem parseLoop_keeps {A V : Type} (F : Fam A V) : ∀ (evs : List Ev) (st st' : Fam.ParseSt),
    F.parseLoop evs st = .ok st' → (st.address[0]? = some '%' ∧ 0 < st.symbol ∨
      st.symbol = 0 ∧ st.netmask = none ∧ evs.head? = some (.ch '%')) → st'.address[0]? = some '%'
  | [], st, st', h, h1 => by
    cases h
    rcases h1 with h1 | h1
    · exact h1.1
    · simp at h1
  | .bad _ _ :: _, st, st', h, _ => by cases h
  | .ch c :: rest, st, st', h, h1 => by
    have key : ∀ (st : Fam.ParseSt) r, F.storeChar c st = .ok r →
        (st.address[0]? = some '%' ∧ 0 < st.symbol ∨ st.symbol = 0 ∧ st.netmask = none ∧ c = '%') →
        r.1.address[0]? = some '%' ∧ 0 < r.1.symbol := by
      intro st r hr h1
      unfold Fam.storeChar at hr
      split at hr
      · rename_i hn
        obtain ⟨a, hw, h4⟩ := Res.bind_eq_ok.1 hr
        cases h4
        refine ⟨?_, Nat.succ_pos _⟩
        unfold wr at hw
        split at hw
        · rename_i hlt
          cases hw
          simp only
          rcases h1 with ⟨h1, h2⟩ | ⟨h1, -, h2⟩
          · rw [List.getElem?_set, if_neg (by omega)]
            exact h1
          · rw [h1, List.getElem?_set, if_pos rfl, if_pos (by omega), h2]
        · cases hw
      · rename_i hn
        cases hr
        rcases h1 with h1 | ⟨-, h1, -⟩
        · exact h1
        · rw [h1] at hn
          simp at hn
    rw [Fam.parseLoop] at h
    split at h
    · rename_i hc
      have h1' : st.address[0]? = some '%' ∧ 0 < st.symbol := by
        rcases h1 with h1 | ⟨-, -, h1⟩
        · exact h1
        · simp only [List.head?_cons, Option.some.injEq, Ev.ch.injEq] at h1
          rw [h1] at hc
          exact absurd hc (by decide)
      split at h
      · cases h
      · split at h
        · cases h
        · obtain ⟨r, k1, k2⟩ := Res.bind_eq_ok.1 h
          have m := key _ _ k1 (.inl h1')
          split at k2
          · cases k2; exact m.1
          · exact parseLoop_keeps F rest _ _ k2 (.inl m)
    · obtain ⟨r, k1, k2⟩ := Res.bind_eq_ok.1 h
      have m := key _ _ k1 (h1.imp id fun h => ⟨h.1, h.2.1, by
        have := h.2.2
        simpa only [List.head?_cons, Option.some.injEq, Ev.ch.injEq] using this⟩)
      split at k2
      · cases k2; exact m.1
      · exact parseLoop_keeps F rest _ _ k2 (.inl m)

theorem parseAddr_empty : parseAddr [] = .err .least_3_parts 1 := by decide +kernel

/-- An array that starts with a percent sign: undefined exactly where the other reading reports a missing address. -/
theorem v6ArrayP_percent (arr : List Char) (spaces : Bool) (M : Nat) (h : arr[0]? = some '%') :
    UndefinedWhen (∃ v, v6ParseArray spaces M arr = .err .least_3_parts v)
      (v6ArrayP charNextP arr true spaces M) (v6ParseArray spaces M arr) ∧
    ∃ c v, v6ParseArray spaces M arr = .err c v := by
  obtain ⟨f, g1, g2, g3, g4⟩ := mkFixed_eq arr
  have hd : f.contents = [] ∨ ∃ z, f.contents = '%' :: z := by
    rw [g4]
    unfold cstr
    cases arr with
    | nil => simp at h
    | cons a as =>
      simp only [List.getElem?_cons_zero, Option.some.injEq] at h
      subst h
      simp only [List.length_cons, Nat.add_sub_cancel]
      cases as with
      | nil => simp
      | cons b bs =>
        right
        simp only [List.length_cons, List.take_succ_cons, List.takeWhile_cons]
        exact ⟨_, rfl⟩
  unfold v6ArrayP v6ParseArray
  rw [makeFixedP_char, g1]
  simp only [Res.ok_bind]
  have key := v6FromP_eq charNextP_law (mkFixed_len g1) (Nat.zero_le _) true spaces M
  rw [show (f.data.take f.length).drop 0 = f.contents from rfl] at key
  rw [show encChar.events f.contents = readChars f.contents from rfl] at key
  have hl : f.contents.length = f.length := by
    have := mkFixed_len g1
    simp [FStr.contents]
    omega
  rcases hd with hd | ⟨z, hd⟩
  · have e0 : f.length = 0 := by rw [← hl, hd]; rfl
    have e1 : v6FromEvents spaces M (readChars f.contents) = .err .empty_address 0 := by rw [hd]; rfl
    rw [e1] at key ⊢
    refine ⟨⟨?_, fun _ => ?_⟩, _, _, rfl⟩
    · rintro ⟨v, h⟩
      cases h
    · rw [v6FromP, if_pos e0.symm]
  · have hlen : 0 < f.length := by rw [← hl, hd]; simp
    rcases splitScope_some spaces M [] z (by simp) with ⟨h1, h2, h3, h4⟩ | ⟨_, e, v, h4⟩
    · rw [List.nil_append, ← hd] at h4
      have e1 : v6FromEvents spaces M (readChars f.contents) = .err .least_3_parts 1 := by
        unfold v6FromEvents
        rw [if_neg (by rw [hd]; simp [readChars]), h4, Res.ok_bind]
        simp only [parseAddr_empty, Res.err_bind]
      rcases key with ⟨_, k⟩ | ⟨k, _⟩
      · exact absurd ⟨rfl, hlen, _, h4⟩ k
      · rw [e1]
        exact ⟨⟨fun _ => k, fun h => absurd ⟨1, rfl⟩ h⟩, _, _, rfl⟩
    · rw [List.nil_append, ← hd] at h4
      have e1 : v6FromEvents spaces M (readChars f.contents) = .err e v := by
        unfold v6FromEvents
        rw [if_neg (by rw [hd]; simp [readChars]), h4, Res.err_bind]
      have h3 : e ≠ .least_3_parts := by
        have := splitScope_3 spaces M (readChars f.contents) (BadIn.chars _ _)
        rw [h4] at this
        exact this _ _ rfl
      rcases key with ⟨⟨k, _⟩ | ⟨_, k, _⟩, _⟩ | ⟨_, _, _, buf, k⟩
      · rw [k, e1]
        refine ⟨⟨?_, fun _ => rfl⟩, _, _, rfl⟩
        rintro ⟨v', h'⟩
        cases h'
        exact absurd rfl h3
      · exact absurd k not_over_one
      · rw [h4] at k; cases k

/-- IPv6 networks whose text starts with a percent sign, where a null pointer compares greater. -/
theorem net6_zone {U : Type} {next : PReader U} {enc : Enc U} {Ch : Nat → List U → Prop} {span : U → Nat}
    (L : PLaw next enc Ch span) (pre us post : List U) (c : Cfg) (strict : Bool)
    (hz : ∃ g r, us = g ++ r ∧ Ch '%'.toNat g) :
    UndefinedWhen (Overruns Ch span (fun _ => True) post.length us ∧
        (fam6 c).parseNet (enc.events us) strict = .err .wrong_encoding_sequence 0 ∨
      ∃ v, (fam6 c).parseNet (enc.events us) strict = .err .least_3_parts v)
    (v6ParseNetP next (pre ++ us ++ post) (pre.length + us.length) true c pre.length strict)
    ((fam6 c).parseNet (enc.events us) strict) := by
  have hp : (enc.events us).head? = some (.ch '%') := by
    obtain ⟨g, r, rfl, hg⟩ := hz
    cases g with
    | nil => exact absurd rfl (L.ne _ _ hg)
    | cons u g =>
      obtain ⟨d, hd, hn⟩ := L.unique _ _ u (g ++ r) r hg rfl
      rw [List.cons_append, L.law.cons_ch _ _ _ _ hn, Char.toNat_inj.1 hd]
      rfl
  have := parseNetP_eq L (pre ++ us ++ post) (pre.length + us.length) (place_le pre us post) (fam6 c)
    (mask := fun i => do
      let m ← v6ParseNetmaskP next (pre ++ us ++ post) (pre.length + us.length) i
      .ok (⟨m.1, emptyScope c.M⟩, m.2)) (addr := fun a => v6ArrayP charNextP a true c.spaces c.M)
    (fun i hi hw => by
      rw [v6ParseNetmaskP_eq L _ _ (place_le pre us post) hi hw]
      rfl)
    (ErrIn.bind (v6ParseNetmask_wrong [] (BadIn.chars _ [])) fun _ => ErrIn.ok _)
    (fun a => by
      rcases v6ArrayP_char a true c.spaces c.M with h | ⟨h, _⟩
      · rw [h]; exact v6ParseArray_wrong _ _ a
      · rw [h]; exact ErrIn.ub)
    (fun a m s => v6Strict_wrong c.M a m s)
    (begin := pre.length) (by omega) strict
  rw [place_wild, place_text] at this
  have hu : UndefinedWhen (∃ v, (fam6 c).parseNet (enc.events us) strict = .err .least_3_parts v)
      ({ fam6 c with parseArray := fun a => v6ArrayP charNextP a true c.spaces c.M }.parseNet (enc.events us) strict)
      ((fam6 c).parseNet (enc.events us) strict) := by
    have el : ∀ evs s, Fam.parseLoop { fam6 c with parseArray := fun a => v6ArrayP charNextP a true c.spaces c.M } evs s =
        (fam6 c).parseLoop evs s := by
      intro evs
      induction evs with
      | nil => intro s; rfl
      | cons ev evs ih =>
        intro s
        cases ev with
        | bad => rfl
        | ch c => simp only [Fam.parseLoop, ih]; rfl
    have hbad := Enc.Law.bad3 L.law us.length us (Nat.le_refl _)
    unfold Fam.parseNet
    rw [el]
    have hl3 := parseLoop_3 (fam6 c) (enc.events us) ⟨0, List.replicate ((fam6 c).maxLen + 1) '\x00', none⟩ hbad
    cases hl : (fam6 c).parseLoop (enc.events us) ⟨0, List.replicate ((fam6 c).maxLen + 1) '\x00', none⟩ with
    | err c v =>
      refine ⟨?_, fun _ => rfl⟩
      rintro ⟨v', h⟩
      rw [Res.err_bind] at h
      cases h
      exact absurd hl (hl3.ne3 _)
    | ub =>
      refine ⟨?_, fun _ => rfl⟩
      rintro ⟨v', h⟩
      cases h
    | ok st =>
      simp only [Res.ok_bind]
      have hst : st.address[0]? = some '%' := parseLoop_keeps (fam6 c) _ _ _ hl (.inr ⟨rfl, rfl, hp⟩)
      obtain ⟨⟨k1, k2⟩, code, val, k3⟩ := v6ArrayP_percent st.address c.spaces c.M hst
      have hmb : BadIn Not3 (st.netmask.getD []) := by
        cases hm : st.netmask with
        | none => intro c v hmem; simp at hmem
        | some m =>
          obtain ⟨pre, e⟩ := parseLoop_netmask_codes (fam6 c) (enc.events us) _ st (enc.events us) hl ⟨[], rfl⟩ (by intro m hm'; cases hm') m hm
          intro c v hmem
          exact hbad c v (by rw [e]; simp at hmem; simp [hmem])
      have hm3 : ErrIn Not3 ((fam6 c).parseNetmask (st.netmask.getD [])) :=
        ErrIn.bind (v6ParseNetmask_3 _ hmb) fun _ => ErrIn.ok _
      cases hm : (fam6 c).parseNetmask (st.netmask.getD []) with
      | err c' v =>
        refine ⟨?_, fun _ => rfl⟩
        rintro ⟨v', h⟩
        rw [Res.err_bind] at h
        cases h
        exact absurd hm (hm3.ne3 _)
      | ub =>
        refine ⟨?_, fun _ => rfl⟩
        rintro ⟨v', h⟩
        cases h
      | ok m =>
        simp only [Res.ok_bind]
        rw [show (fam6 c).parseArray st.address = v6ParseArray c.spaces c.M st.address from rfl]
        constructor
        · rintro ⟨v', h⟩
          rw [k1 ⟨val, by
            rw [k3] at h ⊢
            simp only [withValue, Res.err_bind, Res.err.injEq] at h
            rw [h.1]⟩]
          rfl
        · intro h
          have k4 := k2 (by
            rintro ⟨v', h'⟩
            apply h
            rw [h']
            exact ⟨_, rfl⟩)
          simp only [k4, k3]
  constructor
  · rintro (⟨hw, h⟩ | ⟨v, h⟩)
    · have e := hu.2 (by rintro ⟨v, h'⟩; rw [h] at h'; cases h')
      exact this.undefined.1 ⟨hw, by rw [e, h]⟩
    · have e := hu.1 ⟨v, h⟩
      exact (this.undefined.2 (by rintro ⟨_, h'⟩; rw [e] at h'; cases h')).trans e
  · intro h
    have e := hu.2 (fun h' => h (.inr h'))
    rw [e] at this
    exact this.undefined.2 fun h' => h (.inl h')

end Ip
