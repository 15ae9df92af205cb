import Verif.Model.NetIter
/-
Which error codes the parsers can report.
-/
set_option autoImplicit false

namespace Ip

/-- Every error code of the outcome satisfies `P`. -/
def Res.ErrIn {α : Type} (P : ErrorCode → Prop) (r : Res α) : Prop := ∀ c v, r = .err c v → P c

namespace Res.ErrIn
variable {α β : Type} {P : ErrorCode → Prop}

theorem ok (a : α) : ErrIn P (.ok a : Res α) := by intro c v h; cases h
theorem ub : ErrIn P (.ub : Res α) := by intro c v h; cases h
theorem err (c : ErrorCode) (v : Nat) (h : P c) : ErrIn P (.err c v : Res α) := by intro c v h; cases h; assumption

theorem bind {x : Res α} {f : α → Res β} (h1 : ErrIn P x) (h2 : ∀ a, ErrIn P (f a)) : ErrIn P (x >>= f) := by
  intro c v h
  cases hx : x with
  | ok a => rw [hx] at h; exact h2 a c v h
  | err c' v' => rw [hx] at h; simp at h; exact h1 c v (by rw [hx, h.1, h.2])
  | ub => rw [hx] at h; simp at h

theorem ite {p : Prop} [Decidable p] {x y : Res α} (h1 : ErrIn P x) (h2 : ErrIn P y) : ErrIn P (if p then x else y) := by
  split <;> assumption

theorem withValue {v : Nat} {x : Res α} (h : ErrIn P x) : ErrIn P (withValue v x) := by
  intro c w hw
  cases hx : x with
  | ok a => rw [hx] at hw; cases hw
  | err c' v' => rw [hx] at hw; cases hw; exact h c v' hx
  | ub => rw [hx] at hw; cases hw

theorem rd (a : List α) (i : Nat) : ErrIn P (rd a i) := by
  unfold Ip.rd; split <;> first | exact ok _ | exact ub

theorem wr (a : List α) (i : Nat) (x : α) : ErrIn P (wr a i x) := by
  unfold Ip.wr; split <;> first | exact ok _ | exact ub

theorem rd2 (a : List (List α)) (i j : Nat) : ErrIn P (rd2 a i j) := bind (rd a i) fun _ => rd _ _
theorem wr2 (a : List (List α)) (i j : Nat) (x : α) : ErrIn P (wr2 a i j x) := bind (rd a i) fun _ => bind (wr _ _ _) fun _ => wr _ _ _

end Res.ErrIn

open Res

/-- The reader errors satisfy `P`. -/
def BadIn (P : ErrorCode → Prop) (evs : List Ev) : Prop := ∀ c v, Ev.bad c v ∈ evs → P c

theorem BadIn.chars (P : ErrorCode → Prop) (s : List Char) : BadIn P (readChars s) := by
  intro c v h; simp [readChars] at h

theorem BadIn.tail {P : ErrorCode → Prop} {e : Ev} {evs : List Ev} (h : BadIn P (e :: evs)) : BadIn P evs :=
  fun c v hm => h c v (List.mem_cons_of_mem _ hm)

section
variable {P : ErrorCode → Prop}

/-- Decomposes a goal `ErrIn P (...)`. -/
macro "errin" : tactic => `(tactic| repeat' (first
  | assumption
  | exact ErrIn.ok _ | exact ErrIn.ub | exact ErrIn.rd _ _ | exact ErrIn.wr _ _ _ | exact ErrIn.rd2 _ _ _ | exact ErrIn.wr2 _ _ _ _
  | (refine ErrIn.err _ _ ?_; decide) | refine ErrIn.bind ?_ (fun _ => ?_) | refine ErrIn.ite ?_ ?_ | refine ErrIn.withValue ?_
  | split))

/-- Error codes that no parser reports: those of wrong arguments. -/
def NotArg (c : ErrorCode) : Prop :=
  c ≠ .invalid_version ∧ c ≠ .invalid_prefixlen_diff ∧ c ≠ .new_prefix_must_be_shorter ∧ c ≠ .new_prefix_must_be_longer ∧
    c ≠ .cannot_set_prefixlen_diff_and_new_prefix ∧ c ≠ .not_contained_network

instance (c : ErrorCode) : Decidable (NotArg c) := by unfold NotArg; infer_instance

theorem v4Step_codes (st : V4St) (c : Char) : ErrIn NotArg (v4Step st c) := by
  unfold v4Step; errin

theorem v4Loop_codes : ∀ (evs : List Ev) (st : V4St), BadIn NotArg evs → ErrIn NotArg (v4Loop st evs)
  | [], st, _ => by rw [v4Loop]; errin
  | .bad code sym :: rest, st, h => ErrIn.err _ _ (h code sym (by simp))
  | .ch c :: rest, st, h => ErrIn.bind (v4Step_codes st c) fun st' => v4Loop_codes rest st' h.tail

theorem v4FromEvents_codes (evs : List Ev) (h : BadIn NotArg evs) : ErrIn NotArg (v4FromEvents evs) := by
  unfold v4FromEvents v4Finish
  refine ErrIn.ite ?_ (ErrIn.bind (v4Loop_codes evs _ h) fun _ => ?_) <;> errin

theorem ofEventsLoop_codes : ∀ (n : Nat) (evs : List Ev) (data : List Char) (len : Nat), BadIn NotArg evs →
    ErrIn NotArg (FStr.ofEventsLoop n evs data len)
  | 0, _, _, _, _ => by rw [FStr.ofEventsLoop]; errin
  | _ + 1, [], _, _, _ => by rw [FStr.ofEventsLoop]; errin
  | n + 1, .bad code sym :: rest, _, _, h => ErrIn.err _ _ (h code sym (by simp))
  | n + 1, .ch c :: rest, data, len, h => by
    rw [FStr.ofEventsLoop]
    refine ErrIn.bind (ErrIn.wr _ _ _) fun d => ErrIn.ite (ErrIn.ok _) (ofEventsLoop_codes n rest d (len + 1) h.tail)

theorem ofEvents_codes (n : Nat) (evs : List Ev) (h : BadIn NotArg evs) : ErrIn NotArg (FStr.ofEvents n evs) :=
  ErrIn.bind (ofEventsLoop_codes n evs _ _ h) fun _ => ErrIn.ok _

theorem mkFixed_codes (arr : List Char) : ErrIn NotArg (mkFixed arr) := ofEvents_codes _ _ (BadIn.chars _ _)

theorem v4ParseArray_codes (arr : List Char) : ErrIn NotArg (v4ParseArray arr) :=
  ErrIn.bind (mkFixed_codes arr) fun _ => v4FromEvents_codes _ (BadIn.chars _ _)

theorem scopeStep_codes (spaces : Bool) (M : Nat) (st : ScopeSt) (c : Char) : ErrIn NotArg (scopeStep spaces M st c) := by
  unfold scopeStep; errin

theorem scopeLoop_codes (spaces : Bool) (M : Nat) : ∀ (evs : List Ev) (st : ScopeSt), BadIn NotArg evs →
    ErrIn NotArg (scopeLoop spaces M st evs)
  | [], st, _ => by rw [scopeLoop]; errin
  | .bad code sym :: rest, st, h => ErrIn.err _ _ (h code sym (by simp))
  | .ch c :: rest, st, h => ErrIn.bind (scopeStep_codes spaces M st c) fun st' => scopeLoop_codes spaces M rest st' h.tail

theorem splitScope_codes (spaces : Bool) (M : Nat) (evs : List Ev) (h : BadIn NotArg evs) : ErrIn NotArg (splitScope spaces M evs) := by
  unfold splitScope
  refine ErrIn.bind (scopeLoop_codes spaces M evs _ h) fun _ => ?_
  errin

theorem storePart_codes (parts : List (List Char)) (count : Nat) (last : List Char) : ErrIn NotArg (storePart parts count last) := by
  unfold storePart; errin

theorem partsStep_codes (st : PartsSt) (c : Char) : ErrIn NotArg (partsStep st c) := by
  have := storePart_codes st.parts st.count st.last
  unfold partsStep
  refine ErrIn.ite (ErrIn.err _ _ ?_) ?_
  · split <;> decide
  · errin

theorem partsLoop_codes : ∀ (cs : List Char) (st : PartsSt), ErrIn NotArg (partsLoop st cs)
  | [], st => by rw [partsLoop]; errin
  | c :: cs, st => ErrIn.bind (partsStep_codes st c) fun st' => partsLoop_codes cs st'

theorem hasDotLoop_codes (last : List Char) : ∀ (n i : Nat), ErrIn NotArg (hasDotLoop last n i)
  | 0, i => by rw [hasDotLoop]; errin
  | n + 1, i => by
    rw [hasDotLoop]
    exact ErrIn.bind (ErrIn.rd _ _) fun _ => ErrIn.ite (ErrIn.ok _) (hasDotLoop_codes last n (i + 1))

theorem toHexLoop_codes (value : BitVec 16) : ∀ (n i j : Nat) (r : List Char), ErrIn NotArg (toHexLoop value n i j r)
  | 0, i, j, r => by rw [toHexLoop]; errin
  | n + 1, i, j, r => by
    rw [toHexLoop]
    exact ErrIn.bind (ErrIn.rd _ _) fun _ => ErrIn.bind (ErrIn.wr _ _ _) fun _ => ErrIn.bind (ErrIn.wr _ _ _) fun _ =>
      toHexLoop_codes value n _ _ _

theorem v4ToUint_codes (le : Bool) (b : List (BitVec 8)) : ErrIn NotArg (v4ToUint le b) := by
  unfold v4ToUint; errin

theorem mkFixedAll_codes : ∀ (l : List (List Char)), ErrIn NotArg (mkFixedAll l)
  | [] => by rw [mkFixedAll]; errin
  | a :: as => ErrIn.bind (mkFixed_codes a) fun _ => ErrIn.bind (mkFixedAll_codes as) fun _ => ErrIn.ok _

theorem lastParts_codes (st : PartsSt) (b : Bool) : ErrIn NotArg (lastParts st b) := by
  have h1 := storePart_codes st.parts st.count st.last
  have h2 := v4ParseArray_codes st.last
  unfold lastParts
  repeat' (first
    | assumption
    | exact v4ToUint_codes _ _ | exact toHexLoop_codes _ _ _ _ _
    | exact ErrIn.ok _ | exact ErrIn.ub | exact ErrIn.rd _ _ | exact ErrIn.wr _ _ _
    | (refine ErrIn.err _ _ ?_; decide) | refine ErrIn.bind ?_ (fun _ => ?_) | refine ErrIn.ite ?_ ?_ | refine ErrIn.withValue ?_)

theorem collectParts_codes (pc : List (List Char) × Nat) : ErrIn NotArg (collectParts pc) := by
  have := mkFixedAll_codes pc.1
  unfold collectParts; errin

theorem partsFinish_codes (st : PartsSt) : ErrIn NotArg (partsFinish st) := by
  unfold partsFinish
  refine ErrIn.ite ?_ (ErrIn.bind (hasDotLoop_codes _ _ _) fun b => ErrIn.bind (lastParts_codes st b) fun pc => collectParts_codes pc)
  errin

theorem boundLoop_codes (parts : List FStr) (count : Nat) : ∀ (n i skip : Nat), ErrIn NotArg (boundLoop parts count n i skip)
  | 0, i, skip => by rw [boundLoop]; errin
  | n + 1, i, skip => by
    rw [boundLoop]
    refine ErrIn.bind (ErrIn.rd _ _) fun p => ErrIn.ite (ErrIn.ite (ErrIn.err _ _ (by decide)) ?_) ?_
    · exact boundLoop_codes parts count n _ _
    · exact boundLoop_codes parts count n _ _

theorem partsBound_codes (parts : List FStr) (count : Nat) : ErrIn NotArg (partsBound parts count) := by
  unfold partsBound
  refine ErrIn.ite ErrIn.ub (ErrIn.bind (boundLoop_codes _ _ _ _ _) fun skip => ?_)
  errin

theorem pow16_codes (p : Nat) : ErrIn NotArg (pow16 p) := by unfold pow16; split <;> errin

theorem parsePartLoop_codes (part : FStr) (cv : Nat) : ∀ (n i : Nat) (v : BitVec 16), ErrIn NotArg (parsePartLoop part cv n i v)
  | 0, i, v => by rw [parsePartLoop]; errin
  | n + 1, i, v => by
    rw [parsePartLoop]
    refine ErrIn.bind (ErrIn.rd _ _) fun _ => ErrIn.bind (pow16_codes _) fun _ => ?_
    split
    · exact parsePartLoop_codes part cv n _ _
    · exact ErrIn.err _ _ (by decide)

theorem parsePartsLoop_codes (parts : List FStr) (cv : Nat) : ∀ (n i : Nat) (r : List (BitVec 8)) (ix : Nat),
    ErrIn NotArg (parsePartsLoop parts cv n i r ix)
  | 0, i, r, ix => by rw [parsePartsLoop]; errin
  | n + 1, i, r, ix => by
    rw [parsePartsLoop]
    exact ErrIn.bind (ErrIn.rd _ _) fun _ => ErrIn.bind (parsePartLoop_codes _ _ _ _ _) fun _ => ErrIn.bind (ErrIn.wr _ _ _) fun _ =>
      ErrIn.bind (ErrIn.wr _ _ _) fun _ => parsePartsLoop_codes parts cv n _ _ _

theorem v6FromEvents_codes (spaces : Bool) (M : Nat) (evs : List Ev) (h : BadIn NotArg evs) :
    ErrIn NotArg (v6FromEvents spaces M evs) := by
  unfold v6FromEvents
  refine ErrIn.ite (ErrIn.err _ _ (by decide)) (ErrIn.bind (splitScope_codes spaces M evs h) fun s => ErrIn.bind ?_ fun b => ?_)
  · unfold parseAddr splitParts parseParts
    refine ErrIn.bind (ErrIn.bind (partsLoop_codes _ _) fun st => partsFinish_codes st) fun pc =>
      ErrIn.bind (partsBound_codes _ _) fun b => ErrIn.bind (parsePartsLoop_codes _ _ _ _ _ _) fun r =>
      ErrIn.ite ErrIn.ub (ErrIn.bind (parsePartsLoop_codes _ _ _ _ _ _) fun _ => ErrIn.ok _)
  · unfold attachScope
    exact ErrIn.bind (ErrIn.rd _ _) fun _ => ErrIn.ite (ErrIn.bind (mkFixed_codes _) fun _ => ErrIn.ok _) (ErrIn.ok _)

theorem digitsLoop_codes : ∀ (evs : List Ev) (p : Nat), BadIn NotArg evs → ErrIn NotArg (digitsLoop evs p)
  | [], _, _ => by rw [digitsLoop]; errin
  | .bad code sym :: rest, _, h => ErrIn.err _ _ (h code sym (by simp))
  | .ch c :: rest, p, h => by
    rw [digitsLoop]
    exact ErrIn.ite (digitsLoop_codes rest _ h.tail) (ErrIn.ok _)

theorem countOnesLoop_codes : ∀ (n : Nat) (x : BitVec 32) (k : Nat), ErrIn NotArg (countOnesLoop n x k)
  | 0, _, _ => by rw [countOnesLoop]; errin
  | n + 1, x, k => by
    rw [countOnesLoop]
    exact ErrIn.ite (countOnesLoop_codes n _ _) (ErrIn.ok _)

theorem prefixFromUint_codes (ip : BitVec 32) (v : Nat) : ErrIn NotArg (prefixFromUint ip v) := by
  unfold prefixFromUint countRightZeros
  refine ErrIn.bind (ErrIn.ite (ErrIn.ok _) (ErrIn.bind (countOnesLoop_codes _ _ _) fun _ => ?_)) fun _ => ?_ <;> errin

theorem v4FromPrefix_codes (le : Bool) (p : Nat) : ErrIn NotArg (v4FromPrefix le p) := by unfold v4FromPrefix; errin

theorem v4ParseNetmask_codes (le : Bool) (evs : List Ev) (h : BadIn NotArg evs) : ErrIn NotArg (v4ParseNetmask le evs) := by
  unfold v4ParseNetmask
  refine ErrIn.bind (digitsLoop_codes evs 0 h) fun d => ?_
  split
  · exact ErrIn.ite (ErrIn.err _ _ (by decide)) (ErrIn.bind (v4FromPrefix_codes _ _) fun _ => ErrIn.ok _)
  · refine ErrIn.bind ?_ fun _ => ErrIn.bind (v4FromPrefix_codes _ _) fun _ => ErrIn.ok _
    unfold v4MaskText prefixFromMask
    split
    · refine ErrIn.bind (v4ToUint_codes _ _) fun ip => ?_
      split
      · exact ErrIn.ok _
      · exact prefixFromUint_codes _ _
      · exact ErrIn.ub
    · exact ErrIn.err _ _ (by decide)
    · exact ErrIn.ub

theorem v6PrefixLoop_codes : ∀ (n i : Nat) (b : List (BitVec 8)), ErrIn NotArg (v6PrefixLoop n i b)
  | 0, _, _ => by rw [v6PrefixLoop]; errin
  | n + 1, i, b => by
    rw [v6PrefixLoop]
    exact ErrIn.bind (ErrIn.wr _ _ _) fun _ => v6PrefixLoop_codes n _ _

theorem v6FromPrefix_codes (p : Nat) : ErrIn NotArg (v6FromPrefix p) := by
  unfold v6FromPrefix
  exact ErrIn.bind (v6PrefixLoop_codes _ _ _) fun _ => ErrIn.ite (ErrIn.wr _ _ _) (ErrIn.ok _)

theorem v6ParseNetmask_codes (evs : List Ev) (h : BadIn NotArg evs) : ErrIn NotArg (v6ParseNetmask evs) := by
  unfold v6ParseNetmask
  refine ErrIn.bind (digitsLoop_codes evs 0 h) fun d => ?_
  split
  · exact ErrIn.ite (ErrIn.err _ _ (by decide)) (ErrIn.bind (v6FromPrefix_codes _) fun _ => ErrIn.ok _)
  · exact ErrIn.err _ _ (by decide)

theorem bytesZip_codes (f : BitVec 8 → BitVec 8 → BitVec 8) : ∀ (a b : List (BitVec 8)), ErrIn NotArg (bytesZip f a b)
  | [], [] => by rw [bytesZip]; errin
  | a :: as, b :: bs => ErrIn.bind (bytesZip_codes f as bs) fun _ => ErrIn.ok _
  | [], _ :: _ => ErrIn.ub
  | _ :: _, [] => ErrIn.ub

theorem parseLoop_codes {A U : Type} (F : Fam A U) : ∀ (evs : List Ev) (st : Fam.ParseSt), BadIn NotArg evs →
    ErrIn NotArg (F.parseLoop evs st)
  | [], _, _ => by rw [Fam.parseLoop]; errin
  | .bad code sym :: rest, _, h => ErrIn.err _ _ (h code sym (by simp))
  | .ch c :: rest, st, h => by
    have hs : ∀ st, ErrIn NotArg (F.storeChar c st) := by intro st; unfold Fam.storeChar; errin
    rw [Fam.parseLoop]
    refine ErrIn.ite (ErrIn.ite (ErrIn.err _ _ (by decide)) (ErrIn.ite (ErrIn.err _ _ (by decide)) ?_)) ?_
    · exact ErrIn.bind (hs _) fun _ => ErrIn.ite (ErrIn.ok _) (parseLoop_codes F rest _ h.tail)
    · exact ErrIn.bind (hs _) fun _ => ErrIn.ite (ErrIn.ok _) (parseLoop_codes F rest _ h.tail)

/-- The characters kept for the netmask are the end of the text. -/
theorem parseLoop_netmask_codes {A U : Type} (F : Fam A U) : ∀ (evs : List Ev) (st st' : Fam.ParseSt) (all : List Ev),
    F.parseLoop evs st = .ok st' → (∃ pre, all = pre ++ evs) →
    (∀ m, st.netmask = some m → ∃ pre, all = pre ++ m) → ∀ m, st'.netmask = some m → ∃ pre, all = pre ++ m
  | [], st, st', all, h, _, hm => by cases h; exact hm
  | .bad code sym :: rest, _, _, _, h, _, _ => by cases h
  | .ch c :: rest, st, st', all, h, ⟨pre, he⟩, hm => by
    have hr : ∃ pre, all = pre ++ rest := ⟨pre ++ [.ch c], by rw [he]; simp⟩
    have hs : ∀ st r, F.storeChar c st = .ok r → r.1.netmask = st.netmask := by
      intro st r hr
      unfold Fam.storeChar at hr
      split at hr
      · rename_i h0
        obtain ⟨a, _, h2⟩ := Res.bind_eq_ok.1 hr
        cases h2; simp at h0; simp [h0]
      · cases hr; rfl
    rw [Fam.parseLoop] at h
    split at h
    · split at h
      · cases h
      · split at h
        · cases h
        · obtain ⟨r, h1, h2⟩ := Res.bind_eq_ok.1 h
          have e := hs _ _ h1
          split at h2
          · cases h2; intro m hm'; rw [e] at hm'; cases hm'; exact hr
          · exact parseLoop_netmask_codes F rest _ _ all h2 hr (by intro m hm'; rw [e] at hm'; cases hm'; exact hr)
    · obtain ⟨r, h1, h2⟩ := Res.bind_eq_ok.1 h
      have e := hs _ _ h1
      split at h2
      · cases h2; intro m hm'; rw [e] at hm'; exact hm m hm'
      · exact parseLoop_netmask_codes F rest _ _ all h2 hr (by intro m hm'; rw [e] at hm'; exact hm m hm')

theorem parseNet_codes {A U : Type} (F : Fam A U) (hmask : ∀ evs, BadIn NotArg evs → ErrIn NotArg (F.parseNetmask evs))
    (harr : ∀ arr, ErrIn NotArg (F.parseArray arr)) (hstrict : ∀ a m s, ErrIn NotArg (F.strict a m s))
    (evs : List Ev) (strict : Bool) (h : BadIn NotArg evs) : ErrIn NotArg (F.parseNet evs strict) := by
  unfold Fam.parseNet
  intro c v he
  cases hl : F.parseLoop evs ⟨0, List.replicate (F.maxLen + 1) '\x00', none⟩ with
  | ub => rw [hl] at he; cases he
  | err c' v' => rw [hl] at he; cases he; exact parseLoop_codes F evs _ h _ _ hl
  | ok st =>
    rw [hl] at he
    refine ErrIn.bind (hmask _ ?_) (fun m => ErrIn.bind (ErrIn.withValue (harr _)) fun a =>
      ErrIn.bind (ErrIn.withValue (hstrict _ _ _)) fun _ => ErrIn.ok _) c v he
    cases hm : st.netmask with
    | none => intro c v hmem; simp at hmem
    | some m =>
      obtain ⟨pre, e⟩ := parseLoop_netmask_codes F evs _ st evs hl ⟨[], rfl⟩ (by intro m hm'; cases hm') m hm
      intro c v hmem
      exact h c v (by rw [e]; simp at hmem; simp [hmem])

theorem v4Strict_codes (le : Bool) (a m : List (BitVec 8)) (s : Bool) : ErrIn NotArg (v4Strict le a m s) := by
  have h1 := v4ToUint_codes le a
  have h2 := v4ToUint_codes le m
  unfold v4Strict; errin

theorem v6Strict_codes (M : Nat) (a m : V6) (s : Bool) : ErrIn NotArg (v6Strict M a m s) := by
  have h1 := bytesZip_codes (· &&& ·) a.bytes m.bytes
  unfold v6Strict; errin

theorem fam4_parseNet_codes (le : Bool) (evs : List Ev) (strict : Bool) (h : BadIn NotArg evs) :
    ErrIn NotArg ((fam4 le).parseNet evs strict) :=
  parseNet_codes _ (fun evs h => v4ParseNetmask_codes le evs h) (fun arr => v4ParseArray_codes arr) (fun a m s => v4Strict_codes le a m s)
    evs strict h

theorem fam6_parseNet_codes (c : Cfg) (evs : List Ev) (strict : Bool) (h : BadIn NotArg evs) :
    ErrIn NotArg ((fam6 c).parseNet evs strict) :=
  parseNet_codes _
    (fun evs h => ErrIn.bind (v6ParseNetmask_codes evs h) fun _ => ErrIn.ok _)
    (fun arr => ErrIn.bind (mkFixed_codes arr) fun _ => v6FromEvents_codes _ _ _ (BadIn.chars _ _))
    (fun a m s => v6Strict_codes c.M a m s)
    evs strict h

end

end Ip
