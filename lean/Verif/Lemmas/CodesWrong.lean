import Verif.Lemmas.PointersLoop
/-
The parsers report a wrong encoding only when the reader does.
-/
set_option autoImplicit false

namespace Ip
open Res

theorem v4Loop_wrong : ∀ (evs : List Ev) (st : V4St), BadIn NotWrong evs → ErrIn NotWrong (v4Loop st evs)
  | [], st, _ => by rw [v4Loop]; errin
  | .bad code sym :: rest, st, h => ErrIn.err _ _ (h code sym (by simp))
  | .ch c :: rest, st, h => ErrIn.bind (v4Step_wrong st c) fun st' => v4Loop_wrong rest st' h.tail

theorem v4FromEvents_wrong (evs : List Ev) (h : BadIn NotWrong evs) : ErrIn NotWrong (v4FromEvents evs) := by
  unfold v4FromEvents v4Finish
  refine ErrIn.ite ?_ (ErrIn.bind (v4Loop_wrong evs _ h) fun _ => ?_) <;> errin

theorem ofEventsLoop_wrong : ∀ (n : Nat) (evs : List Ev) (data : List Char) (len : Nat), BadIn NotWrong evs →
    ErrIn NotWrong (FStr.ofEventsLoop n evs data len)
  | 0, _, _, _, _ => by rw [FStr.ofEventsLoop]; errin
  | _ + 1, [], _, _, _ => by rw [FStr.ofEventsLoop]; errin
  | n + 1, .bad code sym :: rest, _, _, h => ErrIn.err _ _ (h code sym (by simp))
  | n + 1, .ch c :: rest, data, len, h => by
    rw [FStr.ofEventsLoop]
    refine ErrIn.bind (ErrIn.wr _ _ _) fun d => ErrIn.ite (ErrIn.ok _) (ofEventsLoop_wrong n rest d (len + 1) h.tail)

theorem ofEvents_wrong (n : Nat) (evs : List Ev) (h : BadIn NotWrong evs) : ErrIn NotWrong (FStr.ofEvents n evs) :=
  ErrIn.bind (ofEventsLoop_wrong n evs _ _ h) fun _ => ErrIn.ok _

theorem mkFixed_wrong (arr : List Char) : ErrIn NotWrong (mkFixed arr) := ofEvents_wrong _ _ (BadIn.chars _ _)

theorem v4ParseArray_wrong (arr : List Char) : ErrIn NotWrong (v4ParseArray arr) :=
  ErrIn.bind (mkFixed_wrong arr) fun _ => v4FromEvents_wrong _ (BadIn.chars _ _)

theorem scopeLoop_wrong (spaces : Bool) (M : Nat) : ∀ (evs : List Ev) (st : ScopeSt), BadIn NotWrong evs →
    ErrIn NotWrong (scopeLoop spaces M st evs)
  | [], st, _ => by rw [scopeLoop]; errin
  | .bad code sym :: rest, st, h => ErrIn.err _ _ (h code sym (by simp))
  | .ch c :: rest, st, h => ErrIn.bind (scopeStep_wrong spaces M st c) fun st' => scopeLoop_wrong spaces M rest st' h.tail

theorem splitScope_wrong (spaces : Bool) (M : Nat) (evs : List Ev) (h : BadIn NotWrong evs) : ErrIn NotWrong (splitScope spaces M evs) := by
  unfold splitScope
  refine ErrIn.bind (scopeLoop_wrong spaces M evs _ h) fun _ => ?_
  errin

theorem storePart_wrong (parts : List (List Char)) (count : Nat) (last : List Char) : ErrIn NotWrong (storePart parts count last) := by
  unfold storePart; errin

theorem partsStep_wrong (st : PartsSt) (c : Char) : ErrIn NotWrong (partsStep st c) := by
  have := storePart_wrong st.parts st.count st.last
  unfold partsStep
  refine ErrIn.ite (ErrIn.err _ _ ?_) ?_
  · split <;> decide
  · errin

theorem partsLoop_wrong : ∀ (cs : List Char) (st : PartsSt), ErrIn NotWrong (partsLoop st cs)
  | [], st => by rw [partsLoop]; errin
  | c :: cs, st => ErrIn.bind (partsStep_wrong st c) fun st' => partsLoop_wrong cs st'

theorem hasDotLoop_wrong (last : List Char) : ∀ (n i : Nat), ErrIn NotWrong (hasDotLoop last n i)
  | 0, i => by rw [hasDotLoop]; errin
  | n + 1, i => by
    rw [hasDotLoop]
    exact ErrIn.bind (ErrIn.rd _ _) fun _ => ErrIn.ite (ErrIn.ok _) (hasDotLoop_wrong last n (i + 1))

theorem toHexLoop_wrong (value : BitVec 16) : ∀ (n i j : Nat) (r : List Char), ErrIn NotWrong (toHexLoop value n i j r)
  | 0, i, j, r => by rw [toHexLoop]; errin
  | n + 1, i, j, r => by
    rw [toHexLoop]
    exact ErrIn.bind (ErrIn.rd _ _) fun _ => ErrIn.bind (ErrIn.wr _ _ _) fun _ => ErrIn.bind (ErrIn.wr _ _ _) fun _ =>
      toHexLoop_wrong value n _ _ _

theorem v4ToUint_wrong (le : Bool) (b : List (BitVec 8)) : ErrIn NotWrong (v4ToUint le b) := by
  unfold v4ToUint; errin

theorem mkFixedAll_wrong : ∀ (l : List (List Char)), ErrIn NotWrong (mkFixedAll l)
  | [] => by rw [mkFixedAll]; errin
  | a :: as => ErrIn.bind (mkFixed_wrong a) fun _ => ErrIn.bind (mkFixedAll_wrong as) fun _ => ErrIn.ok _

theorem lastParts_wrong (st : PartsSt) (b : Bool) : ErrIn NotWrong (lastParts st b) := by
  have h1 := storePart_wrong st.parts st.count st.last
  have h2 := v4ParseArray_wrong st.last
  unfold lastParts
  repeat' (first
    | assumption
    | exact v4ToUint_wrong _ _ | exact toHexLoop_wrong _ _ _ _ _
    | exact ErrIn.ok _ | exact ErrIn.ub | exact ErrIn.rd _ _ | exact ErrIn.wr _ _ _
    | (refine ErrIn.err _ _ ?_; decide) | refine ErrIn.bind ?_ (fun _ => ?_) | refine ErrIn.ite ?_ ?_ | refine ErrIn.withValue ?_)

theorem collectParts_wrong (pc : List (List Char) × Nat) : ErrIn NotWrong (collectParts pc) := by
  have := mkFixedAll_wrong pc.1
  unfold collectParts; errin

theorem partsFinish_wrong (st : PartsSt) : ErrIn NotWrong (partsFinish st) := by
  unfold partsFinish
  refine ErrIn.ite ?_ (ErrIn.bind (hasDotLoop_wrong _ _ _) fun b => ErrIn.bind (lastParts_wrong st b) fun pc => collectParts_wrong pc)
  errin

theorem boundLoop_wrong (parts : List FStr) (count : Nat) : ∀ (n i skip : Nat), ErrIn NotWrong (boundLoop parts count n i skip)
  | 0, i, skip => by rw [boundLoop]; errin
  | n + 1, i, skip => by
    rw [boundLoop]
    refine ErrIn.bind (ErrIn.rd _ _) fun p => ErrIn.ite (ErrIn.ite (ErrIn.err _ _ (by decide)) ?_) ?_
    · exact boundLoop_wrong parts count n _ _
    · exact boundLoop_wrong parts count n _ _

theorem partsBound_wrong (parts : List FStr) (count : Nat) : ErrIn NotWrong (partsBound parts count) := by
  unfold partsBound
  refine ErrIn.ite ErrIn.ub (ErrIn.bind (boundLoop_wrong _ _ _ _ _) fun skip => ?_)
  errin

theorem pow16_wrong (p : Nat) : ErrIn NotWrong (pow16 p) := by unfold pow16; split <;> errin

theorem parsePartLoop_wrong (part : FStr) (cv : Nat) : ∀ (n i : Nat) (v : BitVec 16), ErrIn NotWrong (parsePartLoop part cv n i v)
  | 0, i, v => by rw [parsePartLoop]; errin
  | n + 1, i, v => by
    rw [parsePartLoop]
    refine ErrIn.bind (ErrIn.rd _ _) fun _ => ErrIn.bind (pow16_wrong _) fun _ => ?_
    split
    · exact parsePartLoop_wrong part cv n _ _
    · exact ErrIn.err _ _ (by decide)

theorem parsePartsLoop_wrong (parts : List FStr) (cv : Nat) : ∀ (n i : Nat) (r : List (BitVec 8)) (ix : Nat),
    ErrIn NotWrong (parsePartsLoop parts cv n i r ix)
  | 0, i, r, ix => by rw [parsePartsLoop]; errin
  | n + 1, i, r, ix => by
    rw [parsePartsLoop]
    exact ErrIn.bind (ErrIn.rd _ _) fun _ => ErrIn.bind (parsePartLoop_wrong _ _ _ _ _) fun _ => ErrIn.bind (ErrIn.wr _ _ _) fun _ =>
      ErrIn.bind (ErrIn.wr _ _ _) fun _ => parsePartsLoop_wrong parts cv n _ _ _

theorem v6FromEvents_wrong (spaces : Bool) (M : Nat) (evs : List Ev) (h : BadIn NotWrong evs) :
    ErrIn NotWrong (v6FromEvents spaces M evs) := by
  unfold v6FromEvents
  refine ErrIn.ite (ErrIn.err _ _ (by decide)) (ErrIn.bind (splitScope_wrong spaces M evs h) fun s => ErrIn.bind ?_ fun b => ?_)
  · unfold parseAddr splitParts parseParts
    refine ErrIn.bind (ErrIn.bind (partsLoop_wrong _ _) fun st => partsFinish_wrong st) fun pc =>
      ErrIn.bind (partsBound_wrong _ _) fun b => ErrIn.bind (parsePartsLoop_wrong _ _ _ _ _ _) fun r =>
      ErrIn.ite ErrIn.ub (ErrIn.bind (parsePartsLoop_wrong _ _ _ _ _ _) fun _ => ErrIn.ok _)
  · unfold attachScope
    exact ErrIn.bind (ErrIn.rd _ _) fun _ => ErrIn.ite (ErrIn.bind (mkFixed_wrong _) fun _ => ErrIn.ok _) (ErrIn.ok _)

theorem digitsLoop_wrong : ∀ (evs : List Ev) (p : Nat), BadIn NotWrong evs → ErrIn NotWrong (digitsLoop evs p)
  | [], _, _ => by rw [digitsLoop]; errin
  | .bad code sym :: rest, _, h => ErrIn.err _ _ (h code sym (by simp))
  | .ch c :: rest, p, h => by
    rw [digitsLoop]
    exact ErrIn.ite (digitsLoop_wrong rest _ h.tail) (ErrIn.ok _)

theorem countOnesLoop_wrong : ∀ (n : Nat) (x : BitVec 32) (k : Nat), ErrIn NotWrong (countOnesLoop n x k)
  | 0, _, _ => by rw [countOnesLoop]; errin
  | n + 1, x, k => by
    rw [countOnesLoop]
    exact ErrIn.ite (countOnesLoop_wrong n _ _) (ErrIn.ok _)

theorem prefixFromUint_wrong (ip : BitVec 32) (v : Nat) : ErrIn NotWrong (prefixFromUint ip v) := by
  unfold prefixFromUint countRightZeros
  refine ErrIn.bind (ErrIn.ite (ErrIn.ok _) (ErrIn.bind (countOnesLoop_wrong _ _ _) fun _ => ?_)) fun _ => ?_ <;> errin

theorem v4FromPrefix_wrong (le : Bool) (p : Nat) : ErrIn NotWrong (v4FromPrefix le p) := by unfold v4FromPrefix; errin

theorem v4ParseNetmask_wrong (le : Bool) (evs : List Ev) (h : BadIn NotWrong evs) : ErrIn NotWrong (v4ParseNetmask le evs) := by
  unfold v4ParseNetmask
  refine ErrIn.bind (digitsLoop_wrong evs 0 h) fun d => ?_
  split
  · exact ErrIn.ite (ErrIn.err _ _ (by decide)) (ErrIn.bind (v4FromPrefix_wrong _ _) fun _ => ErrIn.ok _)
  · refine ErrIn.bind ?_ fun _ => ErrIn.bind (v4FromPrefix_wrong _ _) fun _ => ErrIn.ok _
    unfold v4MaskText prefixFromMask
    split
    · refine ErrIn.bind (v4ToUint_wrong _ _) fun ip => ?_
      split
      · exact ErrIn.ok _
      · exact prefixFromUint_wrong _ _
      · exact ErrIn.ub
    · exact ErrIn.err _ _ (by decide)
    · exact ErrIn.ub

theorem v6PrefixLoop_wrong : ∀ (n i : Nat) (b : List (BitVec 8)), ErrIn NotWrong (v6PrefixLoop n i b)
  | 0, _, _ => by rw [v6PrefixLoop]; errin
  | n + 1, i, b => by
    rw [v6PrefixLoop]
    exact ErrIn.bind (ErrIn.wr _ _ _) fun _ => v6PrefixLoop_wrong n _ _

theorem v6FromPrefix_wrong (p : Nat) : ErrIn NotWrong (v6FromPrefix p) := by
  unfold v6FromPrefix
  exact ErrIn.bind (v6PrefixLoop_wrong _ _ _) fun _ => ErrIn.ite (ErrIn.wr _ _ _) (ErrIn.ok _)

theorem v6ParseNetmask_wrong (evs : List Ev) (h : BadIn NotWrong evs) : ErrIn NotWrong (v6ParseNetmask evs) := by
  unfold v6ParseNetmask
  refine ErrIn.bind (digitsLoop_wrong evs 0 h) fun d => ?_
  split
  · exact ErrIn.ite (ErrIn.err _ _ (by decide)) (ErrIn.bind (v6FromPrefix_wrong _) fun _ => ErrIn.ok _)
  · exact ErrIn.err _ _ (by decide)

theorem bytesZip_wrong (f : BitVec 8 → BitVec 8 → BitVec 8) : ∀ (a b : List (BitVec 8)), ErrIn NotWrong (bytesZip f a b)
  | [], [] => by rw [bytesZip]; errin
  | a :: as, b :: bs => ErrIn.bind (bytesZip_wrong f as bs) fun _ => ErrIn.ok _
  | [], _ :: _ => ErrIn.ub
  | _ :: _, [] => ErrIn.ub

theorem v4Strict_wrong (le : Bool) (a m : List (BitVec 8)) (s : Bool) : ErrIn NotWrong (v4Strict le a m s) := by
  have h1 := v4ToUint_wrong le a
  have h2 := v4ToUint_wrong le m
  unfold v4Strict; errin

theorem v6Strict_wrong (M : Nat) (a m : V6) (s : Bool) : ErrIn NotWrong (v6Strict M a m s) := by
  have h1 := bytesZip_wrong (· &&& ·) a.bytes m.bytes
  unfold v6Strict; errin

theorem v6ParseArray_wrong (spaces : Bool) (M : Nat) (arr : List Char) : ErrIn NotWrong (v6ParseArray spaces M arr) :=
  ErrIn.bind (mkFixed_wrong arr) fun _ => v6FromEvents_wrong _ _ _ (BadIn.chars _ _)

end Ip
