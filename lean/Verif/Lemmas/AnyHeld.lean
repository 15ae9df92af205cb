import Verif.Lemmas.AnyProgram
import Verif.Props.Program
import Verif.Props.AnyNetIter
/-
Programs over the version agnostic classes: their runs on addresses of one version, and the invariant of their objects.
-/
set_option autoImplicit false

namespace Ip
open Spec

theorem anyRemoveScope4_self (c : Cfg) (hc : c.le = true) (n : Net (List (BitVec 8))) (hn : NetOk4 n) :
    anyNetRemoveScope c (.v4 n) = .ok (.v4 n) := by
  obtain ⟨l, h1, h2⟩ := fromAddress_isNet fam4Law (p := n.plen) (v := (fam4 true).v n.addr) (a := n.addr)
    ⟨n.addr, rfl, by rw [show n.addr.length = 4 from hn.wf]; rfl, rfl⟩ hn.plen hn.aligned
  have : l = n := IsNet.inj h2 (NetOk.isNet fam4Law hn ⟨n.addr, rfl⟩)
  subst this
  simp only [anyNetRemoveScope, anyNetAddress, anySetScope, anyNetPlen, Res.ok_bind, anyNetFromAddress, hc, h1]

section v4
variable (c : Cfg)

/-- The excluding sequence in the version agnostic class. -/
def anyExs (e : Net (List (BitVec 8)) → AnyNet) (s : ExSeq (List (BitVec 8))) : AnyEx × AnyEx := (anyEx e s.first, anyEx e s.last)

theorem anyExMk4 (n o : Net (List (BitVec 8))) : anyExMk c (.v4 n) (.v4 o) = ((fam4 c.le).exMk n o).image (anyEx .v4) :=
  image_bind _ _ _ _ _ _ (anyHalves4 c n) fun h => anyExInc4 c ⟨o, h.1, h.2, n⟩

theorem anyExSeqMk4 (n o : Net (List (BitVec 8))) :
    (do let x ← anyExMk c (.v4 n) (.v4 o); let d ← anyExDefault c; Res.ok (x, d)) = ((fam4 c.le).exSeqMk n o).image (anyExs .v4) :=
  image_bind _ _ _ _ _ _ (anyExMk4 c n o) fun _ => image_bind _ _ _ _ _ _ (anyExDefault4 c) fun _ => rfl

theorem anyExSeqDefault4 :
    (do let d ← anyExDefault c; Res.ok (d, d)) = ((fam4 c.le).exSeqDefault).image (anyExs .v4) :=
  image_bind _ _ _ _ _ _ (anyExDefault4 c) fun _ => rfl

theorem anyExclude4 (hc : c.le = true) (n o : Net (List (BitVec 8))) (hn : NetOk4 n) (ho : NetOk4 o) :
    anyNetExclude c (.v4 n) (.v4 o) = ((fam4 c.le).addressExclude n o).image (anyExs .v4) := by
  have e2 : ∀ a b, anyNetSubnetOf c (.v4 a) (.v4 b) = (fam4 c.le).subnetOf a b := fun _ _ => rfl
  have e1 : ∀ a b, anyNetEq c (.v4 a) (.v4 b) = (fam4 c.le).netEq a b := fun _ _ => rfl
  show (do
    let lhs ← Fam.noexcept (anyNetRemoveScope c (.v4 n))
    let rhs ← Fam.noexcept (anyNetRemoveScope c (.v4 o))
    if !(← anyNetSubnetOf c rhs lhs) then .err .not_contained_network 0
    else if ← anyNetEq c lhs rhs then do
      let d ← anyExDefault c
      .ok (d, d)
    else Fam.noexcept (do
      let x ← anyExMk c lhs rhs
      let d ← anyExDefault c
      .ok (x, d))) = _
  rw [anyRemoveScope4_self c hc n hn, anyRemoveScope4_self c hc o ho]
  show (do
    if !(← anyNetSubnetOf c (.v4 o) (.v4 n)) then .err .not_contained_network 0
    else if ← anyNetEq c (.v4 n) (.v4 o) then do
      let d ← anyExDefault c
      .ok (d, d)
    else Fam.noexcept (do
      let x ← anyExMk c (.v4 n) (.v4 o)
      let d ← anyExDefault c
      .ok (x, d))) = Res.image (anyExs .v4) (do
    if !(← (fam4 c.le).subnetOf o n) then .err .not_contained_network 0
    else if ← (fam4 c.le).netEq n o then (fam4 c.le).exSeqDefault
    else Fam.noexcept ((fam4 c.le).exSeqMk n o))
  rw [e2, e1, anyExSeqMk4, anyExSeqDefault4]
  rcases (fam4 c.le).subnetOf o n with (_ | _) | ⟨_, _⟩ | _ <;> try rfl
  rcases (fam4 c.le).netEq n o with (_ | _) | ⟨_, _⟩ | _ <;> try rfl
  simp only [Res.ok_bind]
  exact image_noexcept _ _

theorem setCode_image {α β : Type} (f : α → β) (d r : Res α) (d' r' : Res β) (hd : d' = d.image f) (hr : r' = r.image f) (code : Code) :
    setCode d' r' code = (setCode d r code).image (fun p => (p.1, f p.2)) := by
  subst hd hr
  unfold setCode
  rcases r with _ | ⟨_, _⟩ | _ <;> rcases d with _ | ⟨_, _⟩ | _ <;> rfl

theorem simEval4 (hc : c.le = true) (d : Bool) (st : List (Obj (List (BitVec 8)) (BitVec 32)))
    (hst : ∀ o ∈ st, HeldOk (fam4 true) WF4 BitVec.toNat d o) (e : Expr U128) (he : bothHave e = true) :
    anyEval c (st.map as4) e = ((fam4 c.le).eval st (Expr.on cut e)).map (Res.image as4) := by
  have get : ∀ i n, st[i]? = some (Obj.net n) → NetOk4 n := fun i o h => hst _ (List.mem_of_getElem? h)
  cases e with
  | defNet => exact some_eq (image_call _ _ _ _ _ _ (bind_image _ _) fun _ => rfl)
  | defAit => rfl
  | defNit => exact some_eq (image_call _ _ id _ _ _ (by cases (fam4 c.le).niDefault <;> rfl) fun _ => rfl)
  | defExit => exact some_eq (image_call _ _ _ _ _ _ (anyExDefault4 c) fun _ => rfl)
  | defExs =>
    refine some_eq ?_
    show (do let x ← anyExDefault c; .ok (.exs x x)) = Res.image as4 (do let s ← (fam4 c.le).exSeqDefault; .ok (.exs s))
    rw [anyExDefault4]
    unfold Fam.exSeqDefault
    cases (fam4 c.le).exDefault <;> rfl
  | fromAddress i p s =>
    simp only [anyEval, Fam.eval, Expr.on, as4_get]
    cases h1 : st[i]? with
    | none => rfl
    | some o =>
      cases o with
      | addr a => exact some_eq (image_call _ _ _ _ _ _ (bind_image _ _) fun _ => rfl)
      | _ => rfl
  | fromAddressCode i p s =>
    simp only [anyEval, Fam.eval, Expr.on, as4_get]
    cases h1 : st[i]? with
    | none => rfl
    | some o =>
      cases o with
      | addr a => exact some_eq (image_call _ _ _ _ _ _ (onValue_image _ _) fun _ => rfl)
      | _ => rfl
  | network i | netmask i | hostmask i | front i | deref i =>
    simp only [anyEval, Fam.eval, Expr.on, as4_get]
    cases st[i]? with
    | none => rfl
    | some o => cases o <;> rfl
  | first i | last i =>
    simp only [anyEval, Fam.eval, Expr.on, as4_get]
    cases st[i]? with
    | none => rfl
    | some o => cases o <;> rfl
  | broadcast i =>
    simp only [anyEval, Fam.eval, Expr.on, as4_get]
    cases h1 : st[i]? with
    | none => rfl
    | some o =>
      cases o with
      | net n => exact some_eq (image_call _ _ _ _ _ _ (bind_image _ _) fun _ => rfl)
      | _ => rfl
  | supernet i d q =>
    simp only [anyEval, Fam.eval, Expr.on, as4_get]
    cases h1 : st[i]? with
    | none => rfl
    | some o =>
      cases o with
      | net n => exact some_eq (image_call _ _ _ _ _ _ (bind_image _ _) fun _ => rfl)
      | _ => rfl
  | supernetCode i d q =>
    simp only [anyEval, Fam.eval, Expr.on, as4_get]
    cases h1 : st[i]? with
    | none => rfl
    | some o =>
      cases o with
      | net n => exact some_eq (image_call _ _ _ _ _ _ (onValue_image _ _) fun _ => rfl)
      | _ => rfl
  | hosts i =>
    simp only [anyEval, Fam.eval, Expr.on, as4_get]
    cases h1 : st[i]? with
    | none => rfl
    | some o =>
      cases o with
      | net n => exact some_eq (image_call _ _ _ _ _ _ (bind_image _ _) fun _ => rfl)
      | _ => rfl
  | subnets i d q =>
    simp only [anyEval, Fam.eval, Expr.on, as4_get]
    cases h1 : st[i]? with
    | none => rfl
    | some o =>
      cases o with
      | net n => exact some_eq (image_call _ _ _ _ _ _ (bind_image _ _) fun _ => rfl)
      | _ => rfl
  | subnetsCode i d q =>
    simp only [anyEval, Fam.eval, Expr.on, as4_get]
    cases h1 : st[i]? with
    | none => rfl
    | some o =>
      cases o with
      | net n => exact some_eq (image_call _ _ (fun p : Code × SubnetsSeq (List (BitVec 8)) (BitVec 32) => (p.1, (⟨na4 p.2.first, na4 p.2.last⟩ : AnySeq (NIter (List (BitVec 8)) (BitVec 32)) (NIter V6 U128) AnyNet))) _ _ _ (onValue_image (fun s : SubnetsSeq (List (BitVec 8)) (BitVec 32) => (⟨na4 s.first, na4 s.last⟩ : AnySeq (NIter (List (BitVec 8)) (BitVec 32)) (NIter V6 U128) AnyNet)) _) fun _ => rfl)
      | _ => rfl
  | reverse i =>
    simp only [anyEval, Fam.eval, Expr.on, as4_get]
    cases h1 : st[i]? with
    | none => rfl
    | some o =>
      cases o with
      | ait x => exact some_eq (image_call _ _ (fun r : RIter (AIter (List (BitVec 8)) (BitVec 32)) => (⟨ha4 r.it⟩ : RIter AnyHostIt)) _ _ _ (image_bind _ _ _ _ _ ha4 (bind_image _ _) fun _ => rfl) fun _ => rfl)
      | nit x => exact some_eq (image_call _ _ (fun r : RIter (NIter (List (BitVec 8)) (BitVec 32)) => (⟨na4 r.it⟩ : RIter AnyNetIt)) _ _ _ ((congrArg Fam.noexcept (image_bind _ _ _ _ _ na4 (bind_image _ _) fun _ => rfl)).trans (image_noexcept _ _)) fun _ => rfl)
      | _ => rfl
  | base i =>
    simp only [anyEval, Fam.eval, Expr.on, as4_get]
    cases h1 : st[i]? with
    | none => rfl
    | some o =>
      cases o with
      | rait x => exact some_eq (image_call _ _ ha4 _ _ _ (bind_image _ _) fun _ => rfl)
      | rnit x => exact some_eq (image_call _ _ na4 _ _ _ ((congrArg Fam.noexcept (bind_image _ _)).trans (image_noexcept _ _)) fun _ => rfl)
      | _ => rfl
  | move i m =>
    simp only [anyEval, Fam.eval, Expr.on, as4_get]
    cases h1 : st[i]? with
    | none => rfl
    | some o =>
      cases o with
      | ait x => exact some_eq (image_call _ _ ha4 _ _ _ (hmove4 c m x) fun _ => rfl)
      | nit x => exact some_eq (image_call _ _ na4 _ _ _ (nmove4 c m x) fun _ => rfl)
      | rait x => exact some_eq (image_call _ _ ha4 _ _ _ ((hmove4 c m.opposite x.it).trans (by rw [on_opposite])) fun _ => rfl)
      | rnit x => exact some_eq (image_call _ _ na4 _ _ _ ((nmove4 c m.opposite x.it).trans (by rw [on_opposite])) fun _ => rfl)
      | exit x => exact some_eq (image_call _ _ _ _ _ _ (anyExInc4 c x) fun _ => rfl)
      | _ => rfl
  | index i n =>
    simp only [anyEval, Fam.eval, Expr.on, as4_get, ← lo32_cut]
    cases h1 : st[i]? with
    | none => rfl
    | some o =>
      cases o with
      | ait x => exact some_eq (image_call _ _ AnyAddr.v4 _ _ _ (bind_image _ _) fun _ => rfl)
      | nit x => exact some_eq (image_call _ _ AnyNet.v4 _ _ _ ((congrArg Fam.noexcept (bind_image _ _)).trans (image_noexcept _ _)) fun _ => rfl)
      | rait x =>
        rw [lo32_cut]
        exact some_eq (image_call _ _ AnyAddr.v4 _ _ _ (image_bind _ _ _ _ _ ha4 (hsub4 c x.it n) fun _ => rfl) fun _ => rfl)
      | rnit x =>
        rw [lo32_cut]
        exact some_eq (image_call _ _ AnyNet.v4 _ _ _ ((congrArg Fam.noexcept (image_bind _ _ _ _ _ na4 (nsub4 c x.it n) fun _ => rfl)).trans (image_noexcept _ _)) fun _ => rfl)
      | _ => rfl
  | back i =>
    simp only [anyEval, Fam.eval, Expr.on, as4_get]
    cases h1 : st[i]? with
    | none => rfl
    | some o =>
      cases o with
      | hosts s => exact some_eq (image_call _ _ AnyAddr.v4 _ _ _ (image_bind _ _ _ _ _ ha4 ((hsub4 c s.last _).trans (by rw [cut_ofI64 c])) fun _ => rfl) fun _ => rfl)
      | subs s => exact some_eq (image_call _ _ AnyNet.v4 _ _ _ ((congrArg Fam.noexcept (image_bind _ _ _ _ _ na4 ((nsub4 c s.last _).trans (by rw [cut_ofI64 c])) fun _ => rfl)).trans (image_noexcept _ _)) fun _ => rfl)
      | _ => rfl
  | elem i n =>
    simp only [anyEval, Fam.eval, Expr.on, as4_get]
    cases h1 : st[i]? with
    | none => rfl
    | some o =>
      cases o with
      | hosts s => exact some_eq (image_call _ _ AnyAddr.v4 _ _ _ (image_bind _ _ _ _ _ ha4 (hadd4 c s.first n) fun _ => rfl) fun _ => rfl)
      | subs s => exact some_eq (image_call _ _ AnyNet.v4 _ _ _ ((congrArg Fam.noexcept (image_bind _ _ _ _ _ na4 (nadd4 c s.first n) fun _ => rfl)).trans (image_noexcept _ _)) fun _ => rfl)
      | _ => rfl
  | exclude i j =>
    simp only [anyEval, Fam.eval, Expr.on, as4_get]
    cases h1 : st[i]? with
    | none => cases st[j]? <;> rfl
    | some o =>
      cases h2 : st[j]? with
      | none => cases o <;> rfl
      | some o' =>
        cases o <;> first | rfl | skip
        cases o' <;> first | rfl | skip
        exact some_eq (image_call _ _ _ _ _ _ (anyExclude4 c hc _ _ (get _ _ h1) (get _ _ h2)) fun _ => rfl)
  | excludeCode i j =>
    simp only [anyEval, Fam.eval, Expr.on, as4_get]
    cases h1 : st[i]? with
    | none => cases st[j]? <;> rfl
    | some o =>
      cases h2 : st[j]? with
      | none => cases o <;> rfl
      | some o' =>
        cases o <;> first | rfl | skip
        cases o' <;> first | rfl | skip
        exact some_eq (image_call _ _ _ _ _ _ (setCode_image _ _ _ _ _ (anyExSeqDefault4 c) (anyExclude4 c hc _ _ (get _ _ h1) (get _ _ h2)) _) fun _ => rfl)
  | exitMk i j =>
    simp only [anyEval, Fam.eval, Expr.on, as4_get]
    cases h1 : st[i]? with
    | none => cases st[j]? <;> rfl
    | some o =>
      cases h2 : st[j]? with
      | none => cases o <;> rfl
      | some o' =>
        cases o <;> first | rfl | skip
        cases o' <;> first | rfl | skip
        exact some_eq (image_call _ _ _ _ _ _ (anyExMk4 c _ _) fun _ => rfl)
  | exsMk i j =>
    simp only [anyEval, Fam.eval, Expr.on, as4_get]
    cases h1 : st[i]? with
    | none => cases st[j]? <;> rfl
    | some o =>
      cases h2 : st[j]? with
      | none => cases o <;> rfl
      | some o' =>
        cases o <;> first | rfl | skip
        cases o' <;> first | rfl | skip
        next n o =>
        refine some_eq ?_
        show (do let x ← anyExMk c (.v4 n) (.v4 o); let d ← anyExDefault c; Res.ok (AnyObj.exs x d)) =
          Res.image as4 (do let s ← (fam4 c.le).exSeqMk n o; .ok (.exs s))
        rw [anyExDefault4, anyExMk4]
        unfold Fam.exSeqMk
        rcases (fam4 c.le).exMk n o with _ | ⟨_, _⟩ | _ <;> rcases (fam4 c.le).exDefault with _ | ⟨_, _⟩ | _ <;> rfl
  | _ => cases he

end v4

/-- An object that is no excluding iterator or sequence. -/
def noExclusion {A U : Type} : Obj A U → Bool
  | .exit _ | .exs _ => false
  | _ => true

section v6
variable (c : Cfg)

theorem simEval6 (st : List (Obj V6 U128)) (hst : ∀ o ∈ st, noExclusion o = true)
    (e : Expr U128) (he : bothHave e = true) (hd : noDefault e = true) :
    anyEval c (st.map as6) e = ((fam6 c).eval st e).map (Res.image as6) := by
  cases e with
  | fromAddress i p s =>
    simp only [anyEval, Fam.eval, as6_get]
    cases h1 : st[i]? with
    | none => rfl
    | some o =>
      cases o with
      | addr a => exact some_eq (image_call _ _ _ _ _ _ (bind_image _ _) fun _ => rfl)
      | _ => rfl
  | fromAddressCode i p s =>
    simp only [anyEval, Fam.eval, as6_get]
    cases h1 : st[i]? with
    | none => rfl
    | some o =>
      cases o with
      | addr a => exact some_eq (image_call _ _ _ _ _ _ (onValue_image _ _) fun _ => rfl)
      | _ => rfl
  | network i | netmask i | hostmask i | front i | deref i =>
    simp only [anyEval, Fam.eval, as6_get]
    cases st[i]? with
    | none => rfl
    | some o => cases o <;> rfl
  | first i | last i =>
    simp only [anyEval, Fam.eval, as6_get]
    cases st[i]? with
    | none => rfl
    | some o => cases o <;> rfl
  | broadcast i =>
    simp only [anyEval, Fam.eval, as6_get]
    cases h1 : st[i]? with
    | none => rfl
    | some o =>
      cases o with
      | net n => exact some_eq (image_call _ _ _ _ _ _ (bind_image _ _) fun _ => rfl)
      | _ => rfl
  | supernet i d q =>
    simp only [anyEval, Fam.eval, as6_get]
    cases h1 : st[i]? with
    | none => rfl
    | some o =>
      cases o with
      | net n => exact some_eq (image_call _ _ _ _ _ _ (bind_image _ _) fun _ => rfl)
      | _ => rfl
  | supernetCode i d q =>
    simp only [anyEval, Fam.eval, as6_get]
    cases h1 : st[i]? with
    | none => rfl
    | some o =>
      cases o with
      | net n => exact some_eq (image_call _ _ _ _ _ _ (onValue_image _ _) fun _ => rfl)
      | _ => rfl
  | hosts i =>
    simp only [anyEval, Fam.eval, as6_get]
    cases h1 : st[i]? with
    | none => rfl
    | some o =>
      cases o with
      | net n => exact some_eq (image_call _ _ _ _ _ _ (bind_image _ _) fun _ => rfl)
      | _ => rfl
  | subnets i d q =>
    simp only [anyEval, Fam.eval, as6_get]
    cases h1 : st[i]? with
    | none => rfl
    | some o =>
      cases o with
      | net n => exact some_eq (image_call _ _ _ _ _ _ (bind_image _ _) fun _ => rfl)
      | _ => rfl
  | subnetsCode i d q =>
    simp only [anyEval, Fam.eval, as6_get]
    cases h1 : st[i]? with
    | none => rfl
    | some o =>
      cases o with
      | net n => exact some_eq (image_call _ _ (fun p : Code × SubnetsSeq V6 U128 => (p.1, (⟨na6 p.2.first, na6 p.2.last⟩ : AnySeq (NIter (List (BitVec 8)) (BitVec 32)) (NIter V6 U128) AnyNet))) _ _ _ (onValue_image (fun s : SubnetsSeq V6 U128 => (⟨na6 s.first, na6 s.last⟩ : AnySeq (NIter (List (BitVec 8)) (BitVec 32)) (NIter V6 U128) AnyNet)) _) fun _ => rfl)
      | _ => rfl
  | reverse i =>
    simp only [anyEval, Fam.eval, as6_get]
    cases h1 : st[i]? with
    | none => rfl
    | some o =>
      cases o with
      | ait x => exact some_eq (image_call _ _ (fun r : RIter (AIter V6 U128) => (⟨ha6 r.it⟩ : RIter AnyHostIt)) _ _ _ (image_bind _ _ _ _ _ ha6 (bind_image _ _) fun _ => rfl) fun _ => rfl)
      | nit x => exact some_eq (image_call _ _ (fun r : RIter (NIter V6 U128) => (⟨na6 r.it⟩ : RIter AnyNetIt)) _ _ _ ((congrArg Fam.noexcept (image_bind _ _ _ _ _ na6 (bind_image _ _) fun _ => rfl)).trans (image_noexcept _ _)) fun _ => rfl)
      | _ => rfl
  | base i =>
    simp only [anyEval, Fam.eval, as6_get]
    cases h1 : st[i]? with
    | none => rfl
    | some o =>
      cases o with
      | rait x => exact some_eq (image_call _ _ ha6 _ _ _ (bind_image _ _) fun _ => rfl)
      | rnit x => exact some_eq (image_call _ _ na6 _ _ _ ((congrArg Fam.noexcept (bind_image _ _)).trans (image_noexcept _ _)) fun _ => rfl)
      | _ => rfl
  | move i m =>
    simp only [anyEval, Fam.eval, as6_get]
    cases h1 : st[i]? with
    | none => rfl
    | some o =>
      cases o with
      | ait x => exact some_eq (image_call _ _ ha6 _ _ _ (hmove6 c m x) fun _ => rfl)
      | nit x => exact some_eq (image_call _ _ na6 _ _ _ (nmove6 c m x) fun _ => rfl)
      | rait x => exact some_eq (image_call _ _ ha6 _ _ _ (hmove6 c m.opposite x.it) fun _ => rfl)
      | rnit x => exact some_eq (image_call _ _ na6 _ _ _ (nmove6 c m.opposite x.it) fun _ => rfl)
      | exit x => exact absurd (hst _ (List.mem_of_getElem? h1)) (by simp [noExclusion])
      | _ => rfl
  | index i n =>
    simp only [anyEval, Fam.eval, as6_get]
    cases h1 : st[i]? with
    | none => rfl
    | some o =>
      cases o with
      | ait x => exact some_eq (image_call _ _ AnyAddr.v6 _ _ _ (bind_image _ _) fun _ => rfl)
      | nit x => exact some_eq (image_call _ _ AnyNet.v6 _ _ _ ((congrArg Fam.noexcept (bind_image _ _)).trans (image_noexcept _ _)) fun _ => rfl)
      | rait x => exact some_eq (image_call _ _ AnyAddr.v6 _ _ _ (image_bind _ _ _ _ _ ha6 (hsub6 c x.it n) fun _ => rfl) fun _ => rfl)
      | rnit x => exact some_eq (image_call _ _ AnyNet.v6 _ _ _ ((congrArg Fam.noexcept (image_bind _ _ _ _ _ na6 (nsub6 c x.it n) fun _ => rfl)).trans (image_noexcept _ _)) fun _ => rfl)
      | _ => rfl
  | back i =>
    simp only [anyEval, Fam.eval, as6_get]
    cases h1 : st[i]? with
    | none => rfl
    | some o =>
      cases o with
      | hosts s => exact some_eq (image_call _ _ AnyAddr.v6 _ _ _ (image_bind _ _ _ _ _ ha6 (hsub6 c s.last _) fun _ => rfl) fun _ => rfl)
      | subs s => exact some_eq (image_call _ _ AnyNet.v6 _ _ _ ((congrArg Fam.noexcept (image_bind _ _ _ _ _ na6 (nsub6 c s.last _) fun _ => rfl)).trans (image_noexcept _ _)) fun _ => rfl)
      | _ => rfl
  | elem i n =>
    simp only [anyEval, Fam.eval, as6_get]
    cases h1 : st[i]? with
    | none => rfl
    | some o =>
      cases o with
      | hosts s => exact some_eq (image_call _ _ AnyAddr.v6 _ _ _ (image_bind _ _ _ _ _ ha6 (hadd6 c s.first n) fun _ => rfl) fun _ => rfl)
      | subs s => exact some_eq (image_call _ _ AnyNet.v6 _ _ _ ((congrArg Fam.noexcept (image_bind _ _ _ _ _ na6 (nadd6 c s.first n) fun _ => rfl)).trans (image_noexcept _ _)) fun _ => rfl)
      | _ => rfl
  | _ => first | (cases he; done) | cases hd

end v6

theorem eval_noExclusion {A U : Type} (F : Fam A U) (st : List (Obj A U)) (hst : ∀ o ∈ st, noExclusion o = true) (e : Expr U)
    (he : bothHave e = true) (hd : noDefault e = true) (o : Obj A U) (h : F.eval st e = some (.ok o)) : noExclusion o = true := by
  have fin : ∀ {α : Type} (r : Res α) (f : α → Obj A U), (∀ a, noExclusion (f a) = true) → 
      (do let a ← r; Res.ok (f a)) = .ok o → noExclusion o = true := by
    intro α r f hP h
    obtain ⟨a, h1, h2⟩ := Res.bind_eq_ok.1 h
    cases h2
    exact hP a
  have get : ∀ i o, st[i]? = some o → noExclusion o = true := fun i o h => hst o (List.mem_of_getElem? h)
  cases e <;> first | (cases he; done) | (cases hd; done) | skip
  all_goals
    simp only [Fam.eval] at h
    split at h <;>
      first
      | (cases h; done)
      | exact fin _ _ (fun _ => rfl) (Option.some.inj h)
      | (cases h; rfl)
      | (next e1 => exact absurd (get _ _ e1) Bool.false_ne_true)


theorem anyHalves6 (c : Cfg) (n : Net V6) : anyHalves c (.v6 n) = ((fam6 c).halves n).image fun p => (.v6 p.1, .v6 p.2) := by
  refine image_bind _ _ _ _ _ (fun s => ⟨na6 s.first, na6 s.last⟩) (bind_image _ _) fun s => ?_
  refine image_bind _ _ _ _ _ AnyNet.v6 ?_ fun a => image_bind _ _ _ _ _ AnyNet.v6 ?_ fun b => rfl
  · exact image_bind _ _ _ _ _ na6 (nadd6 c _ _) fun x => rfl
  · exact image_bind _ _ _ _ _ na6 (nadd6 c _ _) fun x => rfl

theorem image_eq_ok {α β : Type} {f : α → β} {r : Res α} {b : β} (h : r.image f = .ok b) : ∃ a, r = .ok a ∧ f a = b := by
  cases r with
  | ok a => exact ⟨a, rfl, by injection h⟩
  | err e v => cases h
  | ub => cases h

/-- The four networks of an excluding iterator over `ip_network`. -/
structure AnyExOk (c : Cfg) (x : AnyEx) : Prop where
  other : NetOkAny c x.other
  s1 : NetOkAny c x.s1
  s2 : NetOkAny c x.s2
  cur : NetOkAny c x.cur

/-- The invariant of the objects of a program over the version agnostic classes. -/
def AnyHeld (c : Cfg) (o : AnyObj) : Prop :=
  (∃ p, o = as4 p ∧ HeldOk (fam4 true) WF4 BitVec.toNat true p) ∨
  (∃ p, o = as6 p ∧ noExclusion p = true ∧ HeldOk (fam6 c) (V6.WF c.M) U128.val true p) ∨
  (∃ x, o = .exit x ∧ AnyExOk c x) ∨
  (∃ x y, o = .exs x y ∧ AnyExOk c x ∧ AnyExOk c y)

section
variable (c : Cfg) (hc : c.le = true)

theorem anyHeld_net (n : AnyNet) (h : NetOkAny c n) : AnyHeld c (.net n) := by
  cases n with
  | v4 n => exact .inl ⟨.net n, rfl, h⟩
  | v6 n => exact .inr (.inl ⟨.net n, rfl, rfl, h⟩)

theorem AnyHeld.net {c : Cfg} {n : AnyNet} (h : AnyHeld c (.net n)) : NetOkAny c n := by
  rcases h with ⟨p, e, h⟩ | ⟨p, e, -, h⟩ | ⟨x, e, h⟩ | ⟨x, y, e, h⟩
  · cases p <;> cases e
    exact h
  · cases p <;> cases e
    exact h
  · cases e
  · cases e

include hc

theorem anyHalves_ok (n : AnyNet) (hn : NetOkAny c n) (r : AnyNet × AnyNet) (h : anyHalves c n = .ok r) :
    NetOkAny c r.1 ∧ NetOkAny c r.2 := by
  cases n with
  | v4 n =>
    rw [anyHalves4, hc] at h
    obtain ⟨p, h1, rfl⟩ := image_eq_ok h
    exact halves_netOk fam4Law n hn p h1
  | v6 n =>
    rw [anyHalves6] at h
    obtain ⟨p, h1, rfl⟩ := image_eq_ok h
    exact halves_netOk (fam6Law c hc) n hn p h1

theorem anyExDefault_ok (y : AnyEx) (h : anyExDefault c = .ok y) : AnyExOk c y := by
  rw [anyExDefault4, hc] at h
  obtain ⟨p, h1, rfl⟩ := image_eq_ok h
  have k := exDefault_ok fam4Law p h1
  exact ⟨k.other, k.s1, k.s2, k.cur⟩

theorem anyExInc_ok (x : AnyEx) (hx : AnyExOk c x) (y : AnyEx) (h : anyExInc c x = .ok y) : AnyExOk c y := by
  have dflt : anyExDefault c = .ok y → AnyExOk c y := anyExDefault_ok c hc y
  have half : ∀ n o, NetOkAny c n → NetOkAny c o → (do
      let h ← anyHalves c n
      Res.ok (AnyEx.mk x.other h.1 h.2 o)) = .ok y → AnyExOk c y := by
    intro n o hn ho h
    obtain ⟨r, h1, h2⟩ := Res.bind_eq_ok.1 h
    cases h2
    have k := anyHalves_ok c hc n hn r h1
    exact ⟨hx.other, k.1, k.2, ho⟩
  unfold anyExInc at h
  obtain ⟨b1, -, h⟩ := Res.bind_eq_ok.1 h
  obtain ⟨b2, -, h⟩ := Res.bind_eq_ok.1 h
  split at h
  · obtain ⟨b3, -, h⟩ := Res.bind_eq_ok.1 h
    split at h
    · obtain ⟨b4, -, h⟩ := Res.bind_eq_ok.1 h
      split at h
      · exact half _ _ hx.s1 hx.s2 h
      · exact dflt h
    · obtain ⟨b4, -, h⟩ := Res.bind_eq_ok.1 h
      split at h
      · obtain ⟨b5, -, h⟩ := Res.bind_eq_ok.1 h
        split at h
        · exact half _ _ hx.s2 hx.s1 h
        · exact dflt h
      · cases h
  · obtain ⟨b3, -, h⟩ := Res.bind_eq_ok.1 h
    split at h
    · obtain ⟨b4, -, h⟩ := Res.bind_eq_ok.1 h
      split at h
      · cases h; exact ⟨hx.other, hx.s1, hx.s2, hx.s2⟩
      · exact dflt h
    · obtain ⟨b4, -, h⟩ := Res.bind_eq_ok.1 h
      split at h
      · obtain ⟨b5, -, h⟩ := Res.bind_eq_ok.1 h
        split at h
        · cases h; exact ⟨hx.other, hx.s1, hx.s2, hx.s1⟩
        · exact dflt h
      · cases h

theorem anyExMk_ok (n o : AnyNet) (hn : NetOkAny c n) (ho : NetOkAny c o) (x : AnyEx) (h : anyExMk c n o = .ok x) : AnyExOk c x := by
  obtain ⟨r, h1, h⟩ := Res.bind_eq_ok.1 h
  have k := anyHalves_ok c hc n hn r h1
  exact anyExInc_ok c hc ⟨o, r.1, r.2, n⟩ ⟨ho, k.1, k.2, hn⟩ x h

theorem anyRemoveScope_ok (n : AnyNet) (hn : NetOkAny c n) (r : AnyNet) (h : anyNetRemoveScope c n = .ok r) : NetOkAny c r := by
  cases n with
  | v4 n =>
    rw [anyRemoveScope4_self c hc n hn] at h
    cases h
    exact hn
  | v6 n =>
    obtain ⟨l, h1, h2⟩ := anyRemoveScope6 c hc n hn
    rw [h1] at h
    cases h
    exact h2.netOk (fam6Law c hc)

theorem anyExclude_ok (n o : AnyNet) (hn : NetOkAny c n) (ho : NetOkAny c o) (s : AnyEx × AnyEx)
    (h : anyNetExclude c n o = .ok s) : AnyExOk c s.1 ∧ AnyExOk c s.2 := by
  have key : (do
      let lhs ← Fam.noexcept (anyNetRemoveScope c n)
      let rhs ← Fam.noexcept (anyNetRemoveScope c o)
      if !(← anyNetSubnetOf c rhs lhs) then Res.err .not_contained_network 0
      else if ← anyNetEq c lhs rhs then do
        let d ← anyExDefault c
        .ok (d, d)
      else Fam.noexcept (do
        let x ← anyExMk c lhs rhs
        let d ← anyExDefault c
        .ok (x, d))) = .ok s → AnyExOk c s.1 ∧ AnyExOk c s.2 := by
    intro h
    obtain ⟨l, h1, h⟩ := Res.bind_eq_ok.1 h
    obtain ⟨r, h2, h⟩ := Res.bind_eq_ok.1 h
    obtain ⟨b, -, h⟩ := Res.bind_eq_ok.1 h
    have k1 := anyRemoveScope_ok c hc n hn l (noexcept_ok h1)
    have k2 := anyRemoveScope_ok c hc o ho r (noexcept_ok h2)
    split at h
    · cases h
    · obtain ⟨b', -, h⟩ := Res.bind_eq_ok.1 h
      split at h
      · obtain ⟨d, h3, h⟩ := Res.bind_eq_ok.1 h
        cases h
        exact ⟨anyExDefault_ok c hc d h3, anyExDefault_ok c hc d h3⟩
      · obtain ⟨x, h3, h⟩ := Res.bind_eq_ok.1 (noexcept_ok h)
        obtain ⟨d, h4, h⟩ := Res.bind_eq_ok.1 h
        cases h
        exact ⟨anyExMk_ok c hc l r k1 k2 x h3, anyExDefault_ok c hc d h4⟩
  cases n with
  | v4 n =>
    cases o with
    | v4 o => exact key h
    | v6 o => cases h
  | v6 n =>
    cases o with
    | v4 o => cases h
    | v6 o => exact key h

omit hc in
/-- The place that an expression with one operand uses. -/
def place : Expr U128 → Option Nat
  | .fromAddress i _ _ | .fromAddressCode i _ _ | .network i | .netmask i | .hostmask i | .broadcast i | .supernet i _ _ |
    .supernetCode i _ _ | .hosts i | .subnets i _ _ | .subnetsCode i _ _ | .first i | .last i | .reverse i | .base i |
    .move i _ | .deref i | .index i _ | .front i | .back i | .elem i _ => some i
  | _ => none

omit hc in
theorem anyEval_local (e : Expr U128) (i : Nat) (h : place e = some i) (st st' : List AnyObj) (hs : st[i]? = st'[i]?) :
    anyEval c st e = anyEval c st' e := by
  cases e <;> cases h <;> simp only [anyEval, hs]

omit hc in
theorem place_both (e : Expr U128) (i : Nat) (h : place e = some i) : bothHave e = true ∧ noDefault e = true := by
  cases e <;> cases h <;> exact ⟨rfl, rfl⟩

omit hc in
theorem rep_get {α : Type} (i : Nat) (x : α) : (List.replicate (i + 1) x)[i]? = some x := by simp

omit hc in
theorem bind_any {α : Type} {P : AnyObj → Prop} {r : Res α} {f : α → AnyObj} (hP : ∀ a, r = .ok a → P (f a)) (o : AnyObj)
    (h : (do let a ← r; Res.ok (f a)) = .ok o) : P o := by
  obtain ⟨a, h1, h2⟩ := Res.bind_eq_ok.1 h
  cases h2
  exact hP a h1

theorem anyEval_place (e : Expr U128) (i : Nat) (h : place e = some i) (st : List AnyObj) (x : AnyObj) (hx : st[i]? = some x)
    (hok : AnyHeld c x) (o : AnyObj) (ho : anyEval c st e = some (.ok o)) : AnyHeld c o := by
  rw [anyEval_local c e i h st (List.replicate (i + 1) x) (by rw [hx, rep_get])] at ho
  have hb := place_both e i h
  rcases hok with ⟨p, rfl, hp⟩ | ⟨p, rfl, hn, hp⟩ | ⟨x, rfl, hp⟩ | ⟨x, y, rfl, hp⟩
  · have hst : ∀ o ∈ List.replicate (i + 1) p, HeldOk (fam4 true) WF4 BitVec.toNat true o :=
      fun o ho => by rw [List.eq_of_mem_replicate ho]; exact hp
    rw [← List.map_replicate, simEval4 c hc true _ hst e hb.1, hc] at ho
    obtain ⟨r, h1, h2⟩ := Option.map_eq_some_iff.1 ho
    obtain ⟨q, rfl, rfl⟩ := image_eq_ok h2
    exact .inl ⟨q, rfl, eval_ok fam4Law progLaw4 true _ hst _ (fun _ => rfl) q h1⟩
  · have hst : ∀ o ∈ List.replicate (i + 1) p, HeldOk (fam6 c) (V6.WF c.M) U128.val true o :=
      fun o ho => by rw [List.eq_of_mem_replicate ho]; exact hp
    have hst' : ∀ o ∈ List.replicate (i + 1) p, noExclusion o = true :=
      fun o ho => by rw [List.eq_of_mem_replicate ho]; exact hn
    rw [← List.map_replicate, simEval6 c _ hst' e hb.1 hb.2] at ho
    obtain ⟨r, h1, h2⟩ := Option.map_eq_some_iff.1 ho
    obtain ⟨q, rfl, rfl⟩ := image_eq_ok h2
    exact .inr (.inl ⟨q, rfl, eval_noExclusion (fam6 c) _ hst' e hb.1 hb.2 q h1, eval_ok (fam6Law c hc) (progLaw6 c hc) true _ hst _ (fun _ => rfl) q h1⟩)
  · cases e <;> cases h <;> simp only [anyEval, rep_get, reduceCtorEq, Option.some.injEq] at ho
    · exact bind_any (fun y hy => .inr (.inr (.inl ⟨y, rfl, anyExInc_ok c hc x hp y hy⟩))) o ho
    · cases ho
      exact anyHeld_net c _ hp.cur
  · cases e <;> cases h <;> simp only [anyEval, rep_get, reduceCtorEq, Option.some.injEq] at ho
    · cases ho
      exact .inr (.inr (.inl ⟨x, rfl, hp.1⟩))
    · cases ho
      exact .inr (.inr (.inl ⟨y, rfl, hp.2⟩))

theorem anyEval_default (e : Expr U128) (hb : bothHave e = true) (st : List AnyObj) (hl : anyEval c st e = anyEval c [] e) (o : AnyObj)
    (ho : anyEval c st e = some (.ok o)) : AnyHeld c o := by
  have hst : ∀ o ∈ ([] : List (Obj (List (BitVec 8)) (BitVec 32))), HeldOk (fam4 true) WF4 BitVec.toNat true o := fun o ho => nomatch ho
  have h4 := simEval4 c hc true [] hst e hb
  rw [List.map_nil, ← hl, hc] at h4
  rw [h4] at ho
  obtain ⟨r, h1, h2⟩ := Option.map_eq_some_iff.1 ho
  obtain ⟨q, rfl, rfl⟩ := image_eq_ok h2
  exact .inl ⟨q, rfl, eval_ok fam4Law progLaw4 true _ hst _ (fun _ => rfl) q h1⟩

theorem anyEval_held (st : List AnyObj) (hst : ∀ o ∈ st, AnyHeld c o) (e : Expr U128) (o : AnyObj)
    (ho : anyEval c st e = some (.ok o)) : AnyHeld c o := by
  have get : ∀ i o, st[i]? = some o → AnyHeld c o := fun i o h => hst o (List.mem_of_getElem? h)
  cases hp : place e with
  | some i =>
    cases hx : st[i]? with
    | none =>
      exfalso
      cases e <;> cases hp <;> simp [anyEval, hx] at ho
    | some x => exact anyEval_place c hc e i hp st x hx (get i x hx) o ho
  | none =>
    cases e with
    | parse evs s =>
      refine bind_any (fun n hn => anyHeld_net c n ?_) o (Option.some.inj ho)
      exact (C49_invariant c hc).1 evs s n hn
    | exclude i j =>
      simp only [anyEval] at ho
      split at ho
      · next n m e1 e2 =>
        refine bind_any (fun s hs => ?_) o (Option.some.inj ho)
        have k := anyExclude_ok c hc n m (get i _ e1).net (get j _ e2).net s hs
        exact .inr (.inr (.inr ⟨s.1, s.2, rfl, k⟩))
      · cases ho
    | excludeCode i j =>
      simp only [anyEval] at ho
      split at ho
      · next n m e1 e2 =>
        refine bind_any (r := anyExcludeCode c n m none) (f := fun s => .exs s.2.1 s.2.2) (fun s hs => ?_) o (Option.some.inj ho)
        have k : AnyExOk c s.2.1 ∧ AnyExOk c s.2.2 := by
          refine setCode_ok (fun s : AnyEx × AnyEx => AnyExOk c s.1 ∧ AnyExOk c s.2) _ _ _ (fun x hx => ?_) (fun x hx => ?_) s hs
          · obtain ⟨d, h1, h2⟩ := Res.bind_eq_ok.1 hx
            cases h2
            exact ⟨anyExDefault_ok c hc d h1, anyExDefault_ok c hc d h1⟩
          · exact anyExclude_ok c hc n m (get i _ e1).net (get j _ e2).net x hx
        exact .inr (.inr (.inr ⟨_, _, rfl, k⟩))
      · cases ho
    | exitMk i j =>
      simp only [anyEval] at ho
      split at ho
      · next n m e1 e2 =>
        refine bind_any (fun s hs => ?_) o (Option.some.inj ho)
        exact .inr (.inr (.inl ⟨_, rfl, anyExMk_ok c hc n m (get i _ e1).net (get j _ e2).net s hs⟩))
      · cases ho
    | exsMk i j =>
      simp only [anyEval] at ho
      split at ho
      · next n m e1 e2 =>
        obtain ⟨x, h1, h2⟩ := Res.bind_eq_ok.1 (Option.some.inj ho)
        obtain ⟨d, h3, h4⟩ := Res.bind_eq_ok.1 h2
        cases h4
        exact .inr (.inr (.inr ⟨_, _, rfl, anyExMk_ok c hc n m (get i _ e1).net (get j _ e2).net x h1, anyExDefault_ok c hc d h3⟩))
      · cases ho
    | defNet => exact anyEval_default c hc .defNet rfl st rfl o ho
    | defAit => exact anyEval_default c hc .defAit rfl st rfl o ho
    | defNit => exact anyEval_default c hc .defNit rfl st rfl o ho
    | defExit => exact anyEval_default c hc .defExit rfl st rfl o ho
    | defExs => exact anyEval_default c hc .defExs rfl st rfl o ho
    | _ => first | cases ho | cases hp

theorem anyExec_held (st : List AnyObj) (hst : ∀ o ∈ st, AnyHeld c o) (s : Stmt U128) (st' : List AnyObj)
    (h : anyExec c st s = .ok st') : ∀ o ∈ st', AnyHeld c o := by
  have key : ∀ (e : Expr U128) (f : AnyObj → List AnyObj), (∀ o, AnyHeld c o → ∀ x ∈ f o, AnyHeld c x) →
      anyAfter st (anyEval c st e) f = .ok st' → ∀ o ∈ st', AnyHeld c o := by
    intro e f hf h
    cases hev : anyEval c st e with
    | none => rw [hev] at h; cases h; exact hst
    | some r =>
      rw [hev] at h
      cases r with
      | ok o => cases h; exact hf o (anyEval_held c hc st hst e o hev)
      | err c v => cases h; exact hst
      | ub => cases h
  cases s with
  | new e =>
    refine key e _ (fun o ho x hx => ?_) h
    rcases List.mem_append.1 hx with hx | hx
    · exact hst x hx
    · rw [List.mem_singleton.1 hx]; exact ho
  | put i e =>
    refine key e _ (fun o ho x hx => ?_) h
    rcases mem_set_of hx with hx | hx
    · exact hst x hx
    · rw [hx]; exact ho
  | swap i j =>
    have get : ∀ i o, st[i]? = some o → AnyHeld c o := fun i o h => hst o (List.mem_of_getElem? h)
    have two : ∀ a b, AnyHeld c a → AnyHeld c b → ∀ o ∈ (st.set i a).set j b, AnyHeld c o := by
      intro a b ha hb o ho
      rcases mem_set_of ho with ho | rfl
      · rcases mem_set_of ho with ho | rfl
        · exact hst o ho
        · exact ha
      · exact hb
    simp only [anyExec] at h
    split at h
    · next n m e1 e2 => cases h; exact two _ _ (get j _ e2) (get i _ e1)
    · next a b _ e1 e2 => cases h; exact two _ _ (get j _ e2) (get i _ e1)
    · cases h; exact hst

theorem anyRun_held : ∀ (prog : List (Stmt U128)) (st : List AnyObj), (∀ o ∈ st, AnyHeld c o) → ∀ st', anyRun c prog st = .ok st' →
    ∀ o ∈ st', AnyHeld c o
  | [], st, hst, st', h => by cases h; exact hst
  | s :: rest, st, hst, st', h => by
    obtain ⟨st1, h1, h2⟩ := Res.bind_eq_ok.1 h
    exact anyRun_held rest st1 (anyExec_held c hc st hst s st1 h1) st' h2

end

theorem simAfter {A U : Type} (e : Obj A U → AnyObj) (st : List (Obj A U)) (r : Option (Res (Obj A U))) (f : Obj A U → List (Obj A U))
    (f' : AnyObj → List AnyObj) (hf : ∀ o, f' (e o) = (f o).map e) :
    anyAfter (st.map e) (r.map (Res.image e)) f' = (Fam.after st r f).image (List.map e) := by
  rcases r with _ | r
  · rfl
  · rcases r with o | ⟨_, _⟩ | _
    · exact congrArg Res.ok (hf o)
    · rfl
    · rfl

theorem simExec4 (c : Cfg) (hc : c.le = true) (st : List (Obj (List (BitVec 8)) (BitVec 32)))
    (hst : ∀ o ∈ st, HeldOk (fam4 true) WF4 BitVec.toNat true o) (s : Stmt U128) (hs : SharedStmt s) :
    anyExec c (st.map as4) s = ((fam4 true).exec st (Stmt.on cut s)).image (List.map as4) := by
  cases s with
  | new e =>
    show anyAfter _ _ _ = Res.image _ (Fam.after _ _ _)
    rw [simEval4 c hc true st hst e hs, hc]
    exact simAfter as4 st _ _ _ fun o => by rw [List.map_append]; rfl
  | put i e =>
    show anyAfter _ _ _ = Res.image _ (Fam.after _ _ _)
    rw [simEval4 c hc true st hst e hs, hc]
    exact simAfter as4 st _ _ _ fun o => by rw [List.map_set]
  | swap i j =>
    have get : ∀ i n, st[i]? = some (Obj.net n) → NetOk4 n := fun i o h => hst _ (List.mem_of_getElem? h)
    simp only [anyExec, Stmt.on, Fam.exec, as4_get]
    cases h1 : st[i]? with
    | none => cases st[j]? <;> rfl
    | some a =>
      cases h2 : st[j]? with
      | none => cases a <;> rfl
      | some b =>
        have main : (.ok (((st.map as4).set i (as4 b)).set j (as4 a)) : Res (List AnyObj)) =
            Res.image (List.map as4) (.ok ((st.set i b).set j a)) := by
          show Res.ok _ = Res.ok _
          rw [List.map_set, List.map_set]
        cases a with
        | net n =>
          cases b with
          | net m =>
            show _ = Res.image _ ((fam4 true).netSwap n m >>= _)
            rw [C53_network_swap_v4 n m (get i n h1) (get j m h2)]
            exact main
          | _ => exact main
        | _ => cases b <;> exact main

theorem simRun4 (c : Cfg) (hc : c.le = true) : ∀ (prog : List (Stmt U128)) (st : List (Obj (List (BitVec 8)) (BitVec 32))),
    (∀ o ∈ st, HeldOk (fam4 true) WF4 BitVec.toNat true o) → (∀ s ∈ prog, SharedStmt s) →
    anyRun c prog (st.map as4) = ((fam4 true).run (prog.map (Stmt.on cut)) st).image (List.map as4)
  | [], _, _, _ => rfl
  | s :: rest, st, hst, hp => by
    have h1 := simExec4 c hc st hst s (hp s (List.mem_cons_self ..))
    show (anyExec c (st.map as4) s >>= anyRun c rest) = Res.image _ ((fam4 true).exec st (Stmt.on cut s) >>= (fam4 true).run (rest.map (Stmt.on cut)))
    cases h2 : (fam4 true).exec st (Stmt.on cut s) with
    | ok st1 =>
      rw [h1, h2]
      exact simRun4 c hc rest st1 (exec_ok fam4Law progLaw4 true st hst _ (fun _ => rfl) st1 h2) (fun s hs => hp s (List.mem_cons_of_mem _ hs))
    | err e v => rw [h1, h2]; rfl
    | ub => rw [h1, h2]; rfl

theorem simExec6 (c : Cfg) (st : List (Obj V6 U128)) (hst : ∀ o ∈ st, noExclusion o = true) (s : Stmt U128) (hs : SharedStmt6 s) :
    anyExec c (st.map as6) s = ((fam6 c).exec st s).image (List.map as6) := by
  cases s with
  | new e =>
    show anyAfter _ _ _ = Res.image _ (Fam.after _ _ _)
    rw [simEval6 c st hst e hs.1 hs.2]
    exact simAfter as6 st _ _ _ fun o => by rw [List.map_append]; rfl
  | put i e =>
    show anyAfter _ _ _ = Res.image _ (Fam.after _ _ _)
    rw [simEval6 c st hst e hs.1 hs.2]
    exact simAfter as6 st _ _ _ fun o => by rw [List.map_set]
  | swap i j => exact hs.elim

theorem exec_noExclusion {A U : Type} (F : Fam A U) (st : List (Obj A U)) (hst : ∀ o ∈ st, noExclusion o = true) (s : Stmt U)
    (hs : SharedStmt6 s) (st' : List (Obj A U)) (h : F.exec st s = .ok st') : ∀ o ∈ st', noExclusion o = true := by
  have key : ∀ (e : Expr U) (f : Obj A U → List (Obj A U)), bothHave e = true ∧ noDefault e = true →
      (∀ o, noExclusion o = true → ∀ x ∈ f o, noExclusion x = true) → Fam.after st (F.eval st e) f = .ok st' →
      ∀ o ∈ st', noExclusion o = true := by
    intro e f he hf h
    cases hev : F.eval st e with
    | none => rw [hev] at h; cases h; exact hst
    | some r =>
      rw [hev] at h
      cases r with
      | ok o => cases h; exact hf o (eval_noExclusion F st hst e he.1 he.2 o hev)
      | err c v => cases h; exact hst
      | ub => cases h
  cases s with
  | new e =>
    refine key e _ hs (fun o ho x hx => ?_) h
    rcases List.mem_append.1 hx with hx | hx
    · exact hst x hx
    · rw [List.mem_singleton.1 hx]; exact ho
  | put i e =>
    refine key e _ hs (fun o ho x hx => ?_) h
    rcases mem_set_of hx with hx | hx
    · exact hst x hx
    · rw [hx]; exact ho
  | swap i j => exact hs.elim

theorem simRun6 (c : Cfg) : ∀ (prog : List (Stmt U128)) (st : List (Obj V6 U128)), (∀ o ∈ st, noExclusion o = true) →
    (∀ s ∈ prog, SharedStmt6 s) → anyRun c prog (st.map as6) = ((fam6 c).run prog st).image (List.map as6)
  | [], _, _, _ => rfl
  | s :: rest, st, hst, hp => by
    have h1 := simExec6 c st hst s (hp s (List.mem_cons_self ..))
    show (anyExec c (st.map as6) s >>= anyRun c rest) = Res.image _ ((fam6 c).exec st s >>= (fam6 c).run rest)
    cases h2 : (fam6 c).exec st s with
    | ok st1 =>
      rw [h1, h2]
      exact simRun6 c rest st1 (exec_noExclusion (fam6 c) st hst s (hp s (List.mem_cons_self ..)) st1 h2) (fun s hs => hp s (List.mem_cons_of_mem _ hs))
    | err e v => rw [h1, h2]; rfl
    | ub => rw [h1, h2]; rfl

end Ip

