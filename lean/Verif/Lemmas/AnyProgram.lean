import Verif.Spec.AnyProgram
import Verif.Lemmas.AnyNet
import Verif.Lemmas.Program
/-
Programs over the version agnostic classes: each call on objects of one version is the call of that version.
-/
set_option autoImplicit false

namespace Ip
open Spec

/-- The outcome with another value. -/
def Res.image {α β : Type} (f : α → β) : Res α → Res β
  | .ok a => .ok (f a)
  | .err e v => .err e v
  | .ub => .ub

/-- A bind on both sides. -/
theorem image_bind {α α' β β' : Type} (f : β → β') (r : Res α) (r' : Res α') (g : α → Res β) (g' : α' → Res β') (e : α → α')
    (h : r' = r.image e) (hg : ∀ a, g' (e a) = (g a).image f) : (r' >>= g') = (r >>= g).image f := by
  subst h
  cases r with
  | ok a => exact hg a
  | err c v => rfl
  | ub => rfl

theorem image_noexcept {α β : Type} (f : α → β) (r : Res α) : Fam.noexcept (r.image f) = (Fam.noexcept r).image f := by
  cases r <;> rfl

theorem lo32_cut (n : U128) : lo32 n = cut n := by
  apply BitVec.eq_of_toNat_eq
  simp only [lo32, cut, U128.val, BitVec.toNat_setWidth, BitVec.toNat_ofNat]
  omega

theorem lo32_ofI64 (n : BitVec 64) : lo32 (U128.ofI64 n) = n.setWidth 32 := by
  rfl

/-- The iterator over addresses in the version agnostic class. -/
def ha4 (x : AIter (List (BitVec 8)) (BitVec 32)) : AnyHostIt := .v4 x (.v4 x.cur)
/-- The same for IPv6. -/
def ha6 (x : AIter V6 U128) : AnyHostIt := .v6 x (.v6 x.cur)
/-- The iterator over networks in the version agnostic class. -/
def na4 (x : NIter (List (BitVec 8)) (BitVec 32)) : AnyNetIt := .v4 x (.v4 x.cur)
/-- The same for IPv6. -/
def na6 (x : NIter V6 U128) : AnyNetIt := .v6 x (.v6 x.cur)

theorem bind_image {α β : Type} (r : Res α) (f : α → β) : (r >>= fun a => Res.ok (f a)) = r.image f := by
  cases r <;> rfl

theorem image_image {α β γ : Type} (r : Res α) (f : α → β) (g : β → γ) : (r.image f).image g = r.image (fun a => g (f a)) := by
  cases r <;> rfl

section moves
variable (c : Cfg)

theorem hadd4 (x : AIter (List (BitVec 8)) (BitVec 32)) (n : U128) :
    (anyHostsOps c).add (ha4 x) n = ((fam4 c.le).aiAdd x (cut n)).image ha4 := by
  rw [← lo32_cut]; exact bind_image _ _
theorem hsub4 (x : AIter (List (BitVec 8)) (BitVec 32)) (n : U128) :
    (anyHostsOps c).sub (ha4 x) n = ((fam4 c.le).aiSub x (cut n)).image ha4 := by
  rw [← lo32_cut]; exact bind_image _ _
theorem hadd6 (x : AIter V6 U128) (n : U128) : (anyHostsOps c).add (ha6 x) n = ((fam6 c).aiAdd x n).image ha6 := bind_image _ _
theorem hsub6 (x : AIter V6 U128) (n : U128) : (anyHostsOps c).sub (ha6 x) n = ((fam6 c).aiSub x n).image ha6 := bind_image _ _
theorem nadd4 (x : NIter (List (BitVec 8)) (BitVec 32)) (n : U128) :
    (anySubnetsOps c).add (na4 x) n = ((fam4 c.le).niAdd x (cut n)).image na4 := by
  rw [← lo32_cut]; exact bind_image _ _
theorem nsub4 (x : NIter (List (BitVec 8)) (BitVec 32)) (n : U128) :
    (anySubnetsOps c).sub (na4 x) n = ((fam4 c.le).niSub x (cut n)).image na4 := by
  rw [← lo32_cut]; exact bind_image _ _
theorem nadd6 (x : NIter V6 U128) (n : U128) : (anySubnetsOps c).add (na6 x) n = ((fam6 c).niAdd x n).image na6 := bind_image _ _
theorem nsub6 (x : NIter V6 U128) (n : U128) : (anySubnetsOps c).sub (na6 x) n = ((fam6 c).niSub x n).image na6 := bind_image _ _

theorem cut_ofI64 (n : BitVec 64) : cut (U128.ofI64 n) = (fam4 c.le).ops.ofI64 n := by
  rw [← lo32_cut]; rfl

theorem hmove4 (m : Move U128) (x : AIter (List (BitVec 8)) (BitVec 32)) :
    (anyHostsOps c).move m (ha4 x) = ((fam4 c.le).aiMove (Move.on cut m) x).image ha4 := by
  cases m with
  | inc => exact (hadd4 c x _).trans (by rw [cut_ofI64 c]; rfl)
  | dec => exact (hsub4 c x _).trans (by rw [cut_ofI64 c]; rfl)
  | add n => exact hadd4 c x n
  | sub n => exact hsub4 c x n
  | addI n => exact (hadd4 c x _).trans (by rw [cut_ofI64 c]; rfl)
  | subI n => exact (hsub4 c x _).trans (by rw [cut_ofI64 c]; rfl)

theorem hmove6 (m : Move U128) (x : AIter V6 U128) : (anyHostsOps c).move m (ha6 x) = ((fam6 c).aiMove m x).image ha6 := by
  cases m with
  | inc => exact hadd6 c x _
  | dec => exact hsub6 c x _
  | add n => exact hadd6 c x n
  | sub n => exact hsub6 c x n
  | addI n => exact hadd6 c x _
  | subI n => exact hsub6 c x _

theorem nmove4 (m : Move U128) (x : NIter (List (BitVec 8)) (BitVec 32)) :
    Fam.noexcept ((anySubnetsOps c).move m (na4 x)) = ((fam4 c.le).niMove (Move.on cut m) x).image na4 := by
  unfold Fam.niMove
  rw [← image_noexcept]
  congr 1
  cases m with
  | inc => exact (nadd4 c x _).trans (by rw [cut_ofI64 c]; rfl)
  | dec => exact (nsub4 c x _).trans (by rw [cut_ofI64 c]; rfl)
  | add n => exact nadd4 c x n
  | sub n => exact nsub4 c x n
  | addI n => exact (nadd4 c x _).trans (by rw [cut_ofI64 c]; rfl)
  | subI n => exact (nsub4 c x _).trans (by rw [cut_ofI64 c]; rfl)

theorem nmove6 (m : Move U128) (x : NIter V6 U128) :
    Fam.noexcept ((anySubnetsOps c).move m (na6 x)) = ((fam6 c).niMove m x).image na6 := by
  unfold Fam.niMove
  rw [← image_noexcept]
  congr 1
  cases m with
  | inc => exact nadd6 c x _
  | dec => exact nsub6 c x _
  | add n => exact nadd6 c x n
  | sub n => exact nsub6 c x n
  | addI n => exact nadd6 c x _
  | subI n => exact nsub6 c x _

theorem on_opposite (m : Move U128) : (Move.on cut m).opposite = Move.on cut m.opposite := by cases m <;> rfl

end moves

theorem as4_get (st : List (Obj (List (BitVec 8)) (BitVec 32))) (i : Nat) : (st.map as4)[i]? = st[i]?.map as4 := by simp
theorem as6_get (st : List (Obj V6 U128)) (i : Nat) : (st.map as6)[i]? = st[i]?.map as6 := by simp

/-- Both sides of a call that only wraps the result. -/
theorem image_call {α α' : Type} {γ γ' : Type} (r : Res α) (r' : Res α') (e : α → α') (w : α → γ) (w' : α' → γ') (f : γ → γ')
    (h : r' = r.image e) (hw : ∀ a, w' (e a) = f (w a)) : (r' >>= fun a => Res.ok (w' a)) = (r >>= fun a => Res.ok (w a)).image f := by
  subst h
  cases r with
  | ok a => exact congrArg Res.ok (hw a)
  | err c v => rfl
  | ub => rfl

theorem onValue_image {α β : Type} (f : α → β) (r : Res (Code × α)) : r.onValue f = r.image (fun p => (p.1, f p.2)) := by
  cases r <;> rfl

theorem some_eq {α : Type} {a b : α} (h : a = b) : some a = some b := by rw [h]

end Ip

namespace Ip
open Spec

section v4
variable (c : Cfg)

theorem anyHalves4 (n : Net (List (BitVec 8))) :
    anyHalves c (.v4 n) = ((fam4 c.le).halves n).image fun p => (.v4 p.1, .v4 p.2) := by
  refine image_bind _ _ _ _ _ (fun s => ⟨na4 s.first, na4 s.last⟩) (bind_image _ _) fun s => ?_
  refine image_bind _ _ _ _ _ AnyNet.v4 ?_ fun a => image_bind _ _ _ _ _ AnyNet.v4 ?_ fun b => rfl
  · refine image_bind _ _ _ _ _ na4 ?_ fun x => rfl
    exact (nadd4 c _ _).trans (by rw [cut_ofI64 c])
  · refine image_bind _ _ _ _ _ na4 ?_ fun x => rfl
    exact (nadd4 c _ _).trans (by rw [cut_ofI64 c])

theorem anyExDefault4 : anyExDefault c = ((fam4 c.le).exDefault).image (anyEx .v4) :=
  image_bind _ _ _ _ _ AnyNet.v4 (bind_image _ _) fun _ => rfl

theorem anyExInc4 (x : ExIter (List (BitVec 8))) : anyExInc c (anyEx .v4 x) = ((fam4 c.le).exInc x).image (anyEx .v4) := by
  unfold anyExInc Fam.exInc
  have e1 : ∀ a b, anyNetEq c (.v4 a) (.v4 b) = (fam4 c.le).netEq a b := fun _ _ => rfl
  have e2 : ∀ a b, anyNetSubnetOf c (.v4 a) (.v4 b) = (fam4 c.le).subnetOf a b := fun _ _ => rfl
  simp only [anyEx, e1, e2, anyHalves4, anyExDefault4]
  generalize (fam4 c.le).netEq x.s1 x.other = r1
  generalize (fam4 c.le).netEq x.s2 x.other = r2
  generalize (fam4 c.le).subnetOf x.other x.s1 = r3
  generalize (fam4 c.le).subnetOf x.other x.s2 = r4
  generalize (fam4 c.le).netEq x.cur x.s1 = r5
  generalize (fam4 c.le).netEq x.cur x.s2 = r6
  generalize (fam4 c.le).halves x.s1 = r7
  generalize (fam4 c.le).halves x.s2 = r8
  generalize (fam4 c.le).exDefault = r9
  rcases r1 with (_ | _) | ⟨_, _⟩ | _ <;> rcases r2 with (_ | _) | ⟨_, _⟩ | _ <;> try rfl
  · rcases r3 with (_ | _) | ⟨_, _⟩ | _ <;> try rfl
    · rcases r4 with (_ | _) | ⟨_, _⟩ | _ <;> try rfl
      rcases r5 with (_ | _) | ⟨_, _⟩ | _ <;> try rfl
      rcases r8 with _ | ⟨_, _⟩ | _ <;> rfl
    · rcases r6 with (_ | _) | ⟨_, _⟩ | _ <;> try rfl
      rcases r7 with _ | ⟨_, _⟩ | _ <;> rfl
  all_goals
    first
    | (rcases r5 with (_ | _) | ⟨_, _⟩ | _ <;> rfl)
    | (rcases r6 with (_ | _) | ⟨_, _⟩ | _ <;> rfl)

end v4
end Ip
