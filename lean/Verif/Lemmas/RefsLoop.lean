import Verif.Lemmas.Refs
import Verif.Lemmas.Undefined
/-
Which iterators of the library never fail, and blocks that walk over a range.
-/
set_option autoImplicit false

namespace Ip
open Spec

theorem RTotal.rev {I V U : Type} {O : RaOps I V U} {P : I → Prop} (T : RTotal O P) : RTotal O.rev (fun r => P r.it) where
  mv m r h := by
    cases m with
    | inc =>
      obtain ⟨y, h1, h2⟩ := T.mv .dec r.it h
      change O.dec r.it = _ at h1
      exact ⟨⟨y⟩, by show (O.dec r.it >>= fun x => _) = _; rw [h1]; rfl, h2⟩
    | dec =>
      obtain ⟨y, h1, h2⟩ := T.mv .inc r.it h
      change O.inc r.it = _ at h1
      exact ⟨⟨y⟩, by show (O.inc r.it >>= fun x => _) = _; rw [h1]; rfl, h2⟩
    | plus n =>
      obtain ⟨y, h1, h2⟩ := T.mv (.minus n) r.it h
      change O.subI r.it n = _ at h1
      exact ⟨⟨y⟩, by show (O.subI r.it n >>= fun x => _) = _; rw [h1]; rfl, h2⟩
    | minus n =>
      obtain ⟨y, h1, h2⟩ := T.mv (.plus n) r.it h
      change O.addI r.it n = _ at h1
      exact ⟨⟨y⟩, by show (O.addI r.it n >>= fun x => _) = _; rw [h1]; rfl, h2⟩
  at_ r n h := by
    obtain ⟨y, h1, -⟩ := T.mv (.minus n) r.it h
    change O.subI r.it n = _ at h1
    exact ⟨O.deref y, by show (O.subI r.it n >>= fun x => _) = _; rw [h1]; rfl⟩

section
variable {A U : Type} {F : Fam A U} {WF : A → Prop} {val : U → Nat}

theorem ai_total (L : F.Law WF val) : RTotal F.aiRa (ItOk F WF val) where
  mv m x h := by
    cases m with
    | inc => obtain ⟨y, h1, h2, -⟩ := aiAdd_yields L x h (F.ops.ofI64 1#64); exact ⟨y, h1, h2⟩
    | dec => obtain ⟨y, h1, h2, -⟩ := aiSub_yields L x h (F.ops.ofI64 1#64); exact ⟨y, h1, h2⟩
    | plus n => obtain ⟨y, h1, h2, -⟩ := aiAdd_yields L x h (F.ops.ofI64 n); exact ⟨y, h1, h2⟩
    | minus n => obtain ⟨y, h1, h2, -⟩ := aiSub_yields L x h (F.ops.ofI64 n); exact ⟨y, h1, h2⟩
  at_ x n _ := by
    obtain ⟨a, h, -⟩ := fromUint_yields L (F.ops.add x.off (F.ops.ofI64 n))
    exact ⟨a, h⟩

theorem ni_total (L : F.Law WF val) : RTotal F.niRa (NitSafe F WF val) where
  mv m x h := by
    cases m with
    | inc => exact niAdd_yields L x h (F.ops.ofI64 1#64)
    | dec => exact niSub_yields L x h (F.ops.ofI64 1#64)
    | plus n => exact niAdd_yields L x h (F.ops.ofI64 n)
    | minus n => exact niSub_yields L x h (F.ops.ofI64 n)
  at_ x n h := by
    obtain ⟨a, h, -⟩ := niAt_yields L x h (F.ops.ofI64 n)
    exact ⟨a, h⟩
end

/-- An iterator for both versions that holds a good one. -/
def AnyItIs {I4 I6 V : Type} (P4 : I4 → Prop) (P6 : I6 → Prop) : AnyIt I4 I6 V → Prop
  | .v4 x _ => P4 x
  | .v6 x _ => P6 x

theorem any_total {I4 V4 I6 V6 V : Type} (O : AnyItOps I4 V4 I6 V6 V) (P4 : I4 → Prop) (P6 : I6 → Prop)
    (a4 : ∀ x n, P4 x → ∃ y, O.o4.add x n = .ok y ∧ P4 y) (s4 : ∀ x n, P4 x → ∃ y, O.o4.sub x n = .ok y ∧ P4 y)
    (t4 : ∀ x n, P4 x → ∃ v, O.at4 x n = .ok v)
    (a6 : ∀ x n, P6 x → ∃ y, O.o6.add x n = .ok y ∧ P6 y) (s6 : ∀ x n, P6 x → ∃ y, O.o6.sub x n = .ok y ∧ P6 y)
    (t6 : ∀ x n, P6 x → ∃ v, O.at6 x n = .ok v) : RTotal O.ra (AnyItIs P4 P6) := by
  have add : ∀ x n, AnyItIs P4 P6 x → ∃ y, O.add x n = .ok y ∧ AnyItIs P4 P6 y := by
    intro x n h
    cases x with
    | v4 x cur =>
      obtain ⟨y, h1, h2⟩ := a4 x (lo32 n) h
      exact ⟨O.mk4 y, by show (O.o4.add x (lo32 n) >>= fun y => _) = _; rw [h1]; rfl, h2⟩
    | v6 x cur =>
      obtain ⟨y, h1, h2⟩ := a6 x n h
      exact ⟨O.mk6 y, by show (O.o6.add x n >>= fun y => _) = _; rw [h1]; rfl, h2⟩
  have sub : ∀ x n, AnyItIs P4 P6 x → ∃ y, O.sub x n = .ok y ∧ AnyItIs P4 P6 y := by
    intro x n h
    cases x with
    | v4 x cur =>
      obtain ⟨y, h1, h2⟩ := s4 x (lo32 n) h
      exact ⟨O.mk4 y, by show (O.o4.sub x (lo32 n) >>= fun y => _) = _; rw [h1]; rfl, h2⟩
    | v6 x cur =>
      obtain ⟨y, h1, h2⟩ := s6 x n h
      exact ⟨O.mk6 y, by show (O.o6.sub x n >>= fun y => _) = _; rw [h1]; rfl, h2⟩
  constructor
  · intro m x h
    cases m with
    | inc => exact add x _ h
    | dec => exact sub x _ h
    | plus n => exact add x _ h
    | minus n => exact sub x _ h
  · intro x n h
    cases x with
    | v4 x cur =>
      obtain ⟨v, hv⟩ := t4 x (lo32 (U128.ofI64 n)) h
      exact ⟨O.emb4 v, by show (O.at4 x (lo32 (U128.ofI64 n)) >>= fun y => _) = _; rw [hv]; rfl⟩
    | v6 x cur =>
      obtain ⟨v, hv⟩ := t6 x (U128.ofI64 n) h
      exact ⟨O.emb6 v, by show (O.at6 x (U128.ofI64 n) >>= fun y => _) = _; rw [hv]; rfl⟩

/-! ### Loops -/

section
variable {I V U : Type} (O : RaOps I V U)

theorem run_append (p q : List (RStmt I)) (s : RState I V) : s.run O (p ++ q) = (s.run O p >>= fun s => s.run O q) := by
  induction p generalizing s with
  | nil => rfl
  | cons a p ih =>
    show (s.step O a >>= fun s => s.run O (p ++ q)) = ((s.step O a >>= fun s => s.run O p) >>= fun s => s.run O q)
    cases s.step O a with
    | ok s' => exact ih s'
    | err c v => rfl
    | ub => rfl

theorem copy_cons (fuel : Nat) (first last : I) (l : List V) (h : O.copy fuel first last = .ok l) :
    (l = [] ∧ O.eq first last = .ok true) ∨
    ∃ fuel' next rest, l = O.deref first :: rest ∧ O.inc first = .ok next ∧ O.copy fuel' next last = .ok rest := by
  cases fuel with
  | zero => cases h
  | succ fuel =>
    unfold RaOps.copy at h
    cases e : O.eq first last with
    | ok b =>
      rw [e] at h
      cases b with
      | true =>
        simp only [Res.ok_bind] at h
        cases h
        exact .inl ⟨rfl, rfl⟩
      | false =>
        right
        simp only [Res.ok_bind] at h
        cases e' : O.inc first with
        | ok next =>
          simp only [RaOps.postInc, e', Res.ok_bind] at h
          cases e'' : O.copy fuel next last with
          | ok rest =>
            rw [e''] at h
            exact ⟨fuel, next, rest, by cases h; rfl, rfl, e''⟩
          | err c v => rw [e''] at h; cases h
          | ub => rw [e''] at h; cases h
        | err c v => simp only [RaOps.postInc, e'] at h; cases h
        | ub => simp only [RaOps.postInc, e'] at h; cases h
    | err c v => rw [e] at h; cases h
    | ub => rw [e] at h; cases h

theorem rangeFor_run (refs : List Nat) (out : List V) (fuel : Nat) (first last : I) (l : List V)
    (h : O.copy fuel first last = .ok l) :
    ∃ x refs', (⟨[some first], [0], refs, out⟩ : RState I V).run O (rangeFor refs.length l.length) =
      .ok ⟨[some x], [0], refs', out ++ l⟩ ∧ O.eq x last = .ok true := by
  induction l generalizing refs out fuel first with
  | nil =>
    rcases copy_cons O fuel first last [] h with ⟨-, e⟩ | ⟨f, n, r, e, -⟩
    · exact ⟨first, refs, by rw [List.append_nil]; rfl, e⟩
    · cases e
  | cons a l ih =>
    rcases copy_cons O fuel first last _ h with ⟨e, -⟩ | ⟨f, n, r, e, hn, hr⟩
    · cases e
    · cases e
      obtain ⟨x, refs', h1, h2⟩ := ih (refs ++ [0]) (out ++ [O.deref first]) f n hr
      refine ⟨x, refs', ?_, h2⟩
      rw [List.length_append, List.length_singleton, List.append_assoc, List.singleton_append] at h1
      rw [← h1]
      show ((⟨[some first], [0], refs ++ [0], out⟩ : RState I V).step O (.read refs.length) >>= fun s => _) = _
      have e : (⟨[some first], [0], refs ++ [0], out⟩ : RState I V).step O (.read refs.length) =
          .ok ⟨[some first], [0], refs ++ [0], out ++ [O.deref first]⟩ := by
        show (match (refs ++ [0])[refs.length]? with
          | some r => _
          | none => _) = _
        rw [List.getElem?_concat_length]
        rfl
      rw [e]
      show ((⟨[some first], [0], refs ++ [0], out ++ [O.deref first]⟩ : RState I V).step O (.move 0 .inc) >>= fun s => _) = _
      have e : (⟨[some first], [0], refs ++ [0], out ++ [O.deref first]⟩ : RState I V).step O (.move 0 .inc) =
          .ok ⟨[some n], [0], refs ++ [0], out ++ [O.deref first]⟩ := by
        show (O.inc first >>= fun y => _) = _
        rw [hn]
        rfl
      rw [e]
      rfl

theorem keepFor_run (refs : List Nat) (out : List V) (fuel : Nat) (first last : I) (l : List V)
    (h : O.copy fuel first last = .ok l) :
    ∃ x, (⟨[some first], [0], refs, out⟩ : RState I V).run O (keepFor l.length) =
      .ok ⟨[some x], [0], refs ++ List.replicate l.length 0, out⟩ ∧ O.eq x last = .ok true := by
  induction l generalizing refs fuel first with
  | nil =>
    rcases copy_cons O fuel first last [] h with ⟨-, e⟩ | ⟨f, n, r, e, -⟩
    · exact ⟨first, by rw [List.length_nil, List.replicate_zero, List.append_nil]; rfl, e⟩
    · cases e
  | cons a l ih =>
    rcases copy_cons O fuel first last _ h with ⟨e, -⟩ | ⟨f, n, r, e, hn, hr⟩
    · cases e
    · cases e
      obtain ⟨x, h1, h2⟩ := ih (refs ++ [0]) f n hr
      refine ⟨x, ?_, h2⟩
      rw [List.append_assoc, List.singleton_append, ← List.replicate_succ] at h1
      rw [List.length_cons, ← h1]
      show ((⟨[some first], [0], refs ++ [0], out⟩ : RState I V).step O (.move 0 .inc) >>= fun s => _) = _
      have e : (⟨[some first], [0], refs ++ [0], out⟩ : RState I V).step O (.move 0 .inc) =
          .ok ⟨[some n], [0], refs ++ [0], out⟩ := by
        show (O.inc first >>= fun y => _) = _
        rw [hn]
        rfl
      rw [e]
      rfl

theorem readAll_run (x : I) (ks : List Nat) (m : Nat) (hk : ∀ k ∈ ks, k < m) (out : List V) :
    (⟨[some x], [0], List.replicate m 0, out⟩ : RState I V).run O (ks.map .read) =
      .ok ⟨[some x], [0], List.replicate m 0, out ++ List.replicate ks.length (O.deref x)⟩ := by
  induction ks generalizing out with
  | nil => rw [List.length_nil, List.replicate_zero, List.append_nil]; rfl
  | cons k ks ih =>
    have := ih (fun j hj => hk j (List.mem_cons_of_mem _ hj)) (out ++ [O.deref x])
    rw [List.append_assoc, List.singleton_append, ← List.replicate_succ] at this
    rw [List.length_cons, ← this]
    show ((⟨[some x], [0], List.replicate m 0, out⟩ : RState I V).step O (.read k) >>= fun s => _) = _
    have e : (⟨[some x], [0], List.replicate m 0, out⟩ : RState I V).step O (.read k) =
        .ok ⟨[some x], [0], List.replicate m 0, out ++ [O.deref x]⟩ := by
      show (match (List.replicate m 0)[k]? with
        | some r => _
        | none => _) = _
      rw [List.getElem?_replicate_of_lt (hk k List.mem_cons_self)]
      rfl
    rw [e]
    rfl

theorem moved_run (x y : I) (h : O.inc x = .ok y) :
    (RState.start : RState I V).run O [.make x, .bind 0, .move 0 .inc, .read 0] = .ok ⟨[some y], [0], [0], [O.deref y]⟩ := by
  have e : (⟨[some x], [0], [0], []⟩ : RState I V).step O (.move 0 .inc) = .ok ⟨[some y], [0], [0], []⟩ := by
    show (O.inc x >>= fun y => Res.ok ((⟨[some x], [0], [0], []⟩ : RState I V).store 0 y)) = _
    rw [h]
    rfl
  show ((⟨[some x], [0], [0], []⟩ : RState I V).step O (.move 0 .inc) >>= fun s => s.run O [.read 0]) = _
  rw [e]
  rfl

theorem copies_run (x y : I) (h : O.inc x = .ok y) :
    (RState.start : RState I V).run O [.make x, .copy 0, .bind 0, .bind 1, .move 1 .inc, .read 0, .read 1] =
      .ok ⟨[some x, some y], [0, 1], [0, 1], [O.deref x, O.deref y]⟩ := by
  have e : (⟨[some x, some x], [0, 1], [0, 1], []⟩ : RState I V).step O (.move 1 .inc) = .ok ⟨[some x, some y], [0, 1], [0, 1], []⟩ := by
    show (O.inc x >>= fun y => Res.ok ((⟨[some x, some x], [0, 1], [0, 1], []⟩ : RState I V).store 1 y)) = _
    rw [h]
    rfl
  show ((⟨[some x, some x], [0, 1], [0, 1], []⟩ : RState I V).step O (.move 1 .inc) >>= fun s => s.run O [.read 0, .read 1]) = _
  rw [e]
  rfl

end
end Ip
