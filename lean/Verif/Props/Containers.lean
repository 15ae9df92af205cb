import Verif.Lemmas.Bytes
import Verif.Lemmas.Samples
import Verif.Spec.Containers
/-
C63 (containers).
-/
set_option autoImplicit false

namespace Ip
open Spec

theorem walk_eq {α : Type} (data : List α) : ∀ (n i : Nat), i + n ≤ data.length → walk data n i = .ok ((data.drop i).take n)
  | 0, i, _ => by simp [walk]
  | n + 1, i, h => by
    have hi : i < data.length := by omega
    have e : rd data i = .ok data[i] := by unfold rd; rw [List.getElem?_eq_getElem hi]
    rw [walk, e, Res.ok_bind, walk_eq data n (i + 1) (by omega), Res.ok_bind, List.drop_eq_getElem_cons hi, List.take_succ_cons]

theorem walkBack_eq {α : Type} (data : List α) : ∀ (n : Nat), n ≤ data.length → walkBack data n = .ok (data.take n).reverse
  | 0, _ => by simp [walkBack]
  | n + 1, h => by
    have hi : n < data.length := by omega
    have e : rd data n = .ok data[n] := by unfold rd; rw [List.getElem?_eq_getElem hi]
    rw [walkBack, e, Res.ok_bind, walkBack_eq data n (by omega), Res.ok_bind, List.take_succ_eq_append_getElem hi,
      List.reverse_append]
    rfl

/-- C63: a byte array of any size.  Forward and backward iteration yield all elements in order and in reverse order, indexing inside
of the array yields the element and an assignment to it changes this element only, `front` and `back` are the first and the
last element, `empty` says whether there are elements. -/
theorem C63_byte_array (a : BArr) :
    a.forward = .ok a.data ∧ a.backward = .ok a.data.reverse ∧ (a.empty = true ↔ a.data = []) ∧ a.size = a.data.length ∧
    (∀ n x, a.data[n]? = some x → a.at_ n = .ok x) ∧
    (∀ n x, n < a.data.length → ∃ b, a.set n x = .ok b ∧ b.data.length = a.data.length ∧
      ∀ k, b.data[k]? = if k = n then some x else a.data[k]?) ∧
    (∀ x, a.data.head? = some x → a.front = .ok x) ∧ (∀ x, a.data.getLast? = some x → a.back = .ok x) := by
  refine ⟨?_, ?_, ?_, rfl, ?_, ?_, ?_, ?_⟩
  · unfold BArr.forward; rw [walk_eq _ _ _ (by omega)]; simp
  · unfold BArr.backward; rw [walkBack_eq _ _ (Nat.le_refl _), List.take_length]
  · unfold BArr.empty; rw [beq_iff_eq, List.length_eq_zero_iff]
  · intro n x h
    unfold BArr.at_ rd; rw [h]
  · intro n x h
    refine ⟨⟨a.data.set n x⟩, ?_, by simp, fun k => ?_⟩
    · unfold BArr.set wr; rw [if_pos h]; rfl
    · simp only [List.getElem?_set]
      by_cases hk : n = k
      · subst hk; simp [h]
      · rw [if_neg hk, if_neg (fun e => hk e.symm)]
  · intro x h
    unfold BArr.front rd
    rw [← List.head?_eq_getElem?, h]
  · intro x h
    have hn : a.data ≠ [] := by intro e; rw [e] at h; cases h
    unfold BArr.back
    rw [if_neg (by rwa [List.length_eq_zero_iff])]
    unfold rd
    rw [← List.getLast?_eq_getElem?, h]

example := (C63_byte_array ⟨[192, 168, 7, 9]⟩).2.2.2.2.1 2 7 rfl
example := (C63_byte_array ⟨[192, 168, 7, 9]⟩).2.2.2.2.2.1 3 1 (by decide)

/-- C63: a fixed string.  Iteration yields the characters of the text in order and in reverse order, indexing inside of
the text its characters. -/
theorem C63_fixed_string (s : FStr) (h : s.WF) :
    s.forward = .ok s.contents ∧ s.backward = .ok s.contents.reverse ∧ (s.empty = true ↔ s.contents = []) ∧
    s.contents.length = s.length ∧ (∀ n x, s.contents[n]? = some x → s.at_ n = .ok x) := by
  have hl : s.contents.length = s.length := by unfold FStr.contents; rw [List.length_take]; exact Nat.min_eq_left h
  refine ⟨?_, ?_, ?_, hl, ?_⟩
  · unfold FStr.forward; rw [walk_eq _ _ _ (by unfold FStr.WF at h; omega)]; rfl
  · unfold FStr.backward; rw [walkBack_eq _ _ h]; rfl
  · unfold FStr.empty; rw [beq_iff_eq, ← hl, List.length_eq_zero_iff]
  · intro n x hx
    have hn : n < s.length := by
      rw [← hl]
      exact (List.getElem?_eq_some_iff.1 hx).1
    unfold FStr.contents at hx
    rw [List.getElem?_take, if_pos hn] at hx
    unfold FStr.at_ rd; rw [hx]

example := C63_fixed_string exScoped.scope exScoped_ok.2.1

/-- C63, negation: indices outside of the array, for which `std::out_of_range` is documented, are undefined behaviour
for every array and string. -/
theorem C63_out_of_range_undefined (a : BArr) (s : FStr) (n : Nat) :
    (a.data.length ≤ n → a.at_ n = .ub ∧ ∀ x, a.set n x = .ub) ∧ (s.data.length ≤ n → s.at_ n = .ub) := by
  refine ⟨fun h => ⟨?_, fun x => ?_⟩, fun h => ?_⟩
  · unfold BArr.at_ rd; rw [List.getElem?_eq_none h]
  · unfold BArr.set wr; rw [if_neg (by omega)]; rfl
  · unfold FStr.at_ rd; rw [List.getElem?_eq_none h]

example := (C63_out_of_range_undefined ⟨[192, 168, 7, 9]⟩ ⟨['a', '\x00'], 1⟩ 4).1 (by decide)
example := (C63_out_of_range_undefined ⟨[192, 168, 7, 9]⟩ ⟨['a', '\x00'], 1⟩ 2).2 (by decide)

/-- C63: an optional holds what the constructor and then every assignment, in any sequence, put there; an empty one has the
default value inside, so two empty optionals made by these operations are equal member by member. -/
theorem C63_optional {T : Type} (d : T) :
    (Opt.none d).held = Option.none ∧ (∀ v : T, (Opt.some v).held = Option.some v) ∧ (∀ o : Opt T, o.copy = o) ∧
    (∀ (ops : List (Opt.Op T)) (o : Opt T), (ops.foldl (Opt.assign d) o).held = ops.foldl meaning o.held) ∧
    (∀ (ops : List (Opt.Op T)) (o : Opt T), (o.held = Option.none → o.value = d) →
      (∀ p, Opt.Op.opt p ∈ ops → p.held = Option.none → p.value = d) →
      (ops.foldl (Opt.assign d) o).held = Option.none → ops.foldl (Opt.assign d) o = Opt.none d) := by
  have step : ∀ (o : Opt T) (op : Opt.Op T), (Opt.assign d o op).held = meaning o.held op := by
    intro o op
    cases op <;> rfl
  refine ⟨rfl, fun _ => rfl, fun o => by cases o; rfl, ?_, ?_⟩
  · intro ops
    induction ops with
    | nil => intro o; rfl
    | cons op ops ih => intro o; rw [List.foldl_cons, List.foldl_cons, ih, step]
  · intro ops
    induction ops with
    | nil =>
      intro o h _ hn
      simp only [List.foldl_nil] at hn ⊢
      have hv := h hn
      cases o with
      | mk has val =>
        cases has
        · simp only [Opt.value] at hv; subst hv; rfl
        · simp [Opt.held, Opt.hasValue] at hn
    | cons op ops ih =>
      intro o h hp hn
      refine ih _ ?_ (fun p hm => hp p (List.mem_cons_of_mem _ hm)) hn
      intro hh
      cases op with
      | null => rfl
      | value v => simp [Opt.assign, Opt.held, Opt.hasValue] at hh
      | opt p => exact hp p (List.mem_cons_self ..) hh
      | self => exact h hh

example : (BArr.mk [1, 2, 3]).backward = .ok [3, 2, 1] := by decide
example : (BArr.mk [1, 2, 3]).back = .ok 3 := by decide
example : (FStr.mk ['a', 'b', '\x00', '\x00'] 2).backward = .ok ['b', 'a'] := by decide
example : FStr.WF ⟨['a', 'b', '\x00', '\x00'], 2⟩ := by unfold FStr.WF; decide
example : ([Opt.Op.value 5, .self, .opt ⟨true, 7⟩, .self].foldl (Opt.assign 0) (Opt.none 0)).held = some 7 := by decide

end Ip
