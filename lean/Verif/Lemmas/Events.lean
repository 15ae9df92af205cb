import Verif.Lemmas.V6Scope
import Verif.Lemmas.V4
set_option autoImplicit false

namespace Ip
open Spec

theorem v4Loop_ok : ∀ (evs : List Ev) (st st' : V4St), v4Loop st evs = .ok st' → ∃ s, evs = readChars s
  | [], _, _, _ => ⟨[], rfl⟩
  | .bad _ _ :: _, _, _, h => by simp [v4Loop] at h
  | .ch c :: rest, st, st', h => by
    rw [v4Loop, Res.bind_eq_ok] at h
    obtain ⟨st1, _, h⟩ := h
    obtain ⟨s, rfl⟩ := v4Loop_ok rest st1 st' h
    exact ⟨c :: s, rfl⟩

theorem scopeLoop_ok (spaces : Bool) (M : Nat) : ∀ (evs : List Ev) (st st' : ScopeSt),
    scopeLoop spaces M st evs = .ok st' → ∃ s, evs = readChars s
  | [], _, _, _ => ⟨[], rfl⟩
  | .bad _ _ :: _, _, _, h => by simp [scopeLoop] at h
  | .ch c :: rest, st, st', h => by
    rw [scopeLoop, Res.bind_eq_ok] at h
    obtain ⟨st1, _, h⟩ := h
    obtain ⟨s, rfl⟩ := scopeLoop_ok spaces M rest st1 st' h
    exact ⟨c :: s, rfl⟩

theorem v6FromEvents_ok (spaces : Bool) (M : Nat) (evs : List Ev) (r : V6) (h : v6FromEvents spaces M evs = .ok r) :
    ∃ s, evs = readChars s ∧ v6Parse spaces M s = .ok r := by
  have h' := h
  unfold v6FromEvents at h
  split at h
  · simp at h
  · rw [Res.bind_eq_ok] at h
    obtain ⟨st, h1, _⟩ := h
    unfold splitScope at h1
    rw [Res.bind_eq_ok] at h1
    obtain ⟨st1, h1, _⟩ := h1
    obtain ⟨s, rfl⟩ := scopeLoop_ok spaces M _ _ _ h1
    exact ⟨s, rfl, h'⟩

theorem GroupsV4_colon : ∀ (s : List Char) (vs : List Nat), GroupsV4 s vs → 3 ≤ vs.length → ':' ∈ s := by
  intro s vs h hl
  cases h with
  | one => simp at hl
  | quad => simp at hl
  | cons => simp

theorem V6Text_colon (s : List Char) (vs : List Nat) (h : V6Text s vs) : ':' ∈ s := by
  cases h with
  | full _ _ h hl => exact GroupsV4_colon s vs h (by omega)
  | compressed => simp

theorem v4Loop_append (e2 : List Ev) : ∀ (e1 : List Ev) (st : V4St),
    v4Loop st (e1 ++ e2) = v4Loop st e1 >>= fun st' => v4Loop st' e2
  | [], st => by simp [v4Loop]
  | .bad c v :: e1, st => by simp [v4Loop]
  | .ch c :: e1, st => by
    simp only [List.cons_append, v4Loop]
    cases h : v4Step st c with
    | ok st' => simp only [Res.ok_bind]; exact v4Loop_append e2 e1 st'
    | err => simp
    | ub => simp

theorem scopeLoop_append (spaces : Bool) (M : Nat) (e2 : List Ev) : ∀ (e1 : List Ev) (st : ScopeSt),
    scopeLoop spaces M st (e1 ++ e2) = scopeLoop spaces M st e1 >>= fun st' => scopeLoop spaces M st' e2
  | [], st => by simp [scopeLoop]
  | .bad c v :: e1, st => by simp [scopeLoop]
  | .ch c :: e1, st => by
    simp only [List.cons_append, scopeLoop]
    cases h : scopeStep spaces M st c with
    | ok st' => simp only [Res.ok_bind]; exact scopeLoop_append spaces M e2 e1 st'
    | err => simp
    | ub => simp

/-- A reader error after a prefix of an accepted text is the error reported. -/
theorem v4FromEvents_bad (e1 e2 : List Ev) (r : List (BitVec 8)) (h : v4FromEvents (e1 ++ e2) = .ok r)
    (code : ErrorCode) (v : Nat) (rest : List Ev) : v4FromEvents (e1 ++ .bad code v :: rest) = .err code v := by
  unfold v4FromEvents at h ⊢
  split at h
  · cases h
  rw [if_neg (by simp)]
  rw [Res.bind_eq_ok] at h
  obtain ⟨st, h, _⟩ := h
  rw [v4Loop_append, Res.bind_eq_ok] at h
  obtain ⟨st1, h1, _⟩ := h
  rw [v4Loop_append, h1]
  simp [v4Loop]

theorem v6FromEvents_bad (spaces : Bool) (M : Nat) (e1 e2 : List Ev) (r : V6)
    (h : v6FromEvents spaces M (e1 ++ e2) = .ok r)
    (code : ErrorCode) (v : Nat) (rest : List Ev) :
    v6FromEvents spaces M (e1 ++ .bad code v :: rest) = .err code v := by
  unfold v6FromEvents at h ⊢
  split at h
  · cases h
  rw [if_neg (by simp)]
  rw [Res.bind_eq_ok] at h
  obtain ⟨st, h, _⟩ := h
  unfold splitScope at h ⊢
  rw [Res.bind_eq_ok] at h
  obtain ⟨st', h, _⟩ := h
  rw [scopeLoop_append, Res.bind_eq_ok] at h
  obtain ⟨st1, h1, _⟩ := h
  rw [scopeLoop_append, h1]
  simp [scopeLoop]

end Ip
