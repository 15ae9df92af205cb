import Verif.Lemmas.StreamWords
/-
C100: the choices of format and strictness belong to one stream and one operation, whatever else uses the streams.
-/
set_option autoImplicit false

namespace Ip

open Spec

/-- C100: however many threads use streams, in whatever order they run, and whatever number `xalloc` starts with: every operation
shows what it is to show if each stream remembers its own choices, the choice of a format until an address or network is written,
the choice of strictness until a network is read, and other code finds its words untouched.  The threads do their operations in
their order, and nothing is undefined. -/
theorem C100_streams (start : Nat) (schedule : List Nat) (ps : Nat → List IoOp) :
    ∃ log ps' m, ioRun schedule ps (IoMem.start start) = .ok (log, ps', m) ∧
      log.map (·.2.2) = told (log.map (·.2.1)) 0 (fun _ => Kept.fresh) ∧
      ∀ t, ps t = (log.filter (·.1 == t)).map (·.2.1) ++ ps' t :=
  ioRun_keeps schedule ps _ 0 _ (keeps_start start)

/-- C100, no thread waits for ever: wherever the threads are, they can all go on to their ends. -/
theorem C100_finish (start N : Nat) (schedule : List Nat) (ps : Nat → List IoOp) (hN : ∀ t, N ≤ t → ps t = []) :
    ∃ more log m, ioRun (schedule ++ more) ps (IoMem.start start) = .ok (log, (fun _ => []), m) := by
  obtain ⟨log, ps', m, n, k, h1, h2, h3, h4⟩ := ioRun_live schedule ps _ 0 _ (keeps_start start)
    (fun b u h => by cases b <;> cases h)
  obtain ⟨ts, log', m', e⟩ := ioFinish N _ ps' m n k h2 h3 (fun t ht => h4 t (hN t ht)) rfl
  exact ⟨ts, log ++ log', m', ioRun_append schedule ts ps _ _ _ _ h1 _ _ _ e⟩

/-! ### Cases -/

/-- Thread 0 uses stream 0, which thread 1 takes its settings from; thread 2 is other code. -/
def exThreads : Nat → List IoOp
  | 0 => [.format 0 .full, .strict 0 false, .readAddr 0, .readNet 0, .readNet 0]
  | 1 => [.copyfmt 1 0, .write 1, .write 1]
  | 2 => [.xalloc, .put 0 0 7, .look 1 0]
  | _ => []

example := C100_finish 4 3 [0, 1, 0] exThreads (fun t ht => by
  match t, ht with
  | t + 3, _ => rfl)

/-- The format goes to stream 1 with `copyfmt`, and is used once; the word of other code goes along. -/
example : ∃ ps' m, ioRun [2, 0, 0, 2, 0, 0, 0, 0, 1, 1, 2, 0, 0, 1, 0] exThreads (IoMem.start 4) = .ok
    ([(2, .xalloc, none), (2, .put 0 0 7, none), (0, .format 0 .full, none), (0, .strict 0 false, none), (1, .copyfmt 1 0, none),
      (1, .write 1, some (.formatted 1 .full)), (2, .look 1 0, some (.saw 7)), (0, .readAddr 0, none), (0, .readNet 0, some (.parsed 0 false)),
      (1, .write 1, some (.formatted 1 .compressed)), (0, .readNet 0, some (.parsed 0 true))], ps', m) :=
  ⟨_, _, rfl⟩

/-- Thread 1 finds the variable being initialised, and waits: its two steps between those of thread 0 do nothing. -/
example : ∃ ps' m, ioRun [0, 1, 1, 0, 1, 0] (fun t => if t < 2 then [.format t (if t = 0 then .full else .compact), .write t] else [])
    (IoMem.start 0) = .ok ([(1, .format 1 .compact, none), (0, .format 0 .full, none)], ps', m) :=
  ⟨_, _, rfl⟩

end Ip
