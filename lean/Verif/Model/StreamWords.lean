import Verif.Model.Stream
/-
The words of streams (`std::ios_base::iword`) in which the manipulators keep what the next operator does, in programs with
several streams and threads and with other code that keeps words in the same streams.

Of the standard library: `xalloc` gives out one number after the other, `iword(i)` is 0 until it is set, `copyfmt` copies all
words, `swap` (and moving) exchanges them; a variable `static` of a function is initialised by the first thread that gets there,
the others wait.  Simplified: every access to a word is one step (streams are not used by two threads at the same time without
a lock), no allocation fails, and the program has each of the two variables once (both functions are `inline`).
-/
set_option autoImplicit false

namespace Ip

/-- A variable `static int i = std::ios_base::xalloc()` of a function: not initialised, being initialised by a thread, or done. -/
inductive Guard where
  | unset
  | busy (t : Nat)
  | set (i : Nat)
deriving DecidableEq, Repr

/-- What the functions use: the number `xalloc` gives next, the variables of `stream_index` (`ip-address-base.hpp:803-806`) and
`network_strict_index` (`ip-network-base.hpp:1345-1348`), the numbers that other code has got, and the words of the streams. -/
structure IoMem where
  next : Nat
  format : Guard
  strict : Guard
  others : List Nat
  words : Nat → Nat → Nat

/-- What a thread does with streams: the manipulators, `operator<<` of any address or network, `operator>>` of a network and of
an address; other code calls `xalloc`, sets and reads the word at the `k`-th number it has got; `s.copyfmt(t)` and `s.swap(t)`. -/
inductive IoOp where
  | format (s : Nat) (f : Format)
  | strict (s : Nat) (b : Bool)
  | write (s : Nat)
  | readNet (s : Nat)
  | readAddr (s : Nat)
  | xalloc
  | put (s k v : Nat)
  | look (s k : Nat)
  | copyfmt (s t : Nat)
  | swap (s t : Nat)
deriving DecidableEq, Repr

/-- What can be seen of it: the format given to `to_string`, the strictness given to `parse`, the word other code reads. -/
inductive IoEvent where
  | formatted (s : Nat) (f : Format)
  | parsed (s : Nat) (strict : Bool)
  | saw (v : Nat)
deriving DecidableEq, Repr

/-- `stream.iword(i) = v`. -/
def setWord (w : Nat → Nat → Nat) (s i v : Nat) : Nat → Nat → Nat := fun s' i' => if s' = s ∧ i' = i then v else w s' i'

/-- An operation, once the number `i` of its word is known: `ip-address-base.hpp:808-824, 858-862` (also
`ip-any-address.hpp:1481-1485`, `ip-network-base.hpp:1394-1398`, `ip-any-network.hpp:1468-1472`),
`ip-network-base.hpp:1350-1360, 1411-1413`, `ip-any-network.hpp:1485-1487`.  `operator>>` of addresses
(`ip-address-base.hpp:873-883`) uses no word. -/
def ioAccess (m : IoMem) (i : Nat) : IoOp → Res (Option IoEvent × IoMem)
  | .format s f =>
    let o : OStr Char := ⟨m.words s i, false, false, false, []⟩
    .ok (none, { m with words := setWord m.words s i (osFormat f o).word })
  | .strict s b =>
    let o : IStr Char := ⟨m.words s i, false, false, [], false, false⟩
    .ok (none, { m with words := setWord m.words s i (if b then isStrict o else isNonStrict o).word })
  | .write s => do
    let f ← formatOfWord (m.words s i)
    .ok (some (.formatted s f), { m with words := setWord m.words s i 0 })
  | .readNet s => .ok (some (.parsed s (m.words s i == 0)), { m with words := setWord m.words s i 0 })
  | .readAddr _ => .ok (none, m)
  | .xalloc => .ok (none, { m with next := m.next + 1, others := m.others ++ [m.next] })
  | .put s k v =>
    match m.others[k]? with
    | some j => .ok (none, { m with words := setWord m.words s j v })
    | none => .ok (none, m)
  | .look s k =>
    match m.others[k]? with
    | some j => .ok (some (.saw (m.words s j)), m)
    | none => .ok (none, m)
  | .copyfmt s t => .ok (none, { m with words := fun x => if x = s then m.words t else m.words x })
  | .swap s t => .ok (none, { m with words := fun x => if x = s then m.words t else if x = t then m.words s else m.words x })

/-- The function that an operation calls for its word: `stream_index` (`true`) or `network_strict_index` (`false`). -/
def ioNeeds : IoOp → Option Bool
  | .format _ _ | .write _ => some true
  | .strict _ _ | .readNet _ => some false
  | _ => none

/-- The variable of one of the two functions. -/
def IoMem.guard (m : IoMem) : Bool → Guard
  | true => m.format
  | false => m.strict

/-- The variable is changed. -/
def IoMem.setGuard (m : IoMem) (b : Bool) (g : Guard) : IoMem :=
  match b with
  | true => { m with format := g }
  | false => { m with strict := g }

/-- One step of thread `t` that is about to do `op`: it finds the variable of the function set and does the operation (`some`),
starts to initialise it, ends initialising it, or waits for another thread. -/
def ioStep (m : IoMem) (t : Nat) (op : IoOp) : Res (Option (Option IoEvent) × IoMem) :=
  match ioNeeds op with
  | none => do
    let r ← ioAccess m 0 op
    .ok (some r.1, r.2)
  | some b =>
    match m.guard b with
    | .set i => do
      let r ← ioAccess m i op
      .ok (some r.1, r.2)
    | .unset => .ok (none, m.setGuard b (.busy t))
    | .busy u => .ok (none, if u = t then { m with next := m.next + 1 }.setGuard b (.set m.next) else m)

/-- The threads in the order of a schedule; `ps t` is what thread `t` has still to do.  The operations done, with their threads
and what was seen, and the threads and the memory at the end. -/
def ioRun : List Nat → (Nat → List IoOp) → IoMem → Res (List (Nat × IoOp × Option IoEvent) × (Nat → List IoOp) × IoMem)
  | [], ps, m => .ok ([], ps, m)
  | t :: ts, ps, m =>
    match ps t with
    | [] => ioRun ts ps m
    | op :: rest => do
      let r ← ioStep m t op
      match r.1 with
      | none => ioRun ts ps r.2
      | some ev => do
        let q ← ioRun ts (fun u => if u = t then rest else ps u) r.2
        .ok ((t, op, ev) :: q.1, q.2)

/-- The memory before the first use: `xalloc` will give some number. -/
def IoMem.start (n : Nat) : IoMem := ⟨n, .unset, .unset, [], fun _ _ => 0⟩

end Ip
