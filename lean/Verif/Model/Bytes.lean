import Verif.Model.Basic
/-
Byte arrays, hashing and fixed strings: `byte-array.hpp`, `hash.hpp`, `fixed-string.hpp`, and the
functions of `ip-address-base.hpp` that work directly on bytes.
-/
set_option autoImplicit false

namespace Ip

/-- `byte-array.hpp:379-386`, `operator==`.  Both arrays have the same (static) length. -/
def bytesEq : List (BitVec 8) → List (BitVec 8) → Bool
  | a :: as, b :: bs => if a ≠ b then false else bytesEq as bs
  | _, _ => true

/-- `byte-array.hpp:447-456`, `operator<` (without `<=>`). -/
def bytesLess : List (BitVec 8) → List (BitVec 8) → Bool
  | a :: as, b :: bs =>
    if a.toNat < b.toNat then true
    else if a ≠ b then false
    else bytesLess as bs
  | _, _ => false

/-- `byte-array.hpp:423-430`, `operator<=>`. -/
def bytesCmp : List (BitVec 8) → List (BitVec 8) → Ordering
  | a :: as, b :: bs =>
    if compare a.toNat b.toNat ≠ .eq then compare a.toNat b.toNat else bytesCmp as bs
  | _, _ => .eq

/-- `byte-array.hpp:252-258`, `swap`: exchanging element by element. -/
def bytesSwap : List (BitVec 8) → List (BitVec 8) → List (BitVec 8) × List (BitVec 8)
  | a :: as, b :: bs => (b :: (bytesSwap as bs).1, a :: (bytesSwap as bs).2)
  | as, bs => (as, bs)

/-- `ip-address-base.hpp:106-108`: the copy loop of `from_bytes(ptr, count)`, with `n` iterations
left.  `src` is the memory behind the pointer; reading beyond it is undefined behaviour. -/
def fromBytesLoop (size : Nat) (src : List (BitVec 8)) (count : Nat) :
    Nat → Nat → List (BitVec 8) → Res (List (BitVec 8))
  | 0, _, data => .ok data
  | n + 1, i, data =>
    if i < size ∧ i < count then do
      let b ← rd src i
      let data ← wr data i b
      fromBytesLoop size src count n (i + 1) data
    else .ok data

/-- `ip-address-base.hpp:104-110`, `from_bytes(const uint8_t*, size_t)`; `size` is `base_size`. -/
def fromBytes (size : Nat) (src : List (BitVec 8)) (count : Nat) : Res (List (BitVec 8)) :=
  fromBytesLoop size src count (size + 1) 0 (List.replicate size 0#8)

/-- `ip-address-base.hpp:507-515`, `is_unspecified`. -/
def bytesUnspecified : List (BitVec 8) → Bool
  | [] => true
  | b :: bs => if b ≠ 0#8 then false else bytesUnspecified bs

/-- `hash.hpp:41-51`, `hash_combine<8>`. -/
def hashCombine (value : BitVec 64) : BitVec 64 :=
  let value := value ^^^ (value >>> 32)
  let value := value * 0xe9846af9b1a615d#64
  let value := value ^^^ (value >>> 32)
  let value := value * 0xe9846af9b1a615d#64
  value ^^^ (value >>> 28)

/-- `hash.hpp:53-56`, `hash_sum`. -/
def hashSum (seed value : BitVec 64) : BitVec 64 := hashCombine (seed + 0x9e3779b9#64 + value)

/-- `hash.hpp:58-67`, `calc_hash` over the arguments (never called without arguments). -/
def calcHash (seed : BitVec 64) : List (BitVec 64) → BitVec 64
  | [] => seed
  | a :: as => calcHash (hashSum seed a) as

/-- `ipv4-address.hpp:84-86`, `hash`. -/
def v4Hash (bytes : List (BitVec 8)) : BitVec 64 := calcHash 0 (bytes.map (·.setWidth 64))

/-- `fixed-string.hpp:40` and the member `length`: `data` is the array `_data[N]`. -/
structure FStr where
  data : List Char
  length : Nat
deriving DecidableEq, Repr

namespace FStr

/-- The characters visible to a user: `begin()` to `end()` (`fixed-string.hpp:105-120`). -/
def contents (s : FStr) : List Char := s.data.take s.length

/-- Class invariant: the length does not exceed the capacity. -/
def WF (s : FStr) : Prop := s.length ≤ s.data.length

/-- `fixed-string.hpp:316-322`: the common prefix loop; `val` is the conversion `int(char)`.
`inl` is an early return, `inr` the final value of `i`. -/
def compareLoop (val : Char → Int) (a b : FStr) : Nat → Nat → Res (Int ⊕ Nat)
  | 0, _ => .ub
  | fuel + 1, i =>
    if i < a.length ∧ i < b.length then do
      let c1 ← rd a.data i
      let c2 ← rd b.data i
      if c1 ≠ c2 then .ok (.inl (val c1 - val c2))
      else compareLoop val a b fuel (i + 1)
    else .ok (.inr i)

/-- `fixed-string.hpp:324-330`: the result after the loop. -/
def compareTail (a b : FStr) : Int ⊕ Nat → Res Int
  | .inl r => .ok r
  | .inr i =>
    if i = a.length ∧ i = b.length then .ok 0
    else if i = a.length ∧ i < b.length then .ok (-1)
    else .ok 1

/-- `fixed-string.hpp:314-331`, `compare`. -/
def compare (val : Char → Int) (a b : FStr) : Res Int := do
  let r ← compareLoop val a b (a.length + 1) 0
  compareTail a b r

/-- `fixed-string.hpp:352-355`: the loop of `hash`. The cast `static_cast<size_t>(char)` is `conv`. -/
def hashLoop (conv : Char → BitVec 64) (data : List Char) (size : Nat) :
    Nat → Nat → BitVec 64 → Res (BitVec 64)
  | 0, _, _ => .ub
  | fuel + 1, i, value =>
    if i < size then do
      let c ← rd data i
      hashLoop conv data size fuel (i + 1) ((value ^^^ conv c) * 1099511628211#64)
    else .ok value

/-- `fixed-string.hpp:340-357, 499-501`, `hash` for a 64 bit `size_t`; the second is for capacity 0.
`Model/Hash32` has the variant for 32 bits. -/
def hash (conv : Char → BitVec 64) (s : FStr) : Res (BitVec 64) :=
  if s.data.length = 0 then .ok 0
  else hashLoop conv s.data s.length (s.length + 1) 0 14695981039346656037#64

/-- `fixed-string.hpp:368-372`: the exchange loop of `swap`, `n` iterations left. -/
def swapLoop : Nat → Nat → List Char → List Char → Res (List Char × List Char)
  | 0, _, a, b => .ok (a, b)
  | n + 1, i, a, b => do
    let tmp ← rd a i
    let x ← rd b i
    let a ← wr a i x
    let b ← wr b i tmp
    swapLoop n (i + 1) a b

/-- `fixed-string.hpp:366-376`, `swap`. -/
def swap (a b : FStr) : Res (FStr × FStr) := do
  let count := if a.length < b.length then b.length else a.length
  let (x, y) ← swapLoop count 0 a.data b.data
  .ok (⟨x, b.length⟩, ⟨y, a.length⟩)

/-- `fixed-string.hpp:274-276`, `front`. -/
def front (s : FStr) : Res Char := rd s.data 0

/-- `fixed-string.hpp:287-289`, `back`: `_data[N - 1]`. -/
def back (s : FStr) : Res Char := rd s.data (s.data.length - 1)

/-- `fixed-string.hpp:82-94`: constructor from an array of `N + 1` code units given as events of
its first `N` units; stops at a NUL character; an error leaves `code` set.
Simplification: the events end with the `N` units.  After characters of several units (overlong UTF-8) the code reads
on, without comparing its pointer with `end`; `Model/Pointers.lean` models that, and `C84_literal_utf8_partial` shows
that it makes no difference when the last unit is NUL and no sequence is cut off. -/
def ofEventsLoop : Nat → List Ev → List Char → Nat → Res (List Char × Nat)
  | 0, _, data, len => .ok (data, len)
  | _ + 1, [], data, len => .ok (data, len)
  | _ + 1, .bad code sym :: _, _, _ => .err code sym
  | n + 1, .ch c :: rest, data, len => do
    let data ← wr data len c
    if c = '\x00' then .ok (data, len) else ofEventsLoop n rest data (len + 1)

/-- `fixed-string.hpp:82-94`, `fixed_string<N>(const T(&)[N + 1], error_code&)`. -/
def ofEvents (N : Nat) (evs : List Ev) : Res FStr := do
  let (data, len) ← ofEventsLoop N evs (List.replicate N '\x00') 0
  .ok ⟨data, len⟩

end FStr

end Ip
