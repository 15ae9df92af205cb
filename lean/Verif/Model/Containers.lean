import Verif.Model.Bytes
/-
The containers: `byte_array` (`byte-array.hpp`), the accessors of `fixed_string` (`fixed-string.hpp`) and `optional`
(`optional.hpp`).
-/
set_option autoImplicit false

namespace Ip

/-- A loop over the `n` elements of an array from index `i` on, `for (auto it = begin(); it != end(); ++it)`. -/
def walk {α : Type} (data : List α) : Nat → Nat → Res (List α)
  | 0, _ => .ok []
  | n + 1, i => do
    let x ← rd data i
    let xs ← walk data n (i + 1)
    .ok (x :: xs)

/-- A loop over the first `n` elements with `std::reverse_iterator`: `*it` is the element before the base. -/
def walkBack {α : Type} (data : List α) : Nat → Res (List α)
  | 0 => .ok []
  | n + 1 => do
    let x ← rd data n
    let xs ← walkBack data n
    .ok (x :: xs)

/-- `byte-array.hpp:32-48, 256-258`, `byte_array<N>`: the array `_data[N]`; `byte_array<0>` has no elements. -/
structure BArr where
  data : List (BitVec 8)
deriving DecidableEq, Repr

namespace BArr

/-- `byte-array.hpp:55-66, 91-101, 278-284, 294-300`: `begin()` to `end()`. -/
def forward (a : BArr) : Res (List (BitVec 8)) := walk a.data a.data.length 0

/-- `byte-array.hpp:73-84, 109-120, 286-292, 302-308`: `rbegin()` to `rend()`. -/
def backward (a : BArr) : Res (List (BitVec 8)) := walkBack a.data a.data.length

/-- `byte-array.hpp:127-129` (`false`) and `310-312` for `byte_array<0>` (`true`). -/
def empty (a : BArr) : Bool := a.data.length == 0

/-- `byte-array.hpp:136-147, 314-320`, `size` and `max_size`. -/
def size (a : BArr) : Nat := a.data.length

/-- `byte-array.hpp:156-191`, `operator[]` and `at` read; `322-336` for `byte_array<0>`, where a null pointer is
dereferenced. -/
def at_ (a : BArr) (n : Nat) : Res (BitVec 8) := rd a.data n

/-- `byte-array.hpp:156-180`, an assignment to the reference returned by `operator[]` or `at`. -/
def set (a : BArr) (n : Nat) (x : BitVec 8) : Res BArr := do
  let d ← wr a.data n x
  .ok ⟨d⟩

/-- `byte-array.hpp:198-209, 338-344`, `front`. -/
def front (a : BArr) : Res (BitVec 8) := rd a.data 0

/-- `byte-array.hpp:216-227, 346-352`, `back`: `_data[N - 1]`. -/
def back (a : BArr) : Res (BitVec 8) := if a.data.length = 0 then .ub else rd a.data (a.data.length - 1)

end BArr

namespace FStr

/-- `fixed-string.hpp:246-263, 470-476`, `operator[]` and `at`. -/
def at_ (s : FStr) (n : Nat) : Res Char := rd s.data n

/-- `fixed-string.hpp:105-120, 157-172, 436-442`: `begin()` to `end()`. -/
def forward (s : FStr) : Res (List Char) := walk s.data s.length 0

/-- `fixed-string.hpp:131-146, 183-198, 444-450`: `rbegin()` to `rend()`. -/
def backward (s : FStr) : Res (List Char) := walkBack s.data s.length

/-- `fixed-string.hpp:207-221, 468`, `empty` and `size`. -/
def empty (s : FStr) : Bool := s.length == 0

/-- `fixed-string.hpp:494-497`, `compare` of `fixed_string<0>`. -/
def compareZero (rhs : FStr) : Int := if rhs.empty then 0 else -1

end FStr

/-- `optional.hpp:242-244`, the members. -/
structure Opt (T : Type) where
  has : Bool
  val : T
deriving DecidableEq, Repr

namespace Opt
variable {T : Type}

/-- `optional.hpp:42-48`, `optional()` and `optional(nullptr)`; `d` is `T{}`. -/
def none (d : T) : Opt T := ⟨false, d⟩

/-- `optional.hpp:55-70`, `optional(val)`. -/
def some (v : T) : Opt T := ⟨true, v⟩

/-- `optional.hpp:77-81`, the copy constructor. -/
def copy (o : Opt T) : Opt T := ⟨o.has, o.val⟩

/-- The assignments to an optional. -/
inductive Op (T : Type) where
  | null
  | value (v : T)
  | opt (o : Opt T)
  | self

/-- `optional.hpp:88-118`, the assignments; `d` is `T{}`. -/
def assign (d : T) (o : Opt T) : Op T → Opt T
  | .null => ⟨false, d⟩
  | .value v => ⟨true, v⟩
  | .opt p => ⟨p.has, p.val⟩
  | .self => o

/-- `optional.hpp:175-188`, `has_value` and `operator bool`. -/
def hasValue (o : Opt T) : Bool := o.has

/-- `optional.hpp:128-166, 198-236`, `value`, `operator*` and `operator->`.  The documentation declares the use of the
result undefined when there is no value; the code returns the member. -/
def value (o : Opt T) : T := o.val

end Opt

end Ip
