import Verif.Model.AnyNet
/-
The signed, postfix and mirrored operators of the iterators, and what the algorithms of the standard
library do with them.
-/
set_option autoImplicit false

namespace Ip

/-- `ip-network-iterator.hpp:95-98`, `operator[](difference_type)`. -/
def Fam.niAtI {A U : Type} (F : Fam A U) (x : NIter A U) (n : BitVec 64) : Res (Net A) := F.niAt x (F.ops.ofI64 n)

/-- `ip-any-iterator.hpp:113-116`, `operator[](difference_type)`. -/
def AnyItOps.atI {I4 V4 I6 V6 V : Type} (O : AnyItOps I4 V4 I6 V6 V) (n : BitVec 64) (x : AnyIt I4 I6 V) : Res V :=
  O.at_ (U128.ofI64 n) x

/-- The operators of a random access iterator that the algorithms of the standard library use; `U` is the
`uint_type`.  The friends `n + it` (`ip-address-iterator.hpp:254-269,638-653`, `ip-network-iterator.hpp:252-267`,
`ip-any-iterator.hpp:260-275`) are `it + n`, so they are `addI` and `add`. -/
structure RaOps (I V U : Type) where
  deref : I → V
  inc : I → Res I
  dec : I → Res I
  /-- `+=` and `+` of a `difference_type` -/
  addI : I → BitVec 64 → Res I
  /-- `-=` and `-` of a `difference_type` -/
  subI : I → BitVec 64 → Res I
  /-- `operator[](difference_type)` -/
  atI : I → BitVec 64 → Res V
  eq : I → I → Res Bool
  diff : I → I → BitVec 64
  /-- the member `uint_diff` -/
  uintDiff : I → I → Res U

/-- `ip_address_iterator`: `ip-address-iterator.hpp:414-838`. -/
def Fam.aiRa {A U : Type} (F : Fam A U) : RaOps (AIter A U) A U where
  deref x := x.cur
  inc := F.aiInc
  dec := F.aiDec
  addI := F.aiAddI
  subI := F.aiSubI
  atI := F.aiAtI
  eq := F.aiEq
  diff := F.aiDiff
  uintDiff x y := .ok (F.aiUintDiff x y)

/-- `ip_network_iterator`: `ip-network-iterator.hpp:28-440`. -/
def Fam.niRa {A U : Type} (F : Fam A U) : RaOps (NIter A U) (Net A) U where
  deref x := x.cur
  inc := F.niInc
  dec := F.niDec
  addI := F.niAddI
  subI := F.niSubI
  atI := F.niAtI
  eq := F.niEq
  diff := F.niDiff
  uintDiff := F.niUintDiff

/-- `ip_any_iterator`: `ip-any-iterator.hpp:38-468`. -/
def AnyItOps.ra {I4 V4 I6 V6 V : Type} (O : AnyItOps I4 V4 I6 V6 V) : RaOps (AnyIt I4 I6 V) V U128 where
  deref := AnyItOps.deref
  inc := O.inc
  dec := O.dec
  addI := O.addI
  subI := O.subI
  atI x n := O.atI n x
  eq := O.eq
  diff := O.diff
  uintDiff := O.uintDiff

namespace RaOps
variable {I V U : Type} (O : RaOps I V U)

/-- `ip_reverse_iterator<Iterator>`: `uint_diff` (`ip-address-iterator.hpp:71-73`), `operator[](difference_type)`
(109-111), `++` (128-131), `--` (149-152), `+=`, `-=`, `+`, `-` of a `difference_type` (173-176, 199-202, 225-229,
279-283), `-` of two iterators (307-309), `==` (319-321). -/
def rev : RaOps (RIter I) V U where
  deref r := O.deref r.it
  inc r := do
    let x ← O.dec r.it
    .ok ⟨x⟩
  dec r := do
    let x ← O.inc r.it
    .ok ⟨x⟩
  addI r n := do
    let x ← O.subI r.it n
    .ok ⟨x⟩
  subI r n := do
    let x ← O.addI r.it n
    .ok ⟨x⟩
  atI r n := do
    let x ← O.subI r.it n
    .ok (O.deref x)
  eq x y := O.eq y.it x.it
  diff x y := O.diff y.it x.it
  uintDiff x y := O.uintDiff y.it x.it

/-- Postfix `++`: the result and the new value of the iterator.  `ip-address-iterator.hpp:138-142,518-522`,
`ip-network-iterator.hpp:132-136`, `ip-any-iterator.hpp:144-148`. -/
def postInc (x : I) : Res (I × I) := do
  let tmp := x
  let y ← O.inc x
  .ok (tmp, y)

/-- Postfix `--`.  `ip-address-iterator.hpp:159-163,543-547`, `ip-network-iterator.hpp:157-161`,
`ip-any-iterator.hpp:165-169`. -/
def postDec (x : I) : Res (I × I) := do
  let tmp := x
  let y ← O.dec x
  .ok (tmp, y)

/-- `std::copy(first, last, out)` as `while (first != last) *out++ = *first++;`: the values written.  Running
out of fuel is the outcome `ub`. -/
def copy : Nat → I → I → Res (List V)
  | 0, _, _ => .ub
  | fuel + 1, first, last => do
    if ← O.eq first last then .ok []
    else do
      let (old, next) ← O.postInc first
      let rest ← copy fuel next last
      .ok (O.deref old :: rest)

/-- `std::copy_backward(first, last, out)` as `while (first != last) *--out = *--last;`: the values in the order
in which they are written. -/
def copyBackward : Nat → I → I → Res (List V)
  | 0, _, _ => .ub
  | fuel + 1, first, last => do
    if ← O.eq first last then .ok []
    else do
      let prev ← O.dec last
      let rest ← copyBackward fuel first prev
      .ok (O.deref prev :: rest)

/-- `std::distance(first, last)` for random access iterators: `last - first`. -/
def distance (first last : I) : Int := (O.diff last first).toInt

/-- The loop of `std::lower_bound`, `std::upper_bound` and `std::partition_point` for random access iterators
(the loop `while (count > 0)` of libstdc++): `count` is a `difference_type`, here the natural number that it is
once the test has been passed.  This is no code of the repository: it is the use of the operators above by a
program that calls the algorithm. -/
def partitionLoop (before : V → Res Bool) (first : I) (count : Nat) : Res I :=
  if h : count = 0 then .ok first
  else do
    let step := count / 2
    let mid ← O.addI first (BitVec.ofNat 64 step)
    let b ← before (O.deref mid)
    if b then do
      let next ← O.inc mid
      partitionLoop before next (count - (step + 1))
    else partitionLoop before first step
termination_by count
decreasing_by all_goals omega

/-- `std::partition_point(first, last, before)`. -/
def partitionPoint (before : V → Res Bool) (first last : I) : Res I :=
  O.partitionLoop before first (O.distance first last).toNat

/-- `std::lower_bound(first, last, value)` with `operator<` of the values. -/
def lowerBound (lt : V → V → Res Bool) (first last : I) (value : V) : Res I :=
  O.partitionPoint (fun v => lt v value) first last

/-- `std::upper_bound(first, last, value)`. -/
def upperBound (lt : V → V → Res Bool) (first last : I) (value : V) : Res I :=
  O.partitionPoint (fun v => do
    let b ← lt value v
    .ok (!b)) first last

/-- `std::binary_search(first, last, value)`. -/
def binarySearch (lt : V → V → Res Bool) (first last : I) (value : V) : Res Bool := do
  let it ← O.lowerBound lt first last value
  if ← O.eq it last then .ok false
  else do
    let b ← lt value (O.deref it)
    .ok (!b)

end RaOps

/-- `a < b` of `ip_address`: `ip-any-address.hpp:1294-1302`, and where the compiler has `<=>`, the result of
`ip-any-address.hpp:1276-1282` compared with zero. -/
def anyLt (c : Cfg) (a b : AnyAddr) : Res Bool :=
  if c.spaceship then do
    let r ← anyCompare c.val a b
    .ok (decide (r = .lt))
  else anyLess c.val a b

end Ip
