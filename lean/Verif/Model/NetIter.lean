import Verif.Model.Net
/-
Iterators over addresses and networks, and the sequences `hosts()`, `subnets()` and
`address_exclude()`: `ip-address-iterator.hpp`, `ip-network-iterator.hpp` and the functions of
`ip-network-base.hpp` that make them.
-/
set_option autoImplicit false

namespace Ip

/-! ### Address iterators -/

/-- The members `_current`, `_offset`, `_carry` of `ip_address_iterator`
(`ip-address-iterator.hpp:843-845`). -/
structure AIter (A U : Type) where
  cur : A
  off : U
  carry : Int
deriving DecidableEq, Repr

/-- `ip-network-iterator.hpp:444-448`: the members of `ip_network_iterator`; `_at` is never used. -/
structure NIter (A U : Type) where
  cur : Net A
  it : AIter A U
  step : U
  plen : Nat
deriving DecidableEq, Repr

namespace Fam

variable {A U : Type} (F : Fam A U)

/-- `ip-address-iterator.hpp:444-446`, the constructor. -/
def aiMk (ref : A) (carry : Int) : Res (AIter A U) := do
  let u ← F.toUint ref
  .ok ⟨ref, u, carry⟩

/-- `ip-address-iterator.hpp:456-458`, `uint_diff`. -/
def aiUintDiff (x y : AIter A U) : U := F.ops.sub x.off y.off

/-- `ip-address-iterator.hpp:495-497`, `operator[](const uint_type&)`. -/
def aiAt (x : AIter A U) (n : U) : Res A := F.fromUint (F.ops.add x.off n)

/-- `ip-address-iterator.hpp:484-487`, `operator[](difference_type)`. -/
def aiAtI (x : AIter A U) (n : BitVec 64) : Res A := F.aiAt x (F.ops.ofI64 n)

/-- `ip-address-iterator.hpp:812-821`, `add`: also `+=` and `+` of a `uint_type` (570-573, 623-627). -/
def aiAdd (x : AIter A U) (n : U) : Res (AIter A U) :=
  if !F.ops.eq n (F.ops.ofI64 0#64) then
    let off := F.ops.add x.off n
    let carry := if F.ops.lt off x.off then 1 - x.carry else x.carry
    do
      let cur ← F.fromUint off
      .ok ⟨cur, off, carry⟩
  else .ok x

/-- `ip-address-iterator.hpp:823-832`, `sub`: also `-=` and `-` of a `uint_type` (596-599, 677-681). -/
def aiSub (x : AIter A U) (n : U) : Res (AIter A U) :=
  if !F.ops.eq n (F.ops.ofI64 0#64) then
    let off := F.ops.sub x.off n
    let carry := if F.ops.lt x.off off then 1 - x.carry else x.carry
    do
      let cur ← F.fromUint off
      .ok ⟨cur, off, carry⟩
  else .ok x

/-- `ip-address-iterator.hpp:506-509`, `++`. -/
def aiInc (x : AIter A U) : Res (AIter A U) := F.aiAdd x (F.ops.ofI64 1#64)

/-- `ip-address-iterator.hpp:531-534`, `--`. -/
def aiDec (x : AIter A U) : Res (AIter A U) := F.aiSub x (F.ops.ofI64 1#64)

/-- `ip-address-iterator.hpp:557-560,609-613`, `+=` and `+` of a `difference_type`. -/
def aiAddI (x : AIter A U) (n : BitVec 64) : Res (AIter A U) := F.aiAdd x (F.ops.ofI64 n)

/-- `ip-address-iterator.hpp:583-586,663-667`, `-=` and `-` of a `difference_type`. -/
def aiSubI (x : AIter A U) (n : BitVec 64) : Res (AIter A U) := F.aiSub x (F.ops.ofI64 n)

/-- `ip-address-iterator.hpp:691-693`, `operator-` of two iterators. -/
def aiDiff (x y : AIter A U) : BitVec 64 := F.ops.toI64 (F.ops.sub x.off y.off)

/-- `ip-address-iterator.hpp:703-705`, `==`. -/
def aiEq (x y : AIter A U) : Res Bool :=
  if x.carry = y.carry then F.eq x.cur y.cur else .ok false

/-- `ip-address-iterator.hpp:729-735`, `<=>`. -/
def aiCmp (x y : AIter A U) : Res Ordering :=
  if compare x.carry y.carry = .eq then F.cmp x.cur y.cur else .ok (compare x.carry y.carry)

/-- `ip-address-iterator.hpp:747-749`, `<` (without `<=>`). -/
def aiLt (x y : AIter A U) : Res Bool :=
  if x.carry < y.carry then .ok true
  else if x.carry = y.carry then F.lt x.cur y.cur else .ok false

/-- `ip-address-iterator.hpp:790-799`, `base`. -/
def aiBase (x : AIter A U) : Res (AIter A U) := do
  let off := F.ops.add x.off (F.ops.ofI64 1#64)
  let carry := if F.ops.lt off x.off then 1 - x.carry else x.carry
  let cur ← F.fromUint off
  .ok ⟨cur, off, carry⟩

/-- `ip-address-iterator.hpp:801-810`, `reverse`. -/
def aiReverse (x : AIter A U) : Res (AIter A U) := do
  let off := F.ops.sub x.off (F.ops.ofI64 1#64)
  let carry := if F.ops.lt x.off off then 1 - x.carry else x.carry
  let cur ← F.fromUint off
  .ok ⟨cur, off, carry⟩

/-! ### Network iterators -/

/-- `ip-network-iterator.hpp:57-59`, the constructor; `from_address` is the throwing variant, strict
by default. -/
def niMk (ref : A) (step : U) (plen : Nat) (carry : Int) : Res (NIter A U) := do
  let cur ← F.fromAddress ref plen true
  let it ← F.aiMk ref carry
  .ok ⟨cur, it, step, plen⟩

/-- `ip-network-iterator.hpp:69-71`, `uint_diff`. -/
def niUintDiff (x y : NIter A U) : Res U := F.ops.div (F.aiUintDiff x.it y.it) x.step

/-- `ip-network-iterator.hpp:108-111`, `operator[](const uint_type&)`. -/
def niAt (x : NIter A U) (n : U) : Res (Net A) := do
  let a ← F.aiAdd x.it (F.ops.mul x.step n)
  F.fromAddress a.cur x.plen true

/-- `ip-network-iterator.hpp:428-431`, `add`: also `+=` and `+` of a `uint_type` (184-187, 237-241). -/
def niAdd (x : NIter A U) (n : U) : Res (NIter A U) := do
  let it ← F.aiAdd x.it (F.ops.mul x.step n)
  let cur ← F.fromAddress it.cur x.plen true
  .ok ⟨cur, it, x.step, x.plen⟩

/-- `ip-network-iterator.hpp:433-436`, `sub`: also `-=` and `-` of a `uint_type` (210-213, 291-295). -/
def niSub (x : NIter A U) (n : U) : Res (NIter A U) := do
  let it ← F.aiSub x.it (F.ops.mul x.step n)
  let cur ← F.fromAddress it.cur x.plen true
  .ok ⟨cur, it, x.step, x.plen⟩

/-- `ip-network-iterator.hpp:120-123`, `++`. -/
def niInc (x : NIter A U) : Res (NIter A U) := F.niAdd x (F.ops.ofI64 1#64)

/-- `ip-network-iterator.hpp:145-148`, `--`. -/
def niDec (x : NIter A U) : Res (NIter A U) := F.niSub x (F.ops.ofI64 1#64)

/-- `ip-network-iterator.hpp:171-174,223-227`, `+=` and `+` of a `difference_type`. -/
def niAddI (x : NIter A U) (n : BitVec 64) : Res (NIter A U) := F.niAdd x (F.ops.ofI64 n)

/-- `ip-network-iterator.hpp:197-200,277-281`, `-=` and `-` of a `difference_type`. -/
def niSubI (x : NIter A U) (n : BitVec 64) : Res (NIter A U) := F.niSub x (F.ops.ofI64 n)

/-- `ip-network-iterator.hpp:305-307`, `operator-` of two iterators. -/
def niDiff (x y : NIter A U) : BitVec 64 := F.aiDiff x.it y.it

/-- `ip-network-iterator.hpp:317-319`, `==`. -/
def niEq (x y : NIter A U) : Res Bool :=
  if x.it.carry = y.it.carry then F.netEq x.cur y.cur else .ok false

/-- `ip-network-iterator.hpp:343-349`, `<=>`. -/
def niCmp (x y : NIter A U) : Res Ordering :=
  if compare x.it.carry y.it.carry = .eq then F.netCmp x.cur y.cur else .ok (compare x.it.carry y.it.carry)

/-- `ip-network-iterator.hpp:361-363`, `<` (without `<=>`). -/
def niLt (x y : NIter A U) : Res Bool :=
  if x.it.carry < y.it.carry then .ok true
  else if x.it.carry = y.it.carry then F.netLt x.cur y.cur else .ok false

/-- `ip-network-iterator.hpp:404-414`, `base`. -/
def niBase (x : NIter A U) : Res (NIter A U) := do
  let off := F.ops.add x.it.off x.step
  let carry := if F.ops.lt off x.it.off then 1 - x.it.carry else x.it.carry
  let a ← F.fromUint off
  let cur ← F.fromAddress a x.plen true
  .ok ⟨cur, ⟨a, off, carry⟩, x.step, x.plen⟩

/-- `ip-network-iterator.hpp:416-426`, `reverse`. -/
def niReverse (x : NIter A U) : Res (NIter A U) := do
  let off := F.ops.sub x.it.off x.step
  let carry := if F.ops.lt x.it.off off then 1 - x.it.carry else x.it.carry
  let a ← F.fromUint off
  let cur ← F.fromAddress a x.plen true
  .ok ⟨cur, ⟨a, off, carry⟩, x.step, x.plen⟩

end Fam

/-! ### Reverse iterators and loops over a range -/

/-- What `ip_reverse_iterator<Iterator>` and a range `for` use of an iterator. -/
structure IterOps (I V U : Type) where
  deref : I → V
  inc : I → Res I
  dec : I → Res I
  add : I → U → Res I
  sub : I → U → Res I
  eq : I → I → Res Bool
  diff : I → I → BitVec 64
  base : I → Res I
  reverse : I → Res I

/-- `ip_address_iterator` as an iterator. -/
def Fam.aiOps {A U : Type} (F : Fam A U) : IterOps (AIter A U) A U where
  deref x := x.cur
  inc := F.aiInc
  dec := F.aiDec
  add := F.aiAdd
  sub := F.aiSub
  eq := F.aiEq
  diff := F.aiDiff
  base := F.aiBase
  reverse := F.aiReverse

/-- `ip_network_iterator` as an iterator. -/
def Fam.niOps {A U : Type} (F : Fam A U) : IterOps (NIter A U) (Net A) U where
  deref x := x.cur
  inc := F.niInc
  dec := F.niDec
  add := F.niAdd
  sub := F.niSub
  eq := F.niEq
  diff := F.niDiff
  base := F.niBase
  reverse := F.niReverse

/-- `ip-address-iterator.hpp:402`: the member of `ip_reverse_iterator`. -/
structure RIter (I : Type) where
  it : I
deriving DecidableEq, Repr

namespace IterOps

variable {I V U : Type} (O : IterOps I V U)

/-- `ip-address-iterator.hpp:60-62`, the constructor of `ip_reverse_iterator`. -/
def rMk (x : I) : Res (RIter I) := do
  let r ← O.reverse x
  .ok ⟨r⟩

/-- `ip-address-iterator.hpp:81-83`, `base`. -/
def rBase (r : RIter I) : Res I := O.base r.it

/-- `ip-address-iterator.hpp:90-92`, `operator*`. -/
def rDeref (r : RIter I) : V := O.deref r.it

/-- `ip-address-iterator.hpp:119-121`, `operator[]`. -/
def rAt (r : RIter I) (n : U) : Res V := do
  let x ← O.sub r.it n
  .ok (O.deref x)

/-- `ip-address-iterator.hpp:128-131`, `++`. -/
def rInc (r : RIter I) : Res (RIter I) := do
  let x ← O.dec r.it
  .ok ⟨x⟩

/-- `ip-address-iterator.hpp:149-152`, `--`. -/
def rDec (r : RIter I) : Res (RIter I) := do
  let x ← O.inc r.it
  .ok ⟨x⟩

/-- `ip-address-iterator.hpp:186-189,239-243`, `+=` and `+` of a `uint_type`. -/
def rAdd (r : RIter I) (n : U) : Res (RIter I) := do
  let x ← O.sub r.it n
  .ok ⟨x⟩

/-- `ip-address-iterator.hpp:212-215,293-297`, `-=` and `-` of a `uint_type`. -/
def rSub (r : RIter I) (n : U) : Res (RIter I) := do
  let x ← O.add r.it n
  .ok ⟨x⟩

/-- `ip-address-iterator.hpp:319-321`, `==`. -/
def rEq (x y : RIter I) : Res Bool := O.eq y.it x.it

/-- `ip-address-iterator.hpp:307-309`, `operator-`. -/
def rDiff (x y : RIter I) : BitVec 64 := O.diff y.it x.it

/-- `for (auto it = first; it != last; ++it) visit(*it)`: the values visited.  Running out of fuel
is the outcome `ub`, so a result `ok l` says that the loop ends. -/
def visit : Nat → I → I → Res (List V)
  | 0, _, _ => .ub
  | fuel + 1, first, last => do
    if ← O.eq first last then .ok []
    else do
      let next ← O.inc first
      let rest ← visit fuel next last
      .ok (O.deref first :: rest)

/-- The same loop with reverse iterators. -/
def rVisit : Nat → RIter I → RIter I → Res (List V)
  | 0, _, _ => .ub
  | fuel + 1, first, last => do
    if ← O.rEq first last then .ok []
    else do
      let next ← O.rInc first
      let rest ← rVisit fuel next last
      .ok (O.rDeref first :: rest)

end IterOps

/-! ### Sequences -/

/-- The members `_begin`, `_end` of `hosts_sequence` (`ip-address-iterator.hpp:1037-1038`). -/
structure HostsSeq (A U : Type) where
  first : AIter A U
  last : AIter A U
deriving DecidableEq, Repr

/-- The members `_begin`, `_end`, `_size` of `subnets_sequence`
(`ip-network-iterator.hpp:872-874`). -/
structure SubnetsSeq (A U : Type) where
  first : NIter A U
  last : NIter A U
  size : U
deriving DecidableEq, Repr

/-- The members of `ip_exclude_network_iterator` (`ip-network-iterator.hpp:660-663`). -/
structure ExIter (A : Type) where
  other : Net A
  s1 : Net A
  s2 : Net A
  cur : Net A
deriving DecidableEq, Repr

/-- The members of `exclude_network_sequence` (`ip-network-iterator.hpp:968-969`). -/
structure ExSeq (A : Type) where
  first : ExIter A
  last : ExIter A
deriving DecidableEq, Repr

namespace Fam

variable {A U : Type} (F : Fam A U)

/-- `ip-address-iterator.hpp:889-906`, the constructor of `hosts_sequence`. -/
def hostsMk (network broadcast : A) (plen max : Nat) : Res (HostsSeq A U) :=
  if plen = max - 1 then do
    let n ← F.toUint network
    let first ← F.fromUint n
    let b ← F.toUint broadcast
    let last ← F.fromUint (F.ops.add b (F.ops.ofI64 1#64))
    let x ← F.aiMk first 0
    let y ← F.aiMk last 0
    .ok ⟨x, y⟩
  else if plen = max then do
    let n ← F.toUint network
    let first ← F.fromUint n
    let last ← F.fromUint (F.ops.add n (F.ops.ofI64 1#64))
    let x ← F.aiMk first 0
    let wrapped ← F.lt last first
    let y ← F.aiMk last (if wrapped then 1 else 0)
    .ok ⟨x, y⟩
  else do
    let n ← F.toUint network
    let first ← F.fromUint (F.ops.add n (F.ops.ofI64 1#64))
    let b ← F.toUint broadcast
    let last ← F.fromUint (F.ops.add b (F.ops.ofI64 (if F.isV6 then 1#64 else 0#64)))
    let x ← F.aiMk first 0
    let y ← F.aiMk last 0
    .ok ⟨x, y⟩

/-- `ip-network-base.hpp:877-879`, `hosts`. -/
def hosts (n : Net A) : Res (HostsSeq A U) := do
  let b ← F.broadcast n
  F.hostsMk n.addr b n.plen F.maxPrefix

/-- `ip-address-iterator.hpp:985-987`, `empty`. -/
def hostsEmpty (s : HostsSeq A U) : Res Bool := F.aiEq s.first s.last

/-- `ip-address-iterator.hpp:994-996`, `size`. -/
def hostsSize (s : HostsSeq A U) : U := F.aiUintDiff s.last s.first

/-- `ip-address-iterator.hpp:1004-1006,1014-1016`, `operator[]` and `at`. -/
def hostsAt (s : HostsSeq A U) (n : U) : Res A := do
  let x ← F.aiAdd s.first n
  .ok x.cur

/-- `ip-address-iterator.hpp:1023-1025`, `front`. -/
def _root_.Ip.HostsSeq.front (s : HostsSeq A U) : A := s.first.cur

/-- `ip-address-iterator.hpp:1032-1034`, `back`. -/
def hostsBack (s : HostsSeq A U) : Res A := do
  let x ← F.aiSub s.last (F.ops.ofI64 1#64)
  .ok x.cur

/-- `ip-network-iterator.hpp:711-718`, the constructor of `subnets_sequence` for a network of one
address. -/
def subnetsMk1 (network : A) (newp : Nat) : Res (SubnetsSeq A U) := do
  let first := F.ofBytes (F.bytes network)
  let n ← F.toUint network
  let last ← F.fromUint (F.ops.add n (F.ops.ofI64 1#64))
  let x ← F.niMk first (F.ops.ofI64 1#64) newp 0
  let wrapped ← F.lt last first
  let y ← F.niMk last (F.ops.ofI64 1#64) newp (if wrapped then 1 else 0)
  .ok ⟨x, y, F.ops.ofI64 1#64⟩

/-- `ip-network-iterator.hpp:732-741`, the other constructor of `subnets_sequence`. -/
def subnetsMk (network broadcast hostmask : A) (diff newp : Nat) : Res (SubnetsSeq A U) := do
  let n ← F.toUint network
  let b ← F.toUint broadcast
  let first ← F.fromUint n
  let last ← F.fromUint (F.ops.add b (F.ops.ofI64 1#64))
  let h ← F.toUint hostmask
  let s ← F.ops.shr h diff
  let step := F.ops.add s (F.ops.ofI64 1#64)
  let x ← F.niMk first step newp 0
  let same ← F.eq first last
  let y ← F.niMk last step newp (if same then 1 else 0)
  let q ← F.ops.div (F.ops.sub b n) step
  .ok ⟨x, y, F.ops.add q (F.ops.ofI64 1#64)⟩

/-- `ip-network-base.hpp:1022-1049`, `subnets`, a `noexcept` function; the sum of the two `size_t`
is taken modulo `2^64`.  An outcome `err` means that `code` is set and the default sequence returned;
otherwise `code` keeps its value.  The throwing variant (983-990) raises the code. -/
def subnets (n : Net A) (diff : Nat) (newp : Option Nat) : Res (SubnetsSeq A U) := do
  let address ← noexcept (F.removeScope n.addr)
  if n.plen = F.maxPrefix then noexcept (F.subnetsMk1 address n.plen)
  else
    let go (diff : Nat) : Res (SubnetsSeq A U) :=
      let new_prefix := (n.plen + diff) % 2 ^ 64
      if new_prefix > F.maxPrefix then .err .invalid_prefixlen_diff 0
      else noexcept (do
        let b ← F.broadcast n
        F.subnetsMk address b (F.hostmask n) diff new_prefix)
    match newp with
    | none => go diff
    | some p =>
      if p < n.plen then .err .new_prefix_must_be_longer 0
      else if diff ≠ 1 then .err .cannot_set_prefixlen_diff_and_new_prefix 0
      else go (p - n.plen)

/-- `ip-network-iterator.hpp:820-822`, `empty`. -/
def subnetsEmpty (s : SubnetsSeq A U) : Res Bool := F.niEq s.first s.last

/-- `ip-network-iterator.hpp:839-841,849-851`, `operator[]` and `at`. -/
def subnetsAt (s : SubnetsSeq A U) (n : U) : Res (Net A) := do
  let x ← F.niAdd s.first n
  .ok x.cur

/-- `ip-network-iterator.hpp:858-860`, `front`. -/
def _root_.Ip.SubnetsSeq.front (s : SubnetsSeq A U) : Net A := s.first.cur

/-- `ip-network-iterator.hpp:867-869`, `back`. -/
def subnetsBack (s : SubnetsSeq A U) : Res (Net A) := do
  let x ← F.niSub s.last (F.ops.ofI64 1#64)
  .ok x.cur

/-- `ip-network-iterator.hpp:473`, the default constructor. -/
def exDefault : Res (ExIter A) := do
  let d ← F.defaultNet
  .ok ⟨d, d, d, d⟩

/-- `ip-network-iterator.hpp:482-484,516-518,525-527`: the first two elements of `subnets()`. -/
def halves (n : Net A) : Res (Net A × Net A) := do
  let s ← F.subnets n 1 none
  let a ← F.subnetsAt s (F.ops.ofI64 0#64)
  let b ← F.subnetsAt s (F.ops.ofI64 1#64)
  .ok (a, b)

/-- `ip-network-iterator.hpp:511-556`, `++`.  `std::out_of_range` is not an `error_code`: the model
has the outcome `ub` for it (without exceptions the iterator would stay as it is). -/
def exInc (x : ExIter A) : Res (ExIter A) := do
  if (!(← F.netEq x.s1 x.other)) && !(← F.netEq x.s2 x.other) then
    if ← F.subnetOf x.other x.s1 then
      if !(← F.netEq x.cur x.s2) then do
        let h ← F.halves x.s1
        .ok ⟨x.other, h.1, h.2, x.s2⟩
      else F.exDefault
    else if ← F.subnetOf x.other x.s2 then
      if !(← F.netEq x.cur x.s1) then do
        let h ← F.halves x.s2
        .ok ⟨x.other, h.1, h.2, x.s1⟩
      else F.exDefault
    else .ub
  else if ← F.netEq x.s1 x.other then
    if !(← F.netEq x.cur x.s2) then .ok ⟨x.other, x.s1, x.s2, x.s2⟩ else F.exDefault
  else if ← F.netEq x.s2 x.other then
    if !(← F.netEq x.cur x.s1) then .ok ⟨x.other, x.s1, x.s2, x.s1⟩ else F.exDefault
  else .ub

/-- `ip-network-iterator.hpp:481-486`, the constructor. -/
def exMk (network other : Net A) : Res (ExIter A) := do
  let h ← F.halves network
  F.exInc ⟨other, h.1, h.2, network⟩

/-- `ip-network-iterator.hpp:577-579`, `==`. -/
def exEq (x y : ExIter A) : Res Bool := F.netEq x.cur y.cur

/-- `for (auto it = first; it != last; ++it) visit(*it)` over an excluding sequence; running out of
fuel is the outcome `ub`. -/
def exVisit : Nat → ExIter A → ExIter A → Res (List (Net A))
  | 0, _, _ => .ub
  | fuel + 1, first, last => do
    if ← F.exEq first last then .ok []
    else do
      let next ← F.exInc first
      let rest ← exVisit fuel next last
      .ok (first.cur :: rest)

/-- `ip-network-iterator.hpp:905`, the default constructor of `exclude_network_sequence`. -/
def exSeqDefault : Res (ExSeq A) := do
  let d ← F.exDefault
  .ok ⟨d, d⟩

/-- `ip-network-iterator.hpp:918-920`, the constructor of `exclude_network_sequence`. -/
def exSeqMk (network other : Net A) : Res (ExSeq A) := do
  let x ← F.exMk network other
  let d ← F.exDefault
  .ok ⟨x, d⟩

/-- `ip-network-base.hpp:940-954`, `address_exclude`, a `noexcept` function; the throwing variant
(904-911) raises the code. -/
def addressExclude (n other : Net A) : Res (ExSeq A) := do
  let lhs ← noexcept (F.removeScopeNet n)
  let rhs ← noexcept (F.removeScopeNet other)
  if !(← F.subnetOf rhs lhs) then .err .not_contained_network 0
  else if ← F.netEq lhs rhs then F.exSeqDefault
  else noexcept (F.exSeqMk lhs rhs)

/-- `ip-network-iterator.hpp:963-965`, `empty`. -/
def exSeqEmpty (s : ExSeq A) : Res Bool := F.exEq s.first s.last

end Fam
end Ip
