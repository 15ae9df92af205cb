import Verif.Model.Throw
import Verif.Model.Class
import Verif.Model.AnyNet
import Verif.Model.Scope
import Verif.Model.Stream
import Verif.Model.Hash32
/-
What the project's own tests ask (`tests/*.cpp`), written against the model.  The modules in this directory
evaluate the model on the tables of these tests.  They test that the model is a model of this code; they are
tests, not proofs, and no claim rests on them.
-/
set_option autoImplicit false

namespace Ip.Vectors

/-- A text as the list of its characters, which the kernel reads faster than a string. -/
macro:max "t!" s:str : term => do
  let cs := (s.getString.toList.map Lean.Syntax.mkCharLit).toArray
  `([$cs,*])

/-- The configuration the tests are built with on x86-64: little endian, no spaces in scope ids, scope ids of up
to 16 characters, `<=>` and an ASCII `char`. -/
def cfg : Cfg := ⟨true, false, 16, true, fun c => c.toNat, fun c => BitVec.ofNat 64 c.toNat⟩

/-- IPv4. -/
abbrev F4 := fam4 true

/-- IPv6. -/
abbrev F6 := fam6 cfg

/-- Does `r` return something that satisfies `p`? -/
def okIs {α : Type} (r : Res α) (p : α → Bool) : Bool :=
  match r with
  | .ok a => p a
  | _ => false

/-- Does `r` throw an exception with this code and this `what()`? -/
def throws {α : Type} (r : Thr α) (code : ErrorCode) (what : List Char) : Bool :=
  match r with
  | .thrown e => e.code == code && e.what == what
  | _ => false

/-- `ipv4_address::parse`. -/
def p4 (s : List Char) : Res (List (BitVec 8)) := v4Parse s

/-- `ipv6_address::parse`. -/
def p6 (s : List Char) : Res V6 := v6Parse false 16 s

/-! ### `ipv4-address-tests.cpp` -/

/-- Lines 200-233. -/
def checkFromUint4 (r : Nat × List Char) : Bool :=
  okIs (p4 r.2) fun a => a == v4FromUint true (BitVec.ofNat 32 r.1) && okIs (v4ToUint true a) (·.toNat == r.1)

/-- Lines 268-304. -/
def checkParse4 (r : List Char × List (BitVec 8)) : Bool := okIs (p4 r.1) (· == r.2)

/-- Lines 306-379. -/
def checkInvalid4 (r : List Char × ErrorCode × List Char) : Bool :=
  throws (v4ParseThrow encChar r.1) r.2.1 r.2.2

/-- Lines 472-492. -/
def checkText4 (s : List Char) : Bool := okIs (do v4ToString (← p4 s)) (· == s)

/-- Lines 646-755. -/
def checkIs4 (f : List (BitVec 8) → Res Bool) (r : List Char × Bool) : Bool := okIs (do f (← p4 r.1)) (· == r.2)

/-! ### `ipv6-address-tests.cpp` -/

/-- Lines 320-352. -/
def checkFromUint6 (r : Nat × List Char) : Bool :=
  okIs (p6 r.2) fun a =>
    okIs (v6FromUint true ⟨BitVec.ofNat 64 (r.1 / 2 ^ 64), BitVec.ofNat 64 r.1⟩) (· == a.bytes) &&
    okIs (v6ToUint true a.bytes) fun u => u.upper.toNat * 2 ^ 64 + u.lower.toNat == r.1

/-- Lines 354-382. -/
def checkFromBytes6 (r : List (BitVec 8) × List Char) : Bool :=
  okIs (anyFromBytes 16 r.1 16 true) fun a =>
    match a with
    | .v6 a => a.bytes == r.1 &&
      okIs (v6SetScope false 16 a r.2.length (readChars r.2)) fun x =>
        okIs (v6GetScope 16 x.1) fun s => okIs s.getString (· == r.2)
    | .v4 _ => false

/-- Lines 406-484. -/
def checkParse6 (r : List Char × List (BitVec 8) × Bool × Bool × List Char × Nat) : Bool :=
  okIs (p6 r.1) fun a => a.bytes == r.2.1 && okIs (v6GetScope 16 a) fun s =>
    s.hasString == r.2.2.1 && s.hasUint32 == r.2.2.2.1 && okIs s.getString (· == r.2.2.2.2.1) &&
    s.getUint32.toNat == r.2.2.2.2.2

/-- Lines 486-632. -/
def checkInvalid6 (r : List Char × ErrorCode × List Char) : Bool :=
  throws (v6ParseThrow cfg encChar r.1) r.2.1 r.2.2

/-- `std::uppercase` and a manipulator, then `operator<<`. -/
def streamed6 (a : V6) (upper : Bool) (f : OStr Char → OStr Char) : Res (List Char) := do
  let s ← osV6 wideChar 16 a (f ⟨0, upper, false, false, []⟩)
  .ok s.out

/-- Lines 786-842. -/
def checkText6 (r : List Char × List Char × List Char × List Char × List Char) : Bool :=
  okIs (p6 r.1) fun a =>
    okIs (v6ToString 16 a .full) (· == r.2.1) && okIs (v6ToString 16 a .compact) (· == r.2.2.1) &&
    okIs (v6ToString 16 a .compressed) (· == r.2.2.2.1) &&
    okIs (streamed6 a false (osFormat .full)) (· == r.2.1) &&
    okIs (streamed6 a false id) (· == r.2.2.2.1) &&
    okIs (streamed6 a false (osFormat .compact)) (· == r.2.2.1) &&
    okIs (streamed6 a false (osFormat .compressed)) (· == r.2.2.2.1) &&
    okIs (streamed6 a true (osFormat .compressed)) (· == r.2.2.2.2)

/-- Lines 980-1107. -/
def checkIs6 (f : V6 → Res Bool) (r : List Char × Bool) : Bool := okIs (do f (← p6 r.1)) (· == r.2)

/-- Lines 1109-1145; without a value the test reads a default address. -/
def checkInner (f : List (BitVec 8) → Res (Option (List (BitVec 8)))) (r : List Char × List Char × Bool) : Bool :=
  okIs (do f (← p6 r.1).bytes) fun o => o.isSome == r.2.2 && okIs (p4 r.2.1) (· == o.getD [0, 0, 0, 0])

/-- Lines 1147-1165. -/
def checkTeredo (r : List Char × List Char × List Char × Bool) : Bool :=
  okIs (do v6Teredo (← p6 r.1).bytes) fun o =>
    o.isSome == r.2.2.2 && okIs (p4 r.2.1) (· == (o.getD ([0, 0, 0, 0], [0, 0, 0, 0])).1) &&
    okIs (p4 r.2.2.1) (· == (o.getD ([0, 0, 0, 0], [0, 0, 0, 0])).2)

/-! ### `ipv4-network-tests.cpp` and `ipv6-network-tests.cpp` -/

section Nets

variable {A U : Type} (F : Fam A U) (p : List Char → Res A)

/-- `parse` of a network. -/
def netOf (s : List Char) (strict : Bool := true) : Res (Net A) := F.parseNet (readChars s) strict

/-- `ASSERT_EQ` of networks. -/
def sameNet (a b : Net A) : Bool := okIs (F.netEq a b) id

/-- `ASSERT_EQ` of addresses. -/
def sameAddr (a b : A) : Bool := okIs (F.eq a b) id

/-- Is `l` the list of these texts, read by `f` and compared by `same`? -/
def allSame {B : Type} (f : List Char → Res B) (same : B → B → Bool) : List B → List (List Char) → Bool
  | [], [] => true
  | b :: bs, t :: ts => okIs (f t) (same b) && allSame f same bs ts
  | _, _ => false

/-- IPv4: lines 443-520, IPv6: lines 446-520. -/
def checkNetParse (strict : Bool) (r : List Char × List Char × List Char × List Char × List Char × Nat) : Bool :=
  okIs (netOf F r.1 strict) fun n =>
    okIs (p r.2.1) (sameAddr F n.addr) && okIs (F.broadcast n) (fun b => okIs (p r.2.2.1) (sameAddr F b)) &&
    okIs (p r.2.2.2.1) (sameAddr F n.mask) && okIs (p r.2.2.2.2.1) (sameAddr F (F.hostmask n)) &&
    n.plen == r.2.2.2.2.2

/-- IPv4: lines 522-551, IPv6: lines 523-552. -/
def checkFromAddress (r : List Char × List Char × Nat × Bool) : Bool :=
  okIs (netOf F r.1 r.2.2.2) fun n => okIs (p r.2.1) fun a => okIs (F.fromAddress a r.2.2.1 r.2.2.2) fun m =>
    sameNet F m n && sameAddr F m.addr n.addr && sameAddr F m.mask n.mask && m.plen == n.plen

/-- IPv4: lines 577-637, IPv6: lines 578-637. -/
def checkNetInvalid (r : List Char × ErrorCode × List Char) : Bool :=
  throws (F.parseNetThrow encChar r.1 true) r.2.1 r.2.2

/-- IPv4: lines 727-747. -/
def checkNetText (r : List Char × List Char) : Bool :=
  okIs (do F.netToString .compressed (← netOf F r.1)) (· == r.2)

/-- IPv6: lines 724-756. -/
def checkNetText6 (r : List Char × List Char × List Char × List Char) : Bool :=
  okIs (netOf F6 r.1) fun n =>
    okIs (F6.netToString .full n) (· == r.2.1) && okIs (F6.netToString .compact n) (· == r.2.2.1) &&
    okIs (F6.netToString .compressed n) (· == r.2.2.2)

/-- IPv4: lines 894-1013, IPv6: lines 929-1074. -/
def checkNetIs (f : Net A → Res Bool) (r : List Char × Bool) : Bool := okIs (do f (← netOf F r.1)) (· == r.2)

/-- IPv4: lines 1015-1031. -/
def checkContains (r : List Char × List Char × Bool) : Bool :=
  okIs (do F.contains (← netOf F r.1) (← p r.2.1)) (· == r.2.2)

/-- IPv4: lines 1033-1090. -/
def checkPair (f : Net A → Net A → Res Bool) (r : List Char × List Char × Bool) : Bool :=
  okIs (do f (← netOf F r.1) (← netOf F r.2.1)) (· == r.2.2)

/-- IPv4: lines 1092-1112; the expected number is one of the counter type. -/
def checkCount (val : U → Nat) (r : List Char × Nat) : Bool :=
  okIs (do F.addressesCount (← netOf F r.1)) fun u => val u == r.2 % 2 ^ F.maxPrefix

/-- The loops of the tests over a sequence: forward, backward, and `operator[]` with an index. -/
def walks {I V : Type} (O : IterOps I V U) (fuel : Nat) (first last : I) (ok : List V → Bool) (okr : List V → Bool) : Bool :=
  okIs (O.visit fuel first last) ok &&
  okIs (O.rMk last) fun rb => okIs (O.rMk first) fun re => okIs (O.rVisit fuel rb re) okr

/-- IPv4: lines 1114-1164. -/
def checkHosts (r : List Char × List (List Char)) : Bool :=
  okIs (do F.hosts (← netOf F r.1)) fun s =>
    okIs (F.hostsEmpty s) (! ·) && walks F.aiOps (r.2.length + 1) s.first s.last
      (fun l => allSame p (sameAddr F) l r.2) (fun l => allSame p (sameAddr F) l.reverse r.2) &&
    allSame p (sameAddr F) [s.front] (r.2.take 1) &&
    okIs (F.hostsBack s) (fun b => allSame p (sameAddr F) [b] (r.2.drop (r.2.length - 1))) &&
    (r.2.zipIdx.all fun t => okIs (F.hostsAt s (F.ops.ofI64 (BitVec.ofNat 64 t.2))) fun a => okIs (p t.1) (sameAddr F a))

/-- IPv4: lines 1166-1187. -/
def checkSupernet (r : List Char × Nat × Option Nat × List Char) : Bool :=
  okIs (do F.supernet (← netOf F r.1) r.2.1 r.2.2.1) fun m => okIs (netOf F r.2.2.2) (sameNet F m)

/-- IPv4: lines 1189-1226. -/
def checkSupernetError (r : List Char × Nat × Option Nat × ErrorCode × List Char) : Bool :=
  okIs (netOf F r.1) fun n =>
    throws (F.supernetThrow n r.2.1 r.2.2.1) r.2.2.2.1 r.2.2.2.2

/-- IPv4: lines 1228-1288. -/
def checkSubnets (r : List Char × Nat × Option Nat × List (List Char)) : Bool :=
  okIs (do F.subnets (← netOf F r.1) r.2.1 r.2.2.1) fun s =>
    okIs (F.subnetsEmpty s) (! ·) && walks F.niOps (r.2.2.2.length + 1) s.first s.last
      (fun l => allSame (netOf F ·) (sameNet F) l r.2.2.2) (fun l => allSame (netOf F ·) (sameNet F) l.reverse r.2.2.2) &&
    allSame (netOf F ·) (sameNet F) [s.front] (r.2.2.2.take 1) &&
    okIs (F.subnetsBack s) (fun b => allSame (netOf F ·) (sameNet F) [b] (r.2.2.2.drop (r.2.2.2.length - 1))) &&
    (r.2.2.2.zipIdx.all fun t =>
      okIs (F.subnetsAt s (F.ops.ofI64 (BitVec.ofNat 64 t.2))) fun a => okIs (netOf F t.1) (sameNet F a))

/-- IPv4: lines 1290-1320. -/
def checkSubnetsError (r : List Char × Nat × Option Nat × ErrorCode × List Char) : Bool :=
  okIs (netOf F r.1) fun n =>
    throws (F.subnetsThrow n r.2.1 r.2.2.1) r.2.2.2.1 r.2.2.2.2

/-- IPv4: lines 1322-1348. -/
def checkExclude (r : List Char × List Char × List (List Char)) : Bool :=
  okIs (do F.addressExclude (← netOf F r.1) (← netOf F r.2.1)) fun s =>
    okIs (F.exSeqEmpty s) (· == r.2.2.isEmpty) &&
    okIs (F.exVisit (r.2.2.length + 1) s.first s.last) fun l => allSame (netOf F ·) (sameNet F) l r.2.2

/-- IPv4: lines 1350-1378. -/
def checkExcludeError (r : List Char × List Char × ErrorCode × List Char) : Bool :=
  okIs (netOf F r.1) fun n => okIs (netOf F r.2.1) fun o =>
    throws (F.addressExcludeThrow n o) r.2.2.1 r.2.2.2

end Nets

/-! ### `ip-address-tests.cpp` and `ip-network-tests.cpp` -/

/-- `ip-address-tests.cpp:370-430`. -/
def checkInvalidAny (r : List Char × ErrorCode × List Char) : Bool :=
  throws (anyParseThrow cfg encChar r.1) r.2.1 r.2.2

/-- `ip-network-tests.cpp:295-350`. -/
def checkNetInvalidAny (r : List Char × ErrorCode × List Char) : Bool :=
  throws (anyNetParseThrow cfg encChar r.1 true) r.2.1 r.2.2

end Ip.Vectors
