import Verif.Vectors.Check
import Verif.Model.Compare
/-
The examples of the documentation (`README.md`, `doc/*.md` and the `@code` blocks of the headers), evaluated on the
model: see `Verif.Vectors.Check`.  The comments of the examples say what they print.  Where the model says something
else the example here states what the model says; these cases are listed in `DESIGN.md`.
-/
set_option autoImplicit false

namespace Ip.Vectors

/-- `ip_address::parse`. -/
def pAny (s : List Char) : Res AnyAddr := anyParse false 16 s

/-- `ip_network::parse`. -/
def netAny (s : List Char) (strict : Bool := true) : Res AnyNet := anyNetFromEvents cfg (readChars s) strict

/-- Does this address print as this text? -/
def prints (r : Res AnyAddr) (s : List Char) : Bool := okIs (do anyToString 16 .compressed (← r)) (· == s)

/-- Does this network print as this text? -/
def printsNet (r : Res AnyNet) (s : List Char) : Bool := okIs (do anyNetToString cfg .compressed (← r)) (· == s)

/-! ### `README.md:149-176` -/

example : okIs (p6 t!"fec0::1ff:fe23:4567:890a%eth2") (fun a =>
    okIs (v6ToString 16 a .compressed) (· == t!"fec0::1ff:fe23:4567:890a%eth2") &&
    okIs (anyIsSiteLocal cfg (.v6 a)) id &&
    okIs (v6ReversePointer 16 a.bytes)
      (· == t!"a.0.9.8.7.6.5.4.3.2.e.f.f.f.1.0.0.0.0.0.0.0.0.0.0.0.0.0.0.c.e.f.ip6.arpa")) = true := by
  decide +kernel

example : checkTeredo (t!"2001:0000:4136:e378:8000:63bf:3fff:fdd2", t!"65.54.227.120", t!"192.0.2.45", true) = true := by
  decide +kernel

example : checkSubnets F4 (t!"192.0.2.0/24", 2, none,
    [t!"192.0.2.0/26", t!"192.0.2.64/26", t!"192.0.2.128/26", t!"192.0.2.192/26"]) = true := by
  decide +kernel

/-! ### `doc/tutorial.md`, parsing -/

/-- Lines 31-36: four texts for one address. -/
def sameText6 : List (List Char) := [
  t!"fe80::1ff:fe23:4567:890a%eth2", t!"FE80::1FF:FE23:4567:890A%eth2", t!"fe80:0:0:0:1ff:fe23:4567:890a%eth2",
  t!"fe80:0000:0000:0000:01ff:fe23:4567:890a%eth2"]

example : sameText6.all (fun s => okIs (p6 s) fun a =>
    okIs (p6 t!"fe80::1ff:fe23:4567:890a%eth2") (sameAddr F6 a)) = true := by
  decide +kernel

example : okIs (p4 t!"192.168.1.1") (· == [192, 168, 1, 1]) = true := by decide +kernel

example : okIs (p6 t!"64:ff9b::192.0.2.128")
    (fun a => a.bytes == [0, 0x64, 0xFF, 0x9B, 0, 0, 0, 0, 0, 0, 0, 0, 192, 0, 2, 128]) = true := by
  decide +kernel

example : okIs (pAny t!"192.168.1.1") (fun a => anyVersion a == 4 && anySize a == 4) = true := by decide +kernel

example : okIs (pAny t!"fe80::1ff:fe23:4567:890a%eth2") (fun a =>
    anyVersion a == 6 && anySize a == 16 && !anyIsV4 a && anyIsV6 a && (anyV4 a).isNone && (anyV6 a).isSome) = true := by
  decide +kernel

/-! ### `doc/tutorial.md`, integers and bytes -/

example : okIs (v4ToUint true (v4FromUint true 0xC0A80001)) (· == 0xC0A80001) = true := by decide +kernel

example : prints (.ok (anyFromUint32 true 0xC0A80001)) t!"192.168.0.1" = true := by decide +kernel

example : prints (anyFromUint128 true 16 ⟨0, 281470681743360⟩) t!"::ffff:0:0" = true := by decide +kernel

/-- The bytes of the example. -/
def docBytes : List (BitVec 8) := [0, 0, 0, 0, 0, 0, 0, 0, 0, 0, 255, 255, 0, 0, 0, 0]

example : prints (anyFromBytes 16 [0xC0, 0xA8, 0, 1] 4 false) t!"192.168.0.1" = true := by decide +kernel

example : okIs (anyFromBytes 16 docBytes 16 true) (fun a => (anyData a)[10]? == some 255 && (anyData a)[11]? == some 255) = true := by
  decide +kernel

/-- Fewer bytes than an address has: the others are zero. -/
example : prints (anyFromBytes 16 [0xC0, 0xA8, 0, 1] 3 false) t!"192.168.0.0" = true ∧
    prints (anyFromBytes 16 [0xC0, 0xA8, 0, 1] 3 true) t!"c0a8::" = true ∧
    prints (anyFromBytes 16 docBytes 11 true) t!"::ff00:0:0" = true := by
  decide +kernel

/-! ### `doc/tutorial.md`, comparison: `==` `!=` `<` `<=` `>=` `>` -/

/-- The operators in the order of the documentation. -/
def docOps (o : CmpOps) : List Bool := [o.eq, o.ne, o.lt, o.le, o.ge, o.gt]

/-- The three tables for addresses. -/
def docCompare6 : List (List Char × List Char × List Bool) := [
  (t!"fe80::1ff:fe23:4567:890a", t!"fe80::1ff:fe23:4567:890b", [false, true, true, true, false, false]),
  (t!"fe80::1ff:fe23:4567:890b", t!"fe80::1ff:fe23:4567:890a%eth2", [false, true, false, false, true, true]),
  (t!"fe80::1ff:fe23:4567:890a%eth2", t!"fe80::1ff:fe23:4567:890a%eth1", [false, true, false, false, true, true])]

/-- With `<=>` the tables are right. -/
example : docCompare6.all (fun r =>
    okIs (do v6CmpOps cfg (← p6 r.1) (← p6 r.2.1)) (docOps · == r.2.2)) = true := by
  decide +kernel

/-- Before C++20 the second table is wrong about `test9` and `test11`: each of the addresses is less than the other. -/
example : okIs
    (do v6CmpOps { cfg with spaceship := false } (← p6 t!"fe80::1ff:fe23:4567:890b") (← p6 t!"fe80::1ff:fe23:4567:890a%eth2"))
    (docOps · == [false, true, true, false, false, true]) = true := by
  decide +kernel

/-- The tables for networks. -/
def docCompareNet6 : List (List Char × List Char × List Bool) := [
  (t!"2002:ac1d:2d64::/64", t!"2002:ac1d:2d64::", [false, true, true, true, false, false]),
  (t!"2002:ac1d:2d64::", t!"2002:ac1d:2d64::/64", [false, true, false, false, true, true]),
  (t!"2002:ac1d:2d64::/64", t!"2002:ac1d:2d64::%1/64", [false, true, true, true, false, false])]

example : docCompareNet6.all (fun r => [true, false].all fun s =>
    okIs (do netCmpOps (fam6 { cfg with spaceship := s }) s (← netOf F6 r.1) (← netOf F6 r.2.1)) (docOps · == r.2.2)) = true := by
  decide +kernel

/-! ### `doc/tutorial.md`, properties -/

example : okIs (do anyIsMulticast cfg (← pAny t!"ffff::")) id = true := by decide +kernel

example : okIs (do anyIsMulticast cfg (← pAny t!"fdff::")) (! ·) = true := by decide +kernel

example : okIs (do anyIsReserved cfg (← pAny t!"240.0.0.1")) id = true := by decide +kernel

example : okIs (do anyIsReserved cfg (← pAny t!"239.255.255.255")) (! ·) = true := by decide +kernel

example : okIs (do anySixToFour (← pAny t!"2002:ac1d:2d64::1")) (· == some [0xAC, 0x1D, 0x2D, 0x64]) = true := by
  decide +kernel

example : okIs (do anyNetIsMulticast cfg (← netAny t!"ffff::")) id = true := by decide +kernel

example : okIs (do anyNetIsMulticast cfg (← netAny t!"fdff::")) (! ·) = true := by decide +kernel

example : okIs (do anyNetIsReserved cfg (← netAny t!"240.0.0.1")) id = true := by decide +kernel

example : okIs (do anyNetIsReserved cfg (← netAny t!"239.255.255.255")) (! ·) = true := by decide +kernel

/-! ### `doc/tutorial.md`, texts -/

example : checkText4 t!"127.240.0.1" = true := by decide +kernel

example : okIs (p6 t!"fe80::1ff:fe23:4567:890a%eth2") (fun a =>
    okIs (v6ToString 16 a .full) (· == t!"fe80:0000:0000:0000:01ff:fe23:4567:890a%eth2") &&
    okIs (v6ToString 16 a .compact) (· == t!"fe80:0:0:0:1ff:fe23:4567:890a%eth2") &&
    okIs (v6ToString 16 a .compressed) (· == t!"fe80::1ff:fe23:4567:890a%eth2") &&
    okIs (v6ReversePointer 16 a.bytes)
      (· == t!"a.0.9.8.7.6.5.4.3.2.e.f.f.f.1.0.0.0.0.0.0.0.0.0.0.0.0.0.0.8.e.f.ip6.arpa")) = true := by
  decide +kernel

example : checkNetText F4 (t!"1.2.3.0/0.0.0.255", t!"1.2.3.0/24") = true := by decide +kernel

example : checkNetText6 (t!"2001:db8::/32", t!"2001:0db8:0000:0000:0000:0000:0000:0000/32",
    t!"2001:db8:0:0:0:0:0:0/32", t!"2001:db8::/32") = true := by
  decide +kernel

/-! ### `doc/tutorial.md`, networks -/

example : checkNetParse F6 p6 true (t!"2001:db8::/32", t!"2001:db8::", t!"2001:db8:ffff:ffff:ffff:ffff:ffff:ffff",
    t!"ffff:ffff::", t!"::ffff:ffff:ffff:ffff:ffff:ffff", 32) = true := by
  decide +kernel

example : checkNetParse F4 p4 true (t!"1.2.3.0/255.255.255.0", t!"1.2.3.0", t!"1.2.3.255", t!"255.255.255.0",
    t!"0.0.0.255", 24) = true := by
  decide +kernel

example : checkNetParse F4 p4 false (t!"1.2.3.0/16", t!"1.2.0.0", t!"1.2.255.255", t!"255.255.0.0", t!"0.0.255.255",
    16) = true := by
  decide +kernel

/-- A netmask, a hostmask and no mask. -/
example : okIs (netOf F4 t!"10.0.0.0/255.0.0.0") (·.plen == 8) = true ∧
    okIs (netOf F4 t!"10.0.0.0/0.255.255.255") (·.plen == 8) = true ∧
    okIs (netOf F4 t!"1.2.3.4/255.255.255.255") (·.plen == 32) = true ∧ okIs (netOf F4 t!"1.2.3.4") (·.plen == 32) = true := by
  decide +kernel

/-- "The only exception is an all-zero mask, which is treated as a netmask equivalent to /0": the program has no
defined outcome on this text. -/
example : netOf F4 t!"0.0.0.0/0.0.0.0" = .ub := by decide +kernel

example : printsNet (do anyNetFromAddress cfg (← pAny t!"192.168.0.1") 24 false) t!"192.168.0.0/24" = true ∧
    printsNet (do anyNetFromAddress cfg (← pAny t!"2002:ac1d:2d64::") 64 true) t!"2002:ac1d:2d64::/64" = true ∧
    printsNet (do anyNetFromAddress cfg (← pAny t!"192.168.0.1") 32 true) t!"192.168.0.1/32" = true := by
  decide +kernel

/-! ### `doc/tutorial.md`, scope ids -/

example : okIs (do v6GetScope 16 (← p6 t!"fe80::1ff:fe23:4567:890a%eth2")) (fun s =>
    s.hasString && !s.hasUint32 && okIs s.getString (· == t!"eth2")) = true := by
  decide +kernel

example : okIs (pAny t!"fe80::1ff:fe23:4567:890a") (fun a =>
    okIs (anyScopeObject 16 a) (fun s => !s.hasString) &&
    okIs (anySetScope false 16 a 3 (readChars t!"123")) (fun x => okIs (anyScopeObject 16 x.1) fun s =>
      s.hasString && s.hasUint32 && s.getUint32 == 123)) = true := by
  decide +kernel

example : (match p6 t!"fe80::1ff:fe23:4567:890a%et h2" with
    | .err e _ => e == .invalid_scope_id
    | _ => false) = true := by
  decide +kernel

/-! ### `doc/tutorial.md`, streams -/

/-- What a stream of `char` shows after this manipulator and this address. -/
def streamedAny (s : List Char) (f : OStr Char → OStr Char) : Res (List Char) := do
  let o ← osAny wideChar 16 (← pAny s) (f ⟨0, false, false, false, []⟩)
  .ok o.out

example : okIs (streamedAny t!"2001:db8::1" id) (· == t!"2001:db8::1") = true ∧
    okIs (streamedAny t!"2001:db8::1" (osFormat .full)) (· == t!"2001:0db8:0000:0000:0000:0000:0000:0001") = true ∧
    okIs (streamedAny t!"2001:db8::1" (osFormat .compact)) (· == t!"2001:db8:0:0:0:0:0:1") = true ∧
    okIs (streamedAny t!"2001:db8::1" (osFormat .compressed)) (· == t!"2001:db8::1") = true := by
  decide +kernel

/-- A stream with these characters. -/
def streamOf (s : List Char) : IStr Char := ⟨0, false, false, s, false, false⟩

example : okIs (isRead wideChar (anyFromEvents false 16) (streamOf t!"255.0.42.42 test")) (fun r => !r.2.fail &&
    (match r.1 with | some a => prints (.ok a) t!"255.0.42.42" | none => false)) = true := by
  decide +kernel

example : okIs (isRead wideChar (anyFromEvents false 16) (streamOf t!"2001:db8:0:0:0:0:0:1%scope test")) (fun r => !r.2.fail &&
    (match r.1 with | some a => prints (.ok a) t!"2001:db8::1%scope" | none => false)) = true := by
  decide +kernel

example : okIs (isReadNet wideChar (anyNetFromEvents cfg) (isNonStrict (streamOf t!"1.2.3.0/16 non strict mode sample")))
    (fun r => !r.2.fail && (match r.1 with | some n => printsNet (.ok n) t!"1.2.0.0/16" | none => false)) = true := by
  decide +kernel

example : okIs (isReadNet wideChar (anyNetFromEvents cfg) (streamOf t!"2001:db8::/32 test"))
    (fun r => !r.2.fail && (match r.1 with | some n => printsNet (.ok n) t!"2001:db8::/32" | none => false)) = true := by
  decide +kernel

/-! ### `doc/network-operations.md` and the headers -/

example : checkHosts F4 p4 (t!"192.0.2.0/29",
    [t!"192.0.2.1", t!"192.0.2.2", t!"192.0.2.3", t!"192.0.2.4", t!"192.0.2.5", t!"192.0.2.6"]) = true := by
  decide +kernel

example : okIs (do anyNetHosts cfg (← netAny t!"192.0.2.0/29")) (fun s =>
    prints ((anyHostsOps cfg).seqBack s) t!"192.0.2.6") = true := by
  decide +kernel

example : printsNet (do anyNetSupernet cfg (← netAny t!"192.0.2.0/24") 2 none) t!"192.0.0.0/22" = true := by
  decide +kernel

example : checkExclude F4 (t!"192.0.2.0/28", t!"192.0.2.1/32",
    [t!"192.0.2.8/29", t!"192.0.2.4/30", t!"192.0.2.2/31", t!"192.0.2.0/32"]) = true := by
  decide +kernel

example : okIs (do anyNetExclude cfg (← netAny t!"192.0.2.0/28") (← netAny t!"192.0.2.1/32")) (fun s =>
    okIs (anyExVisit cfg 5 s.1 s.2) fun l =>
      allSame (fun s => netAny s) (fun a b => okIs (anyNetEq cfg a b) id) l
        [t!"192.0.2.8/29", t!"192.0.2.4/30", t!"192.0.2.2/31", t!"192.0.2.0/32"]) = true := by
  decide +kernel

/-- `(std::uint32_t) ip1 + 1000` and `(uint128_t) ip2 + 1`. -/
example : prints (do .ok (anyFromUint32 true ((← anyToUint32 true (← pAny t!"192.0.2.0")) + 1000))) t!"192.0.5.232" = true ∧
    prints (do anyFromUint128 true 16 (U128.add (← anyToUint128 true (← pAny t!"2001:db8::")) (U128.ofI64 1)))
      t!"2001:db8::1" = true := by
  decide +kernel

example : okIs (do anyNetContains cfg (← netAny t!"192.0.2.0/28") (← pAny t!"192.0.2.6")) id = true ∧
    okIs (do anyNetContains cfg (← netAny t!"192.0.2.0/28") (← pAny t!"192.0.3.6")) (! ·) = true := by
  decide +kernel

example : okIs (do anyNetOverlaps cfg (← netAny t!"1.2.3.0/24") (← netAny t!"1.2.3.0/30")) id = true ∧
    okIs (do anyNetSubnetOf cfg (← netAny t!"192.168.1.0/24") (← netAny t!"192.168.1.128/30")) (! ·) = true ∧
    okIs (do anyNetSupernetOf cfg (← netAny t!"192.168.1.0/24") (← netAny t!"192.168.1.128/30")) id = true := by
  decide +kernel

/-! ### `doc/error-handling.md` -/

example : checkInvalid4 (t!"192.257.2.0", .octet_exceeded_255, t!"octet 1 of address 192.257.2.0 exceeded 255") = true := by
  decide +kernel

end Ip.Vectors
