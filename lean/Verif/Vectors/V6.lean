import Verif.Vectors.Check
/-
The tables of the project's tests, part V6: see `Verif.Vectors.Check`.  Generated from `/repo/tests`.
-/
set_option autoImplicit false

namespace Ip.Vectors

/-- `ipv6-address-tests.cpp:347`. -/
def fromUint128Params : List (Nat × List Char) := [
  (0, t!"::"),
  (42549171344950636613079587071710986241, t!"2002:ac1d:2d64::1")]

example : fromUint128Params.all (checkFromUint6) = true := by decide +kernel

/-- `ipv6-address-tests.cpp:377`. -/
def fromBytesIpv6Params : List (List (BitVec 8) × List Char) := [
  ([254, 128, 0, 0, 0, 0, 0, 0, 1, 255, 254, 35, 69, 103, 137, 10], t!""),
  ([254, 128, 0, 0, 0, 0, 0, 0, 1, 255, 254, 35, 69, 103, 137, 10], t!"eth2")]

example : fromBytesIpv6Params.all (checkFromBytes6) = true := by decide +kernel

/-- `ipv6-address-tests.cpp:449`. -/
def addressParserIpv6Params : List (List Char × List (BitVec 8) × Bool × Bool × List Char × Nat) := [
  (t!"2001:db8:0:0:1:0:0:1", [32, 1, 13, 184, 0, 0, 0, 0, 0, 1, 0, 0, 0, 0, 0, 1], false, false, t!"", 0),
  (t!"2001:DB8::1", [32, 1, 13, 184, 0, 0, 0, 0, 0, 0, 0, 0, 0, 0, 0, 1], false, false, t!"", 0),
  (t!"2001:db8::1", [32, 1, 13, 184, 0, 0, 0, 0, 0, 0, 0, 0, 0, 0, 0, 1], false, false, t!"", 0),
  (t!"2001:0db8:85a3:0000:0000:8a2e:0370:7334", [32, 1, 13, 184, 133, 163, 0, 0, 0, 0, 138, 46, 3, 112, 115, 52], false, false, t!"", 0),
  (t!"fe80::1ff:fe23:4567:890a", [254, 128, 0, 0, 0, 0, 0, 0, 1, 255, 254, 35, 69, 103, 137, 10], false, false, t!"", 0),
  (t!"::", [0, 0, 0, 0, 0, 0, 0, 0, 0, 0, 0, 0, 0, 0, 0, 0], false, false, t!"", 0),
  (t!"::127.0.0.1", [0, 0, 0, 0, 0, 0, 0, 0, 0, 0, 0, 0, 127, 0, 0, 1], false, false, t!"", 0),
  (t!"0000::0000", [0, 0, 0, 0, 0, 0, 0, 0, 0, 0, 0, 0, 0, 0, 0, 0], false, false, t!"", 0),
  (t!"::c0a8:1", [0, 0, 0, 0, 0, 0, 0, 0, 0, 0, 0, 0, 192, 168, 0, 1], false, false, t!"", 0),
  (t!"000::c0a8:0001", [0, 0, 0, 0, 0, 0, 0, 0, 0, 0, 0, 0, 192, 168, 0, 1], false, false, t!"", 0),
  (t!"::1", [0, 0, 0, 0, 0, 0, 0, 0, 0, 0, 0, 0, 0, 0, 0, 1], false, false, t!"", 0),
  (t!"::ffff:0:0", [0, 0, 0, 0, 0, 0, 0, 0, 0, 0, 255, 255, 0, 0, 0, 0], false, false, t!"", 0),
  (t!"::ffff:0:0:0", [0, 0, 0, 0, 0, 0, 0, 0, 255, 255, 0, 0, 0, 0, 0, 0], false, false, t!"", 0),
  (t!"64:ff9b::", [0, 100, 255, 155, 0, 0, 0, 0, 0, 0, 0, 0, 0, 0, 0, 0], false, false, t!"", 0),
  (t!"64:ff9b:1::", [0, 100, 255, 155, 0, 1, 0, 0, 0, 0, 0, 0, 0, 0, 0, 0], false, false, t!"", 0),
  (t!"100::", [1, 0, 0, 0, 0, 0, 0, 0, 0, 0, 0, 0, 0, 0, 0, 0], false, false, t!"", 0),
  (t!"ff02::1:3", [255, 2, 0, 0, 0, 0, 0, 0, 0, 0, 0, 0, 0, 1, 0, 3], false, false, t!"", 0),
  (t!"fe80::1ff:fe23:4567:890a%eth2", [254, 128, 0, 0, 0, 0, 0, 0, 1, 255, 254, 35, 69, 103, 137, 10], true, false, t!"eth2", 0),
  (t!"fe80::1ff:fe23:4567:890a%25eth01234567", [254, 128, 0, 0, 0, 0, 0, 0, 1, 255, 254, 35, 69, 103, 137, 10], true, false, t!"25eth01234567", 0),
  (t!"fe80::1ff:fe23:4567:890a%3", [254, 128, 0, 0, 0, 0, 0, 0, 1, 255, 254, 35, 69, 103, 137, 10], true, true, t!"3", 3),
  (t!"fe80::1ff:fe23:4567:890a%31", [254, 128, 0, 0, 0, 0, 0, 0, 1, 255, 254, 35, 69, 103, 137, 10], true, true, t!"31", 31),
  (t!"1:2:3:4:5:6:42.42.42.1", [0, 1, 0, 2, 0, 3, 0, 4, 0, 5, 0, 6, 42, 42, 42, 1], false, false, t!"", 0)]

example : addressParserIpv6Params.all (checkParse6) = true := by decide +kernel

/-- `ipv6-address-tests.cpp:816`. -/
def toStringIpv6Params : List (List Char × List Char × List Char × List Char × List Char) := [
  (t!"2001:db8:0:0:1:0:0:1", t!"2001:0db8:0000:0000:0001:0000:0000:0001", t!"2001:db8:0:0:1:0:0:1", t!"2001:db8::1:0:0:1", t!"2001:DB8::1:0:0:1"),
  (t!"2001:DB8::1", t!"2001:0db8:0000:0000:0000:0000:0000:0001", t!"2001:db8:0:0:0:0:0:1", t!"2001:db8::1", t!"2001:DB8::1"),
  (t!"2001:db8::1", t!"2001:0db8:0000:0000:0000:0000:0000:0001", t!"2001:db8:0:0:0:0:0:1", t!"2001:db8::1", t!"2001:DB8::1"),
  (t!"2001:0db8:85a3:0000:0000:8a2e:0370:7334", t!"2001:0db8:85a3:0000:0000:8a2e:0370:7334", t!"2001:db8:85a3:0:0:8a2e:370:7334", t!"2001:db8:85a3::8a2e:370:7334", t!"2001:DB8:85A3::8A2E:370:7334"),
  (t!"fe80::1ff:fe23:4567:890a", t!"fe80:0000:0000:0000:01ff:fe23:4567:890a", t!"fe80:0:0:0:1ff:fe23:4567:890a", t!"fe80::1ff:fe23:4567:890a", t!"FE80::1FF:FE23:4567:890A"),
  (t!"::", t!"0000:0000:0000:0000:0000:0000:0000:0000", t!"0:0:0:0:0:0:0:0", t!"::", t!"::"),
  (t!"::127.0.0.1", t!"0000:0000:0000:0000:0000:0000:7f00:0001", t!"0:0:0:0:0:0:7f00:1", t!"::7f00:1", t!"::7F00:1"),
  (t!"0000::0000", t!"0000:0000:0000:0000:0000:0000:0000:0000", t!"0:0:0:0:0:0:0:0", t!"::", t!"::"),
  (t!"::c0a8:1", t!"0000:0000:0000:0000:0000:0000:c0a8:0001", t!"0:0:0:0:0:0:c0a8:1", t!"::c0a8:1", t!"::C0A8:1"),
  (t!"000::c0a8:0001", t!"0000:0000:0000:0000:0000:0000:c0a8:0001", t!"0:0:0:0:0:0:c0a8:1", t!"::c0a8:1", t!"::C0A8:1"),
  (t!"::1", t!"0000:0000:0000:0000:0000:0000:0000:0001", t!"0:0:0:0:0:0:0:1", t!"::1", t!"::1"),
  (t!"::ffff:0:0", t!"0000:0000:0000:0000:0000:ffff:0000:0000", t!"0:0:0:0:0:ffff:0:0", t!"::ffff:0:0", t!"::FFFF:0:0"),
  (t!"::ffff:0:0:0", t!"0000:0000:0000:0000:ffff:0000:0000:0000", t!"0:0:0:0:ffff:0:0:0", t!"::ffff:0:0:0", t!"::FFFF:0:0:0"),
  (t!"64:ff9b::", t!"0064:ff9b:0000:0000:0000:0000:0000:0000", t!"64:ff9b:0:0:0:0:0:0", t!"64:ff9b::", t!"64:FF9B::"),
  (t!"64:ff9b:1::", t!"0064:ff9b:0001:0000:0000:0000:0000:0000", t!"64:ff9b:1:0:0:0:0:0", t!"64:ff9b:1::", t!"64:FF9B:1::"),
  (t!"100::", t!"0100:0000:0000:0000:0000:0000:0000:0000", t!"100:0:0:0:0:0:0:0", t!"100::", t!"100::"),
  (t!"ff02::1:3", t!"ff02:0000:0000:0000:0000:0000:0001:0003", t!"ff02:0:0:0:0:0:1:3", t!"ff02::1:3", t!"FF02::1:3"),
  (t!"fe80::1ff:fe23:4567:890a%eth2", t!"fe80:0000:0000:0000:01ff:fe23:4567:890a%eth2", t!"fe80:0:0:0:1ff:fe23:4567:890a%eth2", t!"fe80::1ff:fe23:4567:890a%eth2", t!"FE80::1FF:FE23:4567:890A%eth2"),
  (t!"fe80::1ff:fe23:4567:890a%25eth01234567", t!"fe80:0000:0000:0000:01ff:fe23:4567:890a%25eth01234567", t!"fe80:0:0:0:1ff:fe23:4567:890a%25eth01234567", t!"fe80::1ff:fe23:4567:890a%25eth01234567", t!"FE80::1FF:FE23:4567:890A%25eth01234567"),
  (t!"fe80::1ff:fe23:4567:890a%3", t!"fe80:0000:0000:0000:01ff:fe23:4567:890a%3", t!"fe80:0:0:0:1ff:fe23:4567:890a%3", t!"fe80::1ff:fe23:4567:890a%3", t!"FE80::1FF:FE23:4567:890A%3"),
  (t!"fe80::1ff:fe23:4567:890a%31", t!"fe80:0000:0000:0000:01ff:fe23:4567:890a%31", t!"fe80:0:0:0:1ff:fe23:4567:890a%31", t!"fe80::1ff:fe23:4567:890a%31", t!"FE80::1FF:FE23:4567:890A%31"),
  (t!"1:2:3:4:5:6:42.42.42.1", t!"0001:0002:0003:0004:0005:0006:2a2a:2a01", t!"1:2:3:4:5:6:2a2a:2a01", t!"1:2:3:4:5:6:2a2a:2a01", t!"1:2:3:4:5:6:2A2A:2A01"),
  (t!"0:0:0:4:5:6:42.42.42.1%test", t!"0000:0000:0000:0004:0005:0006:2a2a:2a01%test", t!"0:0:0:4:5:6:2a2a:2a01%test", t!"::4:5:6:2a2a:2a01%test", t!"::4:5:6:2A2A:2A01%test")]

example : toStringIpv6Params.all (checkText6) = true := by decide +kernel

/-- `ipv6-address-tests.cpp:990`. -/
def isMulticastIpv6Params : List (List Char × Bool) := [
  (t!"ffff::", true),
  (t!"ffff:ffff:ffff:ffff:ffff:ffff:ffff:ffff", true),
  (t!"ff00::", true),
  (t!"fdff::", false)]

example : isMulticastIpv6Params.all (checkIs6 (v6IsMulticast cfg)) = true := by decide +kernel

/-- `ipv6-address-tests.cpp:1007`. -/
def isPrivateIpv6Params : List (List Char × Bool) := [
  (t!"fc00::", true),
  (t!"fc00:ffff:ffff:ffff::", true),
  (t!"fbff:ffff::", false),
  (t!"fe00::", false),
  (t!"::ffff:192.168.1.1", true),
  (t!"::ffff:172.32.0.0", false)]

example : isPrivateIpv6Params.all (checkIs6 (v6IsPrivate cfg)) = true := by decide +kernel

/-- `ipv6-address-tests.cpp:1026`. -/
def isGlobalIpv6Params : List (List Char × Bool) := [
  (t!"200::1", true)]

example : isGlobalIpv6Params.all (checkIs6 (v6IsGlobal cfg)) = true := by decide +kernel

/-- `ipv6-address-tests.cpp:1040`. -/
def isReservedIpv6Params : List (List Char × Bool) := [
  (t!"100::", true)]

example : isReservedIpv6Params.all (checkIs6 (v6IsReserved cfg)) = true := by decide +kernel

/-- `ipv6-address-tests.cpp:1054`. -/
def isLoopbackIpv6Params : List (List Char × Bool) := [
  (t!"0:0::0:01", true),
  (t!"::1", true),
  (t!"::2", false)]

example : isLoopbackIpv6Params.all (checkIs6 v6IsLoopback) = true := by decide +kernel

/-- `ipv6-address-tests.cpp:1070`. -/
def isLinkLocalIpv6Params : List (List Char × Bool) := [
  (t!"fea0::", true),
  (t!"febf:ffff::", true),
  (t!"fe7f:ffff::", false),
  (t!"fec0::", false)]

example : isLinkLocalIpv6Params.all (checkIs6 (v6IsLinkLocal cfg)) = true := by decide +kernel

/-- `ipv6-address-tests.cpp:1087`. -/
def isUnspecifiedIpv6Params : List (List Char × Bool) := [
  (t!"0::0", true),
  (t!"::1", false)]

example : isUnspecifiedIpv6Params.all (checkIs6 fun a => .ok (bytesUnspecified a.bytes)) = true := by decide +kernel

/-- `ipv6-address-tests.cpp:1102`. -/
def isSiteLocalIpv6Params : List (List Char × Bool) := [
  (t!"fecf::", true),
  (t!"feff:ffff:ffff:ffff::", true),
  (t!"fbf:ffff::", false),
  (t!"ff00::", false)]

example : isSiteLocalIpv6Params.all (checkIs6 (v6IsSiteLocal cfg)) = true := by decide +kernel

/-- `ipv6-address-tests.cpp:1121`. -/
def ipv4MappedIpv6Params : List (List Char × List Char × Bool) := [
  (t!"::ffff:192.168.1.1%test", t!"192.168.1.1", true),
  (t!"::c0a8:101", t!"0.0.0.0", false),
  (t!"::ffff:c0a8:101", t!"192.168.1.1", true)]

example : ipv4MappedIpv6Params.all (checkInner v6Mapped) = true := by decide +kernel

/-- `ipv6-address-tests.cpp:1139`. -/
def sixtofourIpv6Params : List (List Char × List Char × Bool) := [
  (t!"2002:ac1d:2d64::1", t!"172.29.45.100", true),
  (t!"2000:ac1d:2d64::1", t!"0.0.0.0", false)]

example : sixtofourIpv6Params.all (checkInner v6SixToFour) = true := by decide +kernel

/-- `ipv6-address-tests.cpp:1158`. -/
def teredoIpv6Params : List (List Char × List Char × List Char × Bool) := [
  (t!"2001:0000:4136:e378:8000:63bf:3fff:fdd2", t!"65.54.227.120", t!"192.0.2.45", true),
  (t!"2000::4136:e378:8000:63bf:3fff:fdd2", t!"0.0.0.0", t!"0.0.0.0", false),
  (t!"2001:0001:4136:e378:8000:63bf:3fff:fdd2", t!"0.0.0.0", t!"0.0.0.0", false),
  (t!"2001:0:5ef5:79fd:0:59d:a0e5:ba1", t!"94.245.121.253", t!"95.26.244.94", true)]

example : teredoIpv6Params.all (checkTeredo) = true := by decide +kernel

end Ip.Vectors
