import Verif.Vectors.Check
/-
The tables of the project's tests, part V4: see `Verif.Vectors.Check`.  Generated from `/repo/tests`.
-/
set_option autoImplicit false

namespace Ip.Vectors

/-- `ipv4-address-tests.cpp:229`. -/
def fromUint32Params : List (Nat × List Char) := [
  (0, t!"0.0.0.0"),
  (3232235521, t!"192.168.0.1")]

example : fromUint32Params.all (checkFromUint4) = true := by decide +kernel

/-- `ipv4-address-tests.cpp:296`. -/
def addressParserIpv4Params : List (List Char × List (BitVec 8)) := [
  (t!"0.0.0.0", [0, 0, 0, 0]),
  (t!"100.64.0.0", [100, 64, 0, 0]),
  (t!"127.0.0.1", [127, 0, 0, 1]),
  (t!"192.168.1.1", [192, 168, 1, 1])]

example : addressParserIpv4Params.all (checkParse4) = true := by decide +kernel

/-- `ipv4-address-tests.cpp:332`. -/
def invalidAddressIpv4Params : List (List Char × ErrorCode × List Char) := [
  (t!"", .empty_address, t!"address cannot be empty"),
  (t!"127", .expected_4_octets, t!"expected 4 octets in 127"),
  (t!"127.0", .expected_4_octets, t!"expected 4 octets in 127.0"),
  (t!"127.0.0", .expected_4_octets, t!"expected 4 octets in 127.0.0"),
  (t!"42.42.42.42.42", .expected_4_octets, t!"expected 4 octets in 42.42.42.42.42"),
  (t!"192.168.0.1.com", .expected_4_octets, t!"expected 4 octets in 192.168.0.1.com"),
  (t!"42.42.42.42...", .expected_4_octets, t!"expected 4 octets in 42.42.42.42..."),
  (t!"...42.42.42.42", .empty_octet, t!"empty octet 0 in address ...42.42.42.42"),
  (t!"42..42.42.42", .empty_octet, t!"empty octet 1 in address 42..42.42.42"),
  (t!"42.42..42.42", .empty_octet, t!"empty octet 2 in address 42.42..42.42"),
  (t!"42.42.42..42", .empty_octet, t!"empty octet 3 in address 42.42.42..42"),
  (t!"42.42..42", .empty_octet, t!"empty octet 2 in address 42.42..42"),
  (t!".42.42.42.42", .empty_octet, t!"empty octet 0 in address .42.42.42.42"),
  (t!".", .empty_octet, t!"empty octet 0 in address ."),
  (t!"42..42.42", .empty_octet, t!"empty octet 1 in address 42..42.42"),
  (t!"...", .empty_octet, t!"empty octet 0 in address ..."),
  (t!"127.0.0.", .empty_octet, t!"empty octet 3 in address 127.0.0."),
  (t!"0x0a.0x0a.0x0a.0x0a", .octet_has_invalid_symbol, t!"in octet 0 of address 0x0a.0x0a.0x0a.0x0a has invalid symbol"),
  (t!"0xa.0x0a.0x0a.0x0a", .octet_has_invalid_symbol, t!"in octet 0 of address 0xa.0x0a.0x0a.0x0a has invalid symbol"),
  (t!"42.42.42.-0", .octet_has_invalid_symbol, t!"in octet 3 of address 42.42.42.-0 has invalid symbol"),
  (t!"42.42.42.+0", .octet_has_invalid_symbol, t!"in octet 3 of address 42.42.42.+0 has invalid symbol"),
  (t!"42.42.42.-42", .octet_has_invalid_symbol, t!"in octet 3 of address 42.42.42.-42 has invalid symbol"),
  (t!"+1.+2.+3.4", .octet_has_invalid_symbol, t!"in octet 0 of address +1.+2.+3.4 has invalid symbol"),
  (t!"1.2.3.4e0", .octet_has_invalid_symbol, t!"in octet 3 of address 1.2.3.4e0 has invalid symbol"),
  (t!"1.2.3.4::", .octet_has_invalid_symbol, t!"in octet 3 of address 1.2.3.4:: has invalid symbol"),
  (t!"1.a.2.3", .octet_has_invalid_symbol, t!"in octet 1 of address 1.a.2.3 has invalid symbol"),
  (t!"127.0.0.1/24", .octet_has_invalid_symbol, t!"in octet 3 of address 127.0.0.1/24 has invalid symbol"),
  (t!"1271.0.0.1", .octet_more_3_characters, t!"in octet 0 of address 1271.0.0.1 more 3 characters"),
  (t!"127.1271.0.1", .octet_more_3_characters, t!"in octet 1 of address 127.1271.0.1 more 3 characters"),
  (t!"127.0.1271.1", .octet_more_3_characters, t!"in octet 2 of address 127.0.1271.1 more 3 characters"),
  (t!"127.0.0.1271", .octet_more_3_characters, t!"in octet 3 of address 127.0.0.1271 more 3 characters"),
  (t!"257.0.0.0", .octet_exceeded_255, t!"octet 0 of address 257.0.0.0 exceeded 255"),
  (t!"127.258.0.1", .octet_exceeded_255, t!"octet 1 of address 127.258.0.1 exceeded 255"),
  (t!"127.0.700.1", .octet_exceeded_255, t!"octet 2 of address 127.0.700.1 exceeded 255"),
  (t!"192.168.0.999", .octet_exceeded_255, t!"octet 3 of address 192.168.0.999 exceeded 255"),
  (t!"000.000.000.000", .leading_0_are_not_permitted, t!"leading zeros are not permitted in octet 0 of address 000.000.000.000"),
  (t!"192.168.000.001", .leading_0_are_not_permitted, t!"leading zeros are not permitted in octet 2 of address 192.168.000.001"),
  (t!"016.016.016.016", .leading_0_are_not_permitted, t!"leading zeros are not permitted in octet 0 of address 016.016.016.016"),
  (t!"001.000.008.016", .leading_0_are_not_permitted, t!"leading zeros are not permitted in octet 0 of address 001.000.008.016"),
  (t!"01.2.3.40", .leading_0_are_not_permitted, t!"leading zeros are not permitted in octet 0 of address 01.2.3.40"),
  (t!"1.02.3.40", .leading_0_are_not_permitted, t!"leading zeros are not permitted in octet 1 of address 1.02.3.40"),
  (t!"1.2.03.40", .leading_0_are_not_permitted, t!"leading zeros are not permitted in octet 2 of address 1.2.03.40"),
  (t!"1.2.3.040", .leading_0_are_not_permitted, t!"leading zeros are not permitted in octet 3 of address 1.2.3.040")]

example : invalidAddressIpv4Params.all (checkInvalid4) = true := by decide +kernel

/-- `ipv4-address-tests.cpp:486`. -/
def toStringIpv4Params : List (List Char) := [
  t!"0.0.0.0",
  t!"127.0.0.1",
  t!"255.0.42.42"]

example : toStringIpv4Params.all (checkText4) = true := by decide +kernel

/-- `ipv4-address-tests.cpp:656`. -/
def isMulticastIpv4Params : List (List Char × Bool) := [
  (t!"224.1.1.1", true),
  (t!"240.0.0.0", false)]

example : isMulticastIpv4Params.all (checkIs4 (v4IsMulticast true)) = true := by decide +kernel

/-- `ipv4-address-tests.cpp:671`. -/
def isPrivateIpv4Params : List (List Char × Bool) := [
  (t!"192.168.1.1", true),
  (t!"192.169.0.0", false),
  (t!"10.255.255.255", true),
  (t!"11.0.0.0", false),
  (t!"172.31.255.255", true),
  (t!"172.32.0.0", false)]

example : isPrivateIpv4Params.all (checkIs4 (v4IsPrivate true)) = true := by decide +kernel

/-- `ipv4-address-tests.cpp:690`. -/
def isGlobalIpv4Params : List (List Char × Bool) := [
  (t!"192.0.7.1", true),
  (t!"203.0.113.1", false)]

example : isGlobalIpv4Params.all (checkIs4 (v4IsGlobal true)) = true := by decide +kernel

/-- `ipv4-address-tests.cpp:705`. -/
def isReservedIpv4Params : List (List Char × Bool) := [
  (t!"240.0.0.1", true),
  (t!"239.255.255.255", false)]

example : isReservedIpv4Params.all (checkIs4 (v4IsReserved true)) = true := by decide +kernel

/-- `ipv4-address-tests.cpp:720`. -/
def isLoopbackIpv4Params : List (List Char × Bool) := [
  (t!"127.100.200.254", true),
  (t!"127.42.0.0", true),
  (t!"128.0.0.0", false)]

example : isLoopbackIpv4Params.all (checkIs4 (v4IsLoopback true)) = true := by decide +kernel

/-- `ipv4-address-tests.cpp:736`. -/
def isLinkLocalIpv4Params : List (List Char × Bool) := [
  (t!"169.254.100.200", true),
  (t!"169.255.100.200", false)]

example : isLinkLocalIpv4Params.all (checkIs4 (v4IsLinkLocal true)) = true := by decide +kernel

/-- `ipv4-address-tests.cpp:751`. -/
def isUnspecifiedIpv4Params : List (List Char × Bool) := [
  (t!"0.0.0.0", true)]

example : isUnspecifiedIpv4Params.all (checkIs4 fun a => .ok (bytesUnspecified a)) = true := by decide +kernel

end Ip.Vectors
