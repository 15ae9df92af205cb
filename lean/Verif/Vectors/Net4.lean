import Verif.Vectors.Check
/-
The tables of the project's tests, part Net4: see `Verif.Vectors.Check`.  Generated from `/repo/tests`.
-/
set_option autoImplicit false

namespace Ip.Vectors

/-- `ipv4-network-tests.cpp:471`. -/
def networkParserIpv4Params : List (List Char × List Char × List Char × List Char × List Char × Nat) := [
  (t!"1.2.3.4", t!"1.2.3.4", t!"1.2.3.4", t!"255.255.255.255", t!"0.0.0.0", 32),
  (t!"1.2.3.4/32", t!"1.2.3.4", t!"1.2.3.4", t!"255.255.255.255", t!"0.0.0.0", 32),
  (t!"1.2.3.4/255.255.255.255", t!"1.2.3.4", t!"1.2.3.4", t!"255.255.255.255", t!"0.0.0.0", 32),
  (t!"192.0.2.0/24", t!"192.0.2.0", t!"192.0.2.255", t!"255.255.255.0", t!"0.0.0.255", 24),
  (t!"192.0.2.0/255.255.255.0", t!"192.0.2.0", t!"192.0.2.255", t!"255.255.255.0", t!"0.0.0.255", 24),
  (t!"192.0.2.0/0.0.0.255", t!"192.0.2.0", t!"192.0.2.255", t!"255.255.255.0", t!"0.0.0.255", 24),
  (t!"192.0.2.0/27", t!"192.0.2.0", t!"192.0.2.31", t!"255.255.255.224", t!"0.0.0.31", 27),
  (t!"192.0.2.0/255.255.255.224", t!"192.0.2.0", t!"192.0.2.31", t!"255.255.255.224", t!"0.0.0.31", 27)]

example : networkParserIpv4Params.all (checkNetParse F4 p4 true) = true := by decide +kernel

/-- `ipv4-network-tests.cpp:514`. -/
def networkParserIpv4NotStrictParams : List (List Char × List Char × List Char × List Char × List Char × Nat) := [
  (t!"1.2.3.4/24", t!"1.2.3.0", t!"1.2.3.255", t!"255.255.255.0", t!"0.0.0.255", 24),
  (t!"192.0.2.0/255.255.0.0", t!"192.0.0.0", t!"192.0.255.255", t!"255.255.0.0", t!"0.0.255.255", 16)]

example : networkParserIpv4NotStrictParams.all (checkNetParse F4 p4 false) = true := by decide +kernel

/-- `ipv4-network-tests.cpp:546`. -/
def networkFromAddressIpv4Params : List (List Char × List Char × Nat × Bool) := [
  (t!"1.2.3.4/24", t!"1.2.3.4", 24, false),
  (t!"192.0.2.0/255.255.255.0", t!"192.0.2.0", 24, true)]

example : networkFromAddressIpv4Params.all (checkFromAddress F4 p4) = true := by decide +kernel

/-- `ipv4-network-tests.cpp:605`. -/
def invalidNetworkIpv4Params : List (List Char × ErrorCode × List Char) := [
  (t!"1.2.3.4/", .empty_netmask, t!"empty mask in address 1.2.3.4/"),
  (t!"1.2.3.4/33", .invalid_netmask, t!"is not a valid netmask in address 1.2.3.4/33"),
  (t!"1.2.3.4/255.0.0.256", .invalid_netmask, t!"is not a valid netmask in address 1.2.3.4/255.0.0.256"),
  (t!"1.2.3.4/-1", .invalid_netmask, t!"is not a valid netmask in address 1.2.3.4/-1"),
  (t!"1.2.3.4/+1", .invalid_netmask, t!"is not a valid netmask in address 1.2.3.4/+1"),
  (t!"1.2.3.4/ 1 ", .invalid_netmask, t!"is not a valid netmask in address 1.2.3.4/ 1 "),
  (t!"1.2.3.4/0x1", .invalid_netmask, t!"is not a valid netmask in address 1.2.3.4/0x1"),
  (t!"1.2.3.4/254.254.255.256", .invalid_netmask, t!"is not a valid netmask in address 1.2.3.4/254.254.255.256"),
  (t!"1.2.3.4/1.a.2.3", .invalid_netmask, t!"is not a valid netmask in address 1.2.3.4/1.a.2.3"),
  (t!"1.1.1.1/254.xyz.2.3", .invalid_netmask, t!"is not a valid netmask in address 1.1.1.1/254.xyz.2.3"),
  (t!"1.1.1.1/pudding", .invalid_netmask, t!"is not a valid netmask in address 1.1.1.1/pudding"),
  (t!"1.1.1.1/::", .invalid_netmask, t!"is not a valid netmask in address 1.1.1.1/::"),
  (t!"1.2.3.4/255.255.255.127", .netmask_pattern_mixes_zeroes_and_ones, t!"netmask pattern mixes zeroes & ones in address 1.2.3.4/255.255.255.127"),
  (t!"1.2.3.4/255.255.255.251", .netmask_pattern_mixes_zeroes_and_ones, t!"netmask pattern mixes zeroes & ones in address 1.2.3.4/255.255.255.251"),
  (t!"1.1.1.1/240.255.0.0", .netmask_pattern_mixes_zeroes_and_ones, t!"netmask pattern mixes zeroes & ones in address 1.1.1.1/240.255.0.0"),
  (t!"1.1.1.1/255.254.128.0", .netmask_pattern_mixes_zeroes_and_ones, t!"netmask pattern mixes zeroes & ones in address 1.1.1.1/255.254.128.0"),
  (t!"1.1.1.1/0.1.127.255", .netmask_pattern_mixes_zeroes_and_ones, t!"netmask pattern mixes zeroes & ones in address 1.1.1.1/0.1.127.255"),
  (t!"1.2.3.4/24", .has_host_bits_set, t!"has host bits set in address 1.2.3.4/24"),
  (t!"1.2.3.4//", .only_one_slash_permitted, t!"only one '/' permitted in address 1.2.3.4//"),
  (t!"1.2.3.4//32", .only_one_slash_permitted, t!"only one '/' permitted in address 1.2.3.4//32"),
  (t!"1.2.3.4/32/24", .only_one_slash_permitted, t!"only one '/' permitted in address 1.2.3.4/32/24"),
  (t!"/", .empty_netmask, t!"empty mask in address /"),
  (t!"/8", .empty_address, t!"address cannot be empty"),
  (t!"bogus", .octet_has_invalid_symbol, t!"in octet 0 of address bogus has invalid symbol"),
  (t!"example.com", .octet_has_invalid_symbol, t!"in octet 0 of address example.com has invalid symbol"),
  (t!"10/8", .expected_4_octets, t!"expected 4 octets in 10/8"),
  (t!"::1.2.3.4", .octet_has_invalid_symbol, t!"in octet 0 of address ::1.2.3.4 has invalid symbol"),
  (t!"1.2.3.256", .octet_exceeded_255, t!"octet 0 of address 1.2.3.256 exceeded 255")]

example : invalidNetworkIpv4Params.all (checkNetInvalid F4) = true := by decide +kernel

/-- `ipv4-network-tests.cpp:741`. -/
def toStringNetworkIpv4Params : List (List Char × List Char) := [
  (t!"1.2.3.4", t!"1.2.3.4/32"),
  (t!"1.2.3.4/32", t!"1.2.3.4/32"),
  (t!"1.2.3.4/255.255.255.255", t!"1.2.3.4/32")]

example : toStringNetworkIpv4Params.all (checkNetText F4) = true := by decide +kernel

/-- `ipv4-network-tests.cpp:902`. -/
def isMulticastIpv4NetworkParams : List (List Char × Bool) := [
  (t!"224.1.1.0/31", true),
  (t!"240.0.0.0", false)]

example : isMulticastIpv4NetworkParams.all (checkNetIs F4 (v4NetIsMulticast true)) = true := by decide +kernel

/-- `ipv4-network-tests.cpp:917`. -/
def isPrivateIpv4NetworkParams : List (List Char × Bool) := [
  (t!"1.0.0.0/8", false),
  (t!"100.64.0.0/10", false),
  (t!"0.0.0.0/0", false),
  (t!"0.0.0.0/8", true),
  (t!"10.0.0.0/8", true),
  (t!"127.0.0.0/8", true),
  (t!"169.254.0.0/16", true),
  (t!"172.16.0.0/12", true),
  (t!"192.0.0.0/29", true),
  (t!"192.0.0.170/31", true),
  (t!"192.0.2.0/24", true),
  (t!"192.168.0.0/16", true),
  (t!"198.18.0.0/15", true),
  (t!"198.51.100.0/24", true),
  (t!"203.0.113.0/24", true),
  (t!"240.0.0.0/4", true),
  (t!"255.255.255.255/32", true)]

example : isPrivateIpv4NetworkParams.all (checkNetIs F4 (v4NetIsPrivate true)) = true := by decide +kernel

/-- `ipv4-network-tests.cpp:947`. -/
def isGlobalIpv4NetworkParams : List (List Char × Bool) := [
  (t!"100.64.0.0/10", false),
  (t!"192.0.3.0/24", true)]

example : isGlobalIpv4NetworkParams.all (checkNetIs F4 (v4NetIsGlobal true)) = true := by decide +kernel

/-- `ipv4-network-tests.cpp:962`. -/
def isReservedIpv4NetworkParams : List (List Char × Bool) := [
  (t!"240.0.0.1", true),
  (t!"239.255.255.255", false)]

example : isReservedIpv4NetworkParams.all (checkNetIs F4 (v4NetIsReserved true)) = true := by decide +kernel

/-- `ipv4-network-tests.cpp:977`. -/
def isLoopbackIpv4NetworkParams : List (List Char × Bool) := [
  (t!"127.100.200.254", true),
  (t!"127.42.0.0/24", true),
  (t!"128.0.0.0/8", false)]

example : isLoopbackIpv4NetworkParams.all (checkNetIs F4 (v4NetIsLoopback true)) = true := by decide +kernel

/-- `ipv4-network-tests.cpp:993`. -/
def isLinkLocalIpv4NetworkParams : List (List Char × Bool) := [
  (t!"169.254.1.0/24", true),
  (t!"169.255.100.200", false)]

example : isLinkLocalIpv4NetworkParams.all (checkNetIs F4 (v4NetIsLinkLocal true)) = true := by decide +kernel

/-- `ipv4-network-tests.cpp:1008`. -/
def isUnspecifiedIpv4NetworkParams : List (List Char × Bool) := [
  (t!"0.0.0.0/32", true),
  (t!"0.0.0.0/8", false)]

example : isUnspecifiedIpv4NetworkParams.all (checkNetIs F4 (v4NetIsUnspecified true)) = true := by decide +kernel

/-- `ipv4-network-tests.cpp:1026`. -/
def containsIpv4NetworkParams : List (List Char × List Char × Bool) := [
  (t!"192.0.2.0/28", t!"192.0.2.6", true),
  (t!"192.0.2.0/28", t!"192.0.3.6", false)]

example : containsIpv4NetworkParams.all (checkContains F4 p4) = true := by decide +kernel

/-- `ipv4-network-tests.cpp:1044`. -/
def overlapsIpv4NetworkParams : List (List Char × List Char × Bool) := [
  (t!"1.2.3.0/24", t!"1.2.3.0/30", true),
  (t!"1.2.3.0/24", t!"1.2.2.0/24", false),
  (t!"1.2.2.0/24", t!"1.2.2.64/26", true)]

example : overlapsIpv4NetworkParams.all (checkPair F4 F4.overlaps) = true := by decide +kernel

/-- `ipv4-network-tests.cpp:1063`. -/
def subnetOfIpv4NetworkParams : List (List Char × List Char × Bool) := [
  (t!"192.168.1.0/24", t!"192.168.1.128/30", false),
  (t!"10.0.0.0/30", t!"10.0.1.0/24", false),
  (t!"10.0.0.0/30", t!"10.0.0.0/24", true),
  (t!"10.0.0.0/30", t!"10.0.1.0/24", false),
  (t!"10.0.1.0/24", t!"10.0.0.0/30", false)]

example : subnetOfIpv4NetworkParams.all (checkPair F4 F4.subnetOf) = true := by decide +kernel

/-- `ipv4-network-tests.cpp:1084`. -/
def supernetOfIpv4NetworkParams : List (List Char × List Char × Bool) := [
  (t!"192.168.1.0/24", t!"192.168.1.128/30", true),
  (t!"10.0.0.0/30", t!"10.0.1.0/24", false),
  (t!"10.0.0.0/30", t!"10.0.0.0/24", false),
  (t!"10.0.0.0/24", t!"10.0.0.0/30", true)]

example : supernetOfIpv4NetworkParams.all (checkPair F4 F4.supernetOf) = true := by decide +kernel

/-- `ipv4-network-tests.cpp:1101`. -/
def addressesCountIpv4NetworkParams : List (List Char × Nat) := [
  (t!"192.168.1.0/24", 256),
  (t!"192.168.1.0/32", 1),
  (t!"1.2.3.0/24", 256),
  (t!"10.0.0.0/30", 4),
  (t!"0.0.0.0/0", 4294967296),
  (t!"0.0.0.0/1", 2147483648),
  (t!"0.0.0.0/32", 1),
  (t!"0.0.0.0/31", 2)]

example : addressesCountIpv4NetworkParams.all (checkCount F4 (·.toNat)) = true := by decide +kernel

/-- `ipv4-network-tests.cpp:1158`. -/
def hostsIpv4NetworkParams : List (List Char × List (List Char)) := [
  (t!"192.0.2.0/29", [t!"192.0.2.1", t!"192.0.2.2", t!"192.0.2.3", t!"192.0.2.4", t!"192.0.2.5", t!"192.0.2.6"]),
  (t!"192.0.2.0/31", [t!"192.0.2.0", t!"192.0.2.1"]),
  (t!"192.0.2.1/32", [t!"192.0.2.1"])]

example : hostsIpv4NetworkParams.all (checkHosts F4 p4) = true := by decide +kernel

/-- `ipv4-network-tests.cpp:1178`. -/
def supernetIpv4NetworkParams : List (List Char × Nat × Option Nat × List Char) := [
  (t!"192.0.2.0/24", 1, none, t!"192.0.2.0/23"),
  (t!"192.0.2.0/24", 2, none, t!"192.0.0.0/22"),
  (t!"192.0.2.0/24", 1, (some 20), t!"192.0.0.0/20"),
  (t!"192.0.0.0/2", 1, none, t!"128.0.0.0/1"),
  (t!"128.0.0.0/1", 1, none, t!"0.0.0.0/0"),
  (t!"0.0.0.0/0", 1, none, t!"0.0.0.0/0")]

example : supernetIpv4NetworkParams.all (checkSupernet F4) = true := by decide +kernel

/-- `ipv4-network-tests.cpp:1220`. -/
def supernetErrorIpv4NetworkParams : List (List Char × Nat × Option Nat × ErrorCode × List Char) := [
  (t!"192.0.2.0/24", 1, (some 25), .new_prefix_must_be_shorter, t!"new prefix must be shorter"),
  (t!"192.0.2.0/24", 2, (some 23), .cannot_set_prefixlen_diff_and_new_prefix, t!"cannot set prefixlen_diff and new_prefix"),
  (t!"192.0.2.0/24", 25, none, .invalid_prefixlen_diff, t!"invalid prefixlen_diff")]

example : supernetErrorIpv4NetworkParams.all (checkSupernetError F4) = true := by decide +kernel

/-- `ipv4-network-tests.cpp:1277`. -/
def subnetsIpv4NetworkParams : List (List Char × Nat × Option Nat × List (List Char)) := [
  (t!"0.0.0.0/0", 1, none, [t!"0.0.0.0/1", t!"128.0.0.0/1"]),
  (t!"192.0.2.0/24", 1, none, [t!"192.0.2.0/25", t!"192.0.2.128/25"]),
  (t!"192.0.2.0/24", 2, none, [t!"192.0.2.0/26", t!"192.0.2.64/26", t!"192.0.2.128/26", t!"192.0.2.192/26"]),
  (t!"192.0.2.0/24", 1, (some 26), [t!"192.0.2.0/26", t!"192.0.2.64/26", t!"192.0.2.128/26", t!"192.0.2.192/26"]),
  (t!"192.0.2.0/24", 1, (some 25), [t!"192.0.2.0/25", t!"192.0.2.128/25"]),
  (t!"192.0.2.0/32", 1, none, [t!"192.0.2.0/32"]),
  (t!"255.255.255.255/32", 1, none, [t!"255.255.255.255/32"])]

example : subnetsIpv4NetworkParams.all (checkSubnets F4) = true := by decide +kernel

/-- `ipv4-network-tests.cpp:1314`. -/
def subnetsErrorIpv4NetworkParams : List (List Char × Nat × Option Nat × ErrorCode × List Char) := [
  (t!"192.0.2.0/24", 1, (some 23), .new_prefix_must_be_longer, t!"new prefix must be longer"),
  (t!"192.0.2.0/24", 2, (some 25), .cannot_set_prefixlen_diff_and_new_prefix, t!"cannot set prefixlen_diff and new_prefix"),
  (t!"192.0.2.0/24", 1, (some 33), .invalid_prefixlen_diff, t!"invalid prefixlen_diff")]

example : subnetsErrorIpv4NetworkParams.all (checkSubnetsError F4) = true := by decide +kernel

/-- `ipv4-network-tests.cpp:1344`. -/
def addressExcludeIpv4NetworkParams : List (List Char × List Char × List (List Char)) := [
  (t!"192.0.2.0/28", t!"192.0.2.1/32", [t!"192.0.2.8/29", t!"192.0.2.4/30", t!"192.0.2.2/31", t!"192.0.2.0/32"])]

example : addressExcludeIpv4NetworkParams.all (checkExclude F4) = true := by decide +kernel

/-- `ipv4-network-tests.cpp:1374`. -/
def addressExcludeErrorIpv4NetworkParams : List (List Char × List Char × ErrorCode × List Char) := [
  (t!"192.168.1.128/30", t!"192.168.1.0/24", .not_contained_network, t!"network is not a subnet of other")]

example : addressExcludeErrorIpv4NetworkParams.all (checkExcludeError F4) = true := by decide +kernel

end Ip.Vectors
