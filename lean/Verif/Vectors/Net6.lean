import Verif.Vectors.Check
/-
The tables of the project's tests, part Net6: see `Verif.Vectors.Check`.  Generated from `/repo/tests`.
-/
set_option autoImplicit false

namespace Ip.Vectors

/-- `ipv6-network-tests.cpp:474`. -/
def networkParserIpv6Params : List (List Char × List Char × List Char × List Char × List Char × Nat) := [
  (t!"::1", t!"::1", t!"::1", t!"ffff:ffff:ffff:ffff:ffff:ffff:ffff:ffff", t!"::", 128),
  (t!"::1%scope", t!"::1%scope", t!"::1", t!"ffff:ffff:ffff:ffff:ffff:ffff:ffff:ffff", t!"::", 128),
  (t!"2001:db8::/32", t!"2001:db8::", t!"2001:db8:ffff:ffff:ffff:ffff:ffff:ffff", t!"ffff:ffff::", t!"::ffff:ffff:ffff:ffff:ffff:ffff", 32),
  (t!"2001:db8::%scope/32", t!"2001:db8::%scope", t!"2001:db8:ffff:ffff:ffff:ffff:ffff:ffff", t!"ffff:ffff::", t!"::ffff:ffff:ffff:ffff:ffff:ffff", 32),
  (t!"::/0", t!"::", t!"ffff:ffff:ffff:ffff:ffff:ffff:ffff:ffff", t!"::", t!"ffff:ffff:ffff:ffff:ffff:ffff:ffff:ffff", 0),
  (t!"::/128", t!"::", t!"::", t!"ffff:ffff:ffff:ffff:ffff:ffff:ffff:ffff", t!"::", 128)]

example : networkParserIpv6Params.all (checkNetParse F6 p6 true) = true := by decide +kernel

/-- `ipv6-network-tests.cpp:515`. -/
def networkParserIpv6NotStrictParams : List (List Char × List Char × List Char × List Char × List Char × Nat) := [
  (t!"2001:db8::/16", t!"2001::", t!"2001:ffff:ffff:ffff:ffff:ffff:ffff:ffff", t!"ffff::", t!"::ffff:ffff:ffff:ffff:ffff:ffff:ffff", 16),
  (t!"2001:db8::/24", t!"2001:d00::", t!"2001:dff:ffff:ffff:ffff:ffff:ffff:ffff", t!"ffff:ff00::", t!"0:ff:ffff:ffff:ffff:ffff:ffff:ffff", 24)]

example : networkParserIpv6NotStrictParams.all (checkNetParse F6 p6 false) = true := by decide +kernel

/-- `ipv6-network-tests.cpp:547`. -/
def networkFromAddressIpv6Params : List (List Char × List Char × Nat × Bool) := [
  (t!"2001:db8::/16", t!"2001:db8::", 16, false),
  (t!"2001:db8::/32", t!"2001:db8::", 32, true)]

example : networkFromAddressIpv6Params.all (checkFromAddress F6 p6) = true := by decide +kernel

/-- `ipv6-network-tests.cpp:606`. -/
def invalidNetworkIpv6Params : List (List Char × ErrorCode × List Char) := [
  (t!"/", .empty_netmask, t!"empty mask in address /"),
  (t!"2001:db8::/", .empty_netmask, t!"empty mask in address 2001:db8::/"),
  (t!"2001:db8::/129", .invalid_netmask, t!"is not a valid netmask in address 2001:db8::/129"),
  (t!"2001:db8::/255.255.255.255", .invalid_netmask, t!"is not a valid netmask in address 2001:db8::/255.255.255.255"),
  (t!"/%scope", .invalid_netmask, t!"is not a valid netmask in address /%scope"),
  (t!"/%scope8", .invalid_netmask, t!"is not a valid netmask in address /%scope8"),
  (t!"::1/::1", .invalid_netmask, t!"is not a valid netmask in address ::1/::1"),
  (t!"::1/1::", .invalid_netmask, t!"is not a valid netmask in address ::1/1::"),
  (t!"::1/-1", .invalid_netmask, t!"is not a valid netmask in address ::1/-1"),
  (t!"::1/+1", .invalid_netmask, t!"is not a valid netmask in address ::1/+1"),
  (t!"::1/ 1 ", .invalid_netmask, t!"is not a valid netmask in address ::1/ 1 "),
  (t!"::1/word", .invalid_netmask, t!"is not a valid netmask in address ::1/word"),
  (t!"::1/::", .invalid_netmask, t!"is not a valid netmask in address ::1/::"),
  (t!"::1%scope/word", .invalid_netmask, t!"is not a valid netmask in address ::1%scope/word"),
  (t!"2001:db8::/24", .has_host_bits_set, t!"has host bits set in address 2001:db8::/24"),
  (t!"2001:db8:://", .only_one_slash_permitted, t!"only one '/' permitted in address 2001:db8:://"),
  (t!"2001:db8:://128", .only_one_slash_permitted, t!"only one '/' permitted in address 2001:db8:://128"),
  (t!"2001:db8::/128/128", .only_one_slash_permitted, t!"only one '/' permitted in address 2001:db8::/128/128"),
  (t!"/8", .empty_address, t!"address cannot be empty"),
  (t!"google.com", .octet_has_invalid_symbol, t!"in octet 0 of address google.com has invalid symbol"),
  (t!"1.2.3.4", .least_3_parts, t!"least 3 parts in address 1.2.3.4"),
  (t!"10/8", .least_3_parts, t!"least 3 parts in address 10/8"),
  (t!"1234:axy::b", .part_has_invalid_symbol, t!"in part 0 of address 1234:axy::b has invalid symbols"),
  (t!"google.com%scope", .octet_has_invalid_symbol, t!"in octet 0 of address google.com%scope has invalid symbol"),
  (t!"1.2.3.4%scope", .least_3_parts, t!"least 3 parts in address 1.2.3.4%scope"),
  (t!"10%scope/8", .least_3_parts, t!"least 3 parts in address 10%scope/8"),
  (t!"1234:axy::b%scope", .part_has_invalid_symbol, t!"in part 0 of address 1234:axy::b%scope has invalid symbols")]

example : invalidNetworkIpv6Params.all (checkNetInvalid F6) = true := by decide +kernel

/-- `ipv6-network-tests.cpp:750`. -/
def toStringNetworkIpv6Params : List (List Char × List Char × List Char × List Char) := [
  (t!"2001:db8::", t!"2001:0db8:0000:0000:0000:0000:0000:0000/128", t!"2001:db8:0:0:0:0:0:0/128", t!"2001:db8::/128"),
  (t!"2001:db8::/32", t!"2001:0db8:0000:0000:0000:0000:0000:0000/32", t!"2001:db8:0:0:0:0:0:0/32", t!"2001:db8::/32"),
  (t!"2001:db8::%scope/32", t!"2001:0db8:0000:0000:0000:0000:0000:0000%scope/32", t!"2001:db8:0:0:0:0:0:0%scope/32", t!"2001:db8::%scope/32")]

example : toStringNetworkIpv6Params.all (checkNetText6) = true := by decide +kernel

/-- `ipv6-network-tests.cpp:939`. -/
def isMulticastIpv6NetworkParams : List (List Char × Bool) := [
  (t!"ffff::", true),
  (t!"ffff:ffff:ffff:ffff:ffff:ffff:ffff:ffff", true),
  (t!"ff00::", true),
  (t!"fdff::", false)]

example : isMulticastIpv6NetworkParams.all (checkNetIs F6 (v6NetIsMulticast cfg)) = true := by decide +kernel

/-- `ipv6-network-tests.cpp:956`. -/
def isPrivateIpv6NetworkParams : List (List Char × Bool) := [
  (t!"fbff:ffff::", false),
  (t!"fe00::%123", false),
  (t!"::/0", false),
  (t!"::ff/128", false),
  (t!"2001::1/128", true),
  (t!"fc00::", true),
  (t!"fc00:ffff:ffff:ffff::", true),
  (t!"::/128", true),
  (t!"::1/128", true),
  (t!"::ffff:0:0/96", true),
  (t!"100::/64", true),
  (t!"2001::/23", true),
  (t!"2001:10::/28", true),
  (t!"2001:2::/48", true),
  (t!"2001:db8::/32", true),
  (t!"fc00::%test/7", true),
  (t!"fe80::/10", true)]

example : isPrivateIpv6NetworkParams.all (checkNetIs F6 (v6NetIsPrivate cfg)) = true := by decide +kernel

/-- `ipv6-network-tests.cpp:986`. -/
def isGlobalIpv6NetworkParams : List (List Char × Bool) := [
  (t!"200::1/128", true)]

example : isGlobalIpv6NetworkParams.all (checkNetIs F6 (v6NetIsGlobal cfg)) = true := by decide +kernel

/-- `ipv6-network-tests.cpp:1000`. -/
def isReservedIpv6NetworkParams : List (List Char × Bool) := [
  (t!"4000::1/128", true)]

example : isReservedIpv6NetworkParams.all (checkNetIs F6 (v6NetIsReserved cfg)) = true := by decide +kernel

/-- `ipv6-network-tests.cpp:1014`. -/
def isLoopbackIpv6NetworkParams : List (List Char × Bool) := [
  (t!"0:0::0:01", true),
  (t!"::1", true),
  (t!"::2", false)]

example : isLoopbackIpv6NetworkParams.all (checkNetIs F6 (v6NetIsLoopback cfg)) = true := by decide +kernel

/-- `ipv6-network-tests.cpp:1030`. -/
def isLinkLocalIpv6NetworkParams : List (List Char × Bool) := [
  (t!"fea0::", true),
  (t!"febf:ffff::", true),
  (t!"fe7f:ffff::", false),
  (t!"fec0::", false)]

example : isLinkLocalIpv6NetworkParams.all (checkNetIs F6 (v6NetIsLinkLocal cfg)) = true := by decide +kernel

/-- `ipv6-network-tests.cpp:1047`. -/
def isSiteLocalIpv6NetworkParams : List (List Char × Bool) := [
  (t!"fecf::", true),
  (t!"feff:ffff:ffff:ffff::", true),
  (t!"fbf:ffff::", false),
  (t!"ff00::", false)]

example : isSiteLocalIpv6NetworkParams.all (checkNetIs F6 (v6NetIsSiteLocal cfg)) = true := by decide +kernel

/-- `ipv6-network-tests.cpp:1064`. -/
def isUnspecifiedIpv6NetworkParams : List (List Char × Bool) := [
  (t!"0::0", true),
  (t!"::1", false),
  (t!"::/127", false)]

example : isUnspecifiedIpv6NetworkParams.all (checkNetIs F6 (v6NetIsUnspecified cfg)) = true := by decide +kernel

/-- `ipv6-network-tests.cpp:1083`. -/
def containsIpv6NetworkParams : List (List Char × List Char × Bool) := [
  (t!"2001:db8::/32", t!"2001:db8::1", true),
  (t!"2001:db8::/32", t!"2001:dbc::", false)]

example : containsIpv6NetworkParams.all (checkContains F6 p6) = true := by decide +kernel

/-- `ipv6-network-tests.cpp:1101`. -/
def overlapsIpv6NetworkParams : List (List Char × List Char × Bool) := [
  (t!"2001:db8::/32", t!"2001:db8::/128", true),
  (t!"2001:dbc::/32", t!"2001:db8::/32", false),
  (t!"2001:db8::/32", t!"2001:db8::/32", true)]

example : overlapsIpv6NetworkParams.all (checkPair F6 F6.overlaps) = true := by decide +kernel

/-- `ipv6-network-tests.cpp:1120`. -/
def subnetOfIpv6NetworkParams : List (List Char × List Char × Bool) := [
  (t!"2000:999::/56", t!"2000:aaa::/48", false),
  (t!"2000:aaa::/56", t!"2000:aaa::/48", true),
  (t!"2000:bbb::/56", t!"2000:aaa::/48", false),
  (t!"2000:aaa::/48", t!"2000:aaa::/56", false),
  (t!"2000:999::%scope/56", t!"2000:aaa::%scope/48", false),
  (t!"2000:aaa::%scope/56", t!"2000:aaa::%scope/48", true)]

example : subnetOfIpv6NetworkParams.all (checkPair F6 F6.subnetOf) = true := by decide +kernel

/-- `ipv6-network-tests.cpp:1142`. -/
def supernetOfIpv6NetworkParams : List (List Char × List Char × Bool) := [
  (t!"2000:999::/56", t!"2000:aaa::/48", false),
  (t!"2000:aaa::/56", t!"2000:aaa::/48", false),
  (t!"2000:bbb::/56", t!"2000:aaa::/48", false),
  (t!"2000:aaa::/48", t!"2000:aaa::/56", true)]

example : supernetOfIpv6NetworkParams.all (checkPair F6 F6.supernetOf) = true := by decide +kernel

/-- `ipv6-network-tests.cpp:1159`. -/
def addressesCountIpv6NetworkParams : List (List Char × Nat) := [
  (t!"2001:658:22a:cafe::/64", 18446744073709551616),
  (t!"2001:658:22a:cafe::%scope/64", 18446744073709551616)]

example : addressesCountIpv6NetworkParams.all (checkCount F6 (fun u => u.upper.toNat * 2 ^ 64 + u.lower.toNat)) = true := by decide +kernel

/-- `ipv6-network-tests.cpp:1210`. -/
def hostsIpv6NetworkParams : List (List Char × List (List Char)) := [
  (t!"ffff:ffff:ffff:ffff:ffff:ffff:ffff:ffff/128", [t!"ffff:ffff:ffff:ffff:ffff:ffff:ffff:ffff"]),
  (t!"2001:658:22a:cafe::1/128", [t!"2001:658:22a:cafe::1"]),
  (t!"2001:658:22a:cafe::/127", [t!"2001:658:22a:cafe::", t!"2001:658:22a:cafe::1"])]

example : hostsIpv6NetworkParams.all (checkHosts F6 p6) = true := by decide +kernel

/-- `ipv6-network-tests.cpp:1248`. -/
def supernetIpv6NetworkParams : List (List Char × Nat × Option Nat × List Char) := [
  (t!"2001:658:22a:cafe::/127", 1, none, t!"2001:658:22a:cafe::/126"),
  (t!"2001:658:22a:cafe::/127", 2, none, t!"2001:658:22a:cafe::/125"),
  (t!"2001:658:22a:cafe::/127", 1, (some 64), t!"2001:658:22a:cafe::/64"),
  (t!"2001:658:22a:cafe::/64", 1, none, t!"2001:658:22a:cafe::/63"),
  (t!"2001:658:22a:cafe::/63", 1, none, t!"2001:658:22a:cafc::/62"),
  (t!"::/0", 1, none, t!"::/0")]

example : supernetIpv6NetworkParams.all (checkSupernet F6) = true := by decide +kernel

/-- `ipv6-network-tests.cpp:1290`. -/
def supernetErrorIpv6NetworkParams : List (List Char × Nat × Option Nat × ErrorCode × List Char) := [
  (t!"2001:658:22a:cafe::/64", 1, (some 65), .new_prefix_must_be_shorter, t!"new prefix must be shorter"),
  (t!"2001:658:22a:cafe::/64", 2, (some 63), .cannot_set_prefixlen_diff_and_new_prefix, t!"cannot set prefixlen_diff and new_prefix"),
  (t!"2001:658:22a:cafe::/64", 65, none, .invalid_prefixlen_diff, t!"invalid prefixlen_diff")]

example : supernetErrorIpv6NetworkParams.all (checkSupernetError F6) = true := by decide +kernel

/-- `ipv6-network-tests.cpp:1347`. -/
def subnetsIpv6NetworkParams : List (List Char × Nat × Option Nat × List (List Char)) := [
  (t!"::/0", 1, none, [t!"::/1", t!"8000::/1"]),
  (t!"2001:658:22a:cafe::/120", 1, none, [t!"2001:658:22a:cafe::/121", t!"2001:658:22a:cafe::80/121"]),
  (t!"2001:658:22a:cafe::/120", 2, none, [t!"2001:658:22a:cafe::/122", t!"2001:658:22a:cafe::40/122", t!"2001:658:22a:cafe::80/122", t!"2001:658:22a:cafe::c0/122"]),
  (t!"2001:658:22a:cafe::/120", 1, (some 123), [t!"2001:658:22a:cafe::/123", t!"2001:658:22a:cafe::20/123", t!"2001:658:22a:cafe::40/123", t!"2001:658:22a:cafe::60/123", t!"2001:658:22a:cafe::80/123", t!"2001:658:22a:cafe::a0/123", t!"2001:658:22a:cafe::c0/123", t!"2001:658:22a:cafe::e0/123"]),
  (t!"2001:db8::1/128", 1, none, [t!"2001:db8::1/128"]),
  (t!"ffff:ffff:ffff:ffff:ffff:ffff:ffff:ffff/128", 1, none, [t!"ffff:ffff:ffff:ffff:ffff:ffff:ffff:ffff/128"])]

example : subnetsIpv6NetworkParams.all (checkSubnets F6) = true := by decide +kernel

/-- `ipv6-network-tests.cpp:1383`. -/
def subnetsErrorIpv6NetworkParams : List (List Char × Nat × Option Nat × ErrorCode × List Char) := [
  (t!"2001:658:22a:cafe::/120", 1, (some 119), .new_prefix_must_be_longer, t!"new prefix must be longer"),
  (t!"2001:658:22a:cafe::/120", 2, (some 121), .cannot_set_prefixlen_diff_and_new_prefix, t!"cannot set prefixlen_diff and new_prefix"),
  (t!"2001:658:22a:cafe::/120", 1, (some 500), .invalid_prefixlen_diff, t!"invalid prefixlen_diff")]

example : subnetsErrorIpv6NetworkParams.all (checkSubnetsError F6) = true := by decide +kernel

/-- `ipv6-network-tests.cpp:1413`. -/
def addressExcludeIpv6NetworkParams : List (List Char × List Char × List (List Char)) := [
  (t!"2001:658:22a:cafe::/120", t!"2001:658:22a:cafe::/122", [t!"2001:658:22a:cafe::80/121", t!"2001:658:22a:cafe::40/122"])]

example : addressExcludeIpv6NetworkParams.all (checkExclude F6) = true := by decide +kernel

/-- `ipv6-network-tests.cpp:1443`. -/
def addressExcludeErrorIpv6NetworkParams : List (List Char × List Char × ErrorCode × List Char) := [
  (t!"2001:658:22a:caff::/120", t!"2001:658:22a:cafe::/122", .not_contained_network, t!"network is not a subnet of other")]

example : addressExcludeErrorIpv6NetworkParams.all (checkExcludeError F6) = true := by decide +kernel

end Ip.Vectors
