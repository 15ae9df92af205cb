import Verif.Vectors.Check
/-
The tables of the project's tests, part Any: see `Verif.Vectors.Check`.  Generated from `/repo/tests`.
-/
set_option autoImplicit false

namespace Ip.Vectors

/-- `ip-address-tests.cpp:406`. -/
def invalidAddressParams : List (List Char × ErrorCode × List Char) := [
  (t!"", .empty_address, t!"address cannot be empty"),
  (t!"127", .least_3_parts, t!"least 3 parts in address 127"),
  (t!"127.0.0.", .empty_octet, t!"empty octet 0 in address 127.0.0."),
  (t!"127.0.0.1/24", .octet_has_invalid_symbol, t!"in octet 0 of address 127.0.0.1/24 has invalid symbol"),
  (t!"127.0.0.1271", .octet_more_3_characters, t!"in octet 0 of address 127.0.0.1271 more 3 characters"),
  (t!"192.168.0.999", .octet_exceeded_255, t!"octet 0 of address 192.168.0.999 exceeded 255"),
  (t!"1.2.3.040", .leading_0_are_not_permitted, t!"leading zeros are not permitted in octet 0 of address 1.2.3.040"),
  (t!"FEDC:9878%scope", .least_3_parts, t!"least 3 parts in address FEDC:9878%scope"),
  (t!"10:9:8:7:6:5:4:3:42.42.42.42%scope", .most_8_colons_permitted, t!"most 8 colons permitted in address 10:9:8:7:6:5:4:3:42.42.42.42%scope"),
  (t!"2001:db8:::1%scope", .most_one_double_colon_permitted, t!"at most one '::' permitted in address 2001:db8:::1%scope"),
  (t!"123456789abcfe::", .part_is_more_4_chars, t!"in part 0 of address 123456789abcfe:: more 4 characters"),
  (t!"::1/24", .part_has_invalid_symbol, t!"in part 3 of address ::1/24 has invalid symbols"),
  (t!"2001:db8:::1%scope", .most_one_double_colon_permitted, t!"at most one '::' permitted in address 2001:db8:::1%scope"),
  (t!":6:5:4:3:2:1::%scope", .leading_colon_only_permitted_as_part_of_double_colon, t!"at leading ':' only permitted as part of '::' in address :6:5:4:3:2:1::%scope"),
  (t!"8:7:6:5:4:3:2:1::%scope", .trailing_colon_only_permitted_as_part_of_double_colon, t!"at trailing ':' only permitted as part of '::' in address 8:7:6:5:4:3:2:1::%scope"),
  (t!"1:2:3:4:5::6:7:8%scope", .expected_at_most_7_other_parts_with_double_colon, t!"expected at most 7 other parts with '::' in address 1:2:3:4:5::6:7:8%scope"),
  (t!"7:6:5:4:3:2:1%scope", .exactly_8_parts_expected_without_double_colon, t!"exactly 8 parts expected without '::' in address 7:6:5:4:3:2:1%scope"),
  (t!"::%123456789abcdefgh", .scope_id_is_too_long, t!"scope id is too long in address ::%123456789abcdefgh"),
  (t!"::1%scope_id/24", .invalid_scope_id, t!"invalid scope id in address ::1%scope_id/24")]

example : invalidAddressParams.all (checkInvalidAny) = true := by decide +kernel

/-- `ip-network-tests.cpp:327`. -/
def invalidNetworkParams : List (List Char × ErrorCode × List Char) := [
  (t!"/8", .empty_address, t!"address cannot be empty"),
  (t!"1.2.3.4/", .empty_netmask, t!"empty mask in address 1.2.3.4/"),
  (t!"1.2.3.4/33", .least_3_parts, t!"least 3 parts in address 1.2.3.4/33"),
  (t!"1.2.3.4/255.255.255.127", .invalid_netmask, t!"is not a valid netmask in address 1.2.3.4/255.255.255.127"),
  (t!"1.2.3.4/24", .least_3_parts, t!"least 3 parts in address 1.2.3.4/24"),
  (t!"1.2.3.4//", .only_one_slash_permitted, t!"only one '/' permitted in address 1.2.3.4//"),
  (t!"bogus", .part_is_more_4_chars, t!"in part 0 of address bogus more 4 characters"),
  (t!"10/8", .least_3_parts, t!"least 3 parts in address 10/8"),
  (t!"1.2.3.256", .octet_exceeded_255, t!"octet 0 of address 1.2.3.256 exceeded 255"),
  (t!"/", .empty_netmask, t!"empty mask in address /"),
  (t!"2001:db8::/129", .invalid_netmask, t!"is not a valid netmask in address 2001:db8::/129"),
  (t!"2001:db8::/24", .has_host_bits_set, t!"has host bits set in address 2001:db8::/24"),
  (t!"google.com", .octet_has_invalid_symbol, t!"in octet 0 of address google.com has invalid symbol"),
  (t!"10/8", .least_3_parts, t!"least 3 parts in address 10/8"),
  (t!"1234:axy::b", .part_has_invalid_symbol, t!"in part 0 of address 1234:axy::b has invalid symbols"),
  (t!"google.com%scope", .octet_has_invalid_symbol, t!"in octet 0 of address google.com%scope has invalid symbol"),
  (t!"1.2.3.4%scope", .least_3_parts, t!"least 3 parts in address 1.2.3.4%scope"),
  (t!"10%scope/8", .least_3_parts, t!"least 3 parts in address 10%scope/8"),
  (t!"1234:axy::b%scope", .part_has_invalid_symbol, t!"in part 0 of address 1234:axy::b%scope has invalid symbols")]

example : invalidNetworkParams.all (checkNetInvalidAny) = true := by decide +kernel

end Ip.Vectors
