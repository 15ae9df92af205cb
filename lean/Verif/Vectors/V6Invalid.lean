import Verif.Vectors.Check
/-
The tables of the project's tests, part V6Invalid: see `Verif.Vectors.Check`.  Generated from `/repo/tests`.
-/
set_option autoImplicit false

namespace Ip.Vectors

/-- `ipv6-address-tests.cpp:501`. -/
def invalidAddressIpv6Params : List (List Char × ErrorCode × List Char) := [
  (t!"", .empty_address, t!"address cannot be empty"),
  (t!":", .least_3_parts, t!"least 3 parts in address :"),
  (t!":1", .least_3_parts, t!"least 3 parts in address :1"),
  (t!"FEDC:9878", .least_3_parts, t!"least 3 parts in address FEDC:9878"),
  (t!":%scope", .least_3_parts, t!"least 3 parts in address :%scope"),
  (t!":1%scope", .least_3_parts, t!"least 3 parts in address :1%scope"),
  (t!"FEDC:9878%scope", .least_3_parts, t!"least 3 parts in address FEDC:9878%scope"),
  (t!"10:9:8:7:6:5:4:3:2:1", .most_8_colons_permitted, t!"most 8 colons permitted in address 10:9:8:7:6:5:4:3:2:1"),
  (t!"10:9:8:7:6:5:4:3:42.42.42.42", .most_8_colons_permitted, t!"most 8 colons permitted in address 10:9:8:7:6:5:4:3:42.42.42.42"),
  (t!"1:2:3:4:5:6:7:42.42.42.42", .most_8_colons_permitted, t!"most 8 colons permitted in address 1:2:3:4:5:6:7:42.42.42.42"),
  (t!"10:9:8:7:6:5:4:3:2:1%scope", .most_8_colons_permitted, t!"most 8 colons permitted in address 10:9:8:7:6:5:4:3:2:1%scope"),
  (t!"10:9:8:7:6:5:4:3:42.42.42.42%scope", .most_8_colons_permitted, t!"most 8 colons permitted in address 10:9:8:7:6:5:4:3:42.42.42.42%scope"),
  (t!"3ffe::1::1", .most_one_double_colon_permitted, t!"at most one '::' permitted in address 3ffe::1::1"),
  (t!"1::2::3::4:5", .most_one_double_colon_permitted, t!"at most one '::' permitted in address 1::2::3::4:5"),
  (t!"2001::db:::1", .most_one_double_colon_permitted, t!"at most one '::' permitted in address 2001::db:::1"),
  (t!"3ffe::1::", .most_one_double_colon_permitted, t!"at most one '::' permitted in address 3ffe::1::"),
  (t!"::3ffe::1", .most_one_double_colon_permitted, t!"at most one '::' permitted in address ::3ffe::1"),
  (t!":3ffe::1::1", .most_one_double_colon_permitted, t!"at most one '::' permitted in address :3ffe::1::1"),
  (t!"3ffe::1::1:", .most_one_double_colon_permitted, t!"at most one '::' permitted in address 3ffe::1::1:"),
  (t!":3ffe::1::1:", .most_one_double_colon_permitted, t!"at most one '::' permitted in address :3ffe::1::1:"),
  (t!":::", .most_one_double_colon_permitted, t!"at most one '::' permitted in address :::"),
  (t!"2001:db8:::1", .most_one_double_colon_permitted, t!"at most one '::' permitted in address 2001:db8:::1"),
  (t!"3ffe::1::1%scope", .most_one_double_colon_permitted, t!"at most one '::' permitted in address 3ffe::1::1%scope"),
  (t!"1::2::3::4:5%scope", .most_one_double_colon_permitted, t!"at most one '::' permitted in address 1::2::3::4:5%scope"),
  (t!"2001::db:::1%scope", .most_one_double_colon_permitted, t!"at most one '::' permitted in address 2001::db:::1%scope"),
  (t!"3ffe::1::%scope", .most_one_double_colon_permitted, t!"at most one '::' permitted in address 3ffe::1::%scope"),
  (t!"::3ffe::1%scope", .most_one_double_colon_permitted, t!"at most one '::' permitted in address ::3ffe::1%scope"),
  (t!":3ffe::1::1%scope", .most_one_double_colon_permitted, t!"at most one '::' permitted in address :3ffe::1::1%scope"),
  (t!"3ffe::1::1:%scope", .most_one_double_colon_permitted, t!"at most one '::' permitted in address 3ffe::1::1:%scope"),
  (t!":3ffe::1::1:%scope", .most_one_double_colon_permitted, t!"at most one '::' permitted in address :3ffe::1::1:%scope"),
  (t!":::%scope", .most_one_double_colon_permitted, t!"at most one '::' permitted in address :::%scope"),
  (t!"2001:db8:::1%scope", .most_one_double_colon_permitted, t!"at most one '::' permitted in address 2001:db8:::1%scope"),
  (t!"::00000", .part_is_more_4_chars, t!"in part 2 of address ::00000 more 4 characters"),
  (t!"3ffe::10000", .part_is_more_4_chars, t!"in part 2 of address 3ffe::10000 more 4 characters"),
  (t!"02001:db8::", .part_is_more_4_chars, t!"in part 0 of address 02001:db8:: more 4 characters"),
  (t!"2001:888888::1", .part_is_more_4_chars, t!"in part 1 of address 2001:888888::1 more 4 characters"),
  (t!"::00000%scope", .part_is_more_4_chars, t!"in part 2 of address ::00000%scope more 4 characters"),
  (t!"3ffe::10000%scope", .part_is_more_4_chars, t!"in part 2 of address 3ffe::10000%scope more 4 characters"),
  (t!"02001:db8::%scope", .part_is_more_4_chars, t!"in part 0 of address 02001:db8::%scope more 4 characters"),
  (t!"2001:888888::1%scope", .part_is_more_4_chars, t!"in part 1 of address 2001:888888::1%scope more 4 characters"),
  (t!"1.2.3.4::%scope", .part_is_more_4_chars, t!"in part 0 of address 1.2.3.4::%scope more 4 characters"),
  (t!"1.2.3.4::", .part_is_more_4_chars, t!"in part 0 of address 1.2.3.4:: more 4 characters"),
  (t!"::1.2.3.4:%scope", .part_is_more_4_chars, t!"in part 2 of address ::1.2.3.4:%scope more 4 characters"),
  (t!"::1.2.3.4.5.6.7.8.9", .part_is_more_4_chars, t!"in part 2 of address ::1.2.3.4.5.6.7.8.9 more 4 characters"),
  (t!"123456789abcfeh::", .part_is_more_4_chars, t!"in part 0 of address 123456789abcfeh:: more 4 characters"),
  (t!"123456789abcfe::", .part_is_more_4_chars, t!"in part 0 of address 123456789abcfe:: more 4 characters"),
  (t!"3ffe::1.1.1.net", .octet_has_invalid_symbol, t!"in octet 2 of address 3ffe::1.1.1.net has invalid symbol"),
  (t!"3ffe::1.1.1.net%scope", .octet_has_invalid_symbol, t!"in octet 2 of address 3ffe::1.1.1.net%scope has invalid symbol"),
  (t!"3ffe::goog", .part_has_invalid_symbol, t!"in part 3 of address 3ffe::goog has invalid symbols"),
  (t!"3ffe::-0", .part_has_invalid_symbol, t!"in part 3 of address 3ffe::-0 has invalid symbols"),
  (t!"3ffe::+0", .part_has_invalid_symbol, t!"in part 3 of address 3ffe::+0 has invalid symbols"),
  (t!"3ffe::-1", .part_has_invalid_symbol, t!"in part 3 of address 3ffe::-1 has invalid symbols"),
  (t!"1234:axy::b", .part_has_invalid_symbol, t!"in part 4 of address 1234:axy::b has invalid symbols"),
  (t!"3ffe::goog%scope", .part_has_invalid_symbol, t!"in part 3 of address 3ffe::goog%scope has invalid symbols"),
  (t!"3ffe::-0%scope", .part_has_invalid_symbol, t!"in part 3 of address 3ffe::-0%scope has invalid symbols"),
  (t!"3ffe::+0%scope", .part_has_invalid_symbol, t!"in part 3 of address 3ffe::+0%scope has invalid symbols"),
  (t!"3ffe::-1%scope", .part_has_invalid_symbol, t!"in part 3 of address 3ffe::-1%scope has invalid symbols"),
  (t!"1234:axy::b%scope", .part_has_invalid_symbol, t!"in part 4 of address 1234:axy::b%scope has invalid symbols"),
  (t!"::1/24", .part_has_invalid_symbol, t!"in part 3 of address ::1/24 has invalid symbols"),
  (t!"3ffe::1::1", .most_one_double_colon_permitted, t!"at most one '::' permitted in address 3ffe::1::1"),
  (t!"1::2::3::4:5", .most_one_double_colon_permitted, t!"at most one '::' permitted in address 1::2::3::4:5"),
  (t!"2001::db:::1", .most_one_double_colon_permitted, t!"at most one '::' permitted in address 2001::db:::1"),
  (t!"3ffe::1::", .most_one_double_colon_permitted, t!"at most one '::' permitted in address 3ffe::1::"),
  (t!"::3ffe::1", .most_one_double_colon_permitted, t!"at most one '::' permitted in address ::3ffe::1"),
  (t!":3ffe::1::1", .most_one_double_colon_permitted, t!"at most one '::' permitted in address :3ffe::1::1"),
  (t!"3ffe::1::1:", .most_one_double_colon_permitted, t!"at most one '::' permitted in address 3ffe::1::1:"),
  (t!":3ffe::1::1:", .most_one_double_colon_permitted, t!"at most one '::' permitted in address :3ffe::1::1:"),
  (t!":::", .most_one_double_colon_permitted, t!"at most one '::' permitted in address :::"),
  (t!"2001:db8:::1", .most_one_double_colon_permitted, t!"at most one '::' permitted in address 2001:db8:::1"),
  (t!"3ffe::1::1%scope", .most_one_double_colon_permitted, t!"at most one '::' permitted in address 3ffe::1::1%scope"),
  (t!"1::2::3::4:5%scope", .most_one_double_colon_permitted, t!"at most one '::' permitted in address 1::2::3::4:5%scope"),
  (t!"2001::db:::1%scope", .most_one_double_colon_permitted, t!"at most one '::' permitted in address 2001::db:::1%scope"),
  (t!"3ffe::1::%scope", .most_one_double_colon_permitted, t!"at most one '::' permitted in address 3ffe::1::%scope"),
  (t!"::3ffe::1%scope", .most_one_double_colon_permitted, t!"at most one '::' permitted in address ::3ffe::1%scope"),
  (t!":3ffe::1::1%scope", .most_one_double_colon_permitted, t!"at most one '::' permitted in address :3ffe::1::1%scope"),
  (t!"3ffe::1::1:%scope", .most_one_double_colon_permitted, t!"at most one '::' permitted in address 3ffe::1::1:%scope"),
  (t!":3ffe::1::1:%scope", .most_one_double_colon_permitted, t!"at most one '::' permitted in address :3ffe::1::1:%scope"),
  (t!":::%scope", .most_one_double_colon_permitted, t!"at most one '::' permitted in address :::%scope"),
  (t!"2001:db8:::1%scope", .most_one_double_colon_permitted, t!"at most one '::' permitted in address 2001:db8:::1%scope"),
  (t!":2001:db8::1", .leading_colon_only_permitted_as_part_of_double_colon, t!"at leading ':' only permitted as part of '::' in address :2001:db8::1"),
  (t!":1:2:3:4:5:6:7", .leading_colon_only_permitted_as_part_of_double_colon, t!"at leading ':' only permitted as part of '::' in address :1:2:3:4:5:6:7"),
  (t!":1:2:3:4:5:6:", .leading_colon_only_permitted_as_part_of_double_colon, t!"at leading ':' only permitted as part of '::' in address :1:2:3:4:5:6:"),
  (t!":6:5:4:3:2:1::", .leading_colon_only_permitted_as_part_of_double_colon, t!"at leading ':' only permitted as part of '::' in address :6:5:4:3:2:1::"),
  (t!":2001:db8::1%scope", .leading_colon_only_permitted_as_part_of_double_colon, t!"at leading ':' only permitted as part of '::' in address :2001:db8::1%scope"),
  (t!":1:2:3:4:5:6:7%scope", .leading_colon_only_permitted_as_part_of_double_colon, t!"at leading ':' only permitted as part of '::' in address :1:2:3:4:5:6:7%scope"),
  (t!":1:2:3:4:5:6:%scope", .leading_colon_only_permitted_as_part_of_double_colon, t!"at leading ':' only permitted as part of '::' in address :1:2:3:4:5:6:%scope"),
  (t!":6:5:4:3:2:1::%scope", .leading_colon_only_permitted_as_part_of_double_colon, t!"at leading ':' only permitted as part of '::' in address :6:5:4:3:2:1::%scope"),
  (t!"2001:db8::1:", .trailing_colon_only_permitted_as_part_of_double_colon, t!"at trailing ':' only permitted as part of '::' in address 2001:db8::1:"),
  (t!"1:2:3:4:5:6:7:", .trailing_colon_only_permitted_as_part_of_double_colon, t!"at trailing ':' only permitted as part of '::' in address 1:2:3:4:5:6:7:"),
  (t!"::7:6:5:4:3:2:", .trailing_colon_only_permitted_as_part_of_double_colon, t!"at trailing ':' only permitted as part of '::' in address ::7:6:5:4:3:2:"),
  (t!"2001:db8::1:%scope", .trailing_colon_only_permitted_as_part_of_double_colon, t!"at trailing ':' only permitted as part of '::' in address 2001:db8::1:%scope"),
  (t!"1:2:3:4:5:6:7:%scope", .trailing_colon_only_permitted_as_part_of_double_colon, t!"at trailing ':' only permitted as part of '::' in address 1:2:3:4:5:6:7:%scope"),
  (t!"::7:6:5:4:3:2:%scope", .trailing_colon_only_permitted_as_part_of_double_colon, t!"at trailing ':' only permitted as part of '::' in address ::7:6:5:4:3:2:%scope"),
  (t!"8:7:6:5:4:3:2:1::", .trailing_colon_only_permitted_as_part_of_double_colon, t!"at trailing ':' only permitted as part of '::' in address 8:7:6:5:4:3:2:1::"),
  (t!"8:7:6:5:4:3:2:1::%scope", .trailing_colon_only_permitted_as_part_of_double_colon, t!"at trailing ':' only permitted as part of '::' in address 8:7:6:5:4:3:2:1::%scope"),
  (t!"9:8:7:6:5:4:3::2:1", .expected_at_most_7_other_parts_with_double_colon, t!"expected at most 7 other parts with '::' in address 9:8:7:6:5:4:3::2:1"),
  (t!"::8:7:6:5:4:3:2:1", .expected_at_most_7_other_parts_with_double_colon, t!"expected at most 7 other parts with '::' in address ::8:7:6:5:4:3:2:1"),
  (t!"8:7:6:5:4:3::2:1", .expected_at_most_7_other_parts_with_double_colon, t!"expected at most 7 other parts with '::' in address 8:7:6:5:4:3::2:1"),
  (t!"9:8:7:6:5:4:3::2:1%scope", .expected_at_most_7_other_parts_with_double_colon, t!"expected at most 7 other parts with '::' in address 9:8:7:6:5:4:3::2:1%scope"),
  (t!"::8:7:6:5:4:3:2:1%scope", .expected_at_most_7_other_parts_with_double_colon, t!"expected at most 7 other parts with '::' in address ::8:7:6:5:4:3:2:1%scope"),
  (t!"1:2:3:4:5::6:7:8", .expected_at_most_7_other_parts_with_double_colon, t!"expected at most 7 other parts with '::' in address 1:2:3:4:5::6:7:8"),
  (t!"1:2:3:4:5::6:7:8%scope", .expected_at_most_7_other_parts_with_double_colon, t!"expected at most 7 other parts with '::' in address 1:2:3:4:5::6:7:8%scope"),
  (t!"1:2:3:4:5:6:7:8:", .exactly_8_parts_expected_without_double_colon, t!"exactly 8 parts expected without '::' in address 1:2:3:4:5:6:7:8:"),
  (t!"7:6:5:4:3:2:1", .exactly_8_parts_expected_without_double_colon, t!"exactly 8 parts expected without '::' in address 7:6:5:4:3:2:1"),
  (t!"7:6:5:4:3:2:1%scope", .exactly_8_parts_expected_without_double_colon, t!"exactly 8 parts expected without '::' in address 7:6:5:4:3:2:1%scope"),
  (t!"::%123456789abcdefgh", .scope_id_is_too_long, t!"scope id is too long in address ::%123456789abcdefgh"),
  (t!"::1%", .invalid_scope_id, t!"invalid scope id in address ::1%"),
  (t!"::1%scope%", .invalid_scope_id, t!"invalid scope id in address ::1%scope%"),
  (t!"::1%scope_id/24", .invalid_scope_id, t!"invalid scope id in address ::1%scope_id/24")]

example : invalidAddressIpv6Params.all (checkInvalid6) = true := by decide +kernel

end Ip.Vectors
