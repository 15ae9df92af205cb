{
 "claims": [
  {
   "property": "C01",
   "status": "proved",
   "theorems": [
    "Ip.C01_v4_parse_exact"
   ],
   "note": "Parser accepts exactly the canonical dotted quads, all texts."
  },
  {
   "property": "C02",
   "status": "proved",
   "theorems": [
    "Ip.C02_v4_round_trip"
   ],
   "note": ""
  },
  {
   "property": "C03",
   "status": "proved",
   "theorems": [
    "Ip.C03_v4_canonical"
   ],
   "note": ""
  },
  {
   "property": "C04",
   "status": "proved",
   "theorems": [
    "Ip.C04_v4_buffer"
   ],
   "note": ""
  },
  {
   "property": "C05",
   "status": "partial",
   "theorems": [
    "Ip.C05_uint_exact",
    "Ip.C05_v4_uint_partial",
    "Ip.C05_v4_uint_inverse",
    "Ip.C05_v4_big_endian_wrong"
   ],
   "note": "Proved for little endian hosts; on big endian hosts the value is byte reversed (C05_v4_big_endian_wrong). The inverse law holds for both. C05_uint_exact gives the number for every little or big endian host."
  },
  {
   "property": "C06",
   "status": "proved",
   "theorems": [
    "Ip.C06_order_numeric",
    "Ip.C06_v4_strict_total",
    "Ip.C06_v4_order_uint"
   ],
   "note": ""
  },
  {
   "property": "C07",
   "status": "proved",
   "theorems": [
    "Ip.C07_from_bytes"
   ],
   "note": ""
  },
  {
   "property": "C08",
   "status": "proved",
   "theorems": [
    "Ip.C08_v6_round_trip"
   ],
   "note": ""
  },
  {
   "property": "C09",
   "status": "partial",
   "theorems": [
    "Ip.C09_v6_exact",
    "Ip.C09_v6_sound_partial",
    "Ip.C09_v6_nul_accepted"
   ],
   "note": "Proved for texts without NUL characters; a NUL inside a group truncates it (C09_v6_nul_accepted). C09_v6_exact describes the accepted texts and the result for all texts, also with NUL."
  },
  {
   "property": "C10",
   "status": "partial",
   "theorems": [
    "Ip.C10_v6_complete_iff",
    "Ip.C10_v6_complete_partial",
    "Ip.C10_v6_complete_hex",
    "Ip.C10_v6_seven_colons_rejected"
   ],
   "note": "Proved for all texts of the grammar except those with a dotted quad and seven colons, which the code rejects (C10_v6_seven_colons_rejected). C10_v6_complete_iff: among texts of the grammar exactly these are rejected."
  },
  {
   "property": "C11",
   "status": "proved",
   "theorems": [
    "Ip.C11_v6_canonical",
    "Ip.C11_v6_full_compact",
    "Ip.C11_canonical_unique"
   ],
   "note": ""
  },
  {
   "property": "C12",
   "status": "proved",
   "theorems": [
    "Ip.C12_v6_buffer"
   ],
   "note": ""
  },
  {
   "property": "C13",
   "status": "proved",
   "theorems": [
    "Ip.C13_v6_parser_safe"
   ],
   "note": ""
  },
  {
   "property": "C14",
   "status": "partial",
   "theorems": [
    "Ip.C14_uint_exact",
    "Ip.C14_v6_uint_partial",
    "Ip.C14_v6_uint_inverse",
    "Ip.C14_v6_uint_big_endian"
   ],
   "note": "Proved for little endian hosts; on big endian hosts the value is byte reversed within each half (C14_v6_uint_big_endian). The inverse law holds for both. C14_uint_exact gives the number for every little or big endian host."
  },
  {
   "property": "C15",
   "status": "partial",
   "theorems": [
    "Ip.C15_v6_less_exact",
    "Ip.C15_v6_compare",
    "Ip.C15_v6_order_total",
    "Ip.C15_v6_less_partial",
    "Ip.C15_v6_less_wrong"
   ],
   "note": "<=> is a total order consistent with ==. The operator< used before C++20 is not a strict weak order when scopes differ (C15_v6_less_wrong); it agrees with the order for equal scopes. C15_v6_less_exact says for all pairs what that operator computes."
  },
  {
   "property": "C16",
   "status": "partial",
   "theorems": [
    "Ip.C16_mapped_partial",
    "Ip.C16_mapped_wrong",
    "Ip.C16_sixtofour",
    "Ip.C16_teredo"
   ],
   "note": "6to4 and Teredo proved. ipv4_mapped tests only bytes 10 and 11, so it also reports addresses outside ::ffff:0:0/96 (C16_mapped_wrong)."
  },
  {
   "property": "C17",
   "status": "partial",
   "theorems": [
    "Ip.C17_set_scope_exact",
    "Ip.C17_set_scope_partial",
    "Ip.C17_set_scope_safe",
    "Ip.C17_set_scope_nul"
   ],
   "note": "Proved for scope texts without NUL; a NUL truncates the scope (C17_set_scope_nul). C17_set_scope_exact describes all texts."
  },
  {
   "property": "C18",
   "status": "partial",
   "theorems": [
    "Ip.C18_scope_value_partial",
    "Ip.C18_scope_value_wraps"
   ],
   "note": "Proved for digit texts below 2^32; larger numbers wrap (C18_scope_value_wraps)."
  },
  {
   "property": "C19",
   "status": "proved",
   "theorems": [
    "Ip.C19_any_address_hash",
    "Ip.C19_any_network_hash",
    "Ip.C19_hash_32",
    "Ip.C19_network_hash",
    "Ip.C19_address_hash"
   ],
   "note": "Addresses and networks of both families and the version agnostic types, with 64 and 32 bit size_t."
  },
  {
   "property": "C20",
   "status": "proved",
   "theorems": [
    "Ip.C20_disjoint",
    "Ip.C20_any_parse",
    "Ip.C20_round_trip"
   ],
   "note": ""
  },
  {
   "property": "C21",
   "status": "proved",
   "theorems": [
    "Ip.C21_any",
    "Ip.C21_v4_reverse_pointer",
    "Ip.C21_v6_reverse_pointer",
    "Ip.C21_injective"
   ],
   "note": "C21_any: ip_address, across versions."
  },
  {
   "property": "C22",
   "status": "partial",
   "theorems": [
    "Ip.C22_netmask_exact",
    "Ip.C22_netmask_partial",
    "Ip.C22_oversize_undefined"
   ],
   "note": "Proved for prefix lengths up to the width; larger ones are undefined behaviour instead of an error (C22_oversize_undefined)."
  },
  {
   "property": "C23",
   "status": "partial",
   "theorems": [
    "Ip.C23_v4_exact",
    "Ip.C23_v6_exact",
    "Ip.C23_v4_partial",
    "Ip.C23_v6_partial",
    "Ip.C23_number_wraps",
    "Ip.C23_zero_mask_undefined"
   ],
   "note": "Proved for numbers below 2^64 and masks other than 0.0.0.0. Larger numbers wrap modulo 2^64 (C23_number_wraps), 0.0.0.0 is undefined behaviour (C23_zero_mask_undefined). C23_v4_exact and C23_v6_exact describe the result for all texts."
  },
  {
   "property": "C24",
   "status": "proved",
   "theorems": [
    "Ip.C24_from_address_v4",
    "Ip.C24_from_address_v6",
    "Ip.C24_invariant_v4",
    "Ip.C24_invariant_v6",
    "Ip.C24_no_host_bits_v4",
    "Ip.C24_no_host_bits_v6"
   ],
   "note": "from_address, parse (any input) and default construction; little endian hosts."
  },
  {
   "property": "C25",
   "status": "proved",
   "theorems": [
    "Ip.C25_round_trip_v4",
    "Ip.C25_round_trip_v6"
   ],
   "note": "IPv4 exactly; IPv6 for scope ids that can be stored through the interface, all formats."
  },
  {
   "property": "C26",
   "status": "partial",
   "theorems": [
    "Ip.C26_v4_exact",
    "Ip.C26_v6_exact",
    "Ip.C26_v4_partial",
    "Ip.C26_v6_partial",
    "Ip.C26_parser_safe",
    "Ip.C26_zero_mask_undefined",
    "Ip.C26_truncates",
    "Ip.C26_truncates_witness",
    "Ip.C26_nul_ignored",
    "Ip.C26_nul_witness"
   ],
   "note": "Exact description for texts without NUL and at most 15 (IPv4) or 41+M (IPv6) characters before the slash. Longer texts are truncated silently (C26_truncates, C26_truncates_witness), characters after a NUL are ignored (C26_nul_ignored), x/0.0.0.0 is undefined behaviour (C26_zero_mask_undefined), exactly there for IPv4 (C26_parser_safe). C26_v4_exact and C26_v6_exact describe the result for all texts."
  },
  {
   "property": "C27",
   "status": "proved",
   "theorems": [
    "Ip.C27_contains_v4",
    "Ip.C27_contains_v6"
   ],
   "note": ""
  },
  {
   "property": "C28",
   "status": "proved",
   "theorems": [
    "Ip.C28_overlaps_v4",
    "Ip.C28_overlaps_v6"
   ],
   "note": ""
  },
  {
   "property": "C29",
   "status": "proved",
   "theorems": [
    "Ip.C29_subnet_v4",
    "Ip.C29_subnet_v6",
    "Ip.C29_order_v4",
    "Ip.C29_order_v6",
    "Ip.C29_scoped_inconsistent",
    "Ip.C29_scoped_v6"
   ],
   "note": "IPv6 for networks without scope id; with scope ids the operator compares them too (C29_scoped_inconsistent). C29_scoped_v6 describes exactly what is computed for IPv6 networks with scope ids."
  },
  {
   "property": "C30",
   "status": "partial",
   "theorems": [
    "Ip.C30_broadcast_v4",
    "Ip.C30_broadcast_v6",
    "Ip.C30_count_v4_partial",
    "Ip.C30_count_v6_partial",
    "Ip.C30_count_wraps",
    "Ip.C30_count_exact"
   ],
   "note": "hostmask and broadcast proved for all networks; the count for prefix length > 0, for prefix length 0 it wraps to 0 (C30_count_wraps). C30_count_exact gives the count for all networks."
  },
  {
   "property": "C31",
   "status": "partial",
   "theorems": [
    "Ip.C31_hosts_v4_exact",
    "Ip.C31_hosts_v6_exact",
    "Ip.C31_hosts_v4_partial",
    "Ip.C31_hosts_v4_wraps",
    "Ip.C31_hosts_v6_partial",
    "Ip.C31_hosts_v6_wraps",
    "Ip.C31_hosts_v4_all",
    "Ip.C31_hosts_v6_all"
   ],
   "note": "Proved for all networks whose loop does not wrap. Negation: for 255.255.255.254/31 and every IPv6 network with more than one address that contains the largest address, the loop visits the hosts and then the whole address space; size, indices and ends stay right (C31_hosts_v4_all, C31_hosts_v6_all give the complete account)."
  },
  {
   "property": "C32",
   "status": "partial",
   "theorems": [
    "Ip.C32_subnets_v4_exact",
    "Ip.C32_subnets_v6_exact",
    "Ip.C32_subnets_v4_partial",
    "Ip.C32_subnets_v6_partial",
    "Ip.C32_subnets_v4_wraps",
    "Ip.C32_subnets_v6_wraps",
    "Ip.C32_subnets_undefined",
    "Ip.C32_zero_step_v4",
    "Ip.C32_zero_step_v6",
    "Ip.C32_subnets_v4_beyond",
    "Ip.C32_subnets_v6_beyond"
   ],
   "note": "Proved except for networks (other than /0 and single addresses) that contain the largest address, where the loop visits the subnetworks and then all networks of their length (C32_subnets_*_beyond, complete account; size, indices and ends stay right); subnets(0) of the whole space divides by zero (IPv4) or never ends (IPv6); subnets(width) of the whole space shifts by the width."
  },
  {
   "property": "C33",
   "status": "partial",
   "theorems": [
    "Ip.C33_supernet_undefined_exact",
    "Ip.C33_supernet_v4_partial",
    "Ip.C33_supernet_v6_partial",
    "Ip.C33_supernet_undefined"
   ],
   "note": "Proved for differences below the width; the difference equal to the width is undefined behaviour (C33_supernet_undefined)."
  },
  {
   "property": "C34",
   "status": "partial",
   "theorems": [
    "Ip.C34_empty_v4",
    "Ip.C34_empty_v6",
    "Ip.C34_empty_violated",
    "Ip.C34_exclude_v4_partial",
    "Ip.C34_exclude_v6_partial",
    "Ip.C34_exclude_v4_loses",
    "Ip.C34_exclude_zero_missing",
    "Ip.C34_exclude_v6_loses",
    "Ip.C34_exclude_v4_exact",
    "Ip.C34_exclude_v6_exact"
   ],
   "note": "Proved except for excluding 0.0.0.1/32 or ::1/128 from a larger network: the end sentinel equals the network of address 0, which is lost (C34_exclude_*_loses, C34_exclude_zero_missing). C34_exclude_v4_exact and C34_exclude_v6_exact say exactly which network is lost. C34_empty_v4/v6: what empty() answers, exactly; it is true although address 0 is left in C34_empty_violated."
  },
  {
   "property": "C35",
   "status": "partial",
   "theorems": [
    "Ip.C35_supernet_v4",
    "Ip.C35_supernet_v6",
    "Ip.C35_subnets_v4_partial",
    "Ip.C35_subnets_v6_partial",
    "Ip.C35_subnets_sizet_wrap",
    "Ip.C35_exclude",
    "Ip.C35_subnets_v4_exact",
    "Ip.C35_subnets_v6_exact"
   ],
   "note": "supernet and address_exclude fully; subnets exactly, for all arguments (C35_subnets_v4_exact, C35_subnets_v6_exact). The claim fails exactly when prefixlen + diff leaves the range of size_t: no error is reported (C35_subnets_sizet_wrap)."
  },
  {
   "property": "C36",
   "status": "partial",
   "theorems": [
    "Ip.C36_postfix",
    "Ip.C36_addresses_v4_partial",
    "Ip.C36_addresses_v6_partial",
    "Ip.C36_signed_partial",
    "Ip.C36_negative_v4",
    "Ip.C36_negative_v6",
    "Ip.C36_negation",
    "Ip.C36_states_v4",
    "Ip.C36_states_v6",
    "Ip.C36_networks_v4_partial",
    "Ip.C36_networks_v6_partial",
    "Ip.C36_network_difference",
    "Ip.C36_signed_exact"
   ],
   "note": "Proved for all iterators over addresses without scope id and unsigned or non negative offsets. Negations: it + (-k) == it - k is false for every iterator (C36_negative_*), it - (it + 1) is positive for IPv4 and scope ids are lost (C36_negation), operator- of network iterators counts addresses (C36_network_difference). C36_signed_exact describes signed steps for all arguments. C36_postfix: postfix operators of all iterators."
  },
  {
   "property": "C37",
   "status": "proved",
   "theorems": [
    "Ip.C37_reverse_v4",
    "Ip.C37_reverse_v6",
    "Ip.C37_base",
    "Ip.C37_operations_v4",
    "Ip.C37_operations_v6",
    "Ip.C37_operations_net4",
    "Ip.C37_operations_net6"
   ],
   "note": "All networks whose forward sequences do not wrap, both families; base() for every iterator state. C37_operations_v4/v6/net4/net6: all operators of reverse iterators."
  },
  {
   "property": "C38",
   "status": "partial",
   "theorems": [
    "Ip.C38_less_v6_exact",
    "Ip.C38_order_v4",
    "Ip.C38_total_v4",
    "Ip.C38_order_v6",
    "Ip.C38_total_v6",
    "Ip.C38_less_v6_partial"
   ],
   "note": "IPv4 and IPv6 <=> and == proved for all networks; the IPv6 operator< used before C++20 only where the scope ids are not ordered against the addresses (C15_v6_less_wrong). C38_less_v6_exact says for all pairs what that operator computes."
  },
  {
   "property": "C39",
   "status": "partial",
   "theorems": [
    "Ip.C39_v4_private",
    "Ip.C39_v4_global",
    "Ip.C39_v4_multicast",
    "Ip.C39_v4_reserved",
    "Ip.C39_v4_loopback",
    "Ip.C39_v4_link_local",
    "Ip.C39_unspecified",
    "Ip.C39_v6_private_computes",
    "Ip.C39_v6_private_partial",
    "Ip.C39_v6_global",
    "Ip.C39_v6_multicast",
    "Ip.C39_v6_reserved",
    "Ip.C39_v6_loopback",
    "Ip.C39_v6_link_local",
    "Ip.C39_v6_private_wrong",
    "Ip.C39_v6_site_local"
   ],
   "note": "All predicates of both versions equal interval sets of the registry, all addresses. Exception: is_private/is_global of IPv6 addresses outside ::ffff:0:0/96 whose hextet five is ffff, where the code answers for the low 32 bits (C39_v6_private_wrong); C39_v6_private_computes says what it computes for every address."
  },
  {
   "property": "C40",
   "status": "partial",
   "theorems": [
    "Ip.C40_v4_multicast",
    "Ip.C40_v4_reserved",
    "Ip.C40_v4_loopback",
    "Ip.C40_v4_link_local",
    "Ip.C40_v4_unspecified",
    "Ip.C40_v6_multicast",
    "Ip.C40_v6_link_local",
    "Ip.C40_v6_site_local",
    "Ip.C40_v6_loopback",
    "Ip.C40_v6_unspecified",
    "Ip.C40_v4_private",
    "Ip.C40_v4_global_partial",
    "Ip.C40_v4_global_wrong",
    "Ip.C40_v6_private_partial",
    "Ip.C40_v6_global",
    "Ip.C40_v6_private_wrong",
    "Ip.C40_v6_reserved_partial",
    "Ip.C40_v6_reserved_wrong",
    "Ip.C40_any",
    "Ip.C40_any_registries_partial"
   ],
   "note": "One block classes and IPv4 is_private: exactly all addresses. Violations: IPv4 is_global (8.0.0.0/6), IPv6 is_private (::/127, ::ffff:0:0/96), IPv6 is_reserved (::/1); for these the exact computed predicate is proved for all networks. C40_any: ip_network; C40_any_registries_partial for the three classes with exceptions."
  },
  {
   "property": "C41",
   "status": "proved",
   "theorems": [
    "Ip.C41_arith",
    "Ip.C41_conversion"
   ],
   "note": ""
  },
  {
   "property": "C42",
   "status": "proved",
   "theorems": [
    "Ip.C42_div_mod",
    "Ip.C42_div_zero"
   ],
   "note": ""
  },
  {
   "property": "C43",
   "status": "partial",
   "theorems": [
    "Ip.C43_shift_partial",
    "Ip.C43_shift_128_ub",
    "Ip.C43_bits",
    "Ip.C43_compare"
   ],
   "note": "Every shift count except exactly 128, which is undefined behaviour (C43_shift_128_ub)."
  },
  {
   "property": "C44",
   "status": "partial",
   "theorems": [
    "Ip.C44_from_string_exact",
    "Ip.C44_to_string",
    "Ip.C44_round_trip",
    "Ip.C44_from_string_partial",
    "Ip.C44_overflow_wraps",
    "Ip.C44_nul_truncates"
   ],
   "note": "Numbers below 2^128; larger ones wrap. C44_from_string_exact describes all texts, also with NUL or unreadable."
  },
  {
   "property": "C45",
   "status": "proved",
   "theorems": [
    "Ip.C45_encodings_agree",
    "Ip.C45_parse_encodings",
    "Ip.C45_non_ascii_rejected",
    "Ip.C45_short_wide"
   ],
   "note": ""
  },
  {
   "property": "C46",
   "status": "partial",
   "theorems": [
    "Ip.C46_utf16",
    "Ip.C46_utf32",
    "Ip.C46_utf8_partial",
    "Ip.C46_utf8_overlong_accepted",
    "Ip.C46_utf8_exact",
    "Ip.C46_utf8_text",
    "Ip.C46_short_wide",
    "Ip.C46_short_wide_wrong"
   ],
   "note": "UTF-16 and UTF-32 proved for all sequences. UTF-8 proved for sequences without overlong forms, which the code accepts (C46_utf8_overlong_accepted). C46_utf8_exact and C46_utf8_text describe what the reader does with every sequence. A wchar_t of 16 bits outside Windows is read unit by unit: C46_short_wide says how this differs from UTF-16, C46_short_wide_wrong is an example."
  },
  {
   "property": "C47",
   "status": "partial",
   "theorems": [
    "Ip.C47_compare_total_order",
    "Ip.C47_compare_lexicographic",
    "Ip.C47_front",
    "Ip.C47_back_partial",
    "Ip.C47_back_wrong",
    "Ip.C47_hash_contents_partial",
    "Ip.C47_hash_capacity_zero",
    "Ip.C47_from_array",
    "Ip.C47_back_exact",
    "Ip.C47_compare_zero"
   ],
   "note": "compare, hash, front, construction proved; back() returns the last array element instead of the last character (C47_back_wrong). C47_back_exact and C47_compare_zero describe back() and compare() of the empty string type."
  },
  {
   "property": "C48",
   "status": "partial",
   "theorems": [
    "Ip.C48_uint128_exact",
    "Ip.C48_v4",
    "Ip.C48_v6",
    "Ip.C48_any",
    "Ip.C48_net4",
    "Ip.C48_net6",
    "Ip.C48_any_net",
    "Ip.C48_format_once",
    "Ip.C48_strict_once",
    "Ip.C48_failbit",
    "Ip.C48_failbit_net_partial",
    "Ip.C48_space_in_scope",
    "Ip.C48_wide_scope",
    "Ip.C48_uint128",
    "Ip.C48_uint128_failbit_partial",
    "Ip.C48_uint128_no_word",
    "Ip.C48_spaces",
    "Ip.C48_spaces_net",
    "Ip.C48_wide",
    "Ip.C48_wide_net",
    "Ip.C48_wide_exact"
   ],
   "note": "Output is read back in every format, with and without uppercase, for char, 16 and 32 bit character types, both address versions, both network versions and uint128_t; a format or strictness choice applies to one operation; operator>> sets failbit iff the next word is rejected. What is read when the scope id has white space is stated by C48_spaces (addresses) and C48_spaces_net (IPv6 networks, of ipv6_network and of ip_network): the address with the part of the scope id before it, or failbit when there is none, and a network loses its prefix length. With streams of 16 and 32 bit characters the output of an IPv6 address is read back exactly if the scope id has only characters of ASCII and no white space (C48_wide_exact); otherwise failbit is set (C48_wide, C48_wide_net). Partial: the round trip excludes scope ids with white space or with characters the stream type does not represent (C48_space_in_scope, C48_wide_scope show the exclusion is needed) and the undefined netmask text 0.0.0.0 for IPv4 networks; uint128_t reads wrap modulo 2^128. Field width, skipws and exceptions are the subject of C67, numbers in locales that of C85. C48_uint128_exact describes all words for uint128_t."
  },
  {
   "property": "C49",
   "status": "partial",
   "theorems": [
    "Ip.C49_parse",
    "Ip.C49_invariant",
    "Ip.C49_from_address",
    "Ip.C49_round_trip",
    "Ip.C49_contains",
    "Ip.C49_overlaps",
    "Ip.C49_subnet",
    "Ip.C49_versions_differ",
    "Ip.C49_order",
    "Ip.C49_total",
    "Ip.C49_less_partial",
    "Ip.C49_broadcast",
    "Ip.C49_count_partial",
    "Ip.C49_count_wraps",
    "Ip.C49_supernet_partial",
    "Ip.C49_hosts_v4_partial",
    "Ip.C49_hosts_v6_partial",
    "Ip.C49_hosts_v4_wraps",
    "Ip.C49_hosts_v6_wraps",
    "Ip.C49_subnets_v4_partial",
    "Ip.C49_subnets_v6_partial",
    "Ip.C49_subnets_size_wraps",
    "Ip.C49_subnets_errors",
    "Ip.C49_subnets_error_size",
    "Ip.C49_subnets_error_sequence",
    "Ip.C49_exclude_v4_partial",
    "Ip.C49_exclude_v6",
    "Ip.C49_exclude_loses",
    "Ip.C49_exclude_v4_exact",
    "Ip.C49_empty_v4",
    "Ip.C49_empty_v6",
    "Ip.C49_count_exact"
   ],
   "note": "ip_network: parsing, construction, text, containment and relations, order, supernet, broadcast, count, hosts, subnets, address_exclude. Partial where the code fails, each with a negation: hosts of networks at the top of the address space (C49_hosts_*_wraps), size() of the subnetworks of a /0 network (C49_subnets_size_wraps), size() after a failed subnets call on an IPv4 network (C49_subnets_error_size; C49_subnets_error_sequence is the complete account of the sequence after an error), exclusion of 0.0.0.1/32 (C49_exclude_loses; no exception for IPv6), total_addresses of an IPv6 /0 (C49_count_wraps). The ordering of two IPv6 networks without spaceship operator and subnets at the top of the address space are as in C24/C32. C49_count_exact gives the count for all networks. C49_empty_v4/v6: what empty() answers."
  },
  {
   "property": "C50",
   "status": "proved",
   "theorems": [
    "Ip.C50_any_network_parse",
    "Ip.C50_any_network_exclude",
    "Ip.C50_any_network_operations",
    "Ip.C50_buffer",
    "Ip.C50_raise",
    "Ip.C50_message",
    "Ip.C50_parse",
    "Ip.C50_parse_array",
    "Ip.C50_operations",
    "Ip.C50_values"
   ],
   "note": "All four character types and both the string and the array overloads, addresses, networks, from_address, set_scope_id, supernet, subnets and address_exclude, also of ip_network. The stream insertion used for symbols and values is modelled as text."
  },
  {
   "property": "C51",
   "status": "partial",
   "theorems": [
    "Ip.C51_any_network_too_long",
    "Ip.C51_any_network_partial",
    "Ip.C51_texts",
    "Ip.C51_exact",
    "Ip.C51_too_long",
    "Ip.C51_as_parse_partial",
    "Ip.C51_unreadable",
    "Ip.C51_embedded_nul",
    "Ip.C51_v6_valid_text_too_long"
   ],
   "note": "C++17 literals of addresses and of both network families. Partial: the agreement with parse excludes texts with NUL (negation proved: C51_embedded_nul) and unreadable texts are covered by C51_unreadable (rejection on both sides for addresses). C51_exact with C51_texts, C51_unreadable and C51_too_long describe the literals for all texts."
  },
  {
   "property": "C52",
   "status": "proved",
   "theorems": [
    "Ip.C52_from_double"
   ],
   "note": ""
  },
  {
   "property": "C53",
   "status": "proved",
   "theorems": [
    "Ip.C53_any_address_swap",
    "Ip.C53_any_network_swap",
    "Ip.C53_fixed_string_swap",
    "Ip.C53_bytes_swap",
    "Ip.C53_network_swap_v4",
    "Ip.C53_network_swap_v6",
    "Ip.C53_v6_swap"
   ],
   "note": "fixed_string, byte_array, addresses and networks of both families and the version agnostic types."
  },
  {
   "property": "C54",
   "status": "partial",
   "theorems": [
    "Ip.C54_accessors",
    "Ip.C54_meaning",
    "Ip.C54_default",
    "Ip.C54_uint",
    "Ip.C54_uint_inverse",
    "Ip.C54_from_bytes",
    "Ip.C54_classes",
    "Ip.C54_private_partial",
    "Ip.C54_embedded_partial",
    "Ip.C54_set_scope",
    "Ip.C54_set_scope_text_partial",
    "Ip.C54_order_total",
    "Ip.C54_order_partial",
    "Ip.C54_order_wrong",
    "Ip.C54_order_exact",
    "Ip.C54_order_iff",
    "Ip.C54_set_scope_exact"
   ],
   "note": "Accessors, integers, bytes, most classes, scope ids proved. Partial: is_private/is_global and ipv4_mapped inherit the IPv6 defects (C39_v6_private_wrong, C16_mapped_wrong); the order without <=> is not one for IPv6 addresses that differ in value and scope id (C54_order_wrong). C54_order_exact, C54_order_iff and C54_set_scope_exact describe the order and set_scope_id for all arguments."
  },
  {
   "property": "C55",
   "status": "partial",
   "theorems": [
    "Ip.C55_bytes",
    "Ip.C55_uint128",
    "Ip.C55_fixed_string",
    "Ip.C55_v6_partial",
    "Ip.C55_v6_wrong",
    "Ip.C55_net_v4",
    "Ip.C55_net_v6_partial",
    "Ip.C55_net_v6_wrong",
    "Ip.C55_any_network_partial",
    "Ip.C55_address_iterators",
    "Ip.C55_network_iterators",
    "Ip.C55_reverse_iterators",
    "Ip.C55_exclude_iterators",
    "Ip.C55_any_iterators_partial",
    "Ip.C55_any_iterators_wrong",
    "Ip.C55_v6_exact",
    "Ip.C55_any_network_exact"
   ],
   "note": "Proved for byte arrays, IPv4, uint128_t, fixed_string, IPv4 networks, address and network iterators, reverse and exclude iterators. Without <=> false for IPv6 addresses and networks that differ in value and scope id (C55_v6_wrong, C55_net_v6_wrong) and for version agnostic iterators over different versions (C55_any_iterators_wrong). C55_v6_exact and C55_any_network_exact say for all pairs what the operators compute."
  },
  {
   "property": "C56",
   "status": "partial",
   "theorems": [
    "Ip.C56_addresses",
    "Ip.C56_networks",
    "Ip.C56_reverse_addresses_partial",
    "Ip.C56_reverse_networks_partial",
    "Ip.C56_reverse_wrong",
    "Ip.C56_exclude_wrong",
    "Ip.C56_reverse_networks_exact",
    "Ip.C56_reverse_exact"
   ],
   "note": "Forward iterators proved for all offsets; reverse iterators up to the position before the smallest address, where the order is inverted (C56_reverse_wrong); iterators of address_exclude are not ordered by position (C56_exclude_wrong). C56_reverse_exact describes the reverse iterators for all arguments."
  },
  {
   "property": "C57",
   "status": "partial",
   "theorems": [
    "Ip.C57_double_partial",
    "Ip.C57_double_wrong",
    "Ip.C57_order_wrong",
    "Ip.C57_order_partial",
    "Ip.C57_double_close",
    "Ip.C57_double_exact",
    "Ip.C57_round_trip",
    "Ip.C57_float_partial",
    "Ip.C57_float_wrong",
    "Ip.C57_long_double_wrong",
    "Ip.C57_double_all"
   ],
   "note": "to_double is correctly rounded below 2^88 and from 2^101 on, exact for every value with 53 significant bits, always within one part in 2^39. For every magnitude in between there are values that are not rounded to nearest (C57_double_wrong) and the order of values is not kept (C57_order_wrong). float is rounded twice (C57_float_wrong), long double goes through double (C57_long_double_wrong). Assumes IEEE 754 arithmetic in the default rounding mode. C57_double_all gives the conversion to double for all values."
  },
  {
   "property": "C58",
   "status": "partial",
   "theorems": [
    "Ip.C58_from_builtin",
    "Ip.C58_to_builtin",
    "Ip.C58_to_uchar",
    "Ip.C58_round_trip",
    "Ip.C58_operators",
    "Ip.C58_shift_assign_partial",
    "Ip.C58_mixed",
    "Ip.C58_compare",
    "Ip.C58_postfix",
    "Ip.C58_logic",
    "Ip.C58_limits",
    "Ip.C58_digits",
    "Ip.C58_swap",
    "Ip.C58_flags"
   ],
   "note": "All operators proved; shift assignment by exactly 128 is undefined behaviour as in C43. C58_flags: is_modulo, is_signed and traps of numeric_limits describe the operators."
  },
  {
   "property": "C59",
   "status": "proved",
   "theorems": [
    "Ip.C59_encodings",
    "Ip.C59_v4",
    "Ip.C59_v6",
    "Ip.C59_any",
    "Ip.C59_net4",
    "Ip.C59_net6",
    "Ip.C59_any_net",
    "Ip.C59_uint",
    "Ip.C59_scope_lost",
    "Ip.C59_utf8_scope_changes"
   ],
   "note": "All character types and formats. Beyond the statement: scope ids that are not ASCII are rejected when read back from UTF-16 and UTF-32 (C59_scope_lost) and can come back as another scope id from UTF-8 (C59_utf8_scope_changes). C59_encodings: the assumptions hold for char16_t, char32_t and char8_t."
  },
  {
   "property": "C60",
   "status": "partial",
   "theorems": [
    "Ip.C60_parse",
    "Ip.C60_parse_array",
    "Ip.C60_operations",
    "Ip.C60_any_exclude",
    "Ip.C60_set_scope",
    "Ip.C60_sequences_partial",
    "Ip.C60_stale"
   ],
   "note": "All functions with an error_code. Partial: subnets and address_exclude of both network versions, subnets of ip_network and set_scope_id of an IPv4 ip_address (or without scope support) keep an old code on success (C60_stale)."
  },
  {
   "property": "C61",
   "status": "partial",
   "theorems": [
    "Ip.C61_parse",
    "Ip.C61_parse_array",
    "Ip.C61_operations",
    "Ip.C61_literal_partial",
    "Ip.C61_literal_truncated",
    "Ip.C61_any_default"
   ],
   "note": "Parsing of strings and arrays in all character types, from_address, supernet, subnets, address_exclude, set_scope_id, literals. Partial: literals that are too long are cut and parsed instead of giving a default object (C61_literal_truncated). A failed ip_address::parse or ip_network::parse gives an IPv6 object, unlike the overload with error_code (C61_any_default)."
  },
  {
   "property": "C62",
   "status": "partial",
   "theorems": [
    "Ip.C62_as_parse_partial",
    "Ip.C62_unreadable",
    "Ip.C62_embedded_nul",
    "Ip.C62_zero_mask",
    "Ip.C62_integer",
    "Ip.C62_integer_cut",
    "Ip.C62_exact"
   ],
   "note": "All texts without NUL in all character types, compile-time and run-time results agree (C62_as_parse_partial, C62_unreadable). False for texts with NUL (C62_embedded_nul) and for integers of 2^32 or more without assert or before C++20 (C62_integer_cut). C62_exact with C62_unreadable describes all texts."
  },
  {
   "property": "C63",
   "status": "partial",
   "theorems": [
    "Ip.C63_byte_array",
    "Ip.C63_fixed_string",
    "Ip.C63_out_of_range_undefined",
    "Ip.C63_optional"
   ],
   "note": "Iteration, front, back, indexing, assignment and optional proved. False: indices out of range are undefined behaviour instead of std::out_of_range (C63_out_of_range_undefined)."
  },
  {
   "property": "C64",
   "status": "partial",
   "theorems": [
    "Ip.C64_v4",
    "Ip.C64_fixed_string",
    "Ip.C64_v6",
    "Ip.C64_uint128",
    "Ip.C64_v4_network",
    "Ip.C64_v6_network",
    "Ip.C64_any",
    "Ip.C64_not_unique",
    "Ip.C64_v4_network_32",
    "Ip.C64_v6_network_32",
    "Ip.C64_uint128_32_violated"
   ],
   "note": "64 and 32 bit size_t. Proved for addresses, fixed strings, networks and the version agnostic types with both, and for uint128_t with 64 bits. False of uint128_t with a 32 bit size_t, where half of the mixed value is cut (C64_uint128_32_violated). Beyond the statement: hashes do not identify addresses uniquely, as documented (C64_not_unique)."
  },
  {
   "property": "C65",
   "status": "partial",
   "theorems": [
    "Ip.C65_array_exact",
    "Ip.C65_get_scope",
    "Ip.C65_compare",
    "Ip.C65_array_partial",
    "Ip.C65_unreadable",
    "Ip.C65_array_reports",
    "Ip.C65_any_array",
    "Ip.C65_embedded_nul"
   ],
   "note": "All proved for texts without NUL inside. Partial: an array with a NUL inside sets the text before it where the string overload may fail (C65_embedded_nul); numbers of scope ids are modulo 2^32 (C18). C65_array_exact describes all readable arrays."
  },
  {
   "property": "C66",
   "status": "partial",
   "theorems": [
    "Ip.C66_v6_same_partial",
    "Ip.C66_v6_text_exact",
    "Ip.C66_v6_text_wrong",
    "Ip.C66_v6_networks_partial",
    "Ip.C66_v4_addresses",
    "Ip.C66_v4_netmask_wrong",
    "Ip.C66_v4_networks_wrong",
    "Ip.C66_v4_private_wrong",
    "Ip.C66_v6_arithmetic_wrong",
    "Ip.C66_supernet_ends",
    "Ip.C66_v6_count_exact",
    "Ip.C66_v6_hosts_exact",
    "Ip.C66_v6_hosts_right",
    "Ip.C66_v6_supernet_exact",
    "Ip.C66_v6_supernet_right",
    "Ip.C66_v4_mirror",
    "Ip.C66_v4_iterators_mirror",
    "Ip.C66_v4_contains_exact",
    "Ip.C66_v4_single_exact",
    "Ip.C66_v6_subnets_exact",
    "Ip.C66_v6_subnets_ends",
    "Ip.C66_v6_exclude_ends",
    "Ip.C66_v6_subnets_wrong"
   ],
   "note": "Proved for IPv6 networks (parsing of texts without a dot, text, contains, overlaps, subnet_of, order, hash, classes other than private) and for IPv4 reverse pointers, order and text. The code violates it elsewhere on big endian hosts: IPv4 netmasks (C66_v4_netmask_wrong, exact), networks and classes (C66_v4_networks_wrong, C66_v4_private_wrong), IPv6 supernets, counts and hosts (C66_v6_arithmetic_wrong). What happens instead is exact for IPv4: from_address, contains, hostmask, broadcast, overlaps, counts, supernets, hosts, subnets and iterators compute as on little endian hosts on networks with the bytes reversed (C66_v4_mirror, C66_v4_iterators_mirror, C66_v4_contains_exact), and hosts() of a.b.c.d/32 with a = 255 does not end after its address (C66_v4_single_exact); and for the address counts of IPv6 networks (C66_v6_count_exact: right for /0, /64 and /128 only) and for loops over their hosts (C66_v6_hosts_exact: they count with each half of the bytes reversed; C66_v6_hosts_right: the right number of addresses for /64 only), and for their supernets (C66_v6_supernet_exact: the address under the shifted netmask, both read with each half reversed; the program ends if the result has host bits; C66_v6_supernet_right: for which prefix lengths and distances they are right). IPv6 texts with a dotted quad are read with the quad's bytes reversed, exactly (C66_v6_text_exact, C66_v6_text_wrong). On big endian hosts supernet ends the program for some networks (C66_supernet_ends). Its subnetworks: C66_v6_subnets_exact says where the sequence ends, what its step and size are and what its elements are, and C66_v6_subnets_wrong that it is right for no network and no longer prefix; programs end at subnets and address_exclude of most IPv6 networks (C66_v6_subnets_ends, C66_v6_exclude_ends: 2001:db8::/32 cannot be divided into /48)."
  },
  {
   "property": "C67",
   "status": "partial",
   "theorems": [
    "Ip.C67_output",
    "Ip.C67_output_uint128",
    "Ip.C67_input",
    "Ip.C67_input_net_partial",
    "Ip.C67_input_uint128",
    "Ip.C67_table",
    "Ip.C67_table_net",
    "Ip.C67_row",
    "Ip.C67_defaults",
    "Ip.C67_limits"
   ],
   "note": "Proved for addresses, IPv6 networks and uint128_t in every state of the stream, and for output of all objects. For IPv4 and version agnostic networks input is proved but for fields with the netmask 0.0.0.0, where parsing is undefined behaviour (C26_zero_mask_undefined). C67_limits shows what the standard streams imply: silent truncation by a width, and objects not stored with eofbit in the exception mask."
  },
  {
   "property": "C68",
   "status": "partial",
   "theorems": [
    "Ip.C68_from_address_v4",
    "Ip.C68_from_address_v6_partial",
    "Ip.C68_rebuild_v4",
    "Ip.C68_rebuild_v6_partial",
    "Ip.C68_overlaps_v4",
    "Ip.C68_overlaps_v6_partial",
    "Ip.C68_supernet_v4_partial",
    "Ip.C68_supernet_v6_partial",
    "Ip.C68_subnets_v4_partial",
    "Ip.C68_subnets_v6_partial",
    "Ip.C68_hosts_v4_partial",
    "Ip.C68_hosts_v6_partial",
    "Ip.C68_exclude_v4_partial",
    "Ip.C68_exclude_v6_partial",
    "Ip.C68_scope_limits"
   ],
   "note": "Proved for IPv4, and for IPv6 networks without scope id, apart from the networks for which hosts(), subnets() and address_exclude() misbehave (C31, C32, C34) and supernet over the whole width (C33). C68_scope_limits proves that with scope ids overlaps, contains, subnet_of and from_address disagree. C90_from_address, C90_overlaps, C90_supernet, C90_parts describe networks with scope ids exactly."
  },
  {
   "property": "C69",
   "status": "partial",
   "theorems": [
    "Ip.C69_hosts_v4_partial",
    "Ip.C69_hosts_v6_partial",
    "Ip.C69_hosts_v6_wide",
    "Ip.C69_any_hosts_v4_partial",
    "Ip.C69_any_hosts_v6_partial",
    "Ip.C69_subnets_v4_partial",
    "Ip.C69_subnets_v6_partial",
    "Ip.C69_any_subnets_v4_partial",
    "Ip.C69_any_subnets_v6_partial",
    "Ip.C69_subnets_search",
    "Ip.C69_subnets_all"
   ],
   "note": "Proved for hosts() of IPv4 networks other than 255.255.255.254/31 and of IPv6 networks with prefix length 65 or more; for subnets() copies and moves always (C32 cases), distances and searches when the subnetworks are single addresses. The rest is false: C69_hosts_v6_wide (distance -1, binary_search wrong), C69_subnets_search and C69_subnets_all (distance counts addresses). The algorithms themselves are models of the loops of a standard library."
  },
  {
   "property": "C70",
   "status": "proved",
   "theorems": [
    "Ip.C70_wrong_tag",
    "Ip.C70_address",
    "Ip.C70_address_pair",
    "Ip.C70_set_scope",
    "Ip.C70_factories",
    "Ip.C70_programs",
    "Ip.C70_network",
    "Ip.C70_members",
    "Ip.C70_network_pair",
    "Ip.C70_network_factories",
    "Ip.C70_iterator_states",
    "Ip.C70_iterator",
    "Ip.C70_iterator_pair"
   ],
   "note": "C70_programs: all sequences of statements on addresses. C70_address, C70_address_pair, C70_network, C70_network_pair, C70_members, C70_iterator, C70_iterator_pair: all member functions of objects with the right tag; C70_wrong_tag shows that the tag matters."
  },
  {
   "property": "C71",
   "status": "partial",
   "theorems": [
    "Ip.C71_byte_order",
    "Ip.C71_layout_partial",
    "Ip.C71_layout",
    "Ip.C71_compiles",
    "Ip.C71_known_partial",
    "Ip.C71_big_architectures",
    "Ip.C71_known",
    "Ip.C71_std_endian",
    "Ip.C71_user",
    "Ip.C71_missing_names",
    "Ip.C71_scope_length",
    "Ip.C71_standards"
   ],
   "note": "C71_byte_order: is_little_endian() is right for all platforms. Refuted and proved in part: C71_known (names of big endian architectures; C71_big_architectures says what happens; C71_known_partial proves the rest; C71_compiles is exact), C71_layout (members of uint128_t when only std::endian is known; C71_layout_partial otherwise). C71_user, C71_scope_length, C71_standards: the settings. C71_std_endian: when std::endian is used, by the macros of the compiler alone."
  },
  {
   "property": "C72",
   "status": "partial",
   "theorems": [
    "Ip.C72_constants_partial",
    "Ip.C72_constants_exact",
    "Ip.C72_constants",
    "Ip.C72_run_exact",
    "Ip.C72_run",
    "Ip.C72_arrays_exact",
    "Ip.C72_arrays"
   ],
   "note": "Refuted for Clang and Visual C++ before C++20 (C72_constants), for GCC 6 to 8 (C72_run), and for texts in arrays that cannot be read (C72_arrays, every compiler); C72_constants_partial proves it for the other compilers; C72_constants_exact, C72_run_exact and C72_arrays_exact describe all compilers."
  },
  {
   "property": "C73",
   "status": "partial",
   "theorems": [
    "Ip.C73_message",
    "Ip.C73_text_char",
    "Ip.C73_text_utf32",
    "Ip.C73_text_partial",
    "Ip.C73_text_cut",
    "Ip.C73_text_exact",
    "Ip.C73_text_nul",
    "Ip.C73_parse",
    "Ip.C73_array",
    "Ip.C73_literal",
    "Ip.C73_operations"
   ],
   "note": "Proved for char and UTF-32, and for all codes, values and throwing functions. Refuted for UTF-8 and UTF-16 texts cut inside of a character (C73_text_cut: no dots); C73_text_partial proves the others, C73_text_exact and C73_text_nul describe all texts of code points."
  },
  {
   "property": "C74",
   "status": "proved",
   "theorems": [
    "Ip.C74_v4",
    "Ip.C74_v4_empty",
    "Ip.C74_v4_symbol",
    "Ip.C74_v4_one",
    "Ip.C74_v4_exception"
   ],
   "note": "Proved for all texts of ASCII characters, and for all texts with a symbol that cannot be read."
  },
  {
   "property": "C75",
   "status": "partial",
   "theorems": [
    "Ip.C75_v6",
    "Ip.C75_v6_empty",
    "Ip.C75_v6_symbol",
    "Ip.C75_v6_one",
    "Ip.C75_v6_exception",
    "Ip.C75_number_partial",
    "Ip.C75_number_symbol",
    "Ip.C75_number_octet",
    "Ip.C75_number_violated"
   ],
   "note": "The code and the value are proved exactly for all texts (C75_v6, C75_v6_symbol, C75_v6_exception). That the value is the number of the part or octet is refuted (C75_number_symbol: never the number of a part with an invalid symbol; C75_number_octet: number of colons instead of the octet; C75_number_violated) and proved for parts that are too long (C75_number_partial)."
  },
  {
   "property": "C76",
   "status": "partial",
   "theorems": [
    "Ip.C76_v4",
    "Ip.C76_v6",
    "Ip.C76_symbol",
    "Ip.C76_one",
    "Ip.C76_exception",
    "Ip.C76_number_partial",
    "Ip.C76_number_v6_partial",
    "Ip.C76_number_violated"
   ],
   "note": "Code and value are proved exactly for all texts (C76_v4, C76_v6, C76_symbol, C76_exception). That the value is the number of the octet or part of the address is refuted: it is 0, or 3 after a dotted mask (C76_number_partial, C76_number_v6_partial, C76_number_violated)."
  },
  {
   "property": "C77",
   "status": "partial",
   "theorems": [
    "Ip.C77_address",
    "Ip.C77_address_exception",
    "Ip.C77_network",
    "Ip.C77_network_exception",
    "Ip.C77_dotted_partial",
    "Ip.C77_network_violated",
    "Ip.C77_violated"
   ],
   "note": "Exactly what is reported is proved (C77_address, C77_network and the exceptions): always what is wrong as IPv6. For dotted texts without colon the code is that of IPv4 but the octet is always 0 (C77_dotted_partial); for IPv4 networks with host bits or a prefix length above 32 it is least_3_parts (C77_network_violated)."
  },
  {
   "property": "C78",
   "status": "partial",
   "theorems": [
    "Ip.C78_networks_v4",
    "Ip.C78_networks_v6",
    "Ip.C78_text_v4",
    "Ip.C78_iterators_v4",
    "Ip.C78_iterators_v6",
    "Ip.C78_prefix_v4_partial",
    "Ip.C78_prefix_v6_partial",
    "Ip.C78_default_violated",
    "Ip.C78_moves_v4",
    "Ip.C78_moves_v6"
   ],
   "note": "Networks and iterators are proved for all programs. That moving keeps the prefix length is proved for programs without default constructed network iterators (C78_prefix_v4_partial, C78_prefix_v6_partial) and refuted for those: they show 0.0.0.0/32 and after ++ 0.0.0.0/0 (C78_default_violated)."
  },
  {
   "property": "C79",
   "status": "partial",
   "theorems": [
    "Ip.C79_set_errors",
    "Ip.C79_set_unreadable",
    "Ip.C79_same_partial",
    "Ip.C79_errors_exact",
    "Ip.C79_errors_partial",
    "Ip.C79_violated"
   ],
   "note": "What both accept and report is proved exactly (C79_same_partial, C79_set_errors, C79_set_unreadable, C79_errors_exact). They differ on the empty zone id, on zone ids that begin with NUL, on the order of errors for zone ids that are too long and have a forbidden character, and without scope ids (C79_violated)."
  },
  {
   "property": "C80",
   "status": "partial",
   "theorems": [
    "Ip.C80_exact_v4",
    "Ip.C80_exact_v6",
    "Ip.C80_careful_v4_partial",
    "Ip.C80_careful_v6_partial",
    "Ip.C80_violated_v4",
    "Ip.C80_violated_v6",
    "Ip.C80_all_v4",
    "Ip.C80_all_v6",
    "Ip.C80_constructors_violated_v4"
   ],
   "note": "Exact for all programs, with all constructors and any arguments: the calls listed in Spec/UndefinedAll.lean are exactly the ones where programs stop (C80_all_v4, C80_all_v6). For programs that do not call the constructors of network iterators and sequences directly the list is shorter (Spec/Undefined.lean, C80_exact_v4, C80_exact_v6), and those that keep to a rule checkable without running them always end (C80_careful_*_partial). The calls in the lists are refuted by programs (C80_violated_*, C80_constructors_violated_v4)."
  },
  {
   "property": "C81",
   "status": "partial",
   "theorems": [
    "Ip.C81_double",
    "Ip.C81_long_double_exact",
    "Ip.C81_long_double_partial",
    "Ip.C81_long_double_violated",
    "Ip.C81_float",
    "Ip.C81_double_number",
    "Ip.C81_float_number",
    "Ip.C81_mixed",
    "Ip.C81_mixed_long_double"
   ],
   "note": "Proved for float and double. A long double is rounded to double first (C81_long_double_exact), so values with more than 53 significant bits may be off (C81_long_double_violated). C81_mixed, C81_mixed_long_double: operators with a floating point number on the left."
  },
  {
   "property": "C82",
   "status": "partial",
   "theorems": [
    "Ip.C82_expressions",
    "Ip.C82_exact",
    "Ip.C82_programs_partial",
    "Ip.C82_spaceship",
    "Ip.C82_violated"
   ],
   "note": "C82_exact is the whole claim except that shifting by exactly 128 places is undefined (C82_violated); programs whose shifts are by other constants are covered without exception (C82_programs_partial)."
  },
  {
   "property": "C83",
   "status": "partial",
   "theorems": [
    "Ip.C83_constexpr",
    "Ip.C83_partial",
    "Ip.C83_exact",
    "Ip.C83_zero_exact",
    "Ip.C83_violated"
   ],
   "note": "Proved for C++14 and later. In C++11 mode the tables are initialised dynamically and unordered: C83_exact says which programs are defined, C83_violated has a program that is not."
  },
  {
   "property": "C84",
   "status": "partial",
   "theorems": [
    "Ip.C84_utf8_step",
    "Ip.C84_utf16_step",
    "Ip.C84_utf8_leaves_array",
    "Ip.C84_utf16_leaves_array",
    "Ip.C84_array_leaves_array",
    "Ip.C84_null_end_compared",
    "Ip.C84_char",
    "Ip.C84_utf32",
    "Ip.C84_v6_char_partial",
    "Ip.C84_v6_utf32_partial",
    "Ip.C84_net6_char_partial",
    "Ip.C84_net6_utf32_partial",
    "Ip.C84_net6_percent_char",
    "Ip.C84_net6_percent_utf32",
    "Ip.C84_v4_utf8_partial",
    "Ip.C84_v6_utf8_partial",
    "Ip.C84_net4_utf8_partial",
    "Ip.C84_net6_utf8_partial",
    "Ip.C84_net6_percent_utf8",
    "Ip.C84_scope_uint_utf8_partial",
    "Ip.C84_array_utf8_partial",
    "Ip.C84_literal_utf8_partial",
    "Ip.C84_utf8_room",
    "Ip.C84_utf8_well_formed",
    "Ip.C84_utf16_partial",
    "Ip.C84_v6_utf16_partial",
    "Ip.C84_net6_utf16_partial",
    "Ip.C84_net6_percent_utf16",
    "Ip.C84_utf16_room",
    "Ip.C84_array_utf16",
    "Ip.C84_utf16_well_formed"
   ],
   "note": "Exact for everything modelled: undefined only for a UTF-8 or UTF-16 sequence cut off at the end of the array, for an array without terminating NUL read past overlong sequences, and for a zone id without an address, in an address or a network, when a null pointer compares greater than the begin of the text. The claim fails there and nowhere else."
  },
  {
   "property": "C85",
   "status": "partial",
   "theorems": [
    "Ip.C85_text",
    "Ip.C85_to_string_partial",
    "Ip.C85_digits",
    "Ip.C85_round_trip_partial",
    "Ip.C85_stream_partial",
    "Ip.C85_message",
    "Ip.C85_message_partial",
    "Ip.C85_message_char",
    "Ip.C85_violated"
   ],
   "note": "Exact for integers and messages: the text depends on the locale exactly where a number below 2^64 has more digits than the first group of the locale. Such texts are rejected by from_string, and with a space as separator a stream reads another number."
  },
  {
   "property": "C86",
   "status": "partial",
   "theorems": [
    "Ip.C86_v4",
    "Ip.C86_v6_partial",
    "Ip.C86_networks",
    "Ip.C86_iterators",
    "Ip.C86_moves",
    "Ip.C86_ended_violated",
    "Ip.C86_v6_swap_partial"
   ],
   "note": "Full for IPv4. For IPv6 the simulation is without default objects, which the agnostic classes make of IPv4, and without exclusions, whose agnostic iterators become such objects at the end (C86_ended_violated); it is exact without swap (C86_v6_partial) and with swap up to the characters left behind scope ids, which no program can see (C86_v6_swap_partial, C98). The invariants of the objects are proved for all programs (C86_networks, C86_iterators, C86_moves)."
  },
  {
   "property": "C87",
   "status": "partial",
   "theorems": [
    "Ip.C87_exact",
    "Ip.C87_careful_partial",
    "Ip.C87_violated",
    "Ip.C87_all",
    "Ip.C87_constructor"
   ],
   "note": "Exact for all programs, with the constructors of excluding iterators and any networks of any versions: the calls listed in Spec/AnyUndefinedAll.lean are exactly the ones where programs stop (C87_all); C87_constructor says it for the constructor alone. Without these constructors the list is shorter (Spec/AnyUndefined.lean, C87_exact), and programs that keep to a rule always end (C87_careful_partial). C87_violated has a program for each call. Exchanges, comparisons and address_exclude between versions never are undefined."
  },
  {
   "property": "C88",
   "status": "partial",
   "theorems": [
    "Ip.C88_exact",
    "Ip.C88_same_partial",
    "Ip.C88_longer_violated",
    "Ip.C88_safe_partial",
    "Ip.C88_terminates_violated",
    "Ip.C88_unreadable",
    "Ip.C88_integer",
    "Ip.C88_settings"
   ],
   "note": "C88_exact says what each literal does with every compiler. The claim fails twice: texts longer than a buffer are accepted only where literals are templates (C88_longer_violated), and with class template arguments but no consteval a wrong literal compiles and ends the program (C88_terminates_violated). Builds with exceptions."
  },
  {
   "property": "C89",
   "status": "partial",
   "theorems": [
    "Ip.C89_exact_v4",
    "Ip.C89_exact_v6_partial",
    "Ip.C89_violated_v4",
    "Ip.C89_scope_violated",
    "Ip.C89_scoped_v6",
    "Ip.C89_host_v6",
    "Ip.C89_defined_v6",
    "Ip.C89_defined_all_v6",
    "Ip.C89_increment_v6"
   ],
   "note": "Exact for all pairs. IPv4: C89_exact_v4, the claim holds exactly for proper subnetworks; it fails for a network of one address excluded from itself and for all other pairs (C89_violated_v4). IPv6: C89_defined_v6 and C89_defined_all_v6 say when the constructors end the program, whatever the scope ids, C89_increment_v6 when an increment does; C89_exact_v6_partial, C89_scoped_v6 and C89_host_v6 say what is visited without and with scope ids, where the claim fails (C89_scope_violated)."
  },
  {
   "property": "C90",
   "status": "partial",
   "theorems": [
    "Ip.C90_ignored_partial",
    "Ip.C90_whole",
    "Ip.C90_subnet_of",
    "Ip.C90_overlaps",
    "Ip.C90_from_address",
    "Ip.C90_supernet",
    "Ip.C90_parts",
    "Ip.C90_violated"
   ],
   "note": "C90_ignored_partial proves it for all operations other than subnet_of, supernet_of and the supernet of the whole address space; for these it is refuted (C90_violated) and C90_subnet_of, C90_overlaps, C90_supernet, C90_parts, C90_whole say exactly what happens. C90_from_address: which scope id the network around an address has."
  },
  {
   "property": "C91",
   "status": "partial",
   "theorems": [
    "Ip.C91_exact_v4",
    "Ip.C91_exact_v6",
    "Ip.C91_exact_networks",
    "Ip.C91_exact_any",
    "Ip.C91_moved_v4_violated",
    "Ip.C91_copies_v4_violated",
    "Ip.C91_std_reverse_violated",
    "Ip.C91_loop",
    "Ip.C91_kept_violated",
    "Ip.C91_hosts_v4_partial"
   ],
   "note": "Refuted: a reference follows the iterator it was taken from (C91_moved_v4_violated, C91_copies_v4_violated, C91_kept_violated) and std::reverse_iterator always reads an object that is gone (C91_std_reverse_violated). C91_exact_v4, C91_exact_v6, C91_exact_networks, C91_exact_any say exactly which blocks are undefined, for all blocks, and what the others do; C91_loop and C91_hosts_v4_partial: range-based loops. References that excluding iterators, network_address(), netmask() and bytes() give out: C92."
  },
  {
   "property": "C92",
   "status": "partial",
   "theorems": [
    "Ip.C92_exact",
    "Ip.C92_kept_partial",
    "Ip.C92_temporary_violated",
    "Ip.C92_parts_violated",
    "Ip.C92_interface",
    "Ip.C92_optionals",
    "Ip.C92_loop"
   ],
   "note": "Refuted: network_address() and netmask() of a temporary ipv4_network or ipv6_network dangle, of a temporary ip_network they do not (C92_temporary_violated); bytes() of a temporary and ip.v4().value() dangle (C92_parts_violated). C92_exact says for all blocks that compile exactly which are undefined, and what the others mean; C92_kept_partial: blocks that keep their variables and bind no reference to a part of a temporary are right; C92_interface: which functions return references; C92_optionals: what v4() and v6() hold; C92_loop: range-based loops over sequences of temporary networks are right. Not modelled: data() of ip_address, which points into a union; data() of the other classes counts as bytes()."
  },
  {
   "property": "C93",
   "status": "partial",
   "theorems": [
    "Ip.C93_collapse_v4",
    "Ip.C93_under_v4",
    "Ip.C93_most_specific_v4",
    "Ip.C93_lookup_v4",
    "Ip.C93_collapse_v6_partial",
    "Ip.C93_under_v6_partial",
    "Ip.C93_most_specific_v6_partial",
    "Ip.C93_lookup_v6_partial",
    "Ip.C93_collapse_any_partial",
    "Ip.C93_under_any_partial",
    "Ip.C93_most_specific_any_partial",
    "Ip.C93_scope_violated"
   ],
   "note": "Refuted for IPv6 networks with scope ids (C93_scope_violated): all four programs go wrong in a table of three link local networks. Proved for all IPv4 tables (C93_*_v4), and for IPv6 and mixed tables of networks without scope ids (C93_*_v6_partial, C93_*_any_partial). The client programs are written in Spec/Tables.lean in terms of the functions of the library; std::set, std::sort and lower_bound are assumed to do what the standard says of an order."
  },
  {
   "property": "C94",
   "status": "partial",
   "theorems": [
    "Ip.C94_pool_v4_partial",
    "Ip.C94_steps_v4_partial",
    "Ip.C94_merge_v4_partial",
    "Ip.C94_lost_v4",
    "Ip.C94_pool_v6_partial",
    "Ip.C94_violated_v6"
   ],
   "note": "Refuted for one request: taking 0.0.0.1/32 (::1/128) out of a pool that begins at 0.0.0.0 (::) loses the first address for ever (C94_lost_v4, C94_violated_v6), and networks with scope ids are refused although they are free (C94_violated_v6). Proved by induction over all histories without these: C94_pool_v4_partial, C94_steps_v4_partial, C94_merge_v4_partial, C94_pool_v6_partial. The client program is Spec/Pools.lean."
  },
  {
   "property": "C95",
   "status": "partial",
   "theorems": [
    "Ip.C95_text_v4",
    "Ip.C95_text_v6",
    "Ip.C95_accepted_v4",
    "Ip.C95_accepted_v6",
    "Ip.C95_text_violated",
    "Ip.C95_subnets_v4",
    "Ip.C95_subnets_v6",
    "Ip.C95_text_any"
   ],
   "note": "Refuted for numbers and differences at the edge of the type: 10.0.0.0/4294967304 is 10.0.0.0/8 on the narrow platform and an error on the wide one (C95_text_violated), and subnets ends in undefined behaviour (IPv4) or std::terminate (IPv6) where the sum wraps (C95_subnets_v4, C95_subnets_v6). Exact for all inputs: C95_text_v4, C95_text_v6, C95_text_any say what is read; C95_accepted_v4 and C95_accepted_v6 that the platforms differ only on texts the wide one rejects with invalid_netmask."
  },
  {
   "property": "C96",
   "status": "partial",
   "theorems": [
    "Ip.C96_exact",
    "Ip.C96_unreadable",
    "Ip.C96_constants_partial",
    "Ip.C96_constants_violated",
    "Ip.C96_calls_partial",
    "Ip.C96_calls_violated"
   ],
   "note": "Refuted: GCC in C++17 mode makes the constant 0.0.0.0 of a char16_t text with an unpaired surrogate, clang before C++20 makes constants of wrong and of longer texts, and GCC 6 to 8 divide by zero at run time (C96_constants_violated, C96_calls_violated). Exact for all texts and compilers: C96_exact for readable texts, C96_unreadable for the others; the _partial theorems are the cases where the claim holds."
  },
  {
   "property": "C97",
   "status": "partial",
   "theorems": [
    "Ip.C97_sets",
    "Ip.C97_sets_exact",
    "Ip.C97_sets_networks_exact",
    "Ip.C97_sets_partial",
    "Ip.C97_sets_violated",
    "Ip.C97_tables",
    "Ip.C97_tables_versions"
   ],
   "note": "Refuted for ordered containers of IPv6 keys before C++20: with fe80::2%a and fe80::1%b inserted, the second is in the set and find does not find it (C97_sets_violated). Exactly: a set of such keys works if and only if the operator is <=> or no two of its possible keys are Crossed (C97_sets_exact, C97_sets_networks_exact). Proved without restriction: ordered containers of ipv4_address, ipv4_network and uint128 (C97_sets) and unordered containers of every type (C97_tables, C97_tables_versions)."
  },
  {
   "property": "C98",
   "status": "partial",
   "theorems": [
    "Ip.C98_replace_partial",
    "Ip.C98_subnets_partial",
    "Ip.C98_programs",
    "Ip.C98_v4_partial",
    "Ip.C98_v4_subnets_partial",
    "Ip.C98_exclusions_violated",
    "Ip.C98_steps_violated",
    "Ip.C98_order_answers",
    "Ip.C98_distance_answers"
   ],
   "note": "Full for addresses, networks and iterators over addresses, forward and reverse, and for iterators over networks that come from subnets() (C98_replace_partial, C98_subnets_partial, C98_programs, C98_v4_partial, C98_v4_subnets_partial). Refuted for iterators over excluded networks, whose == compares the shown network only (C98_exclusions_violated), and for iterators over networks that a program constructs itself with different steps (C98_steps_violated); for these C98_replace_partial names the members that must agree beside ==. Sequences have no operator==. The questions ==, <, <=> and the difference are answered as the operators of C37, C38, C55 and C56 (C98_order_answers, C98_distance_answers)."
  },
  {
   "property": "C99",
   "status": "partial",
   "theorems": [
    "Ip.C99_order_answers",
    "Ip.C99_distance_answers",
    "Ip.C99_replace_partial",
    "Ip.C99_subnets_partial",
    "Ip.C99_programs",
    "Ip.C99_exclusions_violated"
   ],
   "note": "Full for addresses, networks, iterators over addresses and iterators of subnets(), forward and reverse (C99_subnets_partial, C99_programs); for every object with operator== under the condition that the members it does not compare agree (C99_replace_partial). Refuted for iterators over excluded networks, whose == compares the shown network only (C99_exclusions_violated). Sequences have no operator==. The questions ==, <, <=> and the difference are answered as the operators of C37, C38, C55 and C56 (C99_order_answers, C99_distance_answers)."
  },
  {
   "property": "C100",
   "status": "proved",
   "theorems": [
    "Ip.C100_streams",
    "Ip.C100_finish"
   ],
   "note": "C100_streams: every run, every schedule; C100_finish: no deadlock. One access to a word is one step; threads that use the same stream at once are not data races in the model (the standard requires users to avoid that); no failure of allocation in iword; one copy of each local static in the program."
  }
 ]
}