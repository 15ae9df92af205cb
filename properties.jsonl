{"id": "C01", "title": "IPv4 parser accepts exactly canonical dotted decimal", "statement": "ipv4_address::parse(text) succeeds if and only if text is four decimal numbers 0..255, written without leading zeros, separated by three dots, with nothing before or after; on success the four bytes of the result are those numbers in order, and on failure an error code other than no_error is reported.", "quantifier": "every character string of every length", "why_tests_cant": "The input space is infinite; unit tests sample a few dozen malformed strings and cannot exclude an unforeseen accepted string.", "anchors": ["include/ipaddress/base-v4.hpp:ip_from_string", "include/ipaddress/ip-address-base.hpp:parse_string"]}
{"id": "C02", "title": "IPv4 text round trip", "statement": "For every IPv4 address a, ipv4_address::parse(a.to_string()) succeeds and returns a.", "quantifier": "all 2^32 IPv4 addresses", "why_tests_cant": "2^32 addresses times the parser state machine; tests check a handful.", "anchors": ["include/ipaddress/base-v4.hpp:ip_to_chars", "include/ipaddress/base-v4.hpp:byte_to_string", "include/ipaddress/base-v4.hpp:ip_from_string"]}
{"id": "C03", "title": "IPv4 text is canonical and injective", "statement": "Whenever ipv4_address::parse accepts a text, to_string of the result is that same text; hence no address has two accepted spellings.", "quantifier": "every character string accepted by the IPv4 parser", "why_tests_cant": "Requires knowing all accepted spellings of all addresses.", "anchors": ["include/ipaddress/base-v4.hpp:ip_from_string", "include/ipaddress/base-v4.hpp:ip_to_chars"]}
{"id": "C04", "title": "IPv4 formatting stays inside its buffer", "statement": "Formatting any IPv4 address writes at most 15 characters plus the terminator, all of them digits or dots, so the fixed 16 byte buffer is never overrun and the reported length is the text length.", "quantifier": "all IPv4 addresses", "why_tests_cant": "An out of bounds write may go unnoticed in a test run and depends on the worst case address.", "anchors": ["include/ipaddress/base-v4.hpp:ip_to_chars", "include/ipaddress/base-v4.hpp:byte_to_string"]}
{"id": "C05", "title": "IPv4 integer conversion", "statement": "from_uint and to_uint are inverse bijections between 32 bit integers and IPv4 addresses, and to_uint is the value of the four octets read in network order (a.b.c.d is a*2^24+b*2^16+c*2^8+d), independently of the byte order of the host.", "quantifier": "all 32 bit integers, all addresses, little and big endian hosts", "why_tests_cant": "Tests run on one host byte order and on sample values.", "anchors": ["include/ipaddress/base-v4.hpp:ip_from_uint32", "include/ipaddress/base-v4.hpp:ip_to_uint32", "include/ipaddress/endian.hpp:swap_bytes"]}
{"id": "C06", "title": "IPv4 ordering is the numeric order", "statement": "The comparison operators on IPv4 addresses form a strict total order that agrees with equality and with the order of to_uint.", "quantifier": "all pairs and triples of IPv4 addresses, both comparison implementations", "why_tests_cant": "Order axioms quantify over all triples of addresses.", "anchors": ["include/ipaddress/ipv4-address.hpp:less", "include/ipaddress/ipv4-address.hpp:compare", "include/ipaddress/byte-array.hpp:operator<"]}
{"id": "C07", "title": "Construction from a byte buffer", "statement": "from_bytes(ptr, count) copies the first min(count, size) bytes, zero fills the rest, and never reads beyond count bytes of the buffer.", "quantifier": "all buffers and all counts, both families", "why_tests_cant": "Reading past the end of a buffer is not observable by value tests.", "anchors": ["include/ipaddress/ip-address-base.hpp:from_bytes"]}
{"id": "C08", "title": "IPv6 text round trip in every format", "statement": "For every IPv6 address a, with or without a scope id, and every format (full, compact, compressed), ipv6_address::parse(a.to_string(format)) succeeds and returns an address equal to a, including its scope id.", "quantifier": "all 2^128 addresses, all storable scope ids, three formats", "why_tests_cant": "2^128 addresses and all placements of zero runs cannot be enumerated.", "anchors": ["include/ipaddress/base-v6.hpp:ip_to_chars", "include/ipaddress/base-v6.hpp:ip_from_string"]}
{"id": "C09", "title": "IPv6 parser soundness", "statement": "Every text accepted by ipv6_address::parse is an RFC 4291 textual IPv6 address (eight groups of 1-4 hex digits, at most one '::' standing for one or more zero groups, optionally a dotted IPv4 tail in the last 32 bits) optionally followed by '%' and a non empty scope id, and the resulting bytes are the value of that text.", "quantifier": "every character string", "why_tests_cant": "Infinite input space; the parser is a multi stage state machine over fixed buffers.", "anchors": ["include/ipaddress/base-v6.hpp:ip_from_string", "include/ipaddress/base-v6.hpp:split_parts", "include/ipaddress/base-v6.hpp:get_parts_bound", "include/ipaddress/base-v6.hpp:parse_parts"]}
{"id": "C10", "title": "IPv6 parser completeness", "statement": "Every RFC 4291 textual IPv6 address (without scope id, or with an admissible one) is accepted by ipv6_address::parse.", "quantifier": "every string in the RFC 4291 grammar", "why_tests_cant": "The grammar is large; tests sample the common shapes and miss corners such as '::' together with an IPv4 tail.", "anchors": ["include/ipaddress/base-v6.hpp:split_parts", "include/ipaddress/base-v6.hpp:get_parts_bound"]}
{"id": "C11", "title": "IPv6 compressed text is canonical (RFC 5952)", "statement": "to_string in compressed format uses lower case hex without leading zeros, replaces exactly one run of zero groups by '::' when a run of length at least two exists, and that run is the leftmost one of maximal length; no '::' appears otherwise.", "quantifier": "all IPv6 addresses", "why_tests_cant": "All patterns of zero runs and values cannot be enumerated by hand.", "anchors": ["include/ipaddress/base-v6.hpp:ip_to_chars"]}
{"id": "C12", "title": "IPv6 formatting stays inside its buffer", "statement": "Formatting any IPv6 address with any scope id in any format writes at most 41+scope_max characters including the terminator, and never indexes outside the hextet or result buffers.", "quantifier": "all addresses, scope ids, formats and configured scope lengths", "why_tests_cant": "Out of bounds writes are invisible to value assertions.", "anchors": ["include/ipaddress/base-v6.hpp:ip_to_chars"]}
{"id": "C13", "title": "IPv6 parser never leaves its buffers", "statement": "For every input text the IPv6 parser terminates without indexing outside any of its fixed size arrays (parts, last_part, scope buffer, 16 result bytes) and without unsigned underflow in the group arithmetic.", "quantifier": "every character string, every configured scope length", "why_tests_cant": "Fuzzing samples; absence of out of bounds access needs all inputs.", "anchors": ["include/ipaddress/base-v6.hpp:split_scope_id", "include/ipaddress/base-v6.hpp:split_parts", "include/ipaddress/base-v6.hpp:get_parts_bound", "include/ipaddress/base-v6.hpp:parse_parts"]}
{"id": "C14", "title": "IPv6 integer conversion", "statement": "from_uint and to_uint are inverse bijections between 128 bit integers and scope free IPv6 addresses, and to_uint is the big endian value of the 16 bytes independently of the host byte order.", "quantifier": "all 128 bit integers and addresses, both host byte orders", "why_tests_cant": "Tests run on one byte order and sample values.", "anchors": ["include/ipaddress/ipv6-address.hpp:from_uint", "include/ipaddress/ipv6-address.hpp:to_uint"]}
{"id": "C15", "title": "IPv6 ordering is a strict total order", "statement": "The comparison operators on IPv6 addresses form a strict total order consistent with equality: first by the 128 bit value, then by scope id; this holds for the three way operator and for the operator< used when <=> is unavailable.", "quantifier": "all pairs and triples of IPv6 addresses with scope ids, both comparison implementations", "why_tests_cant": "Order axioms quantify over all triples; the fallback operator is only compiled in old standards.", "anchors": ["include/ipaddress/ipv6-address.hpp:less", "include/ipaddress/ipv6-address.hpp:compare", "include/ipaddress/fixed-string.hpp:compare"]}
{"id": "C16", "title": "IPv4 addresses embedded in IPv6", "statement": "ipv4_mapped() returns a value exactly for addresses in ::ffff:0:0/96 and then the low 32 bits; sixtofour() exactly for 2002::/16 and then bits 16..47; teredo() exactly for 2001::/32 and then the server in bits 32..63 and the complement of the low 32 bits.", "quantifier": "all IPv6 addresses", "why_tests_cant": "The negative direction (no value for all other addresses) ranges over 2^128 addresses.", "anchors": ["include/ipaddress/ipv6-address.hpp:ipv4_mapped", "include/ipaddress/ipv6-address.hpp:sixtofour", "include/ipaddress/ipv6-address.hpp:teredo"]}
{"id": "C17", "title": "Setting a scope id is exact and atomic", "statement": "set_scope_id(s) succeeds iff s is at most the maximum length and contains no forbidden symbol; on success get_scope_id().get_string() is s and the address bytes are unchanged; on failure the whole address, including its old scope id, is unchanged.", "quantifier": "all addresses, all scope strings", "why_tests_cant": "All strings and all previous states; failure atomicity needs every error path.", "anchors": ["include/ipaddress/ipv6-address.hpp:ipv6_set_scope::change", "include/ipaddress/base-v6.hpp:is_invalid_scope_id_symbol"]}
{"id": "C18", "title": "Numeric value of a scope id", "statement": "has_uint32() holds iff the scope id is a non empty decimal number representable in 32 bits, and get_uint32() is then that number and otherwise 0.", "quantifier": "all scope ids", "why_tests_cant": "Overflow appears only for specific long digit strings.", "anchors": ["include/ipaddress/ipv6-address.hpp:scope::parse_value"]}
{"id": "C19", "title": "Equal values hash equally", "statement": "Two addresses or networks that compare equal have the same hash().", "quantifier": "all pairs of addresses and networks, both families and the version agnostic types", "why_tests_cant": "Quantifies over all pairs of equal but differently constructed values (stale buffer contents).", "anchors": ["include/ipaddress/hash.hpp:calc_hash", "include/ipaddress/ipv6-address.hpp:hash", "include/ipaddress/fixed-string.hpp:hash", "include/ipaddress/ip-network-base.hpp:hash"]}
{"id": "C20", "title": "Version agnostic parsing is unambiguous", "statement": "No text is accepted by both the IPv4 and the IPv6 address parser; ip_address::parse succeeds iff one of them does, returns that result with the right version, and round-trips with to_string.", "quantifier": "every character string", "why_tests_cant": "Disjointness of two infinite languages.", "anchors": ["include/ipaddress/ip-any-address.hpp:ip_any_parser::parse"]}
{"id": "C21", "title": "Reverse DNS pointers", "statement": "reverse_pointer() of an IPv4 address a.b.c.d is d.c.b.a.in-addr.arpa, and of an IPv6 address is its 32 hex nibbles, least significant first, separated by dots, followed by .ip6.arpa; distinct addresses (ignoring scope) have distinct pointers.", "quantifier": "all addresses of both families", "why_tests_cant": "Injectivity ranges over all pairs of addresses.", "anchors": ["include/ipaddress/base-v4.hpp:ip_reverse_pointer", "include/ipaddress/base-v6.hpp:ip_reverse_pointer"]}
{"id": "C22", "title": "Netmask from prefix length", "statement": "For every prefix length p not greater than the address width the netmask has exactly p leading one bits and zeros elsewhere; larger prefix lengths are rejected rather than causing undefined behaviour.", "quantifier": "all prefix lengths (size_t), both families", "why_tests_cant": "Out of range values are undefined behaviour, which tests cannot observe reliably.", "anchors": ["include/ipaddress/base-v4.hpp:ip_from_prefix", "include/ipaddress/base-v6.hpp:ip_from_prefix", "include/ipaddress/ip-network-base.hpp:from_address"]}
{"id": "C23", "title": "Netmask text", "statement": "The text after '/' in a network is accepted iff it is a decimal prefix length not greater than the width or (IPv4 only) a dotted netmask or hostmask of contiguous ones, and the prefix length obtained is the number of network bits it denotes.", "quantifier": "every character string, every prefix length", "why_tests_cant": "Integer wrap around and shift corner cases occur at single points of an infinite space.", "anchors": ["include/ipaddress/base-v4.hpp:parse_netmask", "include/ipaddress/base-v4.hpp:prefix_from_ip_uint32", "include/ipaddress/base-v6.hpp:parse_netmask"]}
{"id": "C24", "title": "Networks never carry host bits", "statement": "from_address and parse in strict mode fail with has_host_bits_set iff the address has a bit set outside the netmask; in non strict mode they clear exactly those bits; so every network obtained has network_address() & hostmask() == 0 and a netmask matching prefixlen().", "quantifier": "all addresses, prefix lengths within range, both modes", "why_tests_cant": "Invariant over all constructible networks.", "anchors": ["include/ipaddress/ip-network-base.hpp:from_address", "include/ipaddress/base-v4.hpp:strict_netmask", "include/ipaddress/base-v6.hpp:strict_netmask"]}
{"id": "C25", "title": "Network text round trip", "statement": "For every network n (either family, including scoped IPv6 networks) parse(n.to_string(format)) succeeds in strict mode and returns a network equal to n with the same prefix length.", "quantifier": "all networks, all formats", "why_tests_cant": "All addresses times all prefix lengths.", "anchors": ["include/ipaddress/ip-network-base.hpp:to_string", "include/ipaddress/ip-network-base.hpp:parse_address_with_prefix"]}
{"id": "C26", "title": "Network parser rejects trailing or overlong text", "statement": "A network text is accepted only if the complete part before the (single) slash is an acceptable address and the complete part after it is an acceptable mask; no character of the input is ignored.", "quantifier": "every character string", "why_tests_cant": "Silent truncation happens only for inputs longer than an internal buffer.", "anchors": ["include/ipaddress/ip-network-base.hpp:parse_address_with_prefix"]}
{"id": "C27", "title": "contains is the address interval", "statement": "net.contains(a) holds iff network_address() <= a <= broadcast_address() as integers, iff a and the network address agree on the first prefixlen() bits.", "quantifier": "all networks and addresses, both families", "why_tests_cant": "All networks times all addresses.", "anchors": ["include/ipaddress/ip-network-base.hpp:contains"]}
{"id": "C28", "title": "overlaps means sharing an address", "statement": "a.overlaps(b) holds iff some address belongs to both networks; it is symmetric, and overlapping networks are always nested.", "quantifier": "all pairs of networks", "why_tests_cant": "Existential over 2^128 addresses.", "anchors": ["include/ipaddress/ip-network-base.hpp:overlaps"]}
{"id": "C29", "title": "subnet_of is set inclusion", "statement": "a.subnet_of(b) holds iff every address of a belongs to b; it is a partial order and supernet_of is its converse.", "quantifier": "all pairs and triples of (scope free) networks", "why_tests_cant": "Universal over all addresses of a network.", "anchors": ["include/ipaddress/ip-network-base.hpp:is_subnet_of", "include/ipaddress/ip-network-base.hpp:subnet_of", "include/ipaddress/ip-network-base.hpp:supernet_of"]}
{"id": "C30", "title": "Broadcast, hostmask and address count", "statement": "hostmask is the complement of netmask, broadcast_address is the largest address of the network, and addresses_count() is the number of addresses contained in it.", "quantifier": "all networks", "why_tests_cant": "Counts up to 2^128 elements; overflow at prefix length 0.", "anchors": ["include/ipaddress/ip-network-base.hpp:broadcast_address", "include/ipaddress/ip-network-base.hpp:hostmask", "include/ipaddress/ip-network-base.hpp:addresses_count"]}
{"id": "C31", "title": "hosts() enumerates the usable hosts", "statement": "Iterating hosts() from begin() to end() yields, in increasing order and exactly once, all addresses of the network except network and broadcast address (IPv4) or except the network address (IPv6); for the two longest prefix lengths it yields all addresses. size(), indexing, front() and back() agree with that sequence.", "quantifier": "all networks of both families", "why_tests_cant": "Sequence lengths up to 2^128; the failures are at the top of the address space.", "anchors": ["include/ipaddress/ip-address-iterator.hpp:hosts_sequence", "include/ipaddress/ip-network-base.hpp:hosts"]}
{"id": "C32", "title": "subnets() partitions the network", "statement": "Iterating subnets(diff) yields in increasing order 2^diff networks of prefix length prefixlen()+diff that are pairwise disjoint and whose union is the network; size(), indexing and back() agree.", "quantifier": "all networks and admissible prefix differences", "why_tests_cant": "Exponentially many subnets; failures are at the top of the address space and at prefix length 0.", "anchors": ["include/ipaddress/ip-network-base.hpp:subnets", "include/ipaddress/ip-network-iterator.hpp:subnets_sequence"]}
{"id": "C33", "title": "supernet() is the enclosing network", "statement": "For an admissible difference, supernet(diff) is the unique network with prefix length prefixlen()-diff that contains the network; no undefined behaviour occurs.", "quantifier": "all networks and differences", "why_tests_cant": "Full width shifts are undefined behaviour that tests do not detect.", "anchors": ["include/ipaddress/ip-network-base.hpp:supernet"]}
{"id": "C34", "title": "address_exclude() is set difference", "statement": "Iterating address_exclude(other) yields pairwise disjoint networks whose union is exactly the addresses of the network that are not in other; there are as many as the difference of prefix lengths.", "quantifier": "all pairs of networks with other contained in net", "why_tests_cant": "All pairs of networks; sentinel collisions occur at isolated points.", "anchors": ["include/ipaddress/ip-network-base.hpp:address_exclude", "include/ipaddress/ip-network-iterator.hpp:ip_exclude_network_iterator"]}
{"id": "C35", "title": "Error reporting of subnets, supernet and address_exclude", "statement": "Each operation reports an error exactly when its arguments are inadmissible (prefix too long or short, both difference and new prefix given, difference out of range, network not contained) and then the documented code.", "quantifier": "all networks and arguments, including extreme size_t values", "why_tests_cant": "Boundary and wrap around combinations of several size_t arguments.", "anchors": ["include/ipaddress/ip-network-base.hpp:subnets", "include/ipaddress/ip-network-base.hpp:supernet", "include/ipaddress/ip-network-base.hpp:address_exclude"]}
{"id": "C36", "title": "Random access iterator laws", "statement": "For address and subnet iterators, (it+n)-n == it, it+(m+n) == (it+m)+n, it[n] == *(it+n), ++ is +1, -- undoes ++, and (it+n).uint_diff(it) == n while no wrap past the end occurs; signed offsets behave as integers: it+(-1) == it-1 and (it+n)-it == n.", "quantifier": "all iterators and offsets", "why_tests_cant": "Algebraic laws over all iterator positions and 64/128 bit offsets.", "anchors": ["include/ipaddress/ip-address-iterator.hpp:ip_address_iterator", "include/ipaddress/ip-network-iterator.hpp:ip_network_iterator"]}
{"id": "C37", "title": "Reverse iteration", "statement": "Iterating rbegin() to rend() of hosts() or subnets() visits the forward sequence backwards, and base() of a reverse iterator made from it is it.", "quantifier": "all networks whose sequences do not wrap", "why_tests_cant": "Sequence lengths up to 2^128.", "anchors": ["include/ipaddress/ip-address-iterator.hpp:ip_reverse_iterator", "include/ipaddress/ip-network-iterator.hpp:base", "include/ipaddress/ip-network-iterator.hpp:reverse"]}
{"id": "C38", "title": "Network equality and ordering", "statement": "Two networks are equal iff they have the same network address and the same prefix length, and <, <=, >, >= are a strict total order refining first the network address, then the prefix length.", "quantifier": "all pairs and triples of networks", "why_tests_cant": "Order axioms over all triples.", "anchors": ["include/ipaddress/ip-network-base.hpp:operator==", "include/ipaddress/ip-network-base.hpp:operator<"]}
{"id": "C39", "title": "Address classification", "statement": "is_multicast, is_private, is_global, is_reserved, is_loopback, is_link_local, is_site_local and is_unspecified of an address hold iff its integer value lies in the corresponding registry ranges.", "quantifier": "all addresses of both families", "why_tests_cant": "Range membership over the whole address space; boundaries of every range.", "anchors": ["include/ipaddress/ip-networks.hpp:props", "include/ipaddress/ip-address-base.hpp:is_unspecified"]}
{"id": "C40", "title": "Network classification agrees with its addresses", "statement": "A network is_multicast / is_loopback / is_link_local / is_site_local / is_reserved / is_private / is_unspecified iff all of its addresses are.", "quantifier": "all networks", "why_tests_cant": "Universal over the addresses of a network; end point checks are not enough for unions of ranges.", "anchors": ["include/ipaddress/ip-network-base.hpp:is_multicast", "include/ipaddress/ip-network-base.hpp:is_reserved", "include/ipaddress/ip-networks.hpp:props<ipv4_network>", "include/ipaddress/ip-networks.hpp:props<ipv6_network>"]}
{"id": "C41", "title": "uint128 addition, subtraction and multiplication", "statement": "operator+, operator-, operator*, unary minus, ++ and -- compute the mathematical result modulo 2^128.", "quantifier": "all pairs of 128 bit values", "why_tests_cant": "2^256 operand pairs; carry bugs are rare.", "anchors": ["include/ipaddress/uint128.hpp:operator+", "include/ipaddress/uint128.hpp:operator-", "include/ipaddress/uint128.hpp:operator*", "include/ipaddress/uint128.hpp:big_mul"]}
{"id": "C42", "title": "uint128 division and remainder", "statement": "For a non zero divisor, operator/ is the floor quotient and operator% the remainder: a == (a/b)*b + a%b and a%b < b.", "quantifier": "all pairs of 128 bit values with non zero divisor", "why_tests_cant": "The quotient digit correction step of long division is needed for about 2 in 2^32 operand pairs, so random tests do not reach it.", "anchors": ["include/ipaddress/uint128.hpp:divide", "include/ipaddress/uint128.hpp:divide_slow", "include/ipaddress/uint128.hpp:subtract_divisor", "include/ipaddress/uint128.hpp:add_divisor"]}
{"id": "C43", "title": "uint128 shifts, bit operations and comparison", "statement": "<< and >> are multiplication modulo 2^128 and floor division by powers of two for every shift amount from 0 to 128 without undefined behaviour; &, |, ^, ~ act bitwise; the comparison operators are the numeric order.", "quantifier": "all values and shift amounts", "why_tests_cant": "The shift by exactly the width is undefined behaviour on 64 bit halves.", "anchors": ["include/ipaddress/uint128.hpp:operator<<", "include/ipaddress/uint128.hpp:operator>>", "include/ipaddress/uint128.hpp:operator<"]}
{"id": "C44", "title": "uint128 text round trip", "statement": "from_string(to_string(v, fmt), fmt) == v for octal, decimal and hexadecimal; to_string has no leading zeros; from_string rejects every string with a character that is not a digit of the base, and a result that does not fit in 128 bits.", "quantifier": "all values, all strings, three bases", "why_tests_cant": "All 2^128 values.", "anchors": ["include/ipaddress/uint128.hpp:to_string", "include/ipaddress/uint128.hpp:str_to_uint128"]}
{"id": "C45", "title": "Text encodings are equivalent", "statement": "Parsing an ASCII text given as char, UTF-8, UTF-16, UTF-32 or wchar_t gives the same result; a well formed text containing a non ASCII code point is rejected, and the error is unexpected_symbol naming that code point when the text before it can be continued to an accepted one.", "quantifier": "all ASCII strings and all code points, four encodings", "why_tests_cant": "All strings in all encodings.", "anchors": ["include/ipaddress/unicode.hpp:utf8_reader", "include/ipaddress/unicode.hpp:utf16_reader", "include/ipaddress/unicode.hpp:utf32_reader"]}
{"id": "C46", "title": "Ill formed Unicode is rejected", "statement": "A code unit sequence that is not well formed (overlong or truncated UTF-8, stray continuation byte, unpaired surrogate) is never decoded to an ASCII character; reading it reports an error.", "quantifier": "all code unit sequences", "why_tests_cant": "All byte sequences; overlong forms are not in the test corpus.", "anchors": ["include/ipaddress/unicode.hpp:utf8_next_or_error", "include/ipaddress/unicode.hpp:trailing_utf8_code_point", "include/ipaddress/unicode.hpp:utf16_next_or_error"]}
{"id": "C47", "title": "fixed_string comparison", "statement": "compare() on fixed strings of any capacities is a total order, zero exactly for equal contents, antisymmetric and transitive; swap exchanges contents; front and back return the first and last character; strings that compare equal have equal hashes.", "quantifier": "all fixed strings", "why_tests_cant": "Order axioms over all triples; stale bytes behind shorter strings.", "anchors": ["include/ipaddress/fixed-string.hpp:compare", "include/ipaddress/fixed-string.hpp:swap", "include/ipaddress/fixed-string.hpp:back"]}
{"id": "C48", "title": "Stream output and input", "statement": "operator<< with the uppercase flag changes only the case of the address part, not of the scope id, and reading the output back with operator>> yields the same address; the format manipulator applies to one output only; operator>> sets failbit iff parsing fails.", "quantifier": "all addresses and networks, stream flags", "why_tests_cant": "All addresses; state carried in the stream across operations.", "anchors": ["include/ipaddress/ip-address-base.hpp:operator<<", "include/ipaddress/ip-address-base.hpp:operator>>", "include/ipaddress/ip-network-base.hpp:operator<<"]}
{"id": "C49", "title": "Version agnostic networks", "statement": "Operations of ip_network (contains, overlaps, subnet_of, hosts, subnets, address_exclude, comparisons) agree with the operations of the wrapped IPv4 or IPv6 network when versions match, and are false or an invalid_version error when they differ; size() of its sequences equals the number of elements.", "quantifier": "all networks of both versions", "why_tests_cant": "All pairs of networks.", "anchors": ["include/ipaddress/ip-any-network.hpp:ip_network", "include/ipaddress/ip-any-iterator.hpp:ip_any_iterator"]}
{"id": "C50", "title": "Exceptions carry the reported code", "statement": "When parsing without an error_code argument fails, the exception carries the same code that the error_code overload reports, its class is parse_error exactly for input errors and logic_error for argument errors, and building the message copies at most 100 characters into its 104 character buffer.", "quantifier": "all error codes, all input lengths", "why_tests_cant": "All inputs lengths for the buffer bound, all codes.", "anchors": ["include/ipaddress/errors.hpp:raise_error", "include/ipaddress/ip-address-base.hpp:parse_string"]}
{"id": "C51", "title": "String literals", "statement": "The user defined literals raise string_is_too_long for literals longer than the maximum text length and otherwise behave as parse on the same text.", "quantifier": "all literals", "why_tests_cant": "All lengths.", "anchors": ["include/ipaddress/ip-address-base.hpp:parse_ip_from_literal", "include/ipaddress/ip-network-base.hpp:parse_net_from_literal"]}
{"id": "C52", "title": "uint128 from floating point", "statement": "Converting a finite double in [1, 2^128) truncates toward zero exactly; values below one give zero.", "quantifier": "all double bit patterns in that range", "why_tests_cant": "2^60 bit patterns.", "anchors": ["include/ipaddress/uint128.hpp:from_double"]}
{"id": "C53", "title": "Swap", "statement": "swap on addresses, networks and fixed strings exchanges the two observable values exactly.", "quantifier": "all pairs of values", "why_tests_cant": "Stale bytes of previous, longer scope ids must not resurface.", "anchors": ["include/ipaddress/ip-address-base.hpp:swap", "include/ipaddress/fixed-string.hpp:swap", "include/ipaddress/ip-network-base.hpp:swap"]}
{"id": "C54", "title": "Version agnostic addresses", "statement": "An ip_address reports the version, size, bytes, scope id, integer values, classification and embedded IPv4 addresses of the wrapped IPv4 or IPv6 address; from_bytes and from_uint make the address of the requested version; set_scope_id changes only the scope id of an IPv6 address; addresses are ordered IPv4 before IPv6, then by value, then by scope id.", "quantifier": "all addresses of both versions, all integers, byte buffers and scope ids, both language modes", "why_tests_cant": "Quantifies over all addresses and all pairs of addresses of mixed versions.", "anchors": ["include/ipaddress/ip-any-address.hpp:ip_address"]}
{"id": "C55", "title": "Comparison operators are coherent", "statement": "For every comparable type (byte arrays, addresses, networks, version agnostic wrappers, uint128_t, fixed_string, iterators) the six operators ==, !=, <, >, <=, >= are those of one total order of the values, the same order with and without operator<=>.", "quantifier": "all pairs of values of each type, both language modes (C++20 with operator<=>, earlier without)", "why_tests_cant": "All pairs of values; tests run one language mode.", "anchors": ["include/ipaddress/ip-address-base.hpp:operator<=>", "include/ipaddress/ip-network-base.hpp:operator<", "include/ipaddress/ip-any-iterator.hpp:operator<", "include/ipaddress/uint128.hpp:operator<", "include/ipaddress/fixed-string.hpp:operator<"]}
{"id": "C56", "title": "Iterators are ordered by position", "statement": "Advancing an iterator of hosts() or subnets(), or its reverse, by m and by n gives iterators that compare as m and n do.", "quantifier": "all iterators, all m and n that stay in the sequence", "why_tests_cant": "All positions of sequences with up to 2^128 elements, including the ends of the address space.", "anchors": ["include/ipaddress/ip-address-iterator.hpp:operator<", "include/ipaddress/ip-network-iterator.hpp:operator<", "include/ipaddress/ip-address-iterator.hpp:ip_reverse_iterator"]}
{"id": "C57", "title": "uint128 to floating point", "statement": "Converting a uint128_t to double rounds to nearest, ties to even, so it keeps the order of values and is exact for values that are doubles; a double converted to uint128_t and back is its integral part; conversion to float gives the nearest float.", "quantifier": "all 128 bit values", "why_tests_cant": "2^128 values; rounding errors show only for particular low bits.", "anchors": ["include/ipaddress/uint128.hpp:to_double"]}
{"id": "C58", "title": "uint128 and built-in integers", "statement": "Conversion from a built-in integer is modulo 2^128, conversion to one is modulo its number of values, a round trip is the identity; operators, compound assignments and comparisons with a built-in operand on either side use its value modulo 2^128; postfix operators, logical operators, numeric_limits and swap behave as for built-in unsigned integers.", "quantifier": "all 128 bit values, all built-in integer types up to 64 bits and their values", "why_tests_cant": "All pairs of values and types.", "anchors": ["include/ipaddress/uint128.hpp:uint128_t", "include/ipaddress/uint128.hpp:operator+=", "include/ipaddress/uint128.hpp:numeric_limits"]}
{"id": "C59", "title": "Text in other character types", "statement": "to_wstring, to_u16string, to_u32string, to_u8string and the conversions to std::basic_string of addresses, networks and uint128_t give the text of to_string in that character type, and parsing it in the same character type yields the same object (scope ids in ASCII).", "quantifier": "all addresses, networks and 128 bit values, all formats, all four character types, strict and non strict", "why_tests_cant": "All values times formats times encodings; scope ids with bytes over 127 behave differently in every encoding.", "anchors": ["include/ipaddress/unicode.hpp:string_converter", "include/ipaddress/ip-address-base.hpp:to_wstring", "include/ipaddress/ip-network-base.hpp:to_u16string", "include/ipaddress/uint128.hpp:to_u8string"]}
{"id": "C60", "title": "Error codes report the outcome of their call", "statement": "Whatever the error_code variable held before a call, afterwards it is no_error if the call succeeded, with the result of the overload without error_code, and otherwise the code of the exception that overload throws, with a default constructed result (an unchanged address for set_scope_id).", "quantifier": "all functions taking an error_code, all arguments, all old values of the variable", "why_tests_cant": "Tests use a fresh variable for every call; a stale code shows only when it is reused.", "anchors": ["include/ipaddress/ip-address-base.hpp:parse", "include/ipaddress/ip-network-base.hpp:subnets", "include/ipaddress/ip-network-base.hpp:address_exclude", "include/ipaddress/ip-any-network.hpp:subnets", "include/ipaddress/ipv6-address.hpp:set_scope_id", "include/ipaddress/fixed-string.hpp:fixed_string"]}
{"id": "C61", "title": "Programs without exceptions", "statement": "Built with IPADDRESS_NO_EXCEPTIONS, functions without error_code return the value they return with exceptions enabled, and a default constructed or empty result where they would throw.", "quantifier": "all texts of all character types, all addresses, networks and arguments, all literals", "why_tests_cant": "Failing paths run on with partial results; every failing text and argument would have to be tried in a second build.", "anchors": ["include/ipaddress/errors.hpp:raise_error", "include/ipaddress/ip-address-base.hpp:parse_ip_from_literal", "include/ipaddress/ip-network-base.hpp:parse_net_from_literal", "include/ipaddress/ip-any-address.hpp:parse"]}
{"id": "C62", "title": "Parsing during compilation", "statement": "A constant initialised by parse from a string literal compiles exactly if the same call accepts the text at run time, and then is the same object; an ipv4_address made from an integer literal compiles exactly for integers below 2^32 and has that number.", "quantifier": "all literals of all character types and lengths, addresses and networks of both versions and the version agnostic ones, all 64 bit integers, with and without assert", "why_tests_cant": "Whether a literal compiles cannot be observed by a running test; each text needs its own compilation.", "anchors": ["include/ipaddress/ip-address-base.hpp:parse", "include/ipaddress/ip-network-base.hpp:parse", "include/ipaddress/ip-any-address.hpp:parse", "include/ipaddress/ip-any-network.hpp:parse", "include/ipaddress/ipv4-address.hpp:ipv4_address", "include/ipaddress/errors.hpp:raise_error"]}
{"id": "C63", "title": "Containers", "statement": "Iterating over a byte_array or fixed_string forwards and backwards yields exactly its elements in order and in reverse, front, back, indexing and at yield the element at that place and throw std::out_of_range outside, an assignment changes that element only; an optional holds what its last constructor or assignment put there.", "quantifier": "all arrays of all sizes, all fixed strings, all indices, all sequences of assignments", "why_tests_cant": "All sizes and all sequences of operations; reads outside an array rarely crash a test.", "anchors": ["include/ipaddress/byte-array.hpp:byte_array", "include/ipaddress/fixed-string.hpp:fixed_string", "include/ipaddress/optional.hpp:optional"]}
{"id": "C64", "title": "Hashes tell close objects apart", "statement": "Addresses that differ in exactly one octet (such as the addresses of a /24 or an IPv6 /120) or in exactly one character of the scope id have different hashes; so do networks that differ in one octet of the address or only in the prefix length, and uint128_t values that differ in one half.", "quantifier": "all pairs of addresses, networks, fixed strings and 128 bit integers that differ in one place; 64 and 32 bit size_t", "why_tests_cant": "All pairs of values; the mixing step must be a permutation of all 2^64 states.", "anchors": ["include/ipaddress/hash.hpp:hash_combine", "include/ipaddress/hash.hpp:calc_hash", "include/ipaddress/ipv4-address.hpp:hash", "include/ipaddress/ipv6-address.hpp:hash", "include/ipaddress/ip-network-base.hpp:hash", "include/ipaddress/fixed-string.hpp:hash", "include/ipaddress/uint128.hpp:hash"]}
{"id": "C65", "title": "Scope objects and scope ids from arrays", "statement": "get_scope_id returns an object with exactly the text of the scope id, a string exactly if it is not empty, and a number exactly if it is decimal; it is empty for IPv4; scopes compare as their texts, and equal scopes have equal numbers. set_scope_id from an array has the outcome of set_scope_id from a string of the same text, in all character types, with error_code and without exceptions.", "quantifier": "all addresses, all scope ids, all arrays of all character types, all lengths of the array up to the maximum", "why_tests_cant": "All texts times four character types times three error conventions.", "anchors": ["include/ipaddress/ipv6-address.hpp:scope", "include/ipaddress/ipv6-address.hpp:get_scope_id", "include/ipaddress/ipv6-address.hpp:set_scope_id", "include/ipaddress/ip-any-address.hpp:get_scope_id", "include/ipaddress/ip-any-address.hpp:set_scope_id"]}
{"id": "C66", "title": "Byte order of the host", "statement": "On hosts of either byte order the same texts parse to the same addresses and networks, networks have the same addresses, netmasks, supernets, hosts and subnets, compare in the same order and hash equally, and addresses have the same classes; only to_uint and from_uint may differ.", "quantifier": "all addresses, networks and texts, little and big endian hosts", "why_tests_cant": "The tests run on one byte order only.", "anchors": ["include/ipaddress/endian.hpp:is_little_endian", "include/ipaddress/base-v4.hpp:ip_from_uint32", "include/ipaddress/base-v4.hpp:ip_from_prefix", "include/ipaddress/ipv6-address.hpp:to_uint", "include/ipaddress/ipv6-address.hpp:from_uint"]}
{"id": "C67", "title": "Fields of streams", "statement": "operator<< fills the text of an address, network or number up to the field width, resets the width and the format, and writes nothing to a stream that is not good; a table of objects written with any widths and white space as fill is read back as written; operator>> reads at most width characters, honours skipws, throws only as exceptions() says, and leaves the object unchanged if the word cannot be read with an exception, at its default value after any other failure.", "quantifier": "all objects, field widths, fills, adjustments, stream states, exception masks and inputs", "why_tests_cant": "The combinations of width, fill, flags, exception mask and stream state with every text cannot be enumerated.", "anchors": ["include/ipaddress/ip-address-base.hpp:operator<<", "include/ipaddress/ip-address-base.hpp:operator>>", "include/ipaddress/ip-network-base.hpp:operator>>", "include/ipaddress/uint128.hpp:operator>>"]}
{"id": "C68", "title": "Operations on networks agree with each other", "statement": "contains(a) holds exactly when from_address(a, prefixlen(), false) is the network; a network is rebuilt from its address and from each address it contains; two networks overlap exactly when one is subnet_of the other; supernet(d) is the only network of that prefix length of which the network is a subnet, and supernets compose; the loop over subnets(d) visits exactly the networks of that prefix length for which subnet_of holds, each with the network as supernet(d) and none overlapping; hosts() visits the contained addresses without the reserved ones; the parts of address_exclude(o) are subnets, overlap neither o nor each other, and contain the rest.", "quantifier": "all pairs of networks of a family, all addresses and all prefix length differences", "why_tests_cant": "Laws between operations quantify over pairs of networks and all their addresses, far more than tests can list.", "anchors": ["include/ipaddress/ip-network-base.hpp:contains", "include/ipaddress/ip-network-base.hpp:overlaps", "include/ipaddress/ip-network-base.hpp:subnet_of", "include/ipaddress/ip-network-base.hpp:supernet", "include/ipaddress/ip-network-base.hpp:subnets", "include/ipaddress/ip-network-base.hpp:address_exclude"]}
{"id": "C69", "title": "Standard algorithms on the sequences agree with their elements", "statement": "With begin(), end(), rbegin() and rend() of hosts() and subnets(), std::copy and std::copy_backward deliver exactly the elements; it[i], it + i and it - i with signed i reach the i-th element and come back; std::distance is the number of elements; std::lower_bound, std::upper_bound and std::binary_search find the place of every value.", "quantifier": "all networks of both families and of ip_network, all prefix length differences, all values searched for", "why_tests_cant": "The algorithms move by halves of the distance, so their results depend on the size of the network; there are networks of up to 2^128 addresses.", "anchors": ["include/ipaddress/ip-address-iterator.hpp:ip_address_iterator", "include/ipaddress/ip-network-iterator.hpp:ip_network_iterator", "include/ipaddress/ip-any-iterator.hpp:ip_any_iterator", "include/ipaddress/ip-address-iterator.hpp:ip_reverse_iterator"]}
{"id": "C70", "title": "The unions of the version agnostic classes are read through their active member only", "statement": "ip_address, ip_network and ip_any_iterator hold a union and a tag. However objects are created, parsed, copied, assigned, exchanged and given scope ids, the tag names the active member, so that no member function reads the inactive one and value() is never called on an empty optional; every member function then returns what the function of the contained IPv4 or IPv6 object returns, and versions decide comparisons of mixed objects.", "quantifier": "all sequences of operations on any number of objects, all contained values, all member functions", "why_tests_cant": "Reading the inactive member of a union is undefined behaviour that usually shows plausible values; it depends on the history of the object, of which there are infinitely many.", "anchors": ["include/ipaddress/ip-any-address.hpp:ip_address", "include/ipaddress/ip-any-network.hpp:ip_network", "include/ipaddress/ip-any-iterator.hpp:ip_any_iterator"]}
{"id": "C71", "title": "Detection of the byte order and of the settings", "statement": "Where the headers compile on a platform whose macros are true, is_little_endian() is the byte order of the host and the members of uint128_t are in its order; they compile wherever the platform says its byte order in one of the ways that endian.hpp lists. The user setting decides unless std::endian exists. The maximum length of scope ids is the one asked for, limited to 0..64, and 16 by default.", "quantifier": "all environments of macros and headers, both byte orders", "why_tests_cant": "Tests run on a handful of platforms with the macros of these platforms; the lists for other platforms are never compiled.", "anchors": ["include/ipaddress/endian.hpp:is_little_endian", "include/ipaddress/config.hpp:IPADDRESS_CPP_VERSION", "include/ipaddress/config.hpp:IPADDRESS_IPV6_SCOPE_MAX_LENGTH", "include/ipaddress/uint128.hpp:uint128_t"]}
{"id": "C72", "title": "Errors during compilation in builds without exceptions", "statement": "Built with IPADDRESS_NO_EXCEPTIONS, a constant initialised from a text compiles exactly if the text is accepted, and then has its value; when the program runs, the same functions return the address or a default constructed object and have no undefined behaviour.", "quantifier": "all compilers as described by their macros, all texts, evaluation by the compiler and by the program", "why_tests_cant": "Compilation errors cannot be observed by a test that has been compiled, and the behaviour depends on the compiler and on what its optimiser knows.", "anchors": ["include/ipaddress/errors.hpp:raise_error", "include/ipaddress/config.hpp:IPADDRESS_IS_CONST_EVALUATED"]}
{"id": "C73", "title": "Messages of exceptions", "statement": "what() of an exception is the sentence of its code, in which the number of the octet or part, the symbol and the text stand in their places; ASCII characters of the text are shown as they are, others as {U+xxxx} with at least four hexadecimal digits, and a text of more than 100 code units is cut and followed by three dots.", "quantifier": "all error codes and values, all texts of any length in all character types, all throwing functions", "why_tests_cant": "There are infinitely many texts; the buffer of 104 code units is cut without regard to characters of several code units.", "anchors": ["include/ipaddress/errors.hpp:raise_error", "include/ipaddress/errors.hpp:error", "include/ipaddress/unicode.hpp:print_symbol_code"]}
{"id": "C74", "title": "Errors of the IPv4 parser", "statement": "For a text that is not an IPv4 address the error code says what is wrong at the first place where something is wrong, and its value is the number of the octet there; the exception carries exactly this code, value and sentence.", "quantifier": "all texts of any length, including texts that the reader cannot read to their end", "why_tests_cant": "There are infinitely many wrong texts, and several errors can be present at once; the tests sample one text per code.", "anchors": ["include/ipaddress/base-v4.hpp:ip_from_string", "include/ipaddress/errors.hpp:raise_error"]}
{"id": "C75", "title": "Errors of the IPv6 parser", "statement": "For a text that is not an IPv6 address the error code says what is wrong first - the zone id before the address, the separation into parts before their number, and the number before the symbols - and its value is the number of the part or octet concerned.", "quantifier": "all texts of any length, all maximal lengths of zone ids, both settings for spaces, including texts that the reader cannot read to their end", "why_tests_cant": "There are infinitely many wrong texts, several errors can be present at once, and the tests do not look at the value of the error.", "anchors": ["include/ipaddress/base-v6.hpp:ip_from_string", "include/ipaddress/base-v6.hpp:split_scope_id", "include/ipaddress/base-v6.hpp:split_parts", "include/ipaddress/base-v6.hpp:get_parts_bound", "include/ipaddress/base-v6.hpp:parse_parts", "include/ipaddress/errors.hpp:raise_error"]}
{"id": "C76", "title": "Errors of the network parsers", "statement": "For a text that is not a network the error code says what is wrong first - slashes, then the prefix length or mask, then the address, then host bits - and errors that name an octet or part of the address name the one that is wrong.", "quantifier": "all texts of any length, both versions, strict and not, all maximal lengths of zone ids, including texts that the reader cannot read to their end", "why_tests_cant": "There are infinitely many wrong texts, several errors can be present at once, and the tests do not look at the value of the error.", "anchors": ["include/ipaddress/ip-network-base.hpp:parse_address_with_prefix", "include/ipaddress/base-v4.hpp:parse_netmask", "include/ipaddress/base-v6.hpp:parse_netmask", "include/ipaddress/base-v4.hpp:strict_netmask", "include/ipaddress/base-v6.hpp:strict_netmask", "include/ipaddress/errors.hpp:raise_error"]}
{"id": "C77", "title": "Errors of the parsers for both versions", "statement": "A text that is neither an IPv4 nor an IPv6 address or network is reported with what is wrong with it; in particular a text that can only be meant as IPv4 is reported with what is wrong with it as IPv4.", "quantifier": "all texts of any length, strict and not, all maximal lengths of zone ids", "why_tests_cant": "There are infinitely many texts of neither version, and the error is decided by two parsers one after the other.", "anchors": ["include/ipaddress/ip-any-address.hpp:ip_any_parser::parse", "include/ipaddress/ip-any-network.hpp:net_any_parser::parse", "include/ipaddress/errors.hpp:raise_error"]}
{"id": "C78", "title": "Whatever a program does with networks, iterators and sequences", "statement": "However the functions of networks, iterators and sequences are combined, every network that comes out has the mask of its prefix length and no host bits, every iterator shows the address with which it computes, an operator moves an iterator by the distance it is given, a reverse iterator backwards, and moving an iterator over networks keeps the prefix length.", "quantifier": "all programs: lists of any length of constructor calls, moves, dereferences, subnets, supernets, exclusions, assignments and exchanges, from any addresses, both versions", "why_tests_cant": "There are infinitely many programs; tests run a few calls one after the other and never mix iterators, sequences and exclusions.", "anchors": ["include/ipaddress/ip-network-base.hpp:ip_network_base", "include/ipaddress/ip-network-iterator.hpp:ip_network_iterator", "include/ipaddress/ip-address-iterator.hpp:ip_address_iterator", "include/ipaddress/ip-network-iterator.hpp:subnets_sequence", "include/ipaddress/ip-network-iterator.hpp:exclude_network_sequence", "include/ipaddress/ip-address-iterator.hpp:hosts_sequence"]}
{"id": "C79", "title": "Zone ids in texts and in set_scope_id", "statement": "A zone id is accepted after an address in a text exactly if set_scope_id accepts it, with the same address as result and the same error otherwise; an error leaves the address as it was.", "quantifier": "all addresses, all zone ids of any length and any characters, all maximal lengths, with and without support of spaces", "why_tests_cant": "Two separate loops check zone ids; tests give each a handful of texts and never compare them.", "anchors": ["include/ipaddress/ipv6-address.hpp:ipv6_set_scope::change", "include/ipaddress/base-v6.hpp:split_scope_id", "include/ipaddress/base-v6.hpp:is_invalid_scope_id_symbol"]}
{"id": "C80", "title": "Programs have defined behaviour", "statement": "A program that makes addresses, networks, iterators and sequences and calls their functions in any order and with any arguments runs to its end: errors are exceptions or error codes, never undefined behaviour or std::terminate.", "quantifier": "all programs of any length over all addresses, networks, iterators and sequences of either version, all arguments", "why_tests_cant": "Tests call functions one by one with harmless arguments; undefined behaviour needs particular arguments on objects in particular states, and noexcept functions hide calls that can throw.", "anchors": ["include/ipaddress/ip-network-base.hpp:subnets", "include/ipaddress/ip-network-base.hpp:supernet", "include/ipaddress/ip-network-base.hpp:from_address", "include/ipaddress/ip-network-iterator.hpp:ip_network_iterator", "include/ipaddress/ip-network-iterator.hpp:ip_exclude_network_iterator::operator++", "include/ipaddress/ip-address-iterator.hpp:hosts_sequence"]}
{"id": "C81", "title": "uint128 from floating point numbers of every type", "statement": "Constructing a uint128_t from a float, double or long double gives the integral part of the number, 0 for NaN and negative numbers, and the largest value for infinity and numbers of 2^128 or more; an arithmetic or bitwise operator with such a number on its left uses that value.", "quantifier": "all bit patterns of float and double, all long double values of any binary format", "why_tests_cant": "2^64 doubles and more long doubles; subnormal numbers, NaN payloads, signed zeros and rounding from a longer significand are not covered by samples.", "anchors": ["include/ipaddress/uint128.hpp:uint128_t(double)", "include/ipaddress/uint128.hpp:uint128_t(long double)", "include/ipaddress/uint128.hpp:uint128_t(float)", "include/ipaddress/uint128.hpp:from_double"]}
{"id": "C82", "title": "Programs over uint128 compute modulo 2^128", "statement": "A program over variables of type uint128_t, with any of its operators, mixed operands, assignments, conversions, branches and loops, ends exactly if the same program on numbers modulo 2^128 ends, leaves the same values in its variables, and is never undefined, with or without operator<=>.", "quantifier": "all programs, all initial values, any number of steps", "why_tests_cant": "Tests run single operators on chosen values; that operators compose, in loops of any length, is about all programs.", "anchors": ["include/ipaddress/uint128.hpp:operator+", "include/ipaddress/uint128.hpp:operator%", "include/ipaddress/uint128.hpp:operator<<=", "include/ipaddress/uint128.hpp:operator++", "include/ipaddress/uint128.hpp:operator bool", "include/ipaddress/uint128.hpp:operator<=>"]}
{"id": "C83", "title": "Predicates during static initialisation", "statement": "is_private, is_global, is_multicast, is_reserved, is_loopback, is_link_local and is_site_local of addresses and networks give the same answer whenever they are asked, in particular when the initialiser of a static object asks before main starts.", "quantifier": "all programs that interleave the initialisation of the registry tables with questions, all orders of initialisation, all addresses and networks", "why_tests_cant": "The order of initialisation is chosen by the compiler and linker; a test binary sees one order, and its questions are asked from main.", "anchors": ["include/ipaddress/ip-networks.hpp:networks", "include/ipaddress/ip-networks.hpp:nets", "include/ipaddress/ip-networks.hpp:props"]}
{"id": "C84", "title": "Reading a text stays inside its array", "statement": "Parsing an address, a network, a scope id or an integer, from a string, a view or an array in any encoding, moves its pointers only within the array that holds the text and one past its end, reads only elements of the array, and compares only pointers into it; well formed or not, every text gives a result or an error.", "quantifier": "all texts of any length in char, UTF-8, UTF-16 and UTF-32, all arrays that hold them, all numbers of elements behind the text", "why_tests_cant": "A pointer beyond the end or a comparison with a null pointer gives the expected result on the platforms the tests run on; only texts cut off inside a sequence show it, at the end of an array without room behind it.", "anchors": ["include/ipaddress/unicode.hpp:utf8_next_or_error", "include/ipaddress/unicode.hpp:utf16_next_or_error", "include/ipaddress/base-v6.hpp:split_scope_id", "include/ipaddress/base-v6.hpp:split_parts", "include/ipaddress/fixed-string.hpp:fixed_string", "include/ipaddress/ip-network-base.hpp:parse_address_with_prefix"]}
{"id": "C85", "title": "Numbers in texts do not depend on the installed locale", "statement": "The text of a 128 bit integer, by to_string and by operator<<, and the messages of exceptions are the same whatever locale the program has installed with std::locale::global; a number written is read back as the same number.", "quantifier": "all separators and groupings of digits, all 128 bit integers, all bases, all flags of streams, all error codes and numbers, all texts in all encodings", "why_tests_cant": "Tests run in the classic locale, where no digits are grouped; the locale is a global setting of the program, and the numbers concerned are those of a certain length.", "anchors": ["include/ipaddress/uint128.hpp:to_string", "include/ipaddress/uint128.hpp:uint128_to_dec_str", "include/ipaddress/uint128.hpp:operator<<", "include/ipaddress/unicode.hpp:print_symbol_code", "include/ipaddress/errors.hpp:concatenate"]}
{"id": "C86", "title": "Programs over ip_address and ip_network do what programs over the classes of one version do", "statement": "A program that only holds objects of one version does with ip_address, ip_network, their sequences and iterators what the same program does with the classes of that version: the same objects, exceptions and undefined behaviour. Whatever a program does with objects of both versions, every network it can see is a network of its version, every iterator shows what the iterator inside it shows, and the operators move iterators by the distance they are given.", "quantifier": "all programs over the functions of the classes, of any length, all start addresses of either version, all numbers of 128 bits given to iterators", "why_tests_cant": "A test makes a few calls on one object; a program can apply any function to what any other has returned, and the iterators and sequences hold one of two types of object that each function has to tell apart.", "anchors": ["include/ipaddress/ip-any-network.hpp", "include/ipaddress/ip-any-iterator.hpp", "include/ipaddress/ip-network-iterator.hpp", "include/ipaddress/ip-any-address.hpp"]}
{"id": "C87", "title": "Programs over ip_address and ip_network always have a defined outcome", "statement": "Whatever a program does with addresses and networks of both versions through ip_address, ip_network, their sequences and iterators - also when it compares, excludes or exchanges objects of different versions - each step returns a value or throws an exception; it never ends in undefined behaviour or std::terminate.", "quantifier": "all programs over the functions of the classes and the constructors of excluding iterators, of any length, all start addresses of either version", "why_tests_cant": "Undefined behaviour need not show in a test, and it depends on the version that an object holds at run time, which is the result of all the calls before.", "anchors": ["include/ipaddress/ip-any-network.hpp", "include/ipaddress/ip-any-iterator.hpp", "include/ipaddress/ip-network-iterator.hpp", "include/ipaddress/ip-network-base.hpp", "include/ipaddress/base-v4.hpp"]}
{"id": "C88", "title": "Literals mean the same with all compilers", "statement": "A string literal with a suffix of the library has the same value with every compiler and language version that the headers accept, as a constant and at run time; a text that is not accepted is refused by the compiler or throws, and never ends the program.", "quantifier": "all compilers as described by their macros, all texts of all character types, all six suffixes, constants and calls at run time; integer literals", "why_tests_cant": "Each text would have to be compiled with each compiler, and literals that do not compile cannot be part of a test.", "anchors": ["include/ipaddress/config.hpp:IPADDRESS_NONTYPE_TEMPLATE_PARAMETER", "include/ipaddress/config.hpp:IPADDRESS_CONSTEVAL", "include/ipaddress/ip-address-base.hpp:parse_ip_from_literal", "include/ipaddress/ip-network-base.hpp:parse_net_from_literal", "include/ipaddress/ipv4-address.hpp:_ipv4"]}
{"id": "C89", "title": "Constructors of excluding iterators", "statement": "An excluding iterator or sequence made by its public constructor from two networks walks through exactly the addresses of the first that are not in the second, as address_exclude does, and never ends the program.", "quantifier": "all pairs of IPv4 networks and of IPv6 networks, with and without scope ids", "why_tests_cant": "The tests reach these constructors only through address_exclude, which calls them for proper subnetworks without scope id.", "anchors": ["include/ipaddress/ip-network-iterator.hpp:ip_exclude_network_iterator", "include/ipaddress/ip-network-iterator.hpp:exclude_network_sequence", "include/ipaddress/ip-network-base.hpp:address_exclude"]}
{"id": "C90", "title": "Scope ids of networks", "statement": "Two IPv6 networks that differ only in the scope id behave alike: contains, overlaps, subnet_of, supernet_of, broadcast_address, hostmask, addresses_count, hosts, subnets, supernet and address_exclude give the same results for both.", "quantifier": "all pairs of IPv6 networks with the same address bits and prefix length, all scope ids, all arguments", "why_tests_cant": "The tests have a handful of networks with scope ids, and none of them is compared with the same network without one in all operations.", "anchors": ["include/ipaddress/ip-network-base.hpp:subnet_of", "include/ipaddress/ip-network-base.hpp:is_subnet_of", "include/ipaddress/ip-network-base.hpp:supernet", "include/ipaddress/ip-network-base.hpp:subnets", "include/ipaddress/ip-network-base.hpp:address_exclude", "include/ipaddress/ipv6-network.hpp:remove_scope_id"]}
{"id": "C91", "title": "References to the elements of iterators", "statement": "A reference or pointer that an iterator of hosts() or subnets() gives out shows the element it was taken for, and can be read as long as the sequence can; iterators can be used with std::reverse_iterator; for (const auto& a : sequence) gives the elements in order.", "quantifier": "all blocks of statements that declare, copy, assign, move and end iterators, keep references to their elements, to elements of temporaries, of postfix ++ and of std::reverse_iterator, and read them; all iterators of both versions, of ip_address and ip_network, and their reverse iterators", "why_tests_cant": "Reading through a dangling reference often still gives the old bytes, so a test passes; and no test can try all interleavings of moves, copies, ends of scopes and reads.", "anchors": ["include/ipaddress/ip-address-iterator.hpp:operator*", "include/ipaddress/ip-address-iterator.hpp:operator->", "include/ipaddress/ip-network-iterator.hpp:operator*", "include/ipaddress/ip-any-iterator.hpp:operator*", "include/ipaddress/ip-address-iterator.hpp:ip_reverse_iterator"]}
{"id": "C92", "title": "References that member functions give out", "statement": "The result of a member function can be bound to a reference, const auto& a = net.network_address();, and used as long as the reference is in scope, whether net is a variable or the result of parse(), and whatever the class of the network is.", "quantifier": "all blocks of statements that declare, copy, assign and end objects, bind references to the results of chains of calls on variables, references and temporaries, and use them; all classes of addresses, networks, iterators and sequences of both versions and of none, byte arrays and the optionals of v4() and v6()", "why_tests_cant": "A dangling reference often still shows the old bytes, so a test passes; which functions return references differs between ipv4_network and ip_network, and no test can try all chains of calls and interleavings of assignments and ends of scopes.", "anchors": ["include/ipaddress/ip-network-base.hpp:network_address", "include/ipaddress/ip-network-base.hpp:netmask", "include/ipaddress/ip-any-network.hpp:network_address", "include/ipaddress/ipv4-address.hpp:bytes", "include/ipaddress/optional.hpp:value", "include/ipaddress/ip-any-address.hpp:v4"]}
{"id": "C93", "title": "Tables of networks", "statement": "A program that keeps networks in a std::set or a sorted vector can collapse them in one pass with subnet_of, finds all networks inside of a network by walking on from lower_bound, finds the most specific network that contains an address as the last that contains it, and finds the same by looking up from_address(a, p, false) for p from the longest prefix length to 0.", "quantifier": "all tables of valid networks of any length, all networks and addresses asked for, both versions and tables of both versions mixed", "why_tests_cant": "operator<, operator==, subnet_of, contains, overlaps and from_address are separate pieces of code; whether the order agrees with the inclusion of blocks for all pairs decides whether these algorithms are right, and no finite set of tables shows it.", "anchors": ["include/ipaddress/ip-network-base.hpp:operator<", "include/ipaddress/ip-network-base.hpp:subnet_of", "include/ipaddress/ip-network-base.hpp:contains", "include/ipaddress/ip-network-base.hpp:overlaps", "include/ipaddress/ip-network-base.hpp:from_address", "include/ipaddress/ip-any-network.hpp:operator<"]}
{"id": "C94", "title": "Pools of networks", "statement": "A program that hands out networks from a pool keeps books with the library alone: it finds a free network with o.subnet_of(f), replaces it by the networks of f.address_exclude(o), and merges two free networks whose supernet() is equal. Whatever is taken and given back, free and taken networks never overlap, together are always the addresses of the beginning, and when all is given back the merges lead back to the one network of the beginning.", "quantifier": "all sequences of operations of any length with any networks, starting with any network, both versions", "why_tests_cant": "The books are right only if subnet_of, operator==, supernet and address_exclude agree for all networks and over all histories; a test runs a few histories, and a single lost address shows only when exactly that network is taken.", "anchors": ["include/ipaddress/ip-network-base.hpp:subnet_of", "include/ipaddress/ip-network-base.hpp:address_exclude", "include/ipaddress/ip-network-base.hpp:supernet", "include/ipaddress/ip-network-base.hpp:operator==", "include/ipaddress/ip-network-iterator.hpp:exclude_network_iterator"]}
{"id": "C95", "title": "Platforms with a size_t of 32 bits", "statement": "A program built for a platform where size_t has 32 bits gets the results of a 64 bit platform: every text of a network is read as there, by the three parsers and for all character types, and subnets() gives the same sequence or the same error for all arguments the narrow type can hold.", "quantifier": "all texts (also ill formed Unicode), strict and not, both versions and the version independent parser; all networks and all arguments below 2^32", "why_tests_cant": "The test suite runs on 64 bit hosts; the two platforms differ only on numbers of more than nine digits and on differences next to 2^32, which no test reaches.", "anchors": ["include/ipaddress/base-v4.hpp:parse_netmask", "include/ipaddress/base-v6.hpp:parse_netmask", "include/ipaddress/ip-network-base.hpp:parse_address_with_prefix", "include/ipaddress/ip-network-base.hpp:subnets", "include/ipaddress/ip-any-network.hpp:net_any_parser"]}
{"id": "C96", "title": "Literals in builds without exceptions, with every compiler", "statement": "With IPADDRESS_NO_EXCEPTIONS a literal never becomes an address that its text does not mean: as a constant it compiles exactly if it compiles in a build with exceptions, with the same value, and at run time it is the address the text means or the default constructed one.", "quantifier": "all texts (readable or not, longer than the buffer or not), all character types, the six literal operators, all settings of the macros of the compiler, constants and calls at run time", "why_tests_cant": "The test suite builds with one compiler at a time; which literals are templates, whether errors are noticed during compilation, and what follows when raise_error returns depend on macros that no single build varies.", "anchors": ["include/ipaddress/errors.hpp:raise_error", "include/ipaddress/ip-address-base.hpp:parse_ip_from_literal", "include/ipaddress/ip-network-base.hpp:parse_net_from_literal", "include/ipaddress/ip-address-base.hpp:parse", "include/ipaddress/fixed-string.hpp:fixed_string", "include/ipaddress/unicode.hpp:char_or_throw", "include/ipaddress/config.hpp:IPADDRESS_IS_CONST_EVALUATED"]}
{"id": "C97", "title": "Sets and maps keyed by addresses and networks", "statement": "Addresses, networks and uint128 can be keys of the ordered and of the unordered containers: after any sequence of insertions and erasures the container holds exactly the keys inserted and not erased since, each once, ordered containers in ascending order, and insert, erase and find give the right answers.", "quantifier": "all sequences of insert and erase of any length, all keys of all six types, all shapes of the tree and all bucket counts and orders of the nodes between the calls, operators < with and without <=>, size_t of 64 and of 32 bits", "why_tests_cant": "A container compares each key only with those on one path, so a defect of the order shows only in certain histories and shapes; no finite set of histories settles all of them.", "anchors": ["include/ipaddress/ipv6-address.hpp:operator<", "include/ipaddress/ip-any-address.hpp:operator<", "include/ipaddress/ip-network-base.hpp:operator<", "include/ipaddress/ip-any-network.hpp:operator<", "include/ipaddress/uint128.hpp:operator<", "include/ipaddress/ipv6-address.hpp:hash", "include/ipaddress/ip-network-base.hpp:hash", "include/ipaddress/ip-any-network.hpp:hash"]}
{"id": "C98", "title": "Equal objects are interchangeable", "statement": "When operator== says that two objects are equal, putting one in the place of the other makes no difference to anything a program can find out later: every later result, text, hash, comparison and exception is the same, and the objects left at the end have the same bytes, scope ids and members.", "quantifier": "all reachable states, after programs of any length, all later programs, also those that decide by the answers they get, all addresses and scope ids, all widths of the scope id, addresses given by the user on hosts of both byte orders", "why_tests_cant": "Equality of IPv6 addresses ignores the characters left in the array behind a scope id, which swap and assignment move around; whether any later operation ever reads one is a statement about all programs.", "anchors": ["include/ipaddress/ipv6-address.hpp:operator==", "include/ipaddress/ip-network-base.hpp:operator==", "include/ipaddress/ip-address-iterator.hpp:operator==", "include/ipaddress/ip-network-iterator.hpp:operator==", "include/ipaddress/fixed-string.hpp:swap", "include/ipaddress/fixed-string.hpp:compare", "include/ipaddress/ipv6-address.hpp:hash"]}
{"id": "C99", "title": "Equal version agnostic objects are interchangeable", "statement": "When operator== says that two objects of the version agnostic classes are equal, putting one in the place of the other makes no difference to anything a program can find out later, in stores that mix both versions: every later result, text, hash, class, scope id, embedded address, comparison and error is the same, also after reading texts and changing scope ids, and the objects left at the end have the same versions, bytes, scope ids and members.", "quantifier": "all reachable states of programs with objects of both versions, all later programs, also those that decide by the answers they get, all texts that are read, all scope ids and widths, addresses given by the user on hosts of both byte orders", "why_tests_cant": "Each class function dispatches on a tag and reads a union member; that no dispatch ever depends on characters behind a scope id, or on the value of an iterator kept twice, is a statement about all functions in all orders.", "anchors": ["include/ipaddress/ip-any-address.hpp:operator==", "include/ipaddress/ip-any-network.hpp:operator==", "include/ipaddress/ip-any-iterator.hpp:operator==", "include/ipaddress/ip-any-address.hpp:set_scope_id", "include/ipaddress/ip-any-address.hpp:parse", "include/ipaddress/ip-any-address.hpp:is_multicast", "include/ipaddress/ip-any-network.hpp:is_multicast", "include/ipaddress/ip-any-address.hpp:hash"]}
{"id": "C100", "title": "Choices of format and strictness belong to one stream and one operation", "statement": "full, compact and compressed choose the format of the next address or network written to that stream, strict and non_strict choose how the next network is read from it; no other stream, no later operation and no word that other code keeps in the streams is affected, copyfmt and swap carry the choices like any other setting of a stream, nothing is undefined and no thread waits for ever.", "quantifier": "all numbers of threads and streams, all programs of any length and all schedules, also while the local statics that hold the numbers of the words are being initialised, all other uses of xalloc and iword, all numbers that xalloc starts with", "why_tests_cant": "The choices are kept in words whose numbers come from a counter of the whole program on first use, in whichever thread comes first; a collision or a word that is not put back shows only in certain orders of operations on certain streams.", "anchors": ["include/ipaddress/ip-address-base.hpp:stream_index", "include/ipaddress/ip-address-base.hpp:operator<<", "include/ipaddress/ip-network-base.hpp:network_strict_index", "include/ipaddress/ip-network-base.hpp:operator>>", "include/ipaddress/ip-any-address.hpp:operator<<", "include/ipaddress/ip-any-network.hpp:operator>>"]}
