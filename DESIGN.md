# Formal model of VladimirShaleev/ipaddress

## Trusted base

* **Checker**: the Lean 4.33.0 kernel. The axioms used by the theorems are among `propext`, `Classical.choice` and `Quot.sound`; the exact set for every property theorem is listed at the end of this file. There are no axioms of our own, no `sorry`, no `native_decide`, no `bv_decide`.
* **Transcription**: the definitions in `lean/Verif/Model` were written by reading the C++ headers in `/repo/include/ipaddress`. Every definition cites the file and lines it follows, and says where it simplifies. That the Lean text says the same as the C++ text is trusted, not proved.
* **Specifications**: `lean/Verif/Spec` says what the results should be, without using the functions of the model (grammars, intervals of numbers, big endian values, sequences of numbers). They must be read to know what the theorems say.
* **Language semantics assumed**: `size_t` is 64 bits (32 bits for hashes in C64 and for parsing and `subnets` in C95), `int` is 32 bits, unsigned arithmetic wraps, signed conversions keep the low bits, `char` values in the ASCII range compare as their codes. IEEE 754 arithmetic in the default rounding mode (C57 only).
* **Undefined behaviour** is a separate outcome (`Res.ub`, `Thr.ub`) of the modelled functions: shifts by at least the operand width, array accesses out of range, division by zero, failing `assert`s. It is never totalised away.

## Layout

* `Model/`: the code. `Spec/`: what is claimed. `Lemmas/`: helper lemmas. `Props/`: the property theorems, named `Cnn_...`, each with a concrete case beside it.
* A theorem with suffix `_partial` proves the property under a stated restriction. A theorem named `_wrong`, `_wraps`, `_undefined`, `_ub`, `_loses`, `_rejected`, `_accepted` and the like proves that the restriction is needed: the code violates the property there.
* `Vectors/`: the tables of the project's own tests (`/repo/tests`), evaluated on the model: texts, error codes, exception messages, hashes, sequences. They are tests of the model, not proofs, and no claim rests on them. The one row left out is the list of the 255 hosts of an IPv6 `/120`, which the kernel evaluates too slowly. `Vectors/Doc.lean` does the same with the examples of `README.md`, `doc/*.md` and the header comments. Two statements of `doc/tutorial.md` are false of the model: before C++20 `test9` and `test11` of the comparison example (an IPv6 address with a smaller value and a scope id is both less and greater), and the all-zero mask `/0.0.0.0`, which is undefined behaviour instead of `/0`.
* `seeded/LOG.jsonl`: wrong programs tried against the theorems.

## Modelling choices

* **Characters**: a decoded input character is a Lean `Char`. The C++ code only tests equality with ASCII literals and ASCII ranges, so theorems over all `Char` cover all `char` values.
* **Text input**: every parser loop has the form `while (it < end) { c = next_char_or_error(...); if (code) return; ... }`. A reader is a function from code units to a list of events (a character, or an error with the offending symbol). Parsers are recursive functions over that list. The readers for `char`, UTF-8, UTF-16 and UTF-32 are modelled separately (`Model/Unicode`) and composed with the parsers.
* **Errors**: the `error_code&` out parameter becomes a result type `Res` with outcomes `ok`, `err code value`, `ub`. The throwing overloads are modelled separately (`Model/Throw`) with the outcome `Thr`.
* **uint128**: two 64 bit halves with the operators written limb by limb as in the header. Refinement theorems relate them to arithmetic modulo 2^128.
* **Addresses**: byte lists of length 4 and 16. The link to numbers (big endian value, lexicographic order is numeric order) is proved.
* **Both versions at once**: the network templates are modelled once over a record `Fam` of the operations that `base_v4`/`base_v6` supply, and instantiated as `fam4` and `fam6`. Theorems are proved from laws (`Fam.Law`) that both instances are shown to satisfy.
* **Configuration** (`Cfg`): host byte order, `IPADDRESS_IPV6_SCOPE_MAX_LENGTH` (`M`), with or without `operator<=>`, the values of `char`, and the locale dependent character conversion of scope ids.
* **Host byte order**: address/integer theorems cover both orders. Most network, iterator and classification theorems are for little endian hosts; C66 says which of them carry over to big endian hosts, and which are false there because the integer conversions are byte reversed (C05, C14). The parser of IPv6 addresses uses an integer conversion for a dotted quad; `Model/V6.lean` and `fam6` have the parser of little endian hosts, `Model/V6Host.lean` (`v6FromEventsOn`, `fam6On`) that of either host. They agree on all texts without a dot after the last colon (C66_v6_text_exact); theorems about other IPv6 texts are for little endian hosts.
* **Iterators**: the state (current, offset, carry, ...) is a structure, `++`, `+=` etc. are functions on it. "Iterating from begin to end" is a relation that follows the loop `for (it = begin; it != end; ++it)`.
* **Buffers**: fixed size buffers are lists with checked writes (`wr`) and reads (`rd`) that give `ub` out of range.
* **Streams**: a stream is its flags, its format and strictness words and the characters not yet read. For C48 field width is 0, `skipws` is set and the exception mask is empty; C67 removes these limits. The locale of a stream is classic, and its buffer never fails. Integers and messages are written through streams that have the locale installed by the program: classic, except in C85.

## Not modelled

* Template instantiation and overload resolution, module exports. Where a `noexcept` function can come to an exception, that is the outcome `ub` (`std::terminate`), by `Fam.noexcept`; elsewhere `noexcept` has no effect and is left out. Evaluation by the compiler is modelled as: the value if the evaluation succeeds, and "does not compile" if it throws, fails an `assert` or has undefined behaviour (C62).
* Allocation of `std::string`; white space and case conversion of locales other than the classic one (the separators of numbers are modelled, C85); `badbit` of streams.
* Of `config.hpp` and `endian.hpp`: the macros that choose attributes (`IPADDRESS_NODISCARD`, `IPADDRESS_FORCE_INLINE`), the export of modules and the version of the library. The language version, the byte order, the length of scope ids, exceptions switched off, `IPADDRESS_IS_CONST_EVALUATED`, `consteval` and the choice of the literal operators and of `operator<=>` are modelled (C61, C62, C71, C72, C88, C96).
* Cost: the loops over the whole address space (C31, C32) are shown to occur, not timed.

## Properties

| id | modelled | how, and where the code violates the property |
|---|---|---|
| C01 | `ip_from_string` (v4) | parser as fold over events, grammar as independent predicate, both directions by induction on the text |
| C02, C03 | + `ip_to_chars`, `byte_to_string` | canonical decimal lemma, C01 |
| C04 | `ip_to_chars` with explicit buffer writes | length bound for all addresses |
| C05 | `from_uint`, `to_uint`, `swap_bytes`, both byte orders | little endian proved; big endian host refuted with a witness (shift based code needs no swap), so `_partial` |
| C06 | `byte_array` comparison | lexicographic = numeric for equal lengths |
| C07 | `from_bytes(ptr,count)` with checked reads | |
| C08 | `ip_to_chars` (v6), parser | round trip via the grammar |
| C09, C10 | whole v6 parser | grammar as independent inductive/relational spec; C10 refuted for `::` + 5 groups + IPv4 tail, `_partial` for the rest |
| C11 | `ip_to_chars` (v6) compressed | leftmost longest run specification |
| C12, C13 | checked buffer writes/reads | the model returns `ub` on a bad index; theorem: never `ub` |
| C14 | as C05 | |
| C15 | `compare`, `less` | three way proved, fallback `less` refuted by a witness |
| C16 | `ipv4_mapped`, `sixtofour`, `teredo` | mapped refuted (first 80 bits not checked), others proved |
| C17, C18 | scope change, numeric value | numeric overflow refuted, `_partial` under no overflow |
| C19 | `calc_hash`, `hash` | function of observable value |
| C20 | `ip_any_parser` | disjointness: v6 needs two colons, v4 none |
| C21 | `reverse_pointer` | |
| C22 | `ip_from_prefix` with UB outcome | refuted for prefix > width in `from_address`, partial otherwise |
| C23 | `parse_netmask` | partial: prefix text below 2^64, mask not 0.0.0.0 |
| C24 | `from_address`, `strict_netmask` | |
| C25, C26 | `parse_address_with_prefix`, `to_string` | C26 refuted for overlong address part |
| C27–C30 | `contains`, `overlaps`, `is_subnet_of`, ... | bit level reasoning on aligned blocks |
| C31 | `hosts_sequence`, iterators | partial: refuted at the top of the address space |
| C32 | `subnets_sequence` | partial, same reason and prefix 0 |
| C33 | `supernet` | partial: full width shift is UB |
| C34 | `address_exclude` iterator | partial: end sentinel collides with 0.0.0.0/32 |
| C35 | argument checks | partial: size_t wrap around |
| C36, C37 | iterators | partial: signed offsets |
| C38 | `==`, ordering | |
| C39, C40 | registry tables, props | C40 partial |
| C41–C44, C52 | uint128 | Knuth D proved for all operands; shift by 128 refuted; text overflow refuted |
| C45, C46 | readers | C46 refuted (overlong) with partial |
| C47, C53 | fixed_string | `back()` refuted |
| C48 | stream operators as state machine | |
| C49 | any network | size() refuted at prefix 0 |
| C50 | `raise_error` | |
| C51 | literals | |
| C54 | `ip_address` | the wrapped address decides everything; classes and embedded addresses inherit the defects of C16, C39, the order without `<=>` that of C15 |
| C55 | all comparison operators | six operators against one total order; refuted without `<=>` for scoped IPv6 and for iterators over different versions |
| C56 | iterator comparisons | position order; refuted for reverse iterators at the lowest address and for exclude iterators |
| C57 | `to_double`, conversions to `float`, `long double` | doubles as exact integers, each operation rounds the exact result; refuted between 2^88 and 2^101 (threshold in line 1464), for order, and for the nearest `float` |
| C58 | built-in integer conversions, mixed operators, compound assignment, limits | arithmetic modulo 2^128 |
| C59 | `to_wstring`, `to_u16string`, `to_u32string`, `to_u8string`, conversions to `basic_string` | conversion character by character, then the round trips of C02, C08, C25, C44, C49; scope ids over 127 are lost or changed |
| C60 | all overloads with `error_code&`, `make_fixed_string` | the variable as explicit state: entry value in, exit value out; compared with the throwing overloads of C50; functions that do not reset it refuted, `_partial` |
| C61 | `raise_error` and the functions without `error_code` under `IPADDRESS_NO_EXCEPTIONS` | each compared with the throwing build; too long literals refuted, `_partial` |
| C62 | constructors of constants: `parse` on literals evaluated by the compiler, where an error or undefined behaviour is a compilation error | compiles iff the run-time overload of C50 accepts; NUL refuted, `_partial` |
| C63 | `byte_array`, `fixed_string` iteration and element access, `optional` | index loops as `List` facts, optional by induction over assignments; out of range access refuted |
| C64 | `hash.hpp`, all `hash()` members, also for 32 bit `size_t` | mixing steps are injective (inverse of the odd multiplier, shift and exclusive or), so folds separate; netmask hashes by complete enumeration |
| C65 | class `scope`, `get_scope_id`, array overloads of `set_scope_id` | reduced to C18, C55, C63 and the string overloads of C17, C50, C60; arrays with NUL refuted, `_partial` |
| C66 | every function that depends on `is_little_endian()` | IPv6: the functions that use no integers are equal for both orders, then C27-C29 and C39 apply; the rest refuted by witnesses, IPv4 netmasks by the whole table of prefix lengths, `_partial` |
| C67 | stream operators with field width, fill, `skipws`, `exceptions()`, streams that are not good, and the object after an error | output: specification `Padded`; input: specification `Field`, one lemma for all parsers; tables by induction over the row; agreement with the model of C48; networks with netmask `0.0.0.0` excluded, `_partial` |
| C68 | the network operations together | laws between results of the code's own functions, derived once for both families from C24, C27-C34; scope ids and the failing cases of C31-C34 excluded, `_partial`; negation for scope ids |
| C69 | signed, postfix and mirrored operators of all iterators, and loops of `std::copy`, `std::copy_backward`, `std::distance`, `std::lower_bound`, `std::upper_bound`, `std::binary_search` over them | a relation between iterators and places of a list (`Walk`), closed under reversal and under wrapping in `ip_any_iterator`; specification `IsPartition`; large networks and subnetworks refuted, `_partial` |
| C09, C10, C15, C17, C23, C26, C38, C44, C46, C48, C51, C54, C55, C62, C65 (`_exact`) | the same functions | where the property is false for part of the inputs, a second specification says what the code does there (text up to a NUL, number modulo 2^64, loose UTF-8, the crossed order of `operator<`), proved for all inputs |
| C05, C14, C30, C34, C36, C47, C49, C56, C57 (`_exact`, `Props/Rest.lean`) | the same functions | what the functions compute where the property does not hold, for all inputs: byte orders, saturated counts, the network lost by `exclude_network`, signed steps, reverse iterators |
| C21, C36, C37, C40, C59 (`Props/Reverse.lean`, `Props/Leftover.lean`) | operators of reverse iterators, postfix operators, `ip_address::reverse_pointer`, classes of `ip_network` | circle arithmetic of `IterLaw`; the version specific theorems; suffixes of the two pointer domains differ |
| C70 | unions and tags of `ip_address`, `ip_network`, `ip_any_iterator` (`Model/Union.lean`): constructors, factories, all member functions, programs of statements | undefined behaviour for the inactive member; invariant over programs; agreement with the tagged values used elsewhere |
| C71 | `endian.hpp:32-118`, `config.hpp:47-63, 154-167`: conditional groups as a function of the macros | case analysis; specification `Truthful`; names of big endian architectures and the layout with only `std::endian` refuted, `_partial` |
| C72 | `raise_error` without exceptions, `IPADDRESS_IS_CONST_EVALUATED` as a function of the macros and the phase | division by zero is undefined behaviour, or does not compile; refuted for two groups of compilers, `_partial` and `_exact` |
| C73 | `raise_error`, `error::concatenate`, `error::print`, `print_symbol_code` and all callers | table of sentences in `Spec/Message.lean`; induction over code points for the text shown; cut characters refuted, `_partial` and `_exact` |
| C74 | `base_v4::ip_from_string` | grammar of faults in `Spec/Diag4.lean` (what stands before the fault, the fault, the rest); equivalence with the error of the parser, induction over the text with the state of the loop as a function of the prefix |
| C75 | `base_v6::ip_from_string`, `split_scope_id`, `split_parts`, `get_parts_bound`, `parse_parts` | faults of lists of parts in `Spec/Diag6.lean`; each fault is run through the buffers, and every list of parts has a fault or is accepted; numbers of parts and octets refuted, `_partial` for parts that are too long |
| C76 | `parse_address_with_prefix`, `parse_netmask`, `strict_netmask` | faults of the two texts around the slash in `Spec/DiagNet.lean`, built on those of C74 and C75; one proof for both versions from the shape of the loop; numbers of octets and parts refuted, `_partial` says what they are |
| C77 | `ip_any_parser::parse`, `net_any_parser::parse` | from C74, C75 and C76; refuted for IPv4 networks with host bits or a long prefix, `_partial` for dotted texts |
| C78 | all constructors and functions of networks, iterators and sequences as expressions of a small language (`Model/Program.lean`) | invariant of all objects, kept by every expression, for any address family (`Lemmas/Program.lean`), induction over the program; programs that reach undefined behaviour or `std::terminate` have no final store; refuted for default constructed network iterators |
| C79 | `ipv6_set_scope::change` against `split_scope_id` | faults of a zone id as a whole in `Spec/ScopeText.lean`, from the left in `Spec/Diag6.lean` (C75); both loops against them; refuted on four kinds of zone ids |
| C80 | the programs of C78 | list of undefined calls in `Spec/Undefined.lean`; an invariant stronger than that of C78 (steps and places of network iterators fit the prefix length, the excluded network is in one of the halves) shows that everything else is defined; refuted for the calls in the list; with all constructors (`Spec/UndefinedAll.lean`) a weaker invariant holds and the list also has the moves that do not fit |
| C81 | `from_double` and the three constructors on bit patterns; the conversions between formats are modelled as IEEE 754 rounding to nearest even (`Model/FloatIn.lean`) | specification: the greatest integer not above the number, clamped; refuted for `long double` values with more than 53 significant bits |
| C82 | a language of expressions and statements over `uint128_t` variables (`Model/UProgram.lean`) | refinement of a semantics on natural numbers, by induction on expressions and on steps; refuted for shifts by 128 |
| C83 | the storage of the eleven tables, raw or initialised, and program starts as lists of initialisations and questions (`Model/StaticInit.lean`) | by induction on the program, with the set of initialised variables as invariant; refuted for C++11, where a question can come before the table it reads |
| C84 | the readers and all parsing loops once more, on indices into the array that holds the text; an index beyond the length, a read at the length and a comparison with a null pointer are undefined (`Model/Pointers.lean`) | one law for the four readers (`PLaw`), then each loop agrees with the loop on events unless the text overruns the array; refuted for texts cut off inside a sequence |
| C85 | `std::num_put` with the separator and the grouping of `std::numpunct<char>`, and everything that writes numbers through it: `to_string` and `<<` of integers, messages (`Model/Locale.lean`) | grouped digits are groups of the sizes the locale says; the number of characters, or of separators, tells whether there is more than one group; refuted for longer numbers |
| C86 | programs over the version agnostic classes (`Model/AnyProgram.lean`) | simulation by the programs of `Model/Program.lean`, numbers modulo 2^32 for IPv4; networks, iterators and moves stated without the classes of one version |
| C87 | programs over the version agnostic classes (`Model/AnyProgram.lean`) | `.ub` as a distinct outcome of a program; the list `AnyUndefined` of calls in `Spec/AnyUndefined.lean`, with constructors of excluding iterators `Spec/AnyUndefinedAll.lean` |
| C88 | the choice of the literal operators by the preprocessor, `noexcept` and `consteval` | environments of macros as in C71; refused, value, exception and termination as separate outcomes |
| C89 | the public constructors of `ip_exclude_network_iterator` and `exclude_network_sequence` | `std::out_of_range` inside the `noexcept` constructor is the outcome `ub` |
| C90 | scope ids in the operations on IPv6 networks | |
| C91 | references to the elements of iterators: lifetimes, moves, `std::reverse_iterator`, range-based loops | the rules of the language for lifetimes are part of the model (`Model/Refs.lean`) |
| C92 | references that member functions give out: variables, temporaries, extended lifetimes, range-based loops | the rules of the language for lifetimes are part of the model (`Model/Lifetimes.lean`) |
| C93 | programs over sorted tables of networks: collapse, networks inside of a network, most specific network, lookup by prefix length | the client programs are in `Spec/Tables.lean`; little endian hosts |
| C94 | histories of a program that takes networks out of a pool, gives them back and merges them | the client program is in `Spec/Pools.lean`; little endian hosts |
| C95 | parsing of networks and `subnets` with a `size_t` of 32 bits | `Model/Narrow.lean` models the two places that wrap once more with the width as argument; hashes of that width are C64 |
| C96 | the literal operators where `raise_error` returns | `Model/LiteralQuiet.lean`: every call of `raise_error` on the way of a literal, with the phase; texts that cannot be read return the default without one |
| C97 | `operator<`, `operator==` and `std::hash` of every type, as keys | the comparisons and hashes are those of `Model/Compare.lean`, `Model/V6Addr.lean`, `Model/Hash32.lean`; the containers (a search tree of any shape, a table of any bucket count and order) are part of the specification, `Spec/Keyed.lean`, after libstdc++ |
| C98 | `operator==` of every type, against every operation of the programs of C75 and every question about their results | `Model/Ask.lean`: the questions are the functions already modelled, put to the objects a program holds; a client is a tree that may choose its next step by the answers, no loops without an end |
| C99 | `operator==` of `ip_address`, `ip_network` and their iterators, against the programs of C86, `parse`, `set_scope_id` and every observer | `Model/AnyAsk.lean`: the questions are the functions already modelled, put to the objects a program holds; texts are given as the code points that the reader yields |
| C100 | the local statics of `stream_index` and `network_strict_index`, manipulators, `operator<<`, `operator>>`, with `xalloc`, `iword`, `copyfmt` and `swap` of the standard library | `Model/StreamWords.lean`: steps of threads in any order, guards of the local statics, words of all streams; an access to a word is one step, `iword` does not fail |

## Violations found

Each item is a theorem about the model, with a concrete witness.

| where | what | theorem |
|---|---|---|
| `base-v4.hpp`, `base-v6.hpp` | integer conversions are byte reversed on big endian hosts | `C05_v4_big_endian_wrong`, `C14_v6_uint_big_endian` |
| `base-v6.hpp` parser | a NUL inside a group truncates it and is accepted | `C09_v6_nul_accepted` |
| `base-v6.hpp` parser | `::` followed by five groups and a dotted quad is rejected | `C10_v6_seven_colons_rejected` |
| `operator<` without `<=>` (IPv6) | not a strict weak order when value and scope id differ | `C15_v6_less_wrong`, `C54_order_wrong`, `C55_v6_wrong`, `C55_net_v6_wrong` |
| `ipv4_mapped` | only bytes 10 and 11 are tested | `C16_mapped_wrong` |
| `set_scope_id` | a NUL truncates the scope id | `C17_set_scope_nul` |
| scope id as number | wraps modulo 2^32 | `C18_scope_value_wraps` |
| `from_address` with an oversized prefix | undefined behaviour instead of an error | `C22_oversize_undefined` |
| netmask text | numbers wrap modulo 2^64; `0.0.0.0` is undefined behaviour | `C23_number_wraps`, `C23_zero_mask_undefined` |
| network parser | address part truncated at the buffer size; text after a NUL ignored | `C26_truncates_witness`, `C26_nul_ignored` |
| `is_subnet_of` with scope ids | compares scope ids as well | `C29_scoped_inconsistent` |
| `total_addresses` of /0 | wraps to 0 | `C30_count_wraps`, `C49_count_wraps` |
| `hosts()` at the top of the address space | the loop visits the hosts and then the whole address space; size, indices and ends are right | `C31_hosts_v4_wraps`, `C31_hosts_v6_wraps`, `C31_hosts_v4_all`, `C31_hosts_v6_all` |
| `subnets()` at the top of the address space, and of /0 | visits the subnetworks and then all networks of their length, divides by zero, shifts by the width | `C32_*` |
| `supernet` by the width | undefined shift | `C33_supernet_undefined` |
| `address_exclude` of address 1 | the network of address 0 is lost | `C34_exclude_zero_missing` |
| `empty` of `0.0.0.0/31` without `0.0.0.1/32` | true, although address 0 is left | `C34_empty_violated` |
| `subnets(prefixlen_diff)` near 2^64 | no error | `C35_subnets_sizet_wrap`; exactly: `C35_subnets_v4_exact`, `C35_subnets_v6_exact` |
| iterator offsets | negative offsets, differences, scope ids | `C36_negative_*`, `C36_negation`, `C36_network_difference` |
| IPv6 `is_private`, `is_global` | wrong for some addresses outside `::ffff:0:0/96` | `C39_v6_private_wrong` |
| classes of networks | `is_global` of 8.0.0.0/6 and others | `C40_*` |
| `uint128_t` shift by 128 | undefined behaviour | `C43_shift_128_ub` |
| `uint128_t::from_string` | wraps; text after a NUL ignored | `C44_overflow_wraps`, `C44_nul_truncates` |
| UTF-8 reader | overlong forms accepted | `C46_utf8_overlong_accepted` |
| `fixed_string::back` | last array element instead of last character | `C47_back_wrong` |
| `fixed_string<0>::hash` | differs from the hash of other empty strings, which compare equal | `C47_hash_capacity_zero` |
| streams | scope ids with spaces, wide scope ids, `uint128_t` read without a word | `C48_space_in_scope`, `C48_wide_scope`, `C48_uint128_no_word` |
| `ip_network` | `size()` of subnetworks of /0, `size()` after an error | `C49_subnets_size_wraps`, `C49_subnets_error_size`, `C49_subnets_error_sequence` |
| literals | differ from `parse` on texts with NUL | `C51_embedded_nul` |
| any iterators without `<=>` | `<` incoherent across versions | `C55_any_iterators_wrong` |
| reverse iterators at the lowest address, exclude iterators | order is not the order of positions | `C56_reverse_wrong`, `C56_exclude_wrong` |
| `to_double` | not rounded to nearest between 2^88 and 2^101, order not kept | `C57_double_wrong`, `C57_order_wrong` |
| conversion to `float`, `long double` | rounded twice; loses bits `long double` has | `C57_float_wrong`, `C57_long_double_wrong` |
| wide texts of scope ids over 127 | rejected by the parser of the same type; in UTF-8 overlong bytes come back as another scope id | `C59_scope_lost`, `C59_utf8_scope_changes` |
| `subnets`, `address_exclude`, `set_scope_id` of IPv4 with `error_code` | a code from an earlier failure stays after a success | `C60_stale` |
| literals without exceptions | too long literals are cut and parsed | `C61_literal_truncated` |
| `ip_address::parse`, `ip_network::parse` without exceptions | failure gives `::`, with `error_code` it gives `0.0.0.0` | `C61_any_default` |
| constants with NUL | text after a NUL ignored by the compiler, rejected at run time | `C62_embedded_nul` |
| `ipv4_address` from a large integer literal | cut to 32 bits without `assert` | `C62_integer_cut` |
| `at()` and `[]` out of range | undefined behaviour, `std::out_of_range` is documented | `C63_out_of_range_undefined` |
| `hash()` of addresses | does not "uniquely identify" an address | `C64_not_unique` |
| `hash()` of `uint128_t`, 32 bit `size_t` | numbers that differ in one half collide | `C64_uint128_32_violated` |
| `set_scope_id` from an array with NUL inside | sets the text before it, the string overload fails | `C65_embedded_nul` |
| IPv4 networks on big endian hosts | netmasks are byte reversed for all prefix lengths but 0 and 32; `10.0.0.0/8` is rejected; the private network table does not evaluate | `C66_v4_netmask_wrong`, `C66_v4_networks_wrong`, `C66_v4_private_wrong`; exactly: `C66_v4_mirror`, `C66_v4_contains_exact` |
| `hosts()` of `255.b.c.d/32` on big endian hosts | the loop does not end after the one address | `C66_v4_single_exact` |
| IPv6 supernets, address counts and hosts on big endian hosts | computed on byte reversed halves | `C66_v6_arithmetic_wrong`; `C66_v6_count_exact`: counts are right for `/0`, `/64`, `/128` only; `C66_v6_hosts_exact`, `C66_v6_hosts_right`: loops over hosts visit the right number of addresses for `/64` only; `C66_v6_supernet_exact`: supernets keep the address bits under the netmask shifted with its halves reversed; `C66_v6_supernet_right`: right for prefix lengths up to 8, to `::/0` from whole bytes up to `/64`, and by 64 bits only |
| `hosts()` of IPv6 networks of prefix length 64 or less with standard algorithms | `end() - begin()` is -1; `std::binary_search` says yes for every address behind the network address | `C69_hosts_v6_wide` |
| `subnets()` with standard algorithms | `std::distance` counts addresses; `std::lower_bound`, `std::binary_search` leave the sequence | `C69_subnets_search`, `C69_subnets_all` |
| names of big endian architectures in `endian.hpp:71-79` | line 75 does not end with a backslash: five names do not compile, four are overlooked | `C71_known`, `C71_big_architectures` |
| `uint128_t` on a big endian host known only by `std::endian` | the members are in the order for little endian hosts | `C71_layout` |
| constants from invalid texts without exceptions, Clang and Visual C++ before C++20 | compile, and are `0.0.0.0` | `C72_constants` |
| constants from arrays with text that cannot be read, without exceptions, every compiler | compile, and are `0.0.0.0` | `C72_arrays`; exactly: `C72_arrays_exact` |
| invalid texts of known length without exceptions, GCC 6 to 8 | division by zero when the program runs | `C72_run` |
| messages with a UTF-8 or UTF-16 text cut inside of a character | the three dots are missing | `C73_text_cut`, `C73_text_exact` |
| number of the part or octet in messages of IPv6 errors | is the number of all parts, or of colons, instead | `C75_number_symbol`, `C75_number_octet`, `C75_number_violated` |
| number of the octet or part in messages of network errors | is 0, or 3 after a dotted mask | `C76_number_partial`, `C76_number_v6_partial`, `C76_number_violated` |
| errors of `ip_address::parse` and `ip_network::parse` for IPv4 texts | are those of the IPv6 parser: octet 0, or too few parts | `C77_dotted_partial`, `C77_network_violated`, `C77_violated` |
| moving a network iterator keeps the prefix length | a default constructed one shows `0.0.0.0/32`, after `++` `0.0.0.0/0`; the difference of two divides by zero | `C78_prefix_v4_partial`, `C78_prefix_v6_partial`, `C78_default_violated` |
| `set_scope_id` and the parser agree on zone ids | empty or beginning with NUL: only the setter accepts; too long with a forbidden character: different errors; without scope ids the setter ignores all | `C79_same_partial`, `C79_errors_partial`, `C79_violated` |
| programs have defined behaviour | prefix lengths above the width, the IPv4 netmask text `0.0.0.0`, `supernet` by the full width, `subnets` by the full width, by 0 (IPv4, whole space) or with a sum beyond `size_t` | `C80_exact_v4`, `C80_exact_v6`, `C80_violated_v4`, `C80_violated_v6`; with all constructors: `C80_all_v4`, `C80_all_v6`, `C80_constructors_violated_v4` |
| `long double` values are converted to their integral part | they are rounded to `double` first: `2^64 - 1` becomes `2^64`, `1 - 2^-64` becomes 1 | `C81_long_double_violated`, `C81_long_double_exact` |
| programs over `uint128_t` are never undefined | `x <<= 128`, `x >> 128` | `C82_violated`, `C82_exact` |
| the predicates answer alike whenever they are asked | compiled as C++11, a question of a static initialiser can come before the tables are initialised: undefined, or, reading zeros, every address is private and none is global | `C83_violated`, `C83_exact`, `C83_zero_exact` |
| reading a text stays inside its array | a UTF-8 sequence cut off at the end moves the pointer up to three elements beyond the array; a high surrogate at the end of a view likewise; an array without NUL with overlong sequences is read behind its end; `%zone` without address compares `begin` with a null pointer | `C84_utf8_leaves_array`, `C84_utf16_leaves_array`, `C84_array_leaves_array`, `C84_null_end_compared` |
| numbers in texts do not depend on the installed locale | with digits in groups of three, 1000 is written `1,000` by `to_string` and `<<` (numbers of 2^64 and more are not grouped), which `from_string` rejects; with spaces between groups a stream reads 1; code points in messages are grouped too | `C85_violated`, `C85_stream_partial` |
| programs over `ip_network` do what programs over `ipv6_network` do | an iterator of `address_exclude` that reaches the end shows `0.0.0.0/32`, an IPv4 network, where that of `ipv6_network` shows `::/128` | `C86_ended_violated`, `C86_v6_partial` |
| programs over `ip_address` and `ip_network` always have a defined outcome | prefix lengths above that of the version, the netmask text `0.0.0.0`, some supernets and subnets | `C87_violated`, `C87_careful_partial`; exactly which: `C87_exact`, and with the constructors of excluding iterators `C87_all`, `C87_constructor` |
| literals mean the same with all compilers, and wrong ones never end the program | long texts; compilers with class template arguments and without `consteval` | `C88_longer_violated`, `C88_terminates_violated`; `C88_same_partial`, `C88_safe_partial`; exactly: `C88_exact` |
| an excluding iterator made by its constructor walks through the difference | equal networks, networks that are no proper subnetwork, scope ids | `C89_violated_v4`, `C89_scope_violated`; exactly: `C89_exact_v4`, `C89_exact_v6_partial`, `C89_scoped_v6`, `C89_host_v6`, `C89_defined_v6` |
| networks that differ only in the scope id behave alike | `subnet_of` compares scope ids, the supernet of `::%1/0` keeps it | `C90_violated`; exactly: `C90_subnet_of`, `C90_overlaps`, `C90_parts`, `C90_whole` |
| references to elements stay with their elements; iterators work with `std::reverse_iterator` | every iterator: its element is a member of the iterator | `C91_moved_v4_violated`, `C91_copies_v4_violated`, `C91_kept_violated`, `C91_std_reverse_violated`; exactly: `C91_exact_v4`, `C91_exact_v6`, `C91_exact_networks`, `C91_exact_any` |
| `const auto& a = f().network_address();` can be used | every temporary `ipv4_network` or `ipv6_network`; not `ip_network` | `C92_temporary_violated`, `C92_parts_violated`; exactly: `C92_exact` |
| sorted tables of networks can be collapsed, walked and searched | `fe80::%1/64`, `fe80::%2/10`, `fe80::%3/64` | `C93_scope_violated` |
| free and taken networks of a pool are always all of its addresses | 0.0.0.1/32 taken out of a pool that begins at 0.0.0.0; `fe80::/64` out of `fe80::%1/10` | `C94_lost_v4`, `C94_violated_v6` |
| networks are read alike on platforms with a `size_t` of 32 and of 64 bits | `10.0.0.0/4294967304` | `C95_text_violated`; exactly: `C95_text_v4`, `C95_text_v6`, `C95_text_any`, `C95_subnets_v4`, `C95_subnets_v6` |
| literals in builds without exceptions never become another address | `u"1.2\xD800"_ipv4` is the constant `0.0.0.0` with GCC in C++17 mode; `"192.168.100.1234"_ipv4` is `192.168.100.123` with clang 10, and with every compiler at run time | `C96_constants_violated`, `C96_calls_violated`; `C96_constants_partial`, `C96_calls_partial`; exactly: `C96_exact`, `C96_unreadable` |
| ordered containers find the keys they hold | before C++20, after inserting `fe80::2%a` and then `fe80::1%b` into a `std::set<ipv6_address>`, `find(fe80::1%b)` is `end()` | `C97_sets_violated`; `C97_sets_partial`; exactly: `C97_sets_exact`, `C97_sets_networks_exact` |
| equal objects are interchangeable | iterators over `exclude()` compare the shown network only: those of `fe80::/64` without its first and without its second quarter are equal and differ after `++`; so do iterators over networks constructed by hand with different steps | `C98_exclusions_violated`, `C98_steps_violated`; `C98_replace_partial` |
| equal version agnostic objects are interchangeable | iterators over `exclude()` of `ip_network` compare the shown network only: those of `10.1.2.0/24` without its first and without its second quarter are equal and differ after `++` | `C99_exclusions_violated`; `C99_replace_partial` |
| IPv6 texts with a dotted quad on big endian hosts | the last four bytes are reversed: `::ffff:10.0.0.1` is read as `::ffff:1.0.0.10`, `::ffff:10.0.0.0/104` is rejected | `C66_v6_text_exact`, `C66_v6_text_wrong` |
| `supernet` on big endian hosts | ends the program (an exception inside a `noexcept` function) for `10.253.0.0/16` and `fd12::/16` with eight bits less | `C66_supernet_ends` |
| `subnets` and `address_exclude` of IPv6 networks on big endian hosts | end the program (an exception inside a `noexcept` function) for nearly all networks when the new prefix length is below 64, or both are above: `2001:db8::/32` into `/48`; where `subnets` does not end the program one of its elements is wrong | `C66_v6_subnets_ends`, `C66_v6_exclude_ends`; exactly: `C66_v6_subnets_exact`, `C66_v6_subnets_wrong` |
| surrogates in a `wchar_t` of 16 bits outside Windows | the first unit of a pair is reported as a code point, a lone one not as a wrong sequence | `C46_short_wide`, `C46_short_wide_wrong` |

## Axioms of each property theorem

* none: `C17_set_scope_nul`, `C48_strict_once`, `C53_any_address_swap`, `C53_any_network_swap`, `C54_default`, `C55_reverse_iterators`, `C58_swap`, `C70_members`.
* `propext`: `C15_v6_less_wrong`, `C16_mapped_wrong`, `C18_scope_value_wraps`, `C43_shift_128_ub`, `C47_back_wrong`, `C47_front`, `C53_bytes_swap`, `C55_any_iterators_partial`, `C55_any_iterators_wrong`, `C63_optional`, `C70_address_pair`, `C70_iterator`, `C70_iterator_pair`, `C70_set_scope`, `C71_user`, `C74_v4_empty`, `C91_std_reverse_violated`.
* `propext`, `Quot.sound`: `C05_v4_big_endian_wrong`, `C11_canonical_unique`, `C14_v6_uint_big_endian`, `C26_nul_witness`, `C26_truncates_witness`, `C26_zero_mask_undefined`, `C34_exclude_zero_missing`, `C36_network_difference`, `C39_unspecified`, `C39_v6_loopback`, `C44_nul_truncates`, `C44_overflow_wraps`, `C45_short_wide`, `C46_short_wide_wrong`, `C46_utf32`, `C46_utf8_exact`, `C46_utf8_overlong_accepted`, `C46_utf8_text`, `C47_back_exact`, `C47_back_partial`, `C47_from_array`, `C47_hash_capacity_zero`, `C47_hash_contents_partial`, `C48_uint128_no_word`, `C50_buffer`, `C51_texts`, `C53_fixed_string_swap`, `C53_network_swap_v4`, `C53_v6_swap`, `C54_meaning`, `C56_exclude_wrong`, `C56_reverse_wrong`, `C57_double_wrong`, `C57_float_wrong`, `C57_long_double_wrong`, `C57_order_wrong`, `C58_limits`, `C62_integer_cut`, `C63_byte_array`, `C63_fixed_string`, `C63_out_of_range_undefined`, `C64_fixed_string`, `C64_uint128_32_violated`, `C69_subnets_all`, `C69_subnets_search`, `C70_iterator_states`, `C70_wrong_tag`, `C71_big_architectures`, `C71_compiles`, `C71_scope_length`, `C71_standards`, `C71_std_endian`, `C72_constants_exact`, `C72_constants_partial`, `C78_default_violated`, `C80_constructors_violated_v4`, `C81_long_double_violated`, `C82_violated`, `C84_array_leaves_array`, `C84_utf16_leaves_array`, `C84_utf16_room`, `C84_utf8_room`, `C89_violated_v4`, `C91_kept_violated`, `C91_loop`, `C94_lost_v4`, `C95_text_v4`, `C98_distance_answers`, `C98_order_answers`.
* All 669 other theorems of `MANIFEST.json`: `propext`, `Classical.choice`, `Quot.sound`.
