import Verif.Model.NetIter
import Verif.Model.Any
import Verif.Model.Unicode
/-
Exceptions (`include/ipaddress/errors.hpp`), the throwing overloads, and the literals.
-/
set_option autoImplicit false

namespace Ip

/-- A character type: its NUL and full stop, what the reader yields for a text (used by the parsers) and
one step of the reader (used to print a text): `unicode.hpp:188-258`. -/
structure Enc (U : Type) where
  zero : U
  dot : U
  events : List U → List Ev
  next : U → List U → Ev × List U

/-- `char` without `IPADDRESS_CHAR_IS_UTF8`, `unicode.hpp:206-210`. -/
def encChar : Enc Char := ⟨'\x00', '.', readChars, fun c r => (.ch c, r)⟩

/-- `char8_t`, `unicode.hpp:225-229`. -/
def encUtf8 : Enc (BitVec 8) := ⟨0, 46, utf8Events, utf8Next⟩

/-- `char16_t`, `unicode.hpp:233-238`. -/
def encUtf16 : Enc (BitVec 16) := ⟨0, 46, utf16Events, utf16Next⟩

/-- `char32_t` and a `wchar_t` of 32 bits, `unicode.hpp:240-245, 247-268`. -/
def encUtf32 : Enc (BitVec 32) :=
  ⟨0, 46, utf32Events, fun u r =>
    (if u.toNat > 127 then .bad .unexpected_symbol u.toNat else .ch (Char.ofNat u.toNat), r)⟩

/-- The classes `error`, `parse_error`, `logic_error` (`errors.hpp:114, 203, 247`). -/
inductive ErrClass where
  | plain
  | parse
  | logic
deriving DecidableEq, Repr

/-- An exception: its class, `code()` and `what()`. -/
structure Exn where
  cls : ErrClass
  code : ErrorCode
  what : List Char
deriving DecidableEq, Repr

/-- Outcome of a function that may throw. -/
inductive Thr (α : Type) where
  | ret (a : α)
  | thrown (e : Exn)
  | ub
deriving DecidableEq, Repr

/-- `errors.hpp:307-309`: the loop copying `n` more characters of `address` into `str`. -/
def raiseCopy {U : Type} (address : List U) : Nat → Nat → List U → Res (List U)
  | 0, _, str => .ok str
  | n + 1, i, str => do
    let c ← rd address i
    let str ← wr str i c
    raiseCopy address n (i + 1) str

/-- `errors.hpp:302-314`: the array `str`. -/
def raiseBuffer {U : Type} (enc : Enc U) (address : List U) (length : Nat) : Res (List U) := do
  let str := List.replicate 104 enc.zero
  let str ← raiseCopy address (if length > 100 then 100 else length) 0 str
  if length > 100 then do
    let str ← wr str 100 enc.dot
    let str ← wr str 101 enc.dot
    wr str 102 enc.dot
  else .ok str

/-- `unicode.hpp:295-297`, `print_symbol_code`: hexadecimal, at least four digits. -/
def symbolCode (symbol : Nat) : List Char :=
  let d := Nat.toDigits 16 symbol
  "{U+".toList ++ List.replicate (4 - d.length) '0' ++ d ++ ['}']

/-- `unicode.hpp:306-326`, `error::print` of an array; `fuel` bounds the number of characters. -/
def printArray {U : Type} (enc : Enc U) : Nat → List U → Res (List Char)
  | _, [] => .ok []
  | 0, _ :: _ => .ub
  | fuel + 1, u :: rest =>
    match enc.next u rest with
    | (.ch c, r) => if c = '\x00' then .ok [] else do
      let t ← printArray enc fuel r
      .ok (c :: t)
    | (.bad _ sym, r) => if sym = 0 then .ok [] else do
      let t ← printArray enc fuel r
      .ok (symbolCode sym ++ t)

/-- An argument of the constructor of an exception. -/
inductive Piece where
  | text (s : String)
  | value
  | symbol
  | str
deriving DecidableEq, Repr

/-- `errors.hpp:315-382`: the class of the exception and the arguments of its constructor.
`no_error`, and values outside of the enumeration, reach `default`; they are not representable. -/
def raiseCase : ErrorCode → ErrClass × List Piece
  | .empty_address => (.parse, [.text "address cannot be empty"])
  | .empty_netmask => (.parse, [.text "empty mask in address", .str])
  | .invalid_netmask => (.parse, [.text "is not a valid netmask in address", .str])
  | .netmask_pattern_mixes_zeroes_and_ones => (.parse, [.text "netmask pattern mixes zeroes & ones in address", .str])
  | .has_host_bits_set => (.parse, [.text "has host bits set in address", .str])
  | .only_one_slash_permitted => (.parse, [.text "only one '/' permitted in address", .str])
  | .string_is_too_long => (.parse, [.text "input string is too long", .str])
  | .empty_octet => (.parse, [.text "empty octet", .value, .text "in address", .str])
  | .expected_4_octets => (.parse, [.text "expected 4 octets in", .str])
  | .leading_0_are_not_permitted => (.parse, [.text "leading zeros are not permitted in octet", .value, .text "of address", .str])
  | .octet_more_3_characters => (.parse, [.text "in octet", .value, .text "of address", .str, .text "more 3 characters"])
  | .octet_has_invalid_symbol => (.parse, [.text "in octet", .value, .text "of address", .str, .text "has invalid symbol"])
  | .octet_exceeded_255 => (.parse, [.text "octet", .value, .text "of address", .str, .text "exceeded 255"])
  | .least_3_parts => (.parse, [.text "least 3 parts in address", .str])
  | .most_8_colons_permitted => (.parse, [.text "most 8 colons permitted in address", .str])
  | .part_is_more_4_chars => (.parse, [.text "in part", .value, .text "of address", .str, .text "more 4 characters"])
  | .part_has_invalid_symbol => (.parse, [.text "in part", .value, .text "of address", .str, .text "has invalid symbols"])
  | .most_one_double_colon_permitted => (.parse, [.text "at most one '::' permitted in address", .str])
  | .leading_colon_only_permitted_as_part_of_double_colon =>
    (.parse, [.text "at leading ':' only permitted as part of '::' in address", .str])
  | .trailing_colon_only_permitted_as_part_of_double_colon =>
    (.parse, [.text "at trailing ':' only permitted as part of '::' in address", .str])
  | .expected_at_most_7_other_parts_with_double_colon =>
    (.parse, [.text "expected at most 7 other parts with '::' in address", .str])
  | .exactly_8_parts_expected_without_double_colon =>
    (.parse, [.text "exactly 8 parts expected without '::' in address", .str])
  | .scope_id_is_too_long => (.parse, [.text "scope id is too long in address", .str])
  | .invalid_scope_id => (.parse, [.text "invalid scope id in address", .str])
  | .invalid_version => (.logic, [.text "versions don't match"])
  | .invalid_prefixlen_diff => (.logic, [.text "invalid prefixlen_diff"])
  | .new_prefix_must_be_shorter => (.logic, [.text "new prefix must be shorter"])
  | .new_prefix_must_be_longer => (.logic, [.text "new prefix must be longer"])
  | .cannot_set_prefixlen_diff_and_new_prefix => (.logic, [.text "cannot set prefixlen_diff and new_prefix"])
  | .not_contained_network => (.logic, [.text "network is not a subnet of other"])
  | .unexpected_symbol => (.parse, [.text "unexpected next unicode symbol", .symbol, .text "in string", .str])
  | .wrong_encoding_sequence => (.parse, [.text "incorrect sequence of bytes in unicode encoding for string", .str])

/-- `errors.hpp:181-190`, `print` of one argument. -/
def pieceText {U : Type} (enc : Enc U) (value : Nat) (str : List U) : Piece → Res (List Char)
  | .text s => .ok s.toList
  | .value => .ok (Nat.toDigits 10 value)
  | .symbol => .ok (symbolCode value)
  | .str => printArray enc 104 str

/-- `errors.hpp:162-179`, `concatenate`: the arguments separated by spaces.  `std::hex`, which
`print_symbol_code` leaves set, has no effect since no number is printed after a symbol code. -/
def concatPieces {U : Type} (enc : Enc U) (value : Nat) (str : List U) : List Piece → Res (List Char)
  | [] => .ok []
  | [p] => pieceText enc value str p
  | p :: q :: ps => do
    let t ← pieceText enc value str p
    let r ← concatPieces enc value str (q :: ps)
    .ok (t ++ ' ' :: r)

/-- `errors.hpp:300-388`, `raise_error` with exceptions enabled: the exception it throws.  A failure to
allocate memory for the message is not modelled. -/
def raiseError {U : Type} (enc : Enc U) (code : ErrorCode) (value : Nat) (address : List U) (length : Nat) : Res Exn := do
  let str ← raiseBuffer enc address length
  let w ← concatPieces enc value str (raiseCase code).2
  .ok ⟨(raiseCase code).1, code, w⟩

/-- `raise_error(...)` as a statement. -/
def raise {α U : Type} (enc : Enc U) (code : ErrorCode) (value : Nat) (address : List U) : Thr α :=
  match raiseError enc code value address address.length with
  | .ok e => .thrown e
  | _ => .ub

/-- `if (code != no_error) raise_error(code, value, str.data(), str.size()); return result;`:
`ip-address-base.hpp:763-771`, `ip-network-base.hpp:1246-1254`, `ipv6-address.hpp:28-34`. -/
def orRaise {α U : Type} (enc : Enc U) (text : List U) : Res α → Thr α
  | .ok a => .ret a
  | .err code value => raise enc code value text
  | .ub => .ub

/-- `if (code != no_error) raise_error(code, 0, "", 0); return result;`:
`ip-network-base.hpp:905-910, 984-989, 1073-1078`. -/
def orRaise0 {α : Type} : Res α → Thr α
  | .ok a => .ret a
  | .err code _ => raise encChar code 0 []
  | .ub => .ub

/-- `ip-address-base.hpp:763-771`, `ipv4_address::parse` of a string without `error_code`. -/
def v4ParseThrow {U : Type} (enc : Enc U) (s : List U) : Thr (List (BitVec 8)) := orRaise enc s (v4FromEvents (enc.events s))

/-- `ip-address-base.hpp:763-771`, `ipv6_address::parse` of a string without `error_code`. -/
def v6ParseThrow {U : Type} (c : Cfg) (enc : Enc U) (s : List U) : Thr V6 := orRaise enc s (v6FromEvents c.spaces c.M (enc.events s))

/-- `ip-any-address.hpp:33-40`, `ip_address::parse` of a string without `error_code`. -/
def anyParseThrow {U : Type} (c : Cfg) (enc : Enc U) (s : List U) : Thr AnyAddr :=
  match v4FromEvents (enc.events s) with
  | .ok b => .ret (.v4 b)
  | .err _ _ =>
    match v6ParseThrow c enc s with
    | .ret a => .ret (.v6 a)
    | .thrown e => .thrown e
    | .ub => .ub
  | .ub => .ub

/-- `fixed-string.hpp:82-94, 660`, `make_fixed_string(const T(&)[N + 1], error_code&)`: the array is `units`
followed by one more unit.  Simplification: that unit is NUL, as in string literals and the zero
initialised arrays of the literals; it is read only when a reader consumed several units for one character
(`makeFixedP` of `Model/Pointers.lean` has any last unit). -/
def makeFixed {U : Type} (enc : Enc U) (units : List U) : Res FStr := FStr.ofEvents units.length (enc.events units)

/-- `ip-address-base.hpp:429-432`, `ip-network-base.hpp:405-409`: `parse(const T(&)[N], error_code&)`;
`parse` is the parser of strings. -/
def arrayParse {α U : Type} (enc : Enc U) (parse : List Ev → Res α) (units : List U) : Res α := do
  let f ← makeFixed enc units
  parse (readChars f.contents)

/-- `ip-address-base.hpp:403-414`, `ip-network-base.hpp:378-389`: `parse(const T(&)[N])`.  The exception of
`make_fixed_string` is that of `char_or_throw` (`unicode.hpp:27-35`). -/
def arrayParseThrow {α U : Type} (enc : Enc U) (parse : List Ev → Res α) (units : List U) : Thr α :=
  match makeFixed enc units with
  | .ok f => orRaise encChar f.contents (parse (readChars f.contents))
  | .err code sym => raise enc code sym units
  | .ub => .ub

/-- `ip-any-address.hpp:42-54` for an array. -/
def anyArrayParse {U : Type} (c : Cfg) (enc : Enc U) (units : List U) : Res AnyAddr :=
  match arrayParse enc v4FromEvents units with
  | .ok b => .ok (.v4 b)
  | .err _ _ => do
    let a ← arrayParse enc (v6FromEvents c.spaces c.M) units
    .ok (.v6 a)
  | .ub => .ub

/-- `ip-any-address.hpp:33-40` for an array. -/
def anyArrayParseThrow {U : Type} (c : Cfg) (enc : Enc U) (units : List U) : Thr AnyAddr :=
  match arrayParse enc v4FromEvents units with
  | .ok b => .ret (.v4 b)
  | .err _ _ =>
    match arrayParseThrow enc (v6FromEvents c.spaces c.M) units with
    | .ret a => .ret (.v6 a)
    | .thrown e => .thrown e
    | .ub => .ub
  | .ub => .ub

namespace Fam
variable {A U : Type} (F : Fam A U)

/-- `ip-network-base.hpp:1246-1254`, `parse` of a string without `error_code`. -/
def parseNetThrow {V : Type} (enc : Enc V) (s : List V) (strict : Bool) : Thr (Net A) :=
  orRaise enc s (F.parseNet (enc.events s) strict)

/-- `ip-network-base.hpp:425-438`, `from_address` without `error_code`. -/
def fromAddressThrow (address : A) (prefixlen : Nat) (strict : Bool) : Thr (Net A) :=
  match F.fromAddress address prefixlen strict with
  | .ok n => .ret n
  | .err code _ =>
    match F.toText .compressed address with
    | .ok t => raise encChar code 0 t
    | _ => .ub
  | .ub => .ub

/-- `ip-network-base.hpp:1072-1079`, `supernet` without `error_code`. -/
def supernetThrow (n : Net A) (diff : Nat) (newp : Option Nat) : Thr (Net A) := orRaise0 (F.supernet n diff newp)

/-- `ip-network-base.hpp:983-990`, `subnets` without `error_code`. -/
def subnetsThrow (n : Net A) (diff : Nat) (newp : Option Nat) : Thr (SubnetsSeq A U) := orRaise0 (F.subnets n diff newp)

/-- `ip-network-base.hpp:904-911`, `address_exclude` without `error_code`. -/
def addressExcludeThrow (n other : Net A) : Thr (ExSeq A) := orRaise0 (F.addressExclude n other)

end Fam

/-- `ipv6-address.hpp:24-36`, `set_scope_id` of a string without `error_code`: the address afterwards. -/
def v6SetScopeThrow {U : Type} (c : Cfg) (enc : Enc U) (a : V6) (s : List U) : Thr V6 :=
  if c.M = 0 then .ret a
  else match scopeChange c.spaces c.M s.length (enc.events s) with
    | .ok f => .ret ⟨a.bytes, f⟩
    | .err code value => raise enc code value s
    | .ub => .ub

/-- The copy loop of the literals, `ip-address-base.hpp:791-793`: `n` more units. -/
def literalCopy {U : Type} (address : List U) : Nat → Nat → List U → Res (List U)
  | 0, _, str => .ok str
  | n + 1, i, str => do
    let c ← rd address i
    let str ← wr str i c
    literalCopy address n (i + 1) str

/-- `ip-address-base.hpp:785-795`, `ip-network-base.hpp:1327-1337`, `ip-any-address.hpp:1387-1450`,
`ip-any-network.hpp:1361-1437`: a literal; `parse` is `parse(const T(&)[N])` given all units but the last. -/
def literal {α U : Type} (enc : Enc U) (maxLen : Nat) (parse : List U → Thr α) (address : List U) : Thr α :=
  if address.length > maxLen then raise enc .string_is_too_long 0 address
  else
    match literalCopy address (min address.length maxLen) 0 (List.replicate (maxLen + 1) enc.zero) with
    | .ok str => parse (str.take maxLen)
    | _ => .ub

/-- `ipv4-address.hpp:155-188`, `operator""_ipv4`. -/
def v4Literal {U : Type} (enc : Enc U) (s : List U) : Thr (List (BitVec 8)) := literal enc 15 (arrayParseThrow enc v4FromEvents) s

/-- `ipv6-address.hpp:904-937`, `operator""_ipv6`. -/
def v6Literal {U : Type} (c : Cfg) (enc : Enc U) (s : List U) : Thr V6 :=
  literal enc (41 + c.M) (arrayParseThrow enc (v6FromEvents c.spaces c.M)) s

/-- `ip-any-address.hpp:1387-1450`, `operator""_ip`. -/
def anyLiteral {U : Type} (c : Cfg) (enc : Enc U) (s : List U) : Thr AnyAddr :=
  literal enc (41 + c.M) (anyArrayParseThrow c enc) s

/-- `ipv4-network.hpp:81-123`, `operator""_ipv4_net`. -/
def v4NetLiteral {U : Type} (le : Bool) (enc : Enc U) (s : List U) : Thr (Net (List (BitVec 8))) :=
  literal enc (15 * 2 + 1) (arrayParseThrow enc (fun evs => (fam4 le).parseNet evs true)) s

/-- `ipv6-network.hpp:97-139`, `operator""_ipv6_net`. -/
def v6NetLiteral {U : Type} (c : Cfg) (enc : Enc U) (s : List U) : Thr (Net V6) :=
  literal enc (41 + c.M + 4) (arrayParseThrow enc (fun evs => (fam6 c).parseNet evs true)) s

end Ip
