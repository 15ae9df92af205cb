import Verif.Model.AnyNet
/-
Stream operators: `operator<<`, `operator>>` and the manipulators of addresses, networks and `uint128_t`.

The standard streams are modelled by the members the operators use.  Simplified: `width()` is 0, `skipws` is
set, `exceptions()` is empty, writing always succeeds, and the locale is the classic one.
-/
set_option autoImplicit false

namespace Ip

/-- `std::isspace` of the classic locale. -/
def isSpaceC (c : Char) : Bool := c = ' ' || (decide (9 ≤ c.toNat) && decide (c.toNat ≤ 13))

/-- `std::toupper` of the classic locale applied to a `char`.  The argument is converted to `int`; values outside of
0..127 are negative where `char` is signed, and then undefined. -/
def toUpperC (c : Char) : Res Char :=
  if 128 ≤ c.toNat then .ub
  else if 'a'.toNat ≤ c.toNat ∧ c.toNat ≤ 'z'.toNat then .ok (Char.ofNat (c.toNat - 32))
  else .ok c

/-- A character type `T` of streams: its reader, the conversion of `char` by `string_converter<T>::convert`
(`unicode.hpp:274-286`) and white space. -/
structure Wide (U : Type) where
  enc : Enc U
  conv : Char → U
  space : U → Bool

/-- `char`. -/
def wideChar : Wide Char := ⟨encChar, id, isSpaceC⟩

/-- The conversion of a (signed) `char` to an unsigned character type of `n` bits: 128..255 stand for negative
values. -/
def signExt (n : Nat) (c : Char) : BitVec n :=
  if c.toNat < 128 then BitVec.ofNat n c.toNat else BitVec.ofInt n ((c.toNat : Int) - 256)

/-- `char32_t`, and `wchar_t` of 32 bits. -/
def wide32 : Wide (BitVec 32) :=
  ⟨encUtf32, signExt 32, fun u => u = 32 || (decide (9 ≤ u.toNat) && decide (u.toNat ≤ 13))⟩

/-- `char16_t`, and `wchar_t` of 16 bits. -/
def wide16 : Wide (BitVec 16) :=
  ⟨encUtf16, signExt 16, fun u => u = 32 || (decide (9 ≤ u.toNat) && decide (u.toNat ≤ 13))⟩

/-- The members of `std::basic_ostream<T>` in use: `iword(stream_index())`, the flags `uppercase`, `hex` and `oct`,
and what has been written. -/
structure OStr (U : Type) where
  word : Nat
  upper : Bool
  hex : Bool
  oct : Bool
  out : List U
deriving DecidableEq, Repr

/-- The members of `std::basic_istream<T>` in use: `iword(network_strict_index())`, the flags `hex` and `oct`, the
characters to come, `eofbit` and `failbit`. -/
structure IStr (U : Type) where
  word : Nat
  hex : Bool
  oct : Bool
  input : List U
  eof : Bool
  fail : Bool
deriving DecidableEq, Repr

/-- `ip-address-base.hpp:808-824`, the manipulators `full`, `compact` and `compressed`: `long(format) + 1`. -/
def osFormat {U : Type} (fmt : Format) (s : OStr U) : OStr U :=
  match fmt with
  | .full => { s with word := 0 + 1 }
  | .compact => { s with word := 1 + 1 }
  | .compressed => { s with word := 2 + 1 }

/-- `ip-address-base.hpp:859-861`: the format to use; other values are never stored. -/
def formatOfWord (w : Nat) : Res Format :=
  if w ≠ 0 then
    match w - 1 with
    | 0 => .ok .full
    | 1 => .ok .compact
    | 2 => .ok .compressed
    | _ => .ub
  else .ok .compressed

/-- `ip-address-base.hpp:865-868`: `std::transform` with `toupper` up to the first `%`. -/
def upperText : List Char → Res (List Char)
  | [] => .ok []
  | c :: cs =>
    if c = '%' then .ok (c :: cs)
    else do
      let u ← toUpperC c
      let us ← upperText cs
      .ok (u :: us)

/-- `operator<<`: `ip-address-base.hpp:856-871`, `ip-any-address.hpp:1479-1494`, `ip-network-base.hpp:1392-1407` and
`ip-any-network.hpp:1466-1481`, which differ only in `to_string`. -/
def osWrite {U : Type} (W : Wide U) (toStr : Format → Res (List Char)) (s : OStr U) : Res (OStr U) := do
  let fmt ← formatOfWord s.word
  let str ← toStr fmt
  let str ← if s.upper then upperText str else .ok str
  .ok { s with word := 0, out := s.out ++ str.map W.conv }

/-- `operator<<` of `ipv4_address`; `to_string` ignores the format (`base-v4.hpp:148-171`). -/
def osV4 {U : Type} (W : Wide U) (a : List (BitVec 8)) (s : OStr U) : Res (OStr U) := osWrite W (fun _ => v4ToString a) s

/-- `operator<<` of `ipv6_address`. -/
def osV6 {U : Type} (W : Wide U) (M : Nat) (a : V6) (s : OStr U) : Res (OStr U) := osWrite W (v6ToString M a) s

/-- `operator<<` of `ip_address`, `ip-any-address.hpp:1479-1494`. -/
def osAny {U : Type} (W : Wide U) (M : Nat) (a : AnyAddr) (s : OStr U) : Res (OStr U) :=
  osWrite W (fun fmt => anyToString M fmt a) s

/-- `operator<<` of `ipv4_network` and `ipv6_network`, `ip-network-base.hpp:1392-1407`. -/
def osNet {A V U : Type} (W : Wide U) (F : Fam A V) (n : Net A) (s : OStr U) : Res (OStr U) :=
  osWrite W (fun fmt => F.netToString fmt n) s

/-- `operator<<` of `ip_network`, `ip-any-network.hpp:1466-1481`. -/
def osAnyNet {U : Type} (W : Wide U) (c : Cfg) (n : AnyNet) (s : OStr U) : Res (OStr U) :=
  osWrite W (fun fmt => anyNetToString c fmt n) s

/-- `stream >> str` for an empty `std::basic_string`: the word read and the stream afterwards.  Nothing is read
unless the stream is good. -/
def readWord {U : Type} (W : Wide U) (s : IStr U) : List U × IStr U :=
  if s.eof || s.fail then ([], { s with fail := true })
  else
    let r := s.input.dropWhile W.space
    if r.isEmpty then ([], { s with input := [], eof := true, fail := true })
    else
      let rest := r.dropWhile (fun u => !W.space u)
      (r.takeWhile (fun u => !W.space u), { s with input := rest, eof := rest.isEmpty })

/-- `operator>>` of addresses, `ip-address-base.hpp:873-883`, `ip-any-address.hpp:1496-1506`.  After an error the
object read is not specified (`none`). -/
def isRead {U α : Type} (W : Wide U) (parse : List Ev → Res α) (s : IStr U) : Res (Option α × IStr U) :=
  let w := readWord W s
  match parse (W.enc.events w.1) with
  | .ok a => .ok (some a, w.2)
  | .err _ _ => .ok (none, { w.2 with fail := true })
  | .ub => .ub

/-- `ip-network-base.hpp:1350-1354`, the manipulator `strict`. -/
def isStrict {U : Type} (s : IStr U) : IStr U := { s with word := 0 }

/-- `ip-network-base.hpp:1356-1360`, the manipulator `non_strict`. -/
def isNonStrict {U : Type} (s : IStr U) : IStr U := { s with word := 1 }

/-- `operator>>` of networks, `ip-network-base.hpp:1409-1423` and `ip-any-network.hpp:1483-1497`. -/
def isReadNet {U α : Type} (W : Wide U) (parse : List Ev → Bool → Res α) (s : IStr U) : Res (Option α × IStr U) :=
  let strict := s.word == 0
  isRead W (fun evs => parse evs strict) { s with word := 0 }

/-- `uint128.hpp:2076-2081` and `2093-2098`: the base selected by the flags. -/
def baseOfFlags (hex oct : Bool) : U128.Base :=
  if hex then .hexadecimal else if oct then .octal else .decimal

/-- `uint128.hpp:2083-2087`: `std::transform` of the whole text. -/
def upperAll : List Char → Res (List Char)
  | [] => .ok []
  | c :: cs => do
    let u ← toUpperC c
    let us ← upperAll cs
    .ok (u :: us)

/-- `uint128.hpp:2074-2089`, `operator<<`. -/
def osU128 {U : Type} (W : Wide U) (x : U128) (s : OStr U) : Res (OStr U) := do
  let str ← x.toText (baseOfFlags s.hex s.oct)
  let str ← if s.upper then upperAll str else .ok str
  .ok { s with out := s.out ++ str.map W.conv }

/-- `uint128.hpp:2091-2107`, `operator>>`: the value of the object and the stream afterwards. -/
def isU128 {U : Type} (W : Wide U) (old : U128) (s : IStr U) : U128 × IStr U :=
  let w := readWord W s
  match U128.fromText (baseOfFlags s.hex s.oct) (W.enc.events w.1) with
  | some x => (x, w.2)
  | none => (old, { w.2 with fail := true })

end Ip
