import Verif.Model.Basic
/-
Character readers, `include/ipaddress/unicode.hpp`.

A reader turns a sequence of code units into the events seen by a parsing loop
`while (it < end) { c = next_char_or_error(it, end, code, sym); if (code != no_error) return; ... }`.
Every parser of the library returns at the first reader error, so the event list ends there.
-/
set_option autoImplicit false

namespace Ip

/-- `unicode.hpp:206-210`, `char_reader<char>` without `IPADDRESS_CHAR_IS_UTF8`: every `char` is
passed through.  A `char` is represented by the Lean `Char` with the same code. -/
def readChars (s : List Char) : List Ev := s.map Ev.ch

/-- `unicode.hpp:174-186`, `utf32_reader`. -/
def utf32Events : List (BitVec 32) → List Ev
  | [] => []
  | u :: rest =>
    if u.toNat > 127 then [.bad .unexpected_symbol u.toNat]
    else .ch (Char.ofNat u.toNat) :: utf32Events rest

/-- `unicode.hpp:165-171`, `utf16_code_point`: value and length. -/
def utf16CodePoint (v : BitVec 16) : BitVec 32 × Nat :=
  if v &&& 0b1111110000000000#16 = 0b1101100000000000#16 then
    ((v &&& 0b0000001111111111#16).setWidth 32, 2)
  else (v.setWidth 32, 1)

/-- `unicode.hpp:125-163`, `utf16_next_or_error`: the event and the remaining code units. -/
def utf16Next (u : BitVec 16) (rest : List (BitVec 16)) : Ev × List (BitVec 16) :=
  let fin (sym : BitVec 32) (r : List (BitVec 16)) : Ev × List (BitVec 16) :=
    if sym.toNat > 127 then (.bad .unexpected_symbol sym.toNat, r)
    else (.ch (Char.ofNat sym.toNat), r)
  let cp := utf16CodePoint u
  if cp.2 = 1 then fin (u.setWidth 32) rest
  else
    match rest with
    | [] => (.bad .wrong_encoding_sequence 0, [])
    | l :: r =>
      if l &&& 0b1111110000000000#16 = 0b1101110000000000#16 then
        fin (((cp.1 <<< 10) ||| (l &&& 0b0000001111111111#16).setWidth 32) + 0x10000#32) r
      else (.bad .wrong_encoding_sequence 0, r)

/-- Events of a UTF-16 text.  The loop is `while (it < end)` in the parsers. -/
def utf16Events : List (BitVec 16) → List Ev
  | [] => []
  | u :: rest =>
    match utf16Next u rest with
    | (.bad c s, _) => [.bad c s]
    | (.ch c, r) => if r.length < rest.length + 1 then .ch c :: utf16Events r else []
termination_by l => l.length

/-- `unicode.hpp:94-109`, `utf8_code_point`: value and length; length 0 is `correct = false`. -/
def utf8CodePoint (b : BitVec 8) : BitVec 32 × Nat :=
  if b &&& 0b10000000#8 = 0b00000000#8 then (b.setWidth 32, 1)
  else if b &&& 0b11100000#8 = 0b11000000#8 then ((b &&& 0b00011111#8).setWidth 32, 2)
  else if b &&& 0b11110000#8 = 0b11100000#8 then ((b &&& 0b00001111#8).setWidth 32, 3)
  else if b &&& 0b11111000#8 = 0b11110000#8 then ((b &&& 0b00000111#8).setWidth 32, 4)
  else (0#32, 0)

/-- `unicode.hpp:111-122`, `trailing_utf8_code_point`.  `l` are the units after the current one
(`it + 1`, ...).  Result: the six bits, the new value of `correct`, the units after the new
position.  At the end of the text the pointer is advanced further, which is modelled as staying
at the end; no unit is read there. -/
def utf8Trailing (l : List (BitVec 8)) : BitVec 32 × Bool × List (BitVec 8) :=
  match l with
  | [] => (0#32, false, [])
  | b :: r =>
    if b &&& 0b11000000#8 = 0b10000000#8 then ((b &&& 0b00111111#8).setWidth 32, true, r)
    else (0#32, false, r)

/-- `unicode.hpp:62-75`: reading `n` trailing units, each step `value = (value << 6) | trailing`.
The flag `correct` is overwritten by every step, as in the code. -/
def utf8Trail : Nat → BitVec 32 → Bool → List (BitVec 8) → BitVec 32 × Bool × List (BitVec 8)
  | 0, v, ok, l => (v, ok, l)
  | n + 1, v, _, l =>
    let t := utf8Trailing l
    utf8Trail n ((v <<< 6) ||| t.1) t.2.1 t.2.2

/-- `unicode.hpp:52-92`, `utf8_next_or_error`: the event and the remaining code units. -/
def utf8Next (b : BitVec 8) (rest : List (BitVec 8)) : Ev × List (BitVec 8) :=
  let cp := utf8CodePoint b
  if cp.2 = 0 then (.bad .wrong_encoding_sequence 0, rest)
  else
    let t := utf8Trail (cp.2 - 1) cp.1 true rest
    if t.2.1 = false then (.bad .wrong_encoding_sequence 0, t.2.2)
    else if t.1.toNat > 127 then (.bad .unexpected_symbol t.1.toNat, t.2.2)
    else (.ch (Char.ofNat t.1.toNat), t.2.2)

/-- Events of a UTF-8 text (`char8_t`, or `char` with `IPADDRESS_CHAR_IS_UTF8`). -/
def utf8Events : List (BitVec 8) → List Ev
  | [] => []
  | b :: rest =>
    match utf8Next b rest with
    | (.bad c s, _) => [.bad c s]
    | (.ch c, r) => if r.length < rest.length + 1 then .ch c :: utf8Events r else []
termination_by l => l.length

end Ip
