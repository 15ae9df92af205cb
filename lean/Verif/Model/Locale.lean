import Verif.Model.StreamFull
/-
Numbers written by `std::ostringstream` when the program has installed a locale other than the classic one
(`std::locale::global`).  A stream that is not given a locale of its own has the installed one, and
`std::num_put` then separates groups of digits as the facet `std::numpunct<char>` says.
-/
set_option autoImplicit false

namespace Ip

/-- `std::numpunct<char>`: `thousands_sep()`, and `grouping()` from the rightmost group on.  0 stands for every
element that means "no limit" (at most 0, or `CHAR_MAX`); the last element counts for all further groups. -/
structure Punct where
  sep : Char
  grouping : List Nat
deriving DecidableEq, Repr

/-- The classic locale: no grouping. -/
def Punct.classic : Punct := ⟨',', []⟩

/-- The digits of a number from the right, with separators; `left` more digits belong to the current group. -/
def groupRev (sep : Char) : List Nat → Nat → List Char → List Char
  | _, _, [] => []
  | [], _, c :: cs => c :: cs
  | g :: more, left, c :: cs =>
    if g = 0 then c :: cs
    else if left > 0 then c :: groupRev sep (g :: more) (left - 1) cs
    else if more = [] then sep :: c :: groupRev sep [g] (g - 1) cs
    else sep :: c :: groupRev sep more (more.headD 0 - 1) cs

/-- `std::num_put::do_put` of an unsigned integer, stage 2: the digits with separators. -/
def Punct.group (p : Punct) (digits : List Char) : List Char :=
  (groupRev p.sep p.grouping (p.grouping.headD 0) digits.reverse).reverse

namespace U128

/-- One digit written by the loops (`uint128.hpp:1524, 1541, 1559`): a number for the decimal and octal loop, a
`char` for the hexadecimal loop. -/
def digitTextIn (p : Punct) (base : Base) (r : BitVec 64) : Res (List Char) :=
  match base with
  | .hexadecimal => digitText .hexadecimal r
  | _ => .ok (p.group (Nat.toDigits 10 r.toNat))

/-- `uint128.hpp:1517-1567`: `toTextLoop` under an installed locale. -/
def toTextLoopIn (p : Punct) (base : Base) : Nat → U128 → List Char → Res (List Char)
  | 0, _, _ => .ub
  | fuel + 1, value, out => do
    let b := ofI64 (BitVec.ofNat 64 base.radix)
    let q ← div value b
    let r := value.sub (q.mul b)
    let d ← digitTextIn p base r.lower
    let out := out ++ d
    if q.toBool then toTextLoopIn p base fuel q out else .ok out

/-- `uint128.hpp:325-351`, `to_string` under an installed locale. -/
def toTextIn (p : Punct) (x : U128) (base : Base) : Res (List Char) :=
  if x.upper = 0 then .ok (p.group (Nat.toDigits base.radix x.lower.toNat))
  else do
    let out ← toTextLoopIn p base 129 x []
    .ok out.reverse

end U128

/-- `uint128.hpp:2074-2089`, `operator<<` under an installed locale: the text comes from `to_string`, so that the
locale of `stream` itself does not matter. -/
def osU128In {U : Type} (p : Punct) (W : Wide U) (x : U128) (s : OStr U) : Res (OStr U) := do
  let str ← x.toTextIn p (baseOfFlags s.hex s.oct)
  let str ← if s.upper then upperAll str else .ok str
  .ok { s with out := s.out ++ str.map W.conv }

/-- `unicode.hpp:294-296`, `print_symbol_code` under an installed locale: separators are inserted first, then
zeros on the left up to the width of 4. -/
def symbolCodeIn (p : Punct) (symbol : Nat) : List Char :=
  let d := p.group (Nat.toDigits 16 symbol)
  "{U+".toList ++ List.replicate (4 - d.length) '0' ++ d ++ ['}']

/-- `unicode.hpp:305-325`, `error::print` of an array under an installed locale. -/
def printArrayIn {U : Type} (p : Punct) (enc : Enc U) : Nat → List U → Res (List Char)
  | _, [] => .ok []
  | 0, _ :: _ => .ub
  | fuel + 1, u :: rest =>
    match enc.next u rest with
    | (.ch c, r) => if c = '\x00' then .ok [] else do
      let t ← printArrayIn p enc fuel r
      .ok (c :: t)
    | (.bad _ sym, r) => if sym = 0 then .ok [] else do
      let t ← printArrayIn p enc fuel r
      .ok (symbolCodeIn p sym ++ t)

/-- `errors.hpp:180-188`, `print` of one argument under an installed locale. -/
def pieceTextIn {U : Type} (p : Punct) (enc : Enc U) (value : Nat) (str : List U) : Piece → Res (List Char)
  | .text s => .ok s.toList
  | .value => .ok (p.group (Nat.toDigits 10 value))
  | .symbol => .ok (symbolCodeIn p value)
  | .str => printArrayIn p enc 104 str

/-- `errors.hpp:161-177`, `concatenate` under an installed locale. -/
def concatPiecesIn {U : Type} (p : Punct) (enc : Enc U) (value : Nat) (str : List U) : List Piece → Res (List Char)
  | [] => .ok []
  | [x] => pieceTextIn p enc value str x
  | x :: y :: ps => do
    let t ← pieceTextIn p enc value str x
    let r ← concatPiecesIn p enc value str (y :: ps)
    .ok (t ++ ' ' :: r)

/-- `errors.hpp:300-388`, `raise_error` under an installed locale. -/
def raiseErrorIn {U : Type} (p : Punct) (enc : Enc U) (code : ErrorCode) (value : Nat) (address : List U) (length : Nat) :
    Res Exn := do
  let str ← raiseBuffer enc address length
  let w ← concatPiecesIn p enc value str (raiseCase code).2
  .ok ⟨(raiseCase code).1, code, w⟩

end Ip
