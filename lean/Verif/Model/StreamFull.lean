import Verif.Model.Stream
import Verif.Model.Report
/-
The stream operators with field width, fill, `skipws`, `exceptions()` and streams in an error state, and the value the
object has after an error.  `Verif/Model/Stream.lean` fixes these to their defaults.

The extractor and the inserter of `std::basic_string` are modelled as the C++ standard describes them.  Simplified:
`badbit` and failures of the buffer behind the stream do not occur, an output stream that is not good stays as it is, and
`max_size()` is not reached.
-/
set_option autoImplicit false

namespace Ip

/-- An output stream: `width()`, `fill()`, whether `adjustfield` is `left`, and `good()`. -/
structure OFull (U : Type) where
  base : OStr U
  width : Int
  fill : U
  left : Bool
  good : Bool
deriving DecidableEq, Repr

/-- An input stream: `width()`, the flag `skipws`, and whether `exceptions()` contains `failbit` and `eofbit`. -/
structure IFull (U : Type) where
  base : IStr U
  width : Int
  skipws : Bool
  excFail : Bool
  excEof : Bool
deriving DecidableEq, Repr

/-- What a read does: the object afterwards, the stream, and whether `std::ios_base::failure` left the operator. -/
structure InOut (α U : Type) where
  obj : α
  str : IFull U
  threw : Bool
deriving DecidableEq, Repr

/-- `stream << str` for `std::basic_string`. -/
def OFull.put {U : Type} (s : OFull U) (str : List U) : OFull U :=
  if s.good then
    let pad := List.replicate (s.width - (str.length : Int)).toNat s.fill
    { s with base := { s.base with out := s.base.out ++ (if s.left then str ++ pad else pad ++ str) }, width := 0 }
  else s

/-- `operator<<`: `ip-address-base.hpp:856-871`, `ip-any-address.hpp:1479-1494`, `ip-network-base.hpp:1392-1407` and
`ip-any-network.hpp:1466-1481`, which differ only in `to_string`. -/
def osWriteFull {U : Type} (W : Wide U) (toStr : Format → Res (List Char)) (s : OFull U) : Res (OFull U) := do
  let fmt ← formatOfWord s.base.word
  let s := { s with base := { s.base with word := 0 } }
  let str ← toStr fmt
  let str ← if s.base.upper then upperText str else .ok str
  .ok (s.put (str.map W.conv))

/-- `uint128.hpp:2074-2089`, `operator<<`. -/
def osU128Full {U : Type} (W : Wide U) (x : U128) (s : OFull U) : Res (OFull U) := do
  let str ← x.toText (baseOfFlags s.base.hex s.base.oct)
  let str ← if s.base.upper then upperAll str else .ok str
  .ok (s.put (str.map W.conv))

/-- `setstate`: the bits are added; the exception is thrown if a bit of `exceptions()` is then set. -/
def IFull.setState {U : Type} (s : IFull U) (eof fail : Bool) : IFull U × Bool :=
  let s := { s with base := { s.base with eof := s.base.eof || eof, fail := s.base.fail || fail } }
  (s, (s.base.fail && s.excFail) || (s.base.eof && s.excEof))

/-- `stream >> str` for an empty `std::basic_string`: the word read, the stream afterwards, and whether an exception was
thrown. -/
def readWordFull {U : Type} (W : Wide U) (s : IFull U) : List U × IFull U × Bool :=
  if s.base.eof || s.base.fail then ([], s.setState false true)
  else
    let r := if s.skipws then s.base.input.dropWhile W.space else s.base.input
    if s.skipws && r.isEmpty then ([], { s with base := { s.base with input := [] } }.setState true true)
    else
      let run := r.takeWhile (fun u => !W.space u)
      let w := if s.width > 0 then run.take s.width.toNat else run
      let rest := r.drop w.length
      let atEnd := rest.isEmpty && (decide (s.width ≤ 0) || decide ((w.length : Int) < s.width))
      let s := { s with base := { s.base with input := rest }, width := 0 }
      if atEnd || w.isEmpty then (w, s.setState atEnd w.isEmpty) else (w, s, false)

/-- `operator>>` of addresses, `ip-address-base.hpp:873-883`, `ip-any-address.hpp:1496-1506`; `old` is the object
before. -/
def isReadFull {U α : Type} (W : Wide U) (parse : List Ev → Code → Res (Code × α)) (old : α) (s : IFull U) : Res (InOut α U) :=
  match readWordFull W s with
  | (_, s, true) => .ok ⟨old, s, true⟩
  | (w, s, false) => do
    let (code, a) ← parse (W.enc.events w) none
    if code = none then .ok ⟨a, s, false⟩
    else
      let r := s.setState false true
      .ok ⟨a, r.1, r.2⟩

/-- `operator>>` of networks, `ip-network-base.hpp:1409-1423` and `ip-any-network.hpp:1483-1497`. -/
def isReadNetFull {U α : Type} (W : Wide U) (parse : Bool → List Ev → Code → Res (Code × α)) (old : α) (s : IFull U) :
    Res (InOut α U) :=
  let strict := s.base.word == 0
  isReadFull W (parse strict) old { s with base := { s.base with word := 0 } }

/-- `uint128.hpp:2091-2107`, `operator>>`. -/
def isU128Full {U : Type} (W : Wide U) (old : U128) (s : IFull U) : InOut U128 U :=
  match readWordFull W s with
  | (_, s', true) => ⟨old, s', true⟩
  | (w, s', false) =>
    match U128.fromText (baseOfFlags s.base.hex s.base.oct) (W.enc.events w) with
    | some x => ⟨x, s', false⟩
    | none =>
      let r := s'.setState false true
      ⟨old, r.1, r.2⟩

end Ip
