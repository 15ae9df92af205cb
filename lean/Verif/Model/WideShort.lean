import Verif.Model.Unicode
/-
The reader of `wchar_t` where it has 16 bits and `_WIN32` is not defined (Cygwin, `-fshort-wchar`).
-/
set_option autoImplicit false

namespace Ip

/-- `unicode.hpp:247-268`, `char_reader<wchar_t>`, with a `wchar_t` of 16 bits on a platform without `_WIN32`: the
condition of line 258 is false and lines 262-267 read one unit. -/
def shortWideNext (u : BitVec 16) (rest : List (BitVec 16)) : Ev × List (BitVec 16) :=
  if u.toNat > 127 then (.bad .unexpected_symbol u.toNat, rest) else (.ch (Char.ofNat u.toNat), rest)

/-- What a parsing loop sees of such a text; it ends at the first error. -/
def shortWideEvents : List (BitVec 16) → List Ev
  | [] => []
  | u :: rest =>
    match shortWideNext u rest with
    | (.bad c s, _) => [.bad c s]
    | (.ch c, _) => .ch c :: shortWideEvents rest

end Ip
