import Verif.Model.Stream
/-
Texts in other character types: `to_wstring`, `to_u16string`, `to_u32string`, `to_u8string` and the conversions to
`std::basic_string<T>`.
-/
set_option autoImplicit false

namespace Ip

/-- `char8_t`: the reader of UTF-8 (`unicode.hpp:227-231`) and the conversion `static_cast<char8_t>` of
`string_converter<char8_t>` (`unicode.hpp:274-286`).  There are no streams of this type; white space is not used. -/
def wide8 : Wide (BitVec 8) :=
  ⟨encUtf8, signExt 8, fun u => u = 32 || (decide (9 ≤ u.toNat) && decide (u.toNat ≤ 13))⟩

/-- `to_wstring`, `to_u16string`, `to_u32string`, `to_u8string` and (in the format `compressed`) the conversion operator
to `std::basic_string<T>`: `string_converter<T>::convert(to_string(fmt))`.
`ip-address-base.hpp:543-545, 557-559, 571-573, 587-589, 660-662`; `ip-any-address.hpp:464-500, 1235-1237`;
`ip-network-base.hpp:594-640, 1141-1143`; `ip-any-network.hpp:795-838, 1209-1211`; `uint128.hpp:362-405`.
`unicode.hpp:274-292`: every `char` is converted by `static_cast<T>`; for `char` the text is returned as it is. -/
def textAs {U F : Type} (W : Wide U) (toStr : F → Res (List Char)) (fmt : F) : Res (List U) := do
  let str ← toStr fmt
  .ok (str.map W.conv)

end Ip
