import Verif.Vectors.Check
import Verif.Model.FloatIn
import Verif.Model.U128Ops
import Verif.Model.Compare
/-
Single assertions of the project's tests: see `Verif.Vectors.Check`.
-/
set_option autoImplicit false

namespace Ip.Vectors

/-! ### Hashes: `ipv4-address-tests.cpp:569-582`, `ipv4-network-tests.cpp:824-840`, `ipv6-address-tests.cpp:899-915`,
`ipv6-network-tests.cpp:858-874`, `uint128-tests.cpp:441-449` -/

/-- The texts and the hashes with 64 and 32 bits. -/
def hashes4 : List (List Char × Nat × Nat) := [
  (t!"127.0.0.1", 2753421670903790749, 4009513643),
  (t!"127.0.0.2", 9476900596348728241, 1628829895),
  (t!"127.0.0.3", 5977026382871150005, 778481730)]

example : hashes4.all (fun r => okIs (p4 r.1) fun a => (v4Hash a).toNat == r.2.1 && (v4Hash32 a).toNat == r.2.2) = true := by
  decide +kernel

/-- The same for IPv6. -/
def hashes6 : List (List Char × Nat × Nat) := [
  (t!"2001:db8::1", 6222153021643990098, 1539407693),
  (t!"2001:db8::2", 6116520725720747177, 2230264075),
  (t!"2001:db8::3", 16584966935191602359, 4145152766),
  (t!"2001:db8::3%scope", 460899037339188753, 844563635)]

example : hashes6.all (fun r => okIs (p6 r.1) fun a => okIs (v6Hash cfg.conv a) (·.toNat == r.2.1) &&
    okIs (v6Hash32 (fun c => BitVec.ofNat 32 c.toNat) a) (·.toNat == r.2.2)) = true := by
  decide +kernel

/-- Networks, 64 bits. -/
def netHashes4 : List (List Char × Nat) := [
  (t!"127.0.0.1", 605929542755200525),
  (t!"127.0.0.1/32", 605929542755200525),
  (t!"127.0.0.0/24", 7623195473821216247),
  (t!"127.0.0.0/16", 5503161050249481481)]

example : netHashes4.all (fun r => okIs (netOf F4 r.1) fun n => okIs (F4.netHash n) (·.toNat == r.2)) = true := by
  decide +kernel

/-- Networks, 64 bits. -/
def netHashes6 : List (List Char × Nat) := [
  (t!"2001:db8::", 15427398023827107304),
  (t!"2001:db8::/128", 15427398023827107304),
  (t!"2001:db8::/32", 15947883579910446492),
  (t!"2001:db8::%scope/32", 1368690913789066344)]

example : netHashes6.all (fun r => okIs (netOf F6 r.1) fun n => okIs (F6.netHash n) (·.toNat == r.2)) = true := by
  decide +kernel

example : U128.hash ⟨0, 0⟩ = 0xA55DB391E20904C2 ∧ U128.hash ⟨4, 5⟩ = 0xFD9B4C34031415A2 := by decide +kernel

/-- Networks, 32 bits. -/
def netHashes4Short : List (List Char × Nat) := [
  (t!"127.0.0.1", 2256296057),
  (t!"127.0.0.1/32", 2256296057),
  (t!"127.0.0.0/24", 546525844),
  (t!"127.0.0.0/16", 2858631644)]

example : netHashes4Short.all (fun r => okIs (netOf F4 r.1) fun n => (v4NetHash32 n).toNat == r.2) = true := by
  decide +kernel

/-- Networks, 32 bits. -/
def netHashes6Short : List (List Char × Nat) := [
  (t!"2001:db8::", 3105424018),
  (t!"2001:db8::/128", 3105424018),
  (t!"2001:db8::/32", 3052474356),
  (t!"2001:db8::%scope/32", 589600209)]

example : netHashes6Short.all (fun r => okIs (netOf F6 r.1) fun n =>
    okIs (v6NetHash32 (fun c => BitVec.ofNat 32 c.toNat) n) (·.toNat == r.2)) = true := by
  decide +kernel

example : U128.hash32 ⟨0, 0⟩ = 0xE20904C2 ∧ U128.hash32 ⟨4, 5⟩ = 0xBDD51BB8 := by decide +kernel

/-! ### Reverse pointers: `ipv4-address-tests.cpp:630-636`, `ipv6-address-tests.cpp:966-972` -/

example : okIs (do v4ReversePointer true (← p4 t!"127.0.0.1")) (· == t!"1.0.0.127.in-addr.arpa") = true := by
  decide +kernel

example : okIs (do v6ReversePointer 16 (← p6 t!"2001:db8::1").bytes)
    (· == t!"1.0.0.0.0.0.0.0.0.0.0.0.0.0.0.0.0.0.0.0.0.0.0.0.8.b.d.0.1.0.0.2.ip6.arpa") = true := by
  decide +kernel

/-! ### Comparison: `ipv6-address-tests.cpp:708-784`, `ipv4-network-tests.cpp:693-724` -/

/-- The six operators, `==` `!=` `<` `<=` `>` `>=`, for both choices of `IPADDRESS_HAS_SPACESHIP_OPERATOR`. -/
def comparison6 : List (List Char × List Char × List Bool) := [
  (t!"2001:db8::1", t!"2001:db8::2", [false, true, true, true, false, false]),
  (t!"2001:db8::2", t!"2001:db8::1", [false, true, false, false, true, true]),
  (t!"2001:db8::2", t!"2001:db8::2", [true, false, false, true, false, true]),
  (t!"2001:db8::2", t!"2001:db8::2%abc", [false, true, true, true, false, false]),
  (t!"2001:db8::2%abc", t!"2001:db8::2", [false, true, false, false, true, true]),
  (t!"2001:db8::2%abc", t!"2001:db8::2%abc", [true, false, false, true, false, true]),
  (t!"2001:db8::2%abc", t!"2001:db8::2%acc", [false, true, true, true, false, false]),
  (t!"2001:db8::2%acc", t!"2001:db8::2%abc", [false, true, false, false, true, true])]

/-- The operators of a comparison in this order. -/
def listOps (o : CmpOps) : List Bool := [o.eq, o.ne, o.lt, o.le, o.gt, o.ge]

example : comparison6.all (fun r => [true, false].all fun s =>
    okIs (do v6CmpOps { cfg with spaceship := s } (← p6 r.1) (← p6 r.2.1)) (listOps · == r.2.2)) = true := by
  decide +kernel

/-- The same for networks. -/
def comparisonNet4 : List (List Char × List Char × List Bool) := [
  (t!"127.240.1.0/24", t!"127.240.1.0", [false, true, true, true, false, false]),
  (t!"127.240.1.0", t!"127.240.1.0/24", [false, true, false, false, true, true]),
  (t!"127.240.1.0", t!"127.240.1.0/32", [true, false, false, true, false, true])]

example : comparisonNet4.all (fun r => [true, false].all fun s =>
    okIs (do netCmpOps F4 s (← netOf F4 r.1) (← netOf F4 r.2.1)) (listOps · == r.2.2)) = true := by
  decide +kernel

/-! ### `uint128-tests.cpp` -/

/-- Lines 132-289: a value, an operation, a value and the result. -/
def arithmetic : List (U128 × U128.Op × U128 × U128) := [
  (⟨4, 5⟩, .add, ⟨0, 1⟩, ⟨4, 6⟩),
  (⟨4, 0xFFFFFFFFFFFFFFFE⟩, .add, ⟨0, 1⟩, ⟨4, 0xFFFFFFFFFFFFFFFF⟩),
  (⟨4, 0xFFFFFFFFFFFFFFFF⟩, .add, ⟨0, 1⟩, ⟨5, 0⟩),
  (⟨4, 5⟩, .add, ⟨10, 0xFFFFFFFFFFFFFFFD⟩, ⟨15, 2⟩),
  (⟨4, 5⟩, .sub, ⟨0, 6⟩, ⟨3, 0xFFFFFFFFFFFFFFFF⟩),
  (⟨4, 0xFFFFFFFFFFFFFFFE⟩, .sub, ⟨0, 7⟩, ⟨4, 0xFFFFFFFFFFFFFFF7⟩),
  (⟨4, 5⟩, .sub, ⟨2, 0xFFFFFFFFFFFFFFFD⟩, ⟨1, 8⟩),
  (⟨0, 10⟩, .sub, ⟨0, 7⟩, ⟨0, 3⟩),
  (⟨4, 5⟩, .mul, ⟨0, 6⟩, ⟨24, 30⟩),
  (⟨4, 0xFFFFFFFFFFFFFFFE⟩, .mul, ⟨0, 7⟩, ⟨34, 0xFFFFFFFFFFFFFFF2⟩),
  (⟨4, 0xFFFFFFFFFFFFFFFF⟩, .mul, ⟨0, 1⟩, ⟨4, 0xFFFFFFFFFFFFFFFF⟩),
  (⟨0, 1000⟩, .mul, ⟨2, 0xFFFFFFFFFFFFFFFD⟩, ⟨0xBB7, 0xFFFFFFFFFFFFF448⟩),
  (⟨4, 5⟩, .div, ⟨0, 25⟩, ⟨0, 0x28F5C28F5C28F5C2⟩),
  (⟨4, 0xFFFFFFFFFFFFFFFE⟩, .div, ⟨0, 2⟩, ⟨2, 0x7fffffffffffffff⟩),
  (⟨4, 0xFFFFFFFFFFFFFFFF⟩, .div, ⟨0, 1⟩, ⟨4, 0xFFFFFFFFFFFFFFFF⟩),
  (⟨0, 1000⟩, .div, ⟨0, 2⟩, ⟨0, 0x1F4⟩),
  (⟨0, 0⟩, .div, ⟨0, 2⟩, ⟨0, 0⟩),
  (⟨0, 0⟩, .div, ⟨0, 0⟩, ⟨0, 0⟩),
  (⟨0, 1000⟩, .div, ⟨0, 1000⟩, ⟨0, 1⟩),
  (⟨0, 1000⟩, .div, ⟨0, 2000⟩, ⟨0, 0⟩),
  (⟨2, 1000⟩, .div, ⟨2, 1000⟩, ⟨0, 1⟩),
  (⟨2, 1000⟩, .div, ⟨2, 2000⟩, ⟨0, 0⟩),
  (⟨4, 5⟩, .rem, ⟨0, 25⟩, ⟨0, 19⟩),
  (⟨4, 0xFFFFFFFFFFFFFFFE⟩, .rem, ⟨0, 2⟩, ⟨0, 0⟩),
  (⟨4, 0xFFFFFFFFFFFFFFFF⟩, .rem, ⟨0, 1⟩, ⟨0, 0⟩),
  (⟨0, 15⟩, .rem, ⟨4, 5⟩, ⟨0, 15⟩),
  (⟨1, 1⟩, .and, ⟨3, 3⟩, ⟨1, 1⟩),
  (⟨1, 1⟩, .and, ⟨0, 1⟩, ⟨0, 1⟩),
  (⟨1, 1⟩, .or, ⟨2, 2⟩, ⟨3, 3⟩),
  (⟨1, 1⟩, .or, ⟨0, 2⟩, ⟨1, 3⟩),
  (⟨1, 1⟩, .xor, ⟨3, 3⟩, ⟨2, 2⟩),
  (⟨1, 1⟩, .xor, ⟨0, 3⟩, ⟨1, 2⟩)]

example : arithmetic.all (fun r => okIs (U128.apply r.2.1 r.1 r.2.2.1) (U128.eq · r.2.2.2)) = true := by decide +kernel

example : U128.neg ⟨4, 5⟩ = ⟨0xFFFFFFFFFFFFFFFB, 0xFFFFFFFFFFFFFFFB⟩ ∧
    U128.neg ⟨4, 0xFFFFFFFFFFFFFFFE⟩ = ⟨0xFFFFFFFFFFFFFFFB, 2⟩ ∧
    U128.neg ⟨4, 0xFFFFFFFFFFFFFFFF⟩ = ⟨0xFFFFFFFFFFFFFFFB, 1⟩ ∧
    U128.not ⟨4, 5⟩ = ⟨0xFFFFFFFFFFFFFFFB, 0xFFFFFFFFFFFFFFFA⟩ ∧
    U128.shl ⟨0, 0xFFFFFFFFFFFFFFFF⟩ 1 = .ok ⟨1, 0xFFFFFFFFFFFFFFFE⟩ := by decide +kernel

/-- Lines 25-57: `457.3f` and `4.32e+20`. -/
example : U128.ofFloat 0x43E4A666 = .ok ⟨0, 457⟩ ∧ U128.ofDouble 0x44376B344F2A78C0 = .ok ⟨23, 0x6B344F2A78C00000⟩ := by
  decide +kernel

/-- Lines 463-488: value, `std::hex`, `std::oct`, `std::uppercase`, text. -/
def u128Texts : List (U128 × Bool × Bool × Bool × List Char) := [
  (⟨0, 17852⟩, false, false, false, t!"17852"),
  (⟨0, 17852⟩, false, true, false, t!"42674"),
  (⟨0, 17852⟩, true, false, false, t!"45bc"),
  (⟨0, 17852⟩, true, false, true, t!"45BC"),
  (⟨4, 17852⟩, false, false, false, t!"73786976294838224316"),
  (⟨4, 17852⟩, false, true, false, t!"10000000000000000042674"),
  (⟨4, 17852⟩, true, false, false, t!"400000000000045bc"),
  (⟨4, 17852⟩, true, false, true, t!"400000000000045BC")]

example : u128Texts.all (fun r => okIs (osU128 wideChar r.1 ⟨0, r.2.2.2.1, r.2.1, r.2.2.1, []⟩)
    (·.out == r.2.2.2.2)) = true := by decide +kernel

/-- Lines 508-538: the texts read back, here before ` test`. -/
example : u128Texts.all (fun r =>
    let x := isU128 wideChar ⟨0, 0⟩ ⟨0, r.2.1, r.2.2.1, r.2.2.2.2 ++ t!" test", false, false⟩
    U128.eq x.1 r.1 && !x.2.fail) = true := by decide +kernel

example : (isU128 wideChar ⟨0, 0⟩ ⟨0, false, false, t!"bad", false, false⟩).2.fail = true := by decide +kernel

/-- Lines 540-650. -/
example : U128.fromText .decimal (readChars t!"10000000000000000042674") = some ⟨542, 1864712049423066802⟩ ∧
    U128.fromText .decimal (readChars t!"100000000000a00000042674") = none := by decide +kernel

/-! ### `unicode-tests.cpp:45-187` -/

/-- `"12\U00010348한И$"` and what the reader yields. -/
def readerText : List Ev :=
  [.ch '1', .ch '2', .bad .unexpected_symbol 0x10348, .bad .unexpected_symbol 0xd55c, .bad .unexpected_symbol 0x418, .ch '$']

/-- One call of the reader after the other, also after an error. -/
def readAll {U : Type} (enc : Enc U) : Nat → List U → List Ev
  | _, [] => []
  | 0, _ => []
  | n + 1, u :: r => (enc.next u r).1 :: readAll enc n (enc.next u r).2

example : readAll encUtf8 12 [49, 50, 240, 144, 141, 136, 237, 149, 156, 208, 152, 36] = readerText ∧
    readAll encUtf16 12 [49, 50, 0xD800, 0xDF48, 0xd55c, 0x418, 36] = readerText ∧
    readAll encUtf32 12 [49, 50, 0x10348, 0xd55c, 0x418, 36] = readerText := by decide +kernel

/-- The text of the exception, `unicode-tests.cpp:109-111`. -/
def readerWhat : List Char := t!"unexpected next unicode symbol {U+10348} in string 12{U+10348}{U+d55c}{U+0418}$"

example : throws (raise (α := Unit) encUtf8 .unexpected_symbol 0x10348 [49, 50, 240, 144, 141, 136, 237, 149, 156, 208, 152, 36])
      .unexpected_symbol readerWhat = true ∧
    throws (raise (α := Unit) encUtf16 .unexpected_symbol 0x10348 [49, 50, 0xD800, 0xDF48, 0xd55c, 0x418, 36])
      .unexpected_symbol readerWhat = true ∧
    throws (raise (α := Unit) encUtf32 .unexpected_symbol 0x10348 [49, 50, 0x10348, 0xd55c, 0x418, 36])
      .unexpected_symbol readerWhat = true := by decide +kernel

/-! ### `fixed-string-tests.cpp:362-469`: arrays that are not valid texts -/

/-- The exceptions of `make_fixed_string`. -/
def badUtf8 : List (List (BitVec 8) × ErrorCode × List Char) := [
  ([240], .wrong_encoding_sequence, t!"incorrect sequence of bytes in unicode encoding for string "),
  ([240, 144], .wrong_encoding_sequence, t!"incorrect sequence of bytes in unicode encoding for string "),
  ([240, 144, 141], .wrong_encoding_sequence, t!"incorrect sequence of bytes in unicode encoding for string "),
  ([240, 144, 141, 136], .unexpected_symbol, t!"unexpected next unicode symbol {U+10348} in string {U+10348}")]

example : badUtf8.all (fun r => throws (orRaise encUtf8 r.1 (makeFixed encUtf8 r.1)) r.2.1 r.2.2) = true := by decide +kernel

/-- The same for `char16_t`. -/
def badUtf16 : List (List (BitVec 16) × ErrorCode × List Char) := [
  ([55296], .wrong_encoding_sequence, t!"incorrect sequence of bytes in unicode encoding for string "),
  ([55296, 48], .wrong_encoding_sequence, t!"incorrect sequence of bytes in unicode encoding for string "),
  ([55296, 57160], .unexpected_symbol, t!"unexpected next unicode symbol {U+10348} in string {U+10348}")]

example : badUtf16.all (fun r => throws (orRaise encUtf16 r.1 (makeFixed encUtf16 r.1)) r.2.1 r.2.2) = true := by decide +kernel

/-- The same for `char32_t`. -/
def badUtf32 : List (List (BitVec 32) × ErrorCode × List Char) := [
  ([259], .unexpected_symbol, t!"unexpected next unicode symbol {U+0103} in string {U+0103}"),
  ([66376], .unexpected_symbol, t!"unexpected next unicode symbol {U+10348} in string {U+10348}")]

example : badUtf32.all (fun r => throws (orRaise encUtf32 r.1 (makeFixed encUtf32 r.1)) r.2.1 r.2.2) = true := by decide +kernel

end Ip.Vectors
