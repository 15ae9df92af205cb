import Verif.Model.Unicode
/-
IPv4 text and integer conversions, `include/ipaddress/base-v4.hpp`.
-/
set_option autoImplicit false

namespace Ip

/-- Local variables of the loop in `base-v4.hpp:67-72`. `octets` is the array `base_type octets`
of four bytes. -/
structure V4St where
  octets : List (BitVec 8)
  first : Char
  digits : Nat
  octet : Nat
  index : Nat
deriving DecidableEq, Repr

/-- `base-v4.hpp:67-73`, initial values. -/
def v4Init : V4St := { octets := [0, 0, 0, 0], first := '\x00', digits := 0, octet := 0, index := 0 }

/-- `c - '0'` for a digit (`base-v4.hpp:94`). -/
def digitVal (c : Char) : Nat := c.toNat - '0'.toNat

/-- `c >= '0' && c <= '9'` (`base-v4.hpp:87`). -/
def isDig (c : Char) : Bool := decide ('0'.toNat ≤ c.toNat) && decide (c.toNat ≤ '9'.toNat)

/-- One iteration of the loop, `base-v4.hpp:83-115`. -/
def v4Step (st : V4St) (c : Char) : Res V4St :=
  if st.index ≥ 4 then .err .expected_4_octets st.index
  else if isDig c then
    if st.digits > 0 ∧ st.first = '0' then .err .leading_0_are_not_permitted st.index
    else
      let first := if st.digits = 0 then c else st.first
      let octet := st.octet * 10 + digitVal c
      let digits := st.digits + 1
      if digits > 3 then .err .octet_more_3_characters st.index
      else .ok { st with first := first, octet := octet, digits := digits }
  else if c = '.' ∧ st.digits > 0 then
    if st.octet > 255 then .err .octet_exceeded_255 st.index
    else do
      let octets ← wr st.octets st.index (BitVec.ofNat 8 (st.octet &&& 0xFF))
      .ok { st with octets := octets, index := st.index + 1, digits := 0, octet := 0 }
  else if c = '.' then .err .empty_octet st.index
  else .err .octet_has_invalid_symbol st.index

/-- `base-v4.hpp:77-116`, the loop. -/
def v4Loop (st : V4St) : List Ev → Res V4St
  | [] => .ok st
  | .bad code sym :: _ => .err code sym
  | .ch c :: rest => do
    let st' ← v4Step st c
    v4Loop st' rest

/-- `base-v4.hpp:117-130`, after the loop. -/
def v4Finish (st : V4St) : Res (List (BitVec 8)) :=
  if st.index ≠ 3 then .err .expected_4_octets st.index
  else if st.digits = 0 then .err .empty_octet st.index
  else if st.octet > 255 then .err .octet_exceeded_255 st.index
  else wr st.octets st.index (BitVec.ofNat 8 (st.octet &&& 0xFF))

/-- `base-v4.hpp:61-131`, `ip_from_string`, on the events of a text.  For an empty text `index`
keeps the caller's value, modelled as 0. -/
def v4FromEvents (evs : List Ev) : Res (List (BitVec 8)) :=
  if evs = [] then .err .empty_address 0
  else do
    let st ← v4Loop v4Init evs
    v4Finish st

/-- `ip-address-base.hpp:763-778` with `char` input: `ipv4_address::parse`. -/
def v4Parse (s : List Char) : Res (List (BitVec 8)) := v4FromEvents (readChars s)

/-- `base-v4.hpp:275-279`: the digits of a byte, least significant first, written to `str` from
`p`.  The loop runs while the byte is not zero; `fuel` bounds the number of iterations and running
out of it is reported as `ub`. -/
def byteDigitsLoop : Nat → List Char → Nat → Nat → Res (List Char × Nat)
  | 0, _, _, _ => .ub
  | fuel + 1, str, byte, p => do
    let str ← wr str p (Char.ofNat (byte % 10 + '0'.toNat))
    let byte := byte / 10
    if byte ≠ 0 then byteDigitsLoop fuel str byte (p + 1) else .ok (str, p + 1)

/-- `base-v4.hpp:283-287`: reversing the first `length` characters in place. -/
def byteReverseLoop : Nat → List Char → Nat → Nat → Res (List Char)
  | 0, str, _, _ => .ok str
  | n + 1, str, i, p => do
    let tmp ← rd str i
    let x ← rd str (p - 1)
    let str ← wr str i x
    let str ← wr str (p - 1) tmp
    byteReverseLoop n str (i + 1) (p - 1)

/-- `base-v4.hpp:272-290`, `byte_to_string`: the buffer of four characters and the length. -/
def byteToString (byte : BitVec 8) (str : List Char) : Res (List Char × Nat) := do
  let (str, length) ← byteDigitsLoop 4 str byte.toNat 0
  let str ← wr str length '\x00'
  let str ← byteReverseLoop (length / 2) str 0 length
  .ok (str, length)

/-- `base-v4.hpp:162-164`: copying `n` characters of `buffer` from index `i`. -/
def v4CopyLoop : Nat → List Char → Nat → List Char → Nat → Res (List Char × Nat)
  | 0, _, _, result, offset => .ok (result, offset)
  | n + 1, buffer, i, result, offset => do
    let c ← rd buffer i
    let result ← wr result offset c
    v4CopyLoop n buffer (i + 1) result (offset + 1)

/-- `base-v4.hpp:160-168`: the loop over the four bytes from byte number `b`. -/
def v4CharsLoop : List (BitVec 8) → Nat → List Char → List Char → Nat → Res (List Char × Nat)
  | [], _, _, result, offset => .ok (result, offset)
  | byte :: bytes, b, buffer, result, offset => do
    let (buffer, length) ← byteToString byte buffer
    let (result, offset) ← v4CopyLoop length buffer 0 result offset
    if b < 3 then do
      let result ← wr result offset '.'
      v4CharsLoop bytes (b + 1) buffer result (offset + 1)
    else v4CharsLoop bytes (b + 1) buffer result offset

/-- `base-v4.hpp:157-171`, `ip_to_chars`: the result buffer of 16 characters (with its previous
contents as argument) and the length. -/
def v4ToChars (bytes : List (BitVec 8)) (result : List Char) : Res (List Char × Nat) := do
  let (result, offset) ← v4CharsLoop bytes 0 (List.replicate 4 '\x00') result 0
  let result ← wr result offset '\x00'
  .ok (result, offset)

/-- `ip-address-base.hpp:527-531`, `to_string`: the characters of the buffer up to the length. -/
def v4ToString (bytes : List (BitVec 8)) : Res (List Char) := do
  let (buf, n) ← v4ToChars bytes (List.replicate 16 '\x00')
  .ok (buf.take n)

/-- `endian.hpp:126-130`, `swap_bytes` for 32 bits. -/
def swap32 (value : BitVec 32) : BitVec 32 :=
  let value := ((value <<< 8) &&& 0xFF00FF00#32) ||| ((value >>> 8) &&& 0x00FF00FF#32)
  (value <<< 16) ||| (value >>> 16)

/-- `base-v4.hpp:133-140`, `ip_from_uint32`; `le` is `is_little_endian()`. -/
def v4FromUint (le : Bool) (ip : BitVec 32) : List (BitVec 8) :=
  let ip := if le then swap32 ip else ip
  [(ip &&& 0xFF#32).setWidth 8, ((ip >>> 8) &&& 0xFF#32).setWidth 8,
   ((ip >>> 16) &&& 0xFF#32).setWidth 8, ((ip >>> 24) &&& 0xFF#32).setWidth 8]

/-- `base-v4.hpp:148-155`, `ip_to_uint32`; the four reads are bounds checked. -/
def v4ToUint (le : Bool) (bytes : List (BitVec 8)) : Res (BitVec 32) := do
  let b3 ← rd bytes 3
  let b2 ← rd bytes 2
  let b1 ← rd bytes 1
  let b0 ← rd bytes 0
  let ip := (b3.setWidth 32 <<< 24) ||| (b2.setWidth 32 <<< 16) ||| (b1.setWidth 32 <<< 8) |||
    b0.setWidth 32
  .ok (if le then swap32 ip else ip)

end Ip
