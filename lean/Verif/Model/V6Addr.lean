import Verif.Model.V4
import Verif.Model.V6
import Verif.Model.U128
/-
IPv6 address objects: integer conversion, comparison, transition addresses, scope ids, hashing,
swapping (`ipv6-address.hpp`), and the reverse pointers of both versions.
-/
set_option autoImplicit false

namespace Ip

/-- The value of `s` in iteration `i` of the loops of `ipv6-address.hpp:676, 699`: `s` starts at 56
and decreases by 8 (little endian) or starts at 0 and increases by 8. `le` is `is_little_endian()`. -/
def v6Shift (le : Bool) (i : Nat) : Nat := if le then 56 - 8 * i else 8 * i

/-- `ipv6-address.hpp:676-679`: the loop of `from_uint`, `n` iterations left. -/
def v6FromUintLoop (le : Bool) (ip : U128) : Nat → Nat → List (BitVec 8) → Res (List (BitVec 8))
  | 0, _, bytes => .ok bytes
  | n + 1, i, bytes => do
    let bytes ← wr bytes i ((ip.upper >>> v6Shift le i).setWidth 8)
    let bytes ← wr bytes (i + 8) ((ip.lower >>> v6Shift le i).setWidth 8)
    v6FromUintLoop le ip n (i + 1) bytes

/-- `ipv6-address.hpp:667-681`, `from_uint`: the bytes (the scope id is empty). -/
def v6FromUint (le : Bool) (ip : U128) : Res (List (BitVec 8)) :=
  v6FromUintLoop le ip 8 0 (List.replicate 16 0#8)

/-- `ipv6-address.hpp:699-702`: the loop of `to_uint`, `n` iterations left. -/
def v6ToUintLoop (le : Bool) (bytes : List (BitVec 8)) : Nat → Nat → BitVec 64 → BitVec 64 → Res U128
  | 0, _, upper, lower => .ok ⟨upper, lower⟩
  | n + 1, i, upper, lower => do
    let u ← rd bytes i
    let l ← rd bytes (i + 8)
    v6ToUintLoop le bytes n (i + 1) (upper ||| (u.setWidth 64 <<< v6Shift le i))
      (lower ||| (l.setWidth 64 <<< v6Shift le i))

/-- `ipv6-address.hpp:689-704`, `to_uint`. -/
def v6ToUint (le : Bool) (bytes : List (BitVec 8)) : Res U128 := v6ToUintLoop le bytes 8 0 0#64 0#64

/-- `ipv6-address.hpp:801-808`, `equals`; `val` is the conversion `int(char)` of
`fixed_string::compare`. -/
def v6Equals (val : Char → Int) (a b : V6) : Res Bool :=
  if bytesEq a.bytes b.bytes then do
    let c ← FStr.compare val a.scope b.scope
    .ok (decide (c = 0))
  else .ok false

/-- `ipv6-address.hpp:810-817`, `less` (used without `<=>`). -/
def v6Less (val : Char → Int) (a b : V6) : Res Bool :=
  if bytesLess a.bytes b.bytes then .ok true
  else do
    let c ← FStr.compare val a.scope b.scope
    .ok (decide (c < 0))

/-- `ipv6-address.hpp:821-837`, `compare` (used with `<=>`). -/
def v6Compare (val : Char → Int) (a b : V6) : Res Ordering :=
  if bytesCmp a.bytes b.bytes = .eq then do
    let c ← FStr.compare val a.scope b.scope
    .ok (if c < 0 then .lt else if c = 0 then .eq else .gt)
  else .ok (bytesCmp a.bytes b.bytes)

/-- Reads consecutive bytes `b[i], ..., b[i + n - 1]` into an array initialiser
(`ipv6-address.hpp:727, 743, 761, 762`). -/
def rdRange (b : List (BitVec 8)) (i : Nat) : Nat → Res (List (BitVec 8))
  | 0 => .ok []
  | n + 1 => do
    let x ← rd b i
    let xs ← rdRange b (i + 1) n
    .ok (x :: xs)

/-- `ipv6-address.hpp:722-729`, `ipv4_mapped`. -/
def v6Mapped (b : List (BitVec 8)) : Res (Option (List (BitVec 8))) := do
  let b10 ← rd b 10
  let b11 ← rd b 11
  if b10 ≠ 0xFF#8 ∨ b11 ≠ 0xFF#8 then .ok none
  else do
    let r ← rdRange b 12 4
    .ok (some r)

/-- `ipv6-address.hpp:738-745`, `sixtofour`. -/
def v6SixToFour (b : List (BitVec 8)) : Res (Option (List (BitVec 8))) := do
  let b0 ← rd b 0
  let b1 ← rd b 1
  if b0 ≠ 0x20#8 ∨ b1 ≠ 0x02#8 then .ok none
  else do
    let r ← rdRange b 2 4
    .ok (some r)

/-- `ipv6-address.hpp:756-764`, `teredo`: server and client. -/
def v6Teredo (b : List (BitVec 8)) : Res (Option (List (BitVec 8) × List (BitVec 8))) := do
  let b0 ← rd b 0
  let b1 ← rd b 1
  let b2 ← rd b 2
  let b3 ← rd b 3
  if b0 ≠ 0x20#8 ∨ b1 ≠ 0x01#8 ∨ b2 ≠ 0x00#8 ∨ b3 ≠ 0x00#8 then .ok none
  else do
    let server ← rdRange b 4 4
    let client ← rdRange b 12 4
    .ok (some (server, client.map (~~~ ·)))

/-- `ipv6-address.hpp:60-71`: the loop of `ipv6_set_scope::change`; `str` is the local array. -/
def setScopeLoop (spaces : Bool) : List Ev → Nat → List Char → Res (List Char)
  | [], _, str => .ok str
  | .bad code sym :: _, _, _ => .err code sym
  | .ch c :: rest, i, str =>
    if invalidScopeSymbol spaces c then .err .invalid_scope_id 0
    else do
      let str ← wr str i c
      setScopeLoop spaces rest (i + 1) str

/-- `ipv6-address.hpp:50-72`: the string assigned at line 74.  `size` is `scope.size()` in code
units, `evs` what the reader yields for them. -/
def scopeChange (spaces : Bool) (M : Nat) (size : Nat) (evs : List Ev) : Res FStr :=
  if size > M then .err .scope_id_is_too_long 0
  else do
    let str ← setScopeLoop spaces evs 0 (List.replicate (M + 1) '\x00')
    mkFixed str

/-- `ipv6-address.hpp:48-77`, `ipv6_set_scope::change` applied to the scope id of an address
(lines 350-430): the address afterwards and the error.  With `M = 0` the body is compiled out. -/
def v6SetScope (spaces : Bool) (M : Nat) (a : V6) (size : Nat) (evs : List Ev) :
    Res (V6 × Option ErrorCode) :=
  if M = 0 then .ok (a, none)
  else match scopeChange spaces M size evs with
    | .ok f => .ok (⟨a.bytes, f⟩, none)
    | .err code _ => .ok (a, some code)
    | .ub => .ub

/-- `ipv6-address.hpp:336-344`: `set_scope_id` from an array of `char`, which first becomes a fixed
string; `arr` includes the terminator, `arr.length ≤ M + 1` is a `static_assert`. -/
def v6SetScopeArray (spaces : Bool) (M : Nat) (a : V6) (arr : List Char) : Res (V6 × Option ErrorCode) := do
  let f ← mkFixed arr
  v6SetScope spaces M a f.length (readChars f.contents)

/-- `ipv6-address.hpp:247-255`: the loop of `parse_value`, `none` is `_has_value = false`. -/
def scopeValueLoop (s : FStr) : Nat → Nat → BitVec 32 → Res (Option (BitVec 32))
  | 0, _, _ => .ub
  | fuel + 1, i, value =>
    if i < s.length then do
      let c ← rd s.data i
      if '0'.toNat ≤ c.toNat ∧ c.toNat ≤ '9'.toNat then
        scopeValueLoop s fuel (i + 1) (value * 10#32 + BitVec.ofNat 32 (c.toNat - '0'.toNat))
      else .ok none
    else .ok (some value)

/-- `ipv6-address.hpp:242-258`, `parse_value`: `has_uint32()` and `get_uint32()`. -/
def scopeValue (s : FStr) : Res (Bool × BitVec 32) :=
  if s.length ≠ 0 then do
    let v ← scopeValueLoop s (s.length + 1) 0 0#32
    match v with
    | some v => .ok (true, v)
    | none => .ok (false, 0#32)
  else .ok (false, 0#32)

/-- `ipv6-address.hpp:788-799`, `hash`. -/
def v6Hash (conv : Char → BitVec 64) (a : V6) : Res (BitVec 64) := do
  let h ← FStr.hash conv a.scope
  .ok (calcHash h (a.bytes.map (·.setWidth 64)))

/-- `ipv6-address.hpp:781-786`, `swap`. -/
def v6Swap (a b : V6) : Res (V6 × V6) := do
  let s ← FStr.swap a.scope b.scope
  .ok (⟨(bytesSwap a.bytes b.bytes).1, s.1⟩, ⟨(bytesSwap a.bytes b.bytes).2, s.2⟩)

/-- `base-v4.hpp:173-175`, `ip_reverse_pointer`. -/
def v4ReversePointer (le : Bool) (bytes : List (BitVec 8)) : Res (List Char) := do
  let n ← v4ToUint le bytes
  let s ← v4ToString (v4FromUint le (swap32 n))
  .ok (s ++ ['.', 'i', 'n', '-', 'a', 'd', 'd', 'r', '.', 'a', 'r', 'p', 'a'])

/-- `base-v6.hpp:238-240`: `std::accumulate` over the remaining reversed characters. -/
def accumulateDots (acc : List Char) : List Char → List Char
  | [] => acc
  | c :: cs => accumulateDots (acc ++ ['.'] ++ [c]) cs

/-- `base-v6.hpp:233-242`, `ip_reverse_pointer`.  Calling `back()` on an empty string is undefined. -/
def v6ReversePointer (M : Nat) (bytes : List (BitVec 8)) : Res (List Char) := do
  let r ← v6ToChars bytes (emptyScope M) .full (List.replicate (42 + M) '\x00')
  match ((r.1.take r.2).filter (· ≠ ':')).reverse with
  | [] => .ub
  | c :: cs => .ok (accumulateDots [c] cs ++ ['.', 'i', 'p', '6', '.', 'a', 'r', 'p', 'a'])

end Ip
