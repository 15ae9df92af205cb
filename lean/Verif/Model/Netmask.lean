import Verif.Model.V6Addr
/-
Netmasks: `ip_from_prefix`, `parse_netmask` and `strict_netmask` of `base-v4.hpp` and `base-v6.hpp`.
Prefix lengths are `size_t` values (64 bits), represented by natural numbers; operations that may
wrap are reduced modulo `2^64`.
-/
set_option autoImplicit false

namespace Ip

/-- `base-v4.hpp:142-146`, `ip_from_prefix`; shifting a 32 bit value by 32 or more is undefined. -/
def v4FromPrefix (le : Bool) (p : Nat) : Res (List (BitVec 8)) :=
  if p ≠ 0 then
    if p - 1 < 32 then .ok (v4FromUint le (0xFFFFFFFF#32 ^^^ ((0xFFFFFFFF#32 >>> (p - 1)) >>> 1)))
    else .ub
  else .ok (v4FromUint le 0#32)

/-- `base-v6.hpp:116-118`: the loop of `ip_from_prefix`, `n` iterations left. -/
def v6PrefixLoop : Nat → Nat → List (BitVec 8) → Res (List (BitVec 8))
  | 0, _, bytes => .ok bytes
  | n + 1, i, bytes => do
    let bytes ← wr bytes i 0xFF#8
    v6PrefixLoop n (i + 1) bytes

/-- `base-v6.hpp:114-125`, `ip_from_prefix`: the bytes. -/
def v6FromPrefix (p : Nat) : Res (List (BitVec 8)) := do
  let bytes ← v6PrefixLoop (p >>> 3) 0 (List.replicate 16 0#8)
  let shift := p - ((p >>> 3) <<< 3)
  if shift > 0 then wr bytes (p >>> 3) (0xFF#8 ^^^ (0xFF#8 >>> shift)) else .ok bytes

/-- `base-v4.hpp:260-263`: counting the one bits, at most `fuel` rounds. -/
def countOnesLoop : Nat → BitVec 32 → Nat → Res Nat
  | 0, _, _ => .ub
  | fuel + 1, number, count =>
    if number ≠ 0#32 then countOnesLoop fuel (number >>> 1) (count + (number &&& 0x1#32).toNat)
    else .ok count

/-- `base-v4.hpp:254-270`, `count_righthand_zero_bits`. -/
def countRightZeros (number : BitVec 32) (bits : Nat) : Res Nat :=
  if number = 0#32 then .ok bits
  else do
    let count ← countOnesLoop 33 (~~~number &&& (number - 1#32)) 0
    if bits < count then .ok bits else .ok count

/-- `base-v4.hpp:242-252`, `prefix_from_ip_uint32`.  The shift by `prefixlen - 1` is undefined for
`prefixlen = 0`, where the `size_t` subtraction wraps.  `value` is the value of the out parameter
`code_value` of the caller. -/
def prefixFromUint (ip : BitVec 32) (value : Nat) : Res Nat := do
  let tz ← countRightZeros ip 32
  let p := 32 - tz
  if tz ≠ 32 ∧ ¬ tz < 32 then .ub
  else
    let leading := if tz ≠ 32 then ip >>> tz else 0#32
    if p = 0 then .ub
    else
      let ones := ((1#32 <<< (p - 1)) <<< 1) - 1#32
      if leading ≠ ones then .err .netmask_pattern_mixes_zeroes_and_ones value else .ok p

/-- The digit loops of `base-v4.hpp:187-199` and `base-v6.hpp:249-261`: `some` is the number
(wrapping modulo `2^64`) when all characters are digits, `none` at the first other character. -/
def digitsLoop : List Ev → Nat → Res (Option Nat)
  | [], p => .ok (some p)
  | .bad code sym :: _, _ => .err code sym
  | .ch c :: rest, p =>
    if '0'.toNat ≤ c.toNat ∧ c.toNat ≤ '9'.toNat then
      digitsLoop rest ((p * 10 + (c.toNat - '0'.toNat)) % 18446744073709551616)
    else .ok none

/-- `base-v4.hpp:212-220`: the prefix of a netmask, or of a hostmask. -/
def prefixFromMask (ip : BitVec 32) : Res Nat :=
  match prefixFromUint ip 3 with
  | .ok p => .ok p
  | .err _ _ => prefixFromUint (ip ^^^ 0xFFFFFFFF#32) 3
  | .ub => .ub

/-- `base-v4.hpp:206-220`: a netmask in dotted notation; the prefix length. -/
def v4MaskText (le : Bool) (evs : List Ev) : Res Nat :=
  match v4FromEvents evs with
  | .ok b => do
    let ip ← v4ToUint le b
    prefixFromMask ip
  | .err _ v => .err .invalid_netmask v
  | .ub => .ub

/-- `base-v4.hpp:178-225`, `parse_netmask`: netmask, prefix length, and the value left in
`code_value` (3, the last octet index, when the netmask was an address). -/
def v4ParseNetmask (le : Bool) (evs : List Ev) : Res (List (BitVec 8) × Nat × Nat) := do
  let d ← digitsLoop evs 0
  match d with
  | some p =>
    if p > 32 then .err .invalid_netmask 0
    else
      let p := if evs = [] then 32 else p
      let m ← v4FromPrefix le p
      .ok (m, p, 0)
  | none => do
    let p ← v4MaskText le evs
    let m ← v4FromPrefix le p
    .ok (m, p, 3)

/-- `base-v6.hpp:245-272`, `parse_netmask`. -/
def v6ParseNetmask (evs : List Ev) : Res (List (BitVec 8) × Nat × Nat) := do
  let d ← digitsLoop evs 0
  match d with
  | some p =>
    if p > 128 then .err .invalid_netmask 0
    else
      let p := if evs = [] then 128 else p
      let m ← v6FromPrefix p
      .ok (m, p, 0)
  | none => .err .invalid_netmask 0

/-- Element by element combination of two byte arrays of the same static length. -/
def bytesZip (f : BitVec 8 → BitVec 8 → BitVec 8) : List (BitVec 8) → List (BitVec 8) → Res (List (BitVec 8))
  | [], [] => .ok []
  | a :: as, b :: bs => do
    let r ← bytesZip f as bs
    .ok (f a b :: r)
  | _, _ => .ub

/-- `base-v4.hpp:227-239`, `strict_netmask`. -/
def v4Strict (le : Bool) (address netmask : List (BitVec 8)) (strict : Bool) : Res (List (BitVec 8)) := do
  let a ← v4ToUint le address
  let m ← v4ToUint le netmask
  if a &&& m ≠ a then
    if strict then .err .has_host_bits_set 0 else .ok (v4FromUint le (a &&& m))
  else .ok address

/-- `base-v6.hpp:274-292`, `strict_netmask`; the masked address is built without scope id. -/
def v6Strict (M : Nat) (address netmask : V6) (strict : Bool) : Res V6 := do
  let bytes ← bytesZip (· &&& ·) address.bytes netmask.bytes
  if bytesEq bytes address.bytes = false then
    if strict then .err .has_host_bits_set 0 else .ok ⟨bytes, emptyScope M⟩
  else .ok address

end Ip
