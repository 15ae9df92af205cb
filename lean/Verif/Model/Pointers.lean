import Verif.Model.Throw
import Verif.Model.U128
import Verif.Model.V6Addr
/-
The character readers and the loops that use them on pointers.

`arr` is the whole array that the text lies in, `stop` is the index of the pointer `end`, `it` the index
of the pointer `it`.  A pointer may point to an element of the array or one past the last element; forming
any other pointer, or reading one past the last element, is undefined behaviour (`ub`).
A `std::string` and a string literal have one element (the NUL) after `end`, a `std::string_view` possibly none.
-/
set_option autoImplicit false

namespace Ip

/-- `++it` of a pointer into an array of `n` elements. -/
def inc (n it : Nat) : Res Nat := if it + 1 ≤ n then .ok (it + 1) else .ub

/-- `unicode.hpp:206-210`, `char_reader<char>::next_or_error` without `IPADDRESS_CHAR_IS_UTF8`. -/
def charNextP (arr : List Char) (_stop it : Nat) : Res (Ev × Nat) := do
  let c ← rd arr it
  let it ← inc arr.length it
  .ok (.ch c, it)

/-- `unicode.hpp:174-186`, `utf32_next_or_error`. -/
def utf32NextP (arr : List (BitVec 32)) (_stop it : Nat) : Res (Ev × Nat) := do
  let u ← rd arr it
  let it ← inc arr.length it
  if u.toNat > 127 then .ok (.bad .unexpected_symbol u.toNat, it) else .ok (.ch (Char.ofNat u.toNat), it)

/-- `unicode.hpp:151-161`, the end of `utf16_next_or_error`. -/
def utf16FinP (n : Nat) (correct : Bool) (value : BitVec 32) (it : Nat) : Res (Ev × Nat) := do
  let it ← inc n it
  if correct = false then .ok (.bad .wrong_encoding_sequence 0, it)
  else if value.toNat > 127 then .ok (.bad .unexpected_symbol value.toNat, it)
  else .ok (.ch (Char.ofNat value.toNat), it)

/-- `unicode.hpp:127-162`, `utf16_next_or_error`. -/
def utf16NextP (arr : List (BitVec 16)) (stop it : Nat) : Res (Ev × Nat) := do
  let u ← rd arr it
  let cp := utf16CodePoint u
  if cp.2 = 1 then utf16FinP arr.length true (u.setWidth 32) it
  else do
    let it ← inc arr.length it
    if it ≥ stop then utf16FinP arr.length false cp.1 it
    else do
      let l ← rd arr it
      if l &&& 0b1111110000000000#16 = 0b1101110000000000#16 then
        utf16FinP arr.length true (((cp.1 <<< 10) ||| (l &&& 0b0000001111111111#16).setWidth 32) + 0x10000#32) it
      else utf16FinP arr.length false cp.1 it

/-- `unicode.hpp:111-122`, `trailing_utf8_code_point`: the six bits, the new value of `correct`, the pointer. -/
def utf8TrailingP (arr : List (BitVec 8)) (stop it : Nat) : Res (BitVec 32 × Bool × Nat) := do
  let it ← inc arr.length it
  if it ≥ stop then .ok (0#32, false, it)
  else do
    let b ← rd arr it
    if b &&& 0b11000000#8 = 0b10000000#8 then .ok ((b &&& 0b00111111#8).setWidth 32, true, it)
    else .ok (0#32, false, it)

/-- `unicode.hpp:62-75`: `n` trailing units. -/
def utf8TrailP (arr : List (BitVec 8)) (stop : Nat) : Nat → BitVec 32 → Bool → Nat → Res (BitVec 32 × Bool × Nat)
  | 0, v, correct, it => .ok (v, correct, it)
  | n + 1, v, _, it => do
    let t ← utf8TrailingP arr stop it
    utf8TrailP arr stop n ((v <<< 6) ||| t.1) t.2.1 t.2.2

/-- `unicode.hpp:53-92`, `utf8_next_or_error`. -/
def utf8NextP (arr : List (BitVec 8)) (stop it : Nat) : Res (Ev × Nat) := do
  let b ← rd arr it
  let cp := utf8CodePoint b
  if cp.2 = 0 then do
    let it ← inc arr.length it
    .ok (.bad .wrong_encoding_sequence 0, it)
  else do
    let t ← utf8TrailP arr stop (cp.2 - 1) cp.1 true it
    let it ← inc arr.length t.2.2
    if t.2.1 = false then .ok (.bad .wrong_encoding_sequence 0, it)
    else if t.1.toNat > 127 then .ok (.bad .unexpected_symbol t.1.toNat, it)
    else .ok (.ch (Char.ofNat t.1.toNat), it)

/-- `next_or_error` of a character type: the array, the pointers `end` and `it`; the event and the new `it`. -/
abbrev PReader (U : Type) := List U → Nat → Nat → Res (Ev × Nat)

section
variable {U : Type} (next : PReader U) (arr : List U) (stop : Nat)

/-- `base-v4.hpp:77-116`, the loop of `ip_from_string`; `fuel` bounds the number of iterations. -/
def v4LoopP : Nat → V4St → Nat → Res V4St
  | 0, _, _ => .ub
  | fuel + 1, st, it =>
    if it < stop then do
      let (ev, it) ← next arr stop it
      match ev with
      | .bad code sym => .err code sym
      | .ch c => do
        let st ← v4Step st c
        v4LoopP fuel st it
    else .ok st

/-- `base-v4.hpp:61-131`, `ip_from_string(begin, end)`. -/
def v4FromP (begin : Nat) : Res (List (BitVec 8)) :=
  if begin = stop then .err .empty_address 0
  else do
    let st ← v4LoopP next arr stop (arr.length + 1) v4Init begin
    v4Finish st

/-- Local variables of `split_scope_id` (`base-v6.hpp:303-306`); `endIp = none` is a null pointer. -/
structure ScopeStP where
  endIp : Option Nat
  scope : Bool
  buf : List Char
  index : Nat
deriving DecidableEq, Repr

/-- `base-v6.hpp:312-326`, one iteration of `split_scope_id`; `it` is the pointer after the character. -/
def scopeStepP (spaces : Bool) (M : Nat) (st : ScopeStP) (c : Char) (it : Nat) : Res ScopeStP :=
  if st.scope = false ∧ c ≠ '%' then .ok { st with endIp := some it }
  else if st.scope then
    if st.index ≥ M then .err .scope_id_is_too_long 0
    else if invalidScopeSymbol spaces c then .err .invalid_scope_id 0
    else do
      let buf ← wr st.buf st.index c
      .ok { st with buf := buf, index := st.index + 1 }
  else .ok { st with scope := true }

/-- `base-v6.hpp:307-327`, the loop of `split_scope_id`. -/
def scopeLoopP (spaces : Bool) (M : Nat) : Nat → ScopeStP → Nat → Res ScopeStP
  | 0, _, _ => .ub
  | fuel + 1, st, it =>
    if it < stop then do
      let (ev, it) ← next arr stop it
      match ev with
      | .bad code sym => .err code sym
      | .ch c => do
        let st ← scopeStepP spaces M st c it
        scopeLoopP spaces M fuel st it
    else .ok st

/-- `base-v6.hpp:302-333`, `split_scope_id`: `end_ip` and the scope buffer. -/
def splitScopeP (spaces : Bool) (M : Nat) (begin : Nat) : Res (Option Nat × List Char) := do
  let st ← scopeLoopP next arr stop spaces M (arr.length + 1) ⟨none, false, List.replicate (M + 1) '\x00', 0⟩ begin
  if st.scope then do
    let c0 ← rd st.buf 0
    if c0 = '\x00' then .err .invalid_scope_id 0 else .ok (st.endIp, st.buf)
  else .ok (st.endIp, st.buf)

/-- `base-v6.hpp:359-397`, the loop of `split_parts`. -/
def partsLoopP : Nat → PartsSt → Nat → Res PartsSt
  | 0, _, _ => .ub
  | fuel + 1, st, it =>
    if it < stop then do
      let (ev, it) ← next arr stop it
      match ev with
      | .bad code sym => .err code sym
      | .ch c => do
        let st ← partsStep st c
        partsLoopP fuel st it
    else .ok st

end

/-- `base-v6.hpp:336-461`, `split_parts(begin, end)`.  `end = none` is a null pointer: the result of `begin < end`
is unspecified, `nullLess` is what it is.  If it is true the loop has no end, which is taken as undefined. -/
def splitPartsP {U : Type} (next : PReader U) (arr : List U) (nullLess : Bool) (begin : Nat) : Option Nat → Res (List FStr × Nat)
  | some stop => do
    let st ← partsLoopP next arr stop (arr.length + 1) partsInit begin
    partsFinish st
  | none => if nullLess then .ub else partsFinish partsInit

/-- `base-v6.hpp:75-112`, `ip_from_string(begin, end)`. -/
def v6FromP {U : Type} (next : PReader U) (arr : List U) (stop : Nat) (nullLess spaces : Bool) (M : Nat) (begin : Nat) : Res V6 :=
  if begin = stop then .err .empty_address 0
  else do
    let s ← splitScopeP next arr stop spaces M begin
    let pc ← splitPartsP next arr nullLess begin s.1
    let b ← partsBound pc.1 pc.2
    let bytes ← parseParts pc.1 pc.2 b.1 b.2.1 b.2.2
    attachScope M bytes s.2

section
variable {U : Type} (next : PReader U) (arr : List U) (stop : Nat)

/-- `base-v4.hpp:187-199` and `base-v6.hpp:249-261`, the digit loops. -/
def digitsLoopP : Nat → Nat → Nat → Res (Option Nat)
  | 0, _, _ => .ub
  | fuel + 1, p, it =>
    if it < stop then do
      let (ev, it) ← next arr stop it
      match ev with
      | .bad code sym => .err code sym
      | .ch c =>
        if '0'.toNat ≤ c.toNat ∧ c.toNat ≤ '9'.toNat then
          digitsLoopP fuel ((p * 10 + (c.toNat - '0'.toNat)) % 18446744073709551616) it
        else .ok none
    else .ok (some p)

/-- `base-v4.hpp:206-220`: a netmask in dotted notation; the prefix length. -/
def v4MaskTextP (le : Bool) (begin : Nat) : Res Nat :=
  match v4FromP next arr stop begin with
  | .ok b => do
    let ip ← v4ToUint le b
    prefixFromMask ip
  | .err _ v => .err .invalid_netmask v
  | .ub => .ub

/-- `base-v4.hpp:178-225`, `parse_netmask(begin, end)`. -/
def v4ParseNetmaskP (le : Bool) (begin : Nat) : Res (List (BitVec 8) × Nat × Nat) := do
  let d ← digitsLoopP next arr stop (arr.length + 1) 0 begin
  match d with
  | some p =>
    if p > 32 then .err .invalid_netmask 0
    else
      let p := if begin < stop then p else 32
      let m ← v4FromPrefix le p
      .ok (m, p, 0)
  | none => do
    let p ← v4MaskTextP next arr stop le begin
    let m ← v4FromPrefix le p
    .ok (m, p, 3)

/-- `base-v6.hpp:245-272`, `parse_netmask(begin, end)`. -/
def v6ParseNetmaskP (begin : Nat) : Res (List (BitVec 8) × Nat × Nat) := do
  let d ← digitsLoopP next arr stop (arr.length + 1) 0 begin
  match d with
  | some p =>
    if p > 128 then .err .invalid_netmask 0
    else
      let p := if begin < stop then p else 128
      let m ← v6FromPrefix p
      .ok (m, p, 0)
  | none => .err .invalid_netmask 0

end

/-- `fixed-string.hpp:82-94` (and `59-70`), the loop of the constructor of `fixed_string<N>` from an array `arr` of
`N + 1` elements: `n` more characters.  The pointer `it` is never compared with `end = &data[N]`. -/
def ofArrayLoopP {U : Type} (next : PReader U) (arr : List U) (N : Nat) : Nat → Nat → List Char → Nat → Res (List Char × Nat)
  | 0, _, data, len => .ok (data, len)
  | n + 1, it, data, len => do
    let (ev, it) ← next arr N it
    match ev with
    | .bad code sym => .err code sym
    | .ch c => do
      let data ← wr data len c
      if c = '\x00' then .ok (data, len) else ofArrayLoopP next arr N n it data (len + 1)

/-- `fixed-string.hpp:82-94`, `fixed_string<N>(const T(&)[N + 1], error_code&)`; an error leaves `code` set. -/
def makeFixedP {U : Type} (next : PReader U) (arr : List U) : Res FStr := do
  let N := arr.length - 1
  let (data, len) ← ofArrayLoopP next arr N N 0 (List.replicate N '\x00') 0
  .ok ⟨data, len⟩

/-- `ip-address-base.hpp:429-432`, `ipv4_address::parse(const T(&)[N], error_code&)`: the text of the fixed string
lies in its array `_data`. -/
def v4ArrayP {U : Type} (next : PReader U) (arr : List U) : Res (List (BitVec 8)) := do
  let f ← makeFixedP next arr
  v4FromP charNextP f.data f.length 0

/-- `ip-address-base.hpp:429-432`, `ipv6_address::parse(const T(&)[N], error_code&)`. -/
def v6ArrayP {U : Type} (next : PReader U) (arr : List U) (nullLess spaces : Bool) (M : Nat) : Res V6 := do
  let f ← makeFixedP next arr
  v6FromP charNextP f.data f.length nullLess spaces M 0

/-- State of the loop of `parse_address_with_prefix`; `netmask = none` while `has_slash` is false. -/
structure ParseStP where
  symbol : Nat
  address : List Char
  netmask : Option Nat
deriving DecidableEq, Repr

namespace Fam
variable {A V U : Type} (F : Fam A V) (next : PReader U) (arr : List U) (stop : Nat)

/-- `ip-network-base.hpp:1282-1287`, the end of the loop body: `true` when the loop is left. -/
def storeCharP (c : Char) (st : ParseStP) : Res (ParseStP × Bool) :=
  if st.netmask.isNone then do
    let address ← wr st.address st.symbol c
    .ok (⟨st.symbol + 1, address, none⟩, decide (st.symbol + 1 > F.maxLen))
  else .ok (st, decide (st.symbol > F.maxLen))

/-- `ip-network-base.hpp:1265-1288`, the loop of `parse_address_with_prefix`. -/
def parseLoopP : Nat → ParseStP → Nat → Res ParseStP
  | 0, _, _ => .ub
  | fuel + 1, st, it =>
    if it < stop then do
      let (ev, it) ← next arr stop it
      match ev with
      | .bad code sym => .err code sym
      | .ch c =>
        if c = '/' then
          if st.netmask.isSome then .err .only_one_slash_permitted 0
          else if it = stop then .err .empty_netmask 0
          else do
            let r ← F.storeCharP c ⟨st.symbol, st.address, some it⟩
            if r.2 then .ok r.1 else parseLoopP fuel r.1 it
        else do
          let r ← F.storeCharP c st
          if r.2 then .ok r.1 else parseLoopP fuel r.1 it
    else .ok st

/-- `ip-network-base.hpp:1257-1312`, `parse_address_with_prefix`; `mask` is `parse_netmask(netmask, end)`,
`addr` is `parse` of an array of `char`. -/
def parseNetP (mask : Nat → Res (A × Nat × Nat)) (addr : List Char → Res A) (begin : Nat) (strict : Bool) : Res (Net A) := do
  let st ← F.parseLoopP next arr stop (arr.length + 1) ⟨0, List.replicate (F.maxLen + 1) '\x00', none⟩ begin
  let m ← mask (st.netmask.getD stop)
  let a ← withValue m.2.2 (addr st.address)
  let a ← withValue m.2.2 (F.strict a m.1 strict)
  .ok ⟨a, m.1, m.2.1⟩

end Fam

/-- `ipv4_network::parse`, `ip-network-base.hpp:1257-1312` with `base-v4.hpp:178-225`. -/
def v4ParseNetP {U : Type} (next : PReader U) (arr : List U) (stop : Nat) (le : Bool) (begin : Nat) (strict : Bool) :
    Res (Net (List (BitVec 8))) :=
  (fam4 le).parseNetP next arr stop (v4ParseNetmaskP next arr stop le) (v4ArrayP charNextP) begin strict

/-- `ipv6_network::parse`, `ip-network-base.hpp:1257-1312` with `base-v6.hpp:245-272`. -/
def v6ParseNetP {U : Type} (next : PReader U) (arr : List U) (stop : Nat) (nullLess : Bool) (c : Cfg) (begin : Nat)
    (strict : Bool) : Res (Net V6) :=
  (fam6 c).parseNetP next arr stop (fun i => do
    let m ← v6ParseNetmaskP next arr stop i
    .ok (⟨m.1, emptyScope c.M⟩, m.2)) (fun a => v6ArrayP charNextP a nullLess c.spaces c.M) begin strict

/-- `uint128.hpp:1595-1655`, the loops of `from_string`; `none` is the empty optional. -/
def fromTextLoopP {U : Type} (next : PReader U) (arr : List U) (stop : Nat) (base : U128.Base) : Nat → U128 → Nat → Res (Option U128)
  | 0, _, _ => .ub
  | fuel + 1, result, it =>
    if it < stop then do
      let (ev, it) ← next arr stop it
      match ev with
      | .bad _ _ => .ok none
      | .ch c =>
        if c = '\x00' then .ok (some result)
        else match U128.digitOf base c with
          | none => .ok none
          | some d =>
            fromTextLoopP next arr stop base fuel
              ((result.mul (U128.ofI64 (BitVec.ofNat 64 base.radix))).add (U128.ofI64 (BitVec.ofNat 64 d))) it
    else .ok (some result)

/-- `ipv6-address.hpp:60-71`, the loop of `ipv6_set_scope::change`. -/
def setScopeLoopP {U : Type} (next : PReader U) (arr : List U) (stop : Nat) (spaces : Bool) : Nat → Nat → List Char → Nat → Res (List Char)
  | 0, _, _, _ => .ub
  | fuel + 1, i, str, it =>
    if it < stop then do
      let (ev, it) ← next arr stop it
      match ev with
      | .bad code sym => .err code sym
      | .ch c =>
        if invalidScopeSymbol spaces c then .err .invalid_scope_id 0
        else do
          let str ← wr str i c
          setScopeLoopP next arr stop spaces fuel (i + 1) str it
    else .ok str

end Ip
