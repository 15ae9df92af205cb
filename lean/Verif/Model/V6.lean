import Verif.Model.V4
import Verif.Model.Bytes
/-
IPv6 text conversions, `include/ipaddress/base-v6.hpp` and `ipv6-address.hpp`.

`M` is `IPADDRESS_IPV6_SCOPE_MAX_LENGTH`.  The configuration without
`IPADDRESS_SCOPE_ID_SUPPORT_SPACES` is the case `spaces = false`.  Little endian host where the
IPv4 integer conversion is used.
-/
set_option autoImplicit false

namespace Ip

/-- `ipv6-address.hpp:859-868`, `ipv6_data`: 16 bytes and a `fixed_string<M>`. -/
structure V6 where
  bytes : List (BitVec 8)
  scope : FStr
deriving DecidableEq, Repr

/-- `fixed_string<M>{}` (`fixed-string.hpp:40,47`). -/
def emptyScope (M : Nat) : FStr := ⟨List.replicate M '\x00', 0⟩

/-- `base-v6.hpp:22-28`, `is_invalid_scope_id_symbol`; `spaces` is
`IPADDRESS_SCOPE_ID_SUPPORT_SPACES`. -/
def invalidScopeSymbol (spaces : Bool) (c : Char) : Bool :=
  c = '%' || c = '/' ||
    (!spaces && (c = ' ' || (decide ('\t'.toNat ≤ c.toNat) && decide (c.toNat ≤ '\r'.toNat))))

/-- Local variables of `split_scope_id` (`base-v6.hpp:303-306`).  `ip` are the characters before
`end_ip`, `buf` is `scope_id[M + 1]`. -/
structure ScopeSt where
  ip : List Char
  scope : Bool
  buf : List Char
  index : Nat
deriving DecidableEq, Repr

/-- `base-v6.hpp:312-326`, one iteration of `split_scope_id`.  `index > M - 1` with `int` operands
is `index ≥ M`. -/
def scopeStep (spaces : Bool) (M : Nat) (st : ScopeSt) (c : Char) : Res ScopeSt :=
  if st.scope = false ∧ c ≠ '%' then .ok { st with ip := st.ip ++ [c] }
  else if st.scope then
    if st.index ≥ M then .err .scope_id_is_too_long 0
    else if invalidScopeSymbol spaces c then .err .invalid_scope_id 0
    else do
      let buf ← wr st.buf st.index c
      .ok { st with buf := buf, index := st.index + 1 }
  else .ok { st with scope := true }

/-- `base-v6.hpp:307-327`, the loop of `split_scope_id`. -/
def scopeLoop (spaces : Bool) (M : Nat) (st : ScopeSt) : List Ev → Res ScopeSt
  | [] => .ok st
  | .bad code sym :: _ => .err code sym
  | .ch c :: rest => do
    let st ← scopeStep spaces M st c
    scopeLoop spaces M st rest

/-- `base-v6.hpp:302-333`, `split_scope_id`: the characters of the address part and the scope
buffer. When the text starts with `%` the pointer `end_ip` is null; the following loop
`while (it < end)` is then taken to run zero times. -/
def splitScope (spaces : Bool) (M : Nat) (evs : List Ev) : Res (List Char × List Char) := do
  let st ← scopeLoop spaces M ⟨[], false, List.replicate (M + 1) '\x00', 0⟩ evs
  if st.scope then do
    let c0 ← rd st.buf 0
    if c0 = '\x00' then .err .invalid_scope_id 0 else .ok (st.ip, st.buf)
  else .ok (st.ip, st.buf)

/-- `a[i][j]`. -/
def rd2 {α : Type} (a : List (List α)) (i j : Nat) : Res α := do
  let r ← rd a i
  rd r j

/-- `a[i][j] = x`. -/
def wr2 {α : Type} (a : List (List α)) (i j : Nat) (x : α) : Res (List (List α)) := do
  let r ← rd a i
  let r ← wr r j x
  wr a i r

/-- Local variables of `split_parts` (`base-v6.hpp:348-354`). -/
structure PartsSt where
  parts : List (List Char)
  last : List Char
  count : Nat
  symbol : Nat
  prev : Char
  dbl : Bool
deriving DecidableEq, Repr

/-- `base-v6.hpp:348-354`, initial values: `parts[9][5]`, `last_part[17]`. -/
def partsInit : PartsSt :=
  { parts := List.replicate 9 (List.replicate 5 '\x00'), last := List.replicate 17 '\x00',
    count := 0, symbol := 0, prev := '\x00', dbl := false }

/-- `base-v6.hpp:387-391` and `439-443`: `parts[parts_count++]` receives the first four characters
of `last_part`. -/
def storePart (parts : List (List Char)) (count : Nat) (last : List Char) : Res (List (List Char)) := do
  let c0 ← rd last 0
  let parts ← wr2 parts count 0 c0
  let c1 ← rd last 1
  let parts ← wr2 parts count 1 c1
  let c2 ← rd last 2
  let parts ← wr2 parts count 2 c2
  let c3 ← rd last 3
  wr2 parts count 3 c3

/-- `base-v6.hpp:365-396`, one iteration of the loop of `split_parts`. -/
def partsStep (st : PartsSt) (c : Char) : Res PartsSt :=
  let dbl := st.dbl || (c = ':' && st.prev = ':')
  if st.count > 8 then
    .err (if dbl then .expected_at_most_7_other_parts_with_double_colon else .most_8_colons_permitted)
      st.count
  else if c ≠ ':' then
    if st.symbol > 15 then .err .part_is_more_4_chars st.count
    else do
      let last ← wr st.last st.symbol c
      let last ← wr last (st.symbol + 1) '\x00'
      .ok { st with last := last, symbol := st.symbol + 1, prev := c, dbl := dbl }
  else
    if st.symbol > 4 then .err .part_is_more_4_chars st.count
    else do
      let parts ← storePart st.parts st.count st.last
      let last ← wr st.last 0 '\x00'
      .ok { parts := parts, last := last, count := st.count + 1, symbol := 0, prev := c, dbl := dbl }

/-- `base-v6.hpp:359-397`, the loop of `split_parts`, over the characters of the address part (they
were already read without error by `split_scope_id`). -/
def partsLoop (st : PartsSt) : List Char → Res PartsSt
  | [] => .ok st
  | c :: rest => do
    let st ← partsStep st c
    partsLoop st rest

/-- `base-v6.hpp:412-417`: searching a dot among the first `symbol` characters. -/
def hasDotLoop (last : List Char) : Nat → Nat → Res Bool
  | 0, _ => .ok false
  | n + 1, i => do
    let c ← rd last i
    if c = '.' then .ok true else hasDotLoop last n (i + 1)

/-- `constexpr char digits[]` (`base-v6.hpp:581`). -/
def hexDigits : List Char := "0123456789abcdef\x00".toList

/-- `base-v6.hpp:582-585`: the loop of `to_hex`, `n` iterations left. -/
def toHexLoop (value : BitVec 16) : Nat → Nat → Nat → List Char → Res (List Char)
  | 0, _, _, result => .ok result
  | n + 1, i, j, result => do
    let d ← rd hexDigits ((value >>> j) &&& 0x0f#16).toNat
    let result ← wr result i d
    let result ← wr result (i + 1) '\x00'
    toHexLoop value n (i + 1) (j - 4) result

/-- `base-v6.hpp:580-586`, `to_hex`. -/
def toHex (value : BitVec 16) (result : List Char) : Res (List Char) := toHexLoop value 4 0 12 result

/-- `make_fixed_string(const char(&)[N + 1])` (`fixed-string.hpp:59-70, 644`) for an array of
`char`: reads the first `N` characters and stops at NUL. -/
def mkFixed (arr : List Char) : Res FStr := FStr.ofEvents (arr.length - 1) (readChars (arr.take (arr.length - 1)))

/-- `ip-address-base.hpp:429-432`: `ipv4_address::parse(const char(&)[N], error_code&)`. -/
def v4ParseArray (arr : List Char) : Res (List (BitVec 8)) := do
  let s ← mkFixed arr
  v4FromEvents (readChars s.contents)

/-- Applying `mkFixed` to each row, `base-v6.hpp:451-460`. -/
def mkFixedAll : List (List Char) → Res (List FStr)
  | [] => .ok []
  | a :: as => do
    let s ← mkFixed a
    let ss ← mkFixedAll as
    .ok (s :: ss)

/-- Replaces the code value of an error (the out parameter keeps `parts_count`). -/
def withValue {α : Type} (v : Nat) : Res α → Res α
  | .ok a => .ok a
  | .err c _ => .err c v
  | .ub => .ub

/-- `base-v6.hpp:419-444`: storing the last part, or the two parts of a dotted quad. -/
def lastParts (st : PartsSt) (hasIpv4 : Bool) : Res (List (List Char) × Nat) :=
  if hasIpv4 then
    if st.count + 1 ≥ 8 then .err .most_8_colons_permitted st.count
    else do
      let bytes ← withValue st.count (v4ParseArray st.last)
      let ipv4 ← v4ToUint true bytes
      let r ← rd st.parts st.count
      let r ← toHex (((ipv4 >>> 16) &&& 0xFFFF#32).setWidth 16) r
      let parts ← wr st.parts st.count r
      let r ← rd parts (st.count + 1)
      let r ← toHex ((ipv4 &&& 0xFFFF#32).setWidth 16) r
      let parts ← wr parts (st.count + 1) r
      .ok (parts, st.count + 2)
  else
    if st.symbol > 4 then .err .part_is_more_4_chars st.count
    else do
      let parts ← storePart st.parts st.count st.last
      .ok (parts, st.count + 1)

/-- `base-v6.hpp:446-460`: the end of `split_parts`. -/
def collectParts (pc : List (List Char) × Nat) : Res (List FStr × Nat) :=
  if pc.2 < 3 then .err .least_3_parts pc.2
  else do
    let fs ← mkFixedAll pc.1
    .ok (fs, pc.2)

/-- `base-v6.hpp:399-460`, `split_parts` after the loop. -/
def partsFinish (st : PartsSt) : Res (List FStr × Nat) :=
  if st.count > 8 then do
    let p00 ← rd2 st.parts 0 0
    let p10 ← rd2 st.parts 1 0
    let l0 ← rd st.last 0
    if p00 = '\x00' ∧ p10 ≠ '\x00' then
      .err .leading_colon_only_permitted_as_part_of_double_colon st.count
    else if l0 = '\x00' then .err .trailing_colon_only_permitted_as_part_of_double_colon st.count
    else .err .most_8_colons_permitted st.count
  else do
    let hasIpv4 ← hasDotLoop st.last st.symbol 0
    let pc ← lastParts st hasIpv4
    collectParts pc

/-- `base-v6.hpp:336-461`, `split_parts`. -/
def splitParts (chars : List Char) : Res (List FStr × Nat) := do
  let st ← partsLoop partsInit chars
  partsFinish st

/-- `base-v6.hpp:464-473`: the loop of `get_parts_bound`, `n` iterations left; `skip = 0` means
not found. -/
def boundLoop (parts : List FStr) (count : Nat) : Nat → Nat → Nat → Res Nat
  | 0, _, skip => .ok skip
  | n + 1, i, skip => do
    let p ← rd parts i
    if p.length = 0 then
      if skip ≠ 0 then .err .most_one_double_colon_permitted count
      else boundLoop parts count n (i + 1) i
    else boundLoop parts count n (i + 1) skip

/-- `base-v6.hpp:463-519`, `get_parts_bound`.  The `size_t` subtractions are checked: a result
below zero would be an unsigned wrap around and is reported as `ub`. -/
def partsBound (parts : List FStr) (count : Nat) : Res (Nat × Nat × Nat) := do
  if count < 1 then .ub
  else
    let skip ← boundLoop parts count (count - 1 - 1) 1 0
    if skip ≠ 0 then
      if count < skip + 1 then .ub
      else do
        let p0 ← rd parts 0
        let hi ←
          if p0.length = 0 then
            if skip - 1 ≠ 0 then .err .leading_colon_only_permitted_as_part_of_double_colon count
            else .ok (skip - 1)
          else .ok skip
        let pl ← rd parts (count - 1)
        let lo0 := count - skip - 1
        let lo ←
          if pl.length = 0 then
            if lo0 < 1 then .ub
            else if lo0 - 1 ≠ 0 then .err .trailing_colon_only_permitted_as_part_of_double_colon count
            else .ok (lo0 - 1)
          else .ok lo0
        if 8 < hi + lo then .ub
        else
          let skipped := 8 - (hi + lo)
          if skipped < 1 then .err .expected_at_most_7_other_parts_with_double_colon count
          else .ok (hi, lo, skipped)
    else
      if count ≠ 8 then .err .exactly_8_parts_expected_without_double_colon count
      else do
        let p0 ← rd parts 0
        if p0.length = 0 then .err .leading_colon_only_permitted_as_part_of_double_colon count
        else do
          let pl ← rd parts (count - 1)
          if pl.length = 0 then .err .trailing_colon_only_permitted_as_part_of_double_colon count
          else .ok (count, 0, 0)

/-- `base-v6.hpp:568-578`, `pow16`; the unreachable default is `ub`. -/
def pow16 (power : Nat) : Res (BitVec 16) :=
  match power with
  | 0 => .ok 1#16
  | 1 => .ok 16#16
  | 2 => .ok 256#16
  | 3 => .ok 4096#16
  | _ => .ub

/-- `base-v6.hpp:554-563`: the value of a hexadecimal digit. -/
def hexVal (c : Char) : Option Nat :=
  if '0'.toNat ≤ c.toNat ∧ c.toNat ≤ '9'.toNat then some (c.toNat - '0'.toNat)
  else if 'A'.toNat ≤ c.toNat ∧ c.toNat ≤ 'F'.toNat then some (c.toNat - 55)
  else if 'a'.toNat ≤ c.toNat ∧ c.toNat ≤ 'f'.toNat then some (c.toNat - 87)
  else none

/-- `base-v6.hpp:551-564`: the loop of `parse_part`, `n` iterations left.  `value` is a
`uint16_t`. -/
def parsePartLoop (part : FStr) (cv : Nat) : Nat → Nat → BitVec 16 → Res (BitVec 16)
  | 0, _, value => .ok value
  | n + 1, i, value => do
    let c ← rd part.data i
    let power ← pow16 (part.length - i - 1)
    match hexVal c with
    | some d => parsePartLoop part cv n (i + 1) (value + BitVec.ofNat 16 d * power)
    | none => .err .part_has_invalid_symbol cv

/-- `base-v6.hpp:549-566`, `parse_part`. -/
def parsePart (part : FStr) (cv : Nat) : Res (BitVec 16) := parsePartLoop part cv part.length 0 0#16

/-- `base-v6.hpp:525-533` and `537-545`: parsing `n` parts from part `i`, writing at `index`. -/
def parsePartsLoop (parts : List FStr) (cv : Nat) :
    Nat → Nat → List (BitVec 8) → Nat → Res (List (BitVec 8) × Nat)
  | 0, _, result, index => .ok (result, index)
  | n + 1, i, result, index => do
    let p ← rd parts i
    let part ← parsePart p cv
    let result ← wr result index ((part >>> 8).setWidth 8)
    let result ← wr result (index + 1) ((part &&& 0xFF#16).setWidth 8)
    parsePartsLoop parts cv n (i + 1) result (index + 2)

/-- `base-v6.hpp:521-547`, `parse_parts`; the subtraction `parts_count - lo` is checked. -/
def parseParts (parts : List FStr) (count hi lo skipped : Nat) : Res (List (BitVec 8)) := do
  let ri ← parsePartsLoop parts count hi 0 (List.replicate 16 0#8) 0
  if count < lo then .ub
  else do
    let ri ← parsePartsLoop parts count lo (count - lo) ri.1 (ri.2 + (skipped <<< 1))
    .ok ri.1

/-- `base-v6.hpp:85-103`: the address part of `ip_from_string`. -/
def parseAddr (ip : List Char) : Res (List (BitVec 8)) := do
  let pc ← splitParts ip
  let b ← partsBound pc.1 pc.2
  parseParts pc.1 pc.2 b.1 b.2.1 b.2.2

/-- `base-v6.hpp:105-111`: attaching the scope id. -/
def attachScope (M : Nat) (bytes : List (BitVec 8)) (buf : List Char) : Res V6 := do
  let c0 ← rd buf 0
  if c0 ≠ '\x00' then do
    let scope ← mkFixed buf
    .ok ⟨bytes, scope⟩
  else .ok ⟨bytes, emptyScope M⟩

/-- `base-v6.hpp:75-112`, `ip_from_string`. -/
def v6FromEvents (spaces : Bool) (M : Nat) (evs : List Ev) : Res V6 :=
  if evs = [] then .err .empty_address 0
  else do
    let s ← splitScope spaces M evs
    let bytes ← parseAddr s.1
    attachScope M bytes s.2

/-- `ipv6_address::parse` on `char` input. -/
def v6Parse (spaces : Bool) (M : Nat) (s : List Char) : Res V6 := v6FromEvents spaces M (readChars s)

/-- `enum class format` (`ip-address-base.hpp`). -/
inductive Format where
  | full
  | compact
  | compressed
deriving DecidableEq, Repr

/-- `base-v6.hpp:131-134`: hextet texts, from hextet `i`, `n` left. -/
def hextetsLoop (bytes : List (BitVec 8)) : Nat → Nat → List (List Char) → Res (List (List Char))
  | 0, _, hextets => .ok hextets
  | n + 1, i, hextets => do
    let b0 ← rd bytes (i * 2)
    let b1 ← rd bytes (i * 2 + 1)
    let r ← rd hextets i
    let r ← toHex ((b0.setWidth 16 <<< 8) ||| b1.setWidth 16) r
    let hextets ← wr hextets i r
    hextetsLoop bytes n (i + 1) hextets

/-- `base-v6.hpp:143-151`: removing up to three leading zeros of one hextet. -/
def stripLoop : Nat → List Char → Res (List Char)
  | 0, h => .ok h
  | n + 1, h => do
    let c0 ← rd h 0
    if c0 ≠ '0' then .ok h
    else do
      let c1 ← rd h 1
      let h ← wr h 0 c1
      let c2 ← rd h 2
      let h ← wr h 1 c2
      let c3 ← rd h 3
      let h ← wr h 2 c3
      let c4 ← rd h 4
      let h ← wr h 3 c4
      stripLoop n h

/-- `base-v6.hpp:141-152`: stripping every hextet. -/
def stripAll : List (List Char) → Res (List (List Char))
  | [] => .ok []
  | h :: hs => do
    let h ← stripLoop 3 h
    let hs ← stripAll hs
    .ok (h :: hs)

/-- `base-v6.hpp:155-158`: variables of the search for the longest run of zeros. -/
structure RunSt where
  bestLen : Nat
  bestStart : Int
  len : Nat
  start : Int
deriving DecidableEq, Repr

/-- `base-v6.hpp:162-175`: one step of the search, for hextet `i` whose first character is `'0'`
iff `zero`. -/
def runStep (st : RunSt) (i : Nat) (zero : Bool) : RunSt :=
  if zero then
    let len := st.len + 1
    let start := if st.start = -1 then (i : Int) else st.start
    if len > st.bestLen then { bestLen := len, bestStart := start, len := len, start := start }
    else { st with len := len, start := start }
  else { st with len := 0, start := -1 }

/-- `base-v6.hpp:160-176`: the search loop. -/
def runLoop : List (List Char) → Nat → RunSt → Res RunSt
  | [], _, st => .ok st
  | h :: hs, i, st => do
    let c0 ← rd h 0
    runLoop hs (i + 1) (runStep st i (c0 = '0'))

/-- `base-v6.hpp:190-193`: copying the first four characters of hextet `r` to hextet `l`. -/
def copyHextet (hextets : List (List Char)) (l r : Nat) : Res (List (List Char)) := do
  let c ← rd2 hextets r 0
  let hextets ← wr2 hextets l 0 c
  let c ← rd2 hextets r 1
  let hextets ← wr2 hextets l 1 c
  let c ← rd2 hextets r 2
  let hextets ← wr2 hextets l 2 c
  let c ← rd2 hextets r 3
  wr2 hextets l 3 c

/-- `base-v6.hpp:184-194`: closing the gap left by the run, `n` bounds the number of steps
(`h < 7`). -/
def closeGap (len : Nat) : Nat → Nat → List (List Char) → Res (List (List Char))
  | 0, _, hextets => .ok hextets
  | n + 1, h, hextets =>
    if h < 7 then
      if h + len ≥ 8 then .ok hextets
      else do
        let hextets ← copyHextet hextets (h + 1) (h + len)
        closeGap len n (h + 1) hextets
    else .ok hextets

/-- `base-v6.hpp:154-201`: compression; result: hextets, count, start flag, end flag. -/
def compress (hextets : List (List Char)) : Res (List (List Char) × Nat × Bool × Bool) := do
  let st ← runLoop hextets 0 ⟨0, -1, 0, -1⟩
  if st.bestLen > 1 then
    if st.bestStart < 0 then .ub
    else do
      let start := st.bestStart.toNat
      let hextets ← wr2 hextets start 0 '\x00'
      let hextets ← closeGap st.bestLen 8 start hextets
      if 8 < st.bestLen - 1 then .ub
      else .ok (hextets, 8 - (st.bestLen - 1), decide (start = 0), decide (start + st.bestLen = 8))
  else .ok (hextets, 8, false, false)

/-- `base-v6.hpp:210-212`, `216-218`: appending a NUL terminated hextet. -/
def appendCStr (hextet : List Char) : Nat → Nat → List Char → Nat → Res (List Char × Nat)
  | 0, _, _, _ => .ub
  | fuel + 1, c, result, offset => do
    let ch ← rd hextet c
    if ch = '\x00' then .ok (result, offset)
    else do
      let result ← wr result offset ch
      appendCStr hextet fuel (c + 1) result (offset + 1)

/-- `base-v6.hpp:208-214`: hextets followed by colons, `n` left, from `i`. -/
def appendHextets (hextets : List (List Char)) : Nat → Nat → List Char → Nat → Res (List Char × Nat)
  | 0, _, result, offset => .ok (result, offset)
  | n + 1, i, result, offset => do
    let h ← rd hextets i
    let r ← appendCStr h 6 0 result offset
    let result ← wr r.1 r.2 ':'
    appendHextets hextets n (i + 1) result (r.2 + 1)

/-- `base-v6.hpp:225-227`: appending the scope id. -/
def appendScope (data : List Char) : Nat → Nat → List Char → Nat → Res (List Char × Nat)
  | 0, _, result, offset => .ok (result, offset)
  | n + 1, i, result, offset => do
    let c ← rd data i
    let result ← wr result offset c
    appendScope data n (i + 1) result (offset + 1)

/-- `if (flag) result[offset++] = ':';` (`base-v6.hpp:205-207`, `219-221`). -/
def appendColonIf (flag : Bool) (result : List Char) (offset : Nat) : Res (List Char × Nat) :=
  if flag then do
    let result ← wr result offset ':'
    .ok (result, offset + 1)
  else .ok (result, offset)

/-- `base-v6.hpp:128-152`: the eight hextet texts, stripped of leading zeros if asked for. -/
def hextetTexts (bytes : List (BitVec 8)) (fmt : Format) : Res (List (List Char)) := do
  let hextets ← hextetsLoop bytes 8 0 (List.replicate 8 (List.replicate 5 '\x00'))
  if fmt = .compact ∨ fmt = .compressed then stripAll hextets else .ok hextets

/-- `base-v6.hpp:136-139`, `154-201`: compression if asked for. -/
def compressIf (fmt : Format) (hextets : List (List Char)) :
    Res (List (List Char) × Nat × Bool × Bool) :=
  if fmt = .compressed then compress hextets else .ok (hextets, 8, false, false)

/-- `base-v6.hpp:203-221`: writing hextets and colons; the arguments are those computed by
`compressIf`. -/
def emitHextets (x : List (List Char) × Nat × Bool × Bool) (result : List Char) :
    Res (List Char × Nat) := do
  let r ← appendColonIf x.2.2.1 result 0
  let r ← appendHextets x.1 (x.2.1 - 1) 0 r.1 r.2
  let h ← rd x.1 (x.2.1 - 1)
  let r ← appendCStr h 6 0 r.1 r.2
  appendColonIf x.2.2.2 r.1 r.2

/-- `base-v6.hpp:222-230`: writing the scope id and the terminator. -/
def emitScope (scope : FStr) (r : List Char × Nat) : Res (List Char × Nat) := do
  let r ←
    if scope.length ≠ 0 then do
      let result ← wr r.1 r.2 '%'
      appendScope scope.data scope.length 0 result (r.2 + 1)
    else .ok r
  let result ← wr r.1 r.2 '\x00'
  .ok (result, r.2)

/-- `base-v6.hpp:127-231`, `ip_to_chars`. -/
def v6ToChars (bytes : List (BitVec 8)) (scope : FStr) (fmt : Format) (result : List Char) :
    Res (List Char × Nat) := do
  let hextets ← hextetTexts bytes fmt
  let x ← compressIf fmt hextets
  let r ← emitHextets x result
  emitScope scope r

/-- `ip-address-base.hpp:527-531`, `to_string`; the buffer has `base_max_string_len + 1 = 42 + M`
characters. -/
def v6ToString (M : Nat) (a : V6) (fmt : Format) : Res (List Char) := do
  let r ← v6ToChars a.bytes a.scope fmt (List.replicate (42 + M) '\x00')
  .ok (r.1.take r.2)

end Ip
