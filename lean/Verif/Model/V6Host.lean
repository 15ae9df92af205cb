import Verif.Model.Net
/-
The parser of IPv6 addresses on hosts of either byte order.  `split_parts` turns the dotted quad at the end
of a text into two groups by way of `to_uint` of an IPv4 address (`base-v6.hpp:425-432`), the only place of the
parser where the byte order matters.  `Model/V6.lean` and `fam6` have the parser of little endian hosts; the
functions below are the same with the byte order `le` (`is_little_endian()`) as an argument.
-/
set_option autoImplicit false

namespace Ip

/-- `base-v6.hpp:419-444`: storing the last part, or the two parts of a dotted quad. -/
def lastPartsOn (le : Bool) (st : PartsSt) (hasIpv4 : Bool) : Res (List (List Char) × Nat) :=
  if hasIpv4 then
    if st.count + 1 ≥ 8 then .err .most_8_colons_permitted st.count
    else do
      let bytes ← withValue st.count (v4ParseArray st.last)
      let ipv4 ← v4ToUint le bytes
      let r ← rd st.parts st.count
      let r ← toHex (((ipv4 >>> 16) &&& 0xFFFF#32).setWidth 16) r
      let parts ← wr st.parts st.count r
      let r ← rd parts (st.count + 1)
      let r ← toHex ((ipv4 &&& 0xFFFF#32).setWidth 16) r
      let parts ← wr parts (st.count + 1) r
      .ok (parts, st.count + 2)
  else
    if st.symbol > 4 then .err .part_is_more_4_chars st.count
    else do
      let parts ← storePart st.parts st.count st.last
      .ok (parts, st.count + 1)

/-- `base-v6.hpp:399-460`, `split_parts` after the loop. -/
def partsFinishOn (le : Bool) (st : PartsSt) : Res (List FStr × Nat) :=
  if st.count > 8 then do
    let p00 ← rd2 st.parts 0 0
    let p10 ← rd2 st.parts 1 0
    let l0 ← rd st.last 0
    if p00 = '\x00' ∧ p10 ≠ '\x00' then
      .err .leading_colon_only_permitted_as_part_of_double_colon st.count
    else if l0 = '\x00' then .err .trailing_colon_only_permitted_as_part_of_double_colon st.count
    else .err .most_8_colons_permitted st.count
  else do
    let hasIpv4 ← hasDotLoop st.last st.symbol 0
    let pc ← lastPartsOn le st hasIpv4
    collectParts pc

/-- `base-v6.hpp:336-461`, `split_parts`. -/
def splitPartsOn (le : Bool) (chars : List Char) : Res (List FStr × Nat) := do
  let st ← partsLoop partsInit chars
  partsFinishOn le st

/-- `base-v6.hpp:85-103`: the address part of `ip_from_string`. -/
def parseAddrOn (le : Bool) (ip : List Char) : Res (List (BitVec 8)) := do
  let pc ← splitPartsOn le ip
  let b ← partsBound pc.1 pc.2
  parseParts pc.1 pc.2 b.1 b.2.1 b.2.2

/-- `base-v6.hpp:75-112`, `ip_from_string`. -/
def v6FromEventsOn (le spaces : Bool) (M : Nat) (evs : List Ev) : Res V6 :=
  if evs = [] then .err .empty_address 0
  else do
    let s ← splitScope spaces M evs
    let bytes ← parseAddrOn le s.1
    attachScope M bytes s.2

/-- `ip-address-base.hpp:429-432`: `ipv6_address::parse(const char(&)[N], error_code&)`. -/
def v6ParseArrayOn (le spaces : Bool) (M : Nat) (arr : List Char) : Res V6 := do
  let s ← mkFixed arr
  v6FromEventsOn le spaces M (readChars s.contents)

/-- IPv6 (`ipv6-network.hpp`, `ipv6-address.hpp`, `base-v6.hpp`) on a host of the byte order `c.le`, its parser of
addresses included. -/
def fam6On (c : Cfg) : Fam V6 U128 := { fam6 c with parseArray := v6ParseArrayOn c.le c.spaces c.M }

end Ip
