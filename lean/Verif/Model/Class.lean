import Verif.Model.Net
import Verif.Model.Any
/-
Classification of addresses and networks: `ip-networks.hpp` and the predicates of
`ip-network-base.hpp:752-831` and `ipv6-network.hpp:41-44`.

The registry tables are arrays of networks made by `parse("...")` (strict).  The model parses the
same texts with the model of `parse`, so a text that did not parse would show up as an error of
every function that uses it.  The order of static initialisation for compilers older than C++14, where the
tables are not constant expressions, is the subject of `Model/StaticInit.lean`.  The member functions
`ip-networks.hpp:357-394` forward to the ones here.
-/
set_option autoImplicit false

namespace Ip

/-- `ip-networks.hpp:53-68`, `ipv4_private_networks`. -/
def v4PrivateTexts : List (List Char) :=
  ["0.0.0.0/8".toList, "10.0.0.0/8".toList, "127.0.0.0/8".toList, "169.254.0.0/16".toList,
   "172.16.0.0/12".toList, "192.0.0.0/29".toList, "192.0.0.170/31".toList, "192.0.2.0/24".toList,
   "192.168.0.0/16".toList, "198.18.0.0/15".toList, "198.51.100.0/24".toList, "203.0.113.0/24".toList,
   "240.0.0.0/4".toList, "255.255.255.255/32".toList]

/-- `ip-networks.hpp:76-87`, `ipv6_private_networks`. -/
def v6PrivateTexts : List (List Char) :=
  ["::1/128".toList, "::/128".toList, "::ffff:0:0/96".toList, "100::/64".toList, "2001::/23".toList,
   "2001:2::/48".toList, "2001:db8::/32".toList, "2001:10::/28".toList, "fc00::/7".toList,
   "fe80::/10".toList]

/-- `ip-networks.hpp:96`, `ipv4_is_public_network`. -/
def v4PublicText : List Char := "100.64.0.0/10".toList

/-- `ip-networks.hpp:105`, `ipv4_reserved_network`. -/
def v4ReservedText : List Char := "240.0.0.0/4".toList

/-- `ip-networks.hpp:113-129`, `ipv6_reserved_networks`. -/
def v6ReservedTexts : List (List Char) :=
  ["::/8".toList, "100::/8".toList, "200::/7".toList, "400::/6".toList, "800::/5".toList,
   "1000::/4".toList, "4000::/3".toList, "6000::/3".toList, "8000::/3".toList, "A000::/3".toList,
   "C000::/3".toList, "E000::/4".toList, "F000::/5".toList, "F800::/6".toList, "FE00::/9".toList]

/-- `ip-networks.hpp:138`, `ipv4_is_multicast`. -/
def v4MulticastText : List Char := "224.0.0.0/4".toList

/-- `ip-networks.hpp:146`, `ipv6_is_multicast`. -/
def v6MulticastText : List Char := "ff00::/8".toList

/-- `ip-networks.hpp:155`, `ipv4_is_loopback`. -/
def v4LoopbackText : List Char := "127.0.0.0/8".toList

/-- `ip-networks.hpp:164`, `ipv4_is_link_local`. -/
def v4LinkLocalText : List Char := "169.254.0.0/16".toList

/-- `ip-networks.hpp:172`, `ipv6_is_link_local`. -/
def v6LinkLocalText : List Char := "fe80::/10".toList

/-- `ip-networks.hpp:181`, `ipv6_is_site_local`. -/
def v6SiteLocalText : List Char := "fec0::/10".toList

namespace Fam

variable {A U : Type} (F : Fam A U)

/-- `network.contains(address)` for a network of the tables. -/
def textContains (text : List Char) (address : A) : Res Bool := do
  let n ← F.parseNet (readChars text) true
  F.contains n address

/-- The loops over a table: `ip-networks.hpp:275-281`, `314-321`, `333-339`. -/
def tableContains : List (List Char) → A → Res Bool
  | [], _ => .ok false
  | t :: ts, address => do
    if ← F.textContains t address then .ok true else tableContains ts address

/-- `network.contains(address) && network.contains(broadcast)` for a network of the tables. -/
def textContainsBoth (text : List Char) (address broadcast : A) : Res Bool := do
  if ← F.textContains text address then F.textContains text broadcast else .ok false

/-- The loops over a table for networks: `ip-networks.hpp:236-242`, `258-264`. -/
def tableContainsBoth : List (List Char) → A → A → Res Bool
  | [], _, _ => .ok false
  | t :: ts, address, broadcast => do
    if ← F.textContainsBoth t address broadcast then .ok true else tableContainsBoth ts address broadcast

/-- `p(network_address()) && p(broadcast_address())`: the predicates of `ip-network-base.hpp:752-831`
and `ipv6-network.hpp:41-44`. -/
def bothEnds (p : A → Res Bool) (n : Net A) : Res Bool := do
  if ← p n.addr then p (← F.broadcast n) else .ok false

end Fam

/-! ### Addresses -/

/-- `ip-networks.hpp:274-282`, `is_private`. -/
def v4IsPrivate (le : Bool) (a : List (BitVec 8)) : Res Bool := (fam4 le).tableContains v4PrivateTexts a

/-- `ip-networks.hpp:284-286`, `is_global`. -/
def v4IsGlobal (le : Bool) (a : List (BitVec 8)) : Res Bool := do
  if ← (fam4 le).textContains v4PublicText a then .ok false
  else do
    let r ← v4IsPrivate le a
    .ok (!r)

/-- `ip-networks.hpp:288-290`, `is_multicast`. -/
def v4IsMulticast (le : Bool) (a : List (BitVec 8)) : Res Bool := (fam4 le).textContains v4MulticastText a

/-- `ip-networks.hpp:292-294`, `is_reserved`. -/
def v4IsReserved (le : Bool) (a : List (BitVec 8)) : Res Bool := (fam4 le).textContains v4ReservedText a

/-- `ip-networks.hpp:296-298`, `is_loopback`. -/
def v4IsLoopback (le : Bool) (a : List (BitVec 8)) : Res Bool := (fam4 le).textContains v4LoopbackText a

/-- `ip-networks.hpp:300-302`, `is_link_local`. -/
def v4IsLinkLocal (le : Bool) (a : List (BitVec 8)) : Res Bool := (fam4 le).textContains v4LinkLocalText a

/-- `ip-networks.hpp:307-322`, `is_private`. -/
def v6IsPrivate (c : Cfg) (a : V6) : Res Bool := do
  let m ← v6Mapped a.bytes
  match m with
  | some b => v4IsPrivate c.le b
  | none => (fam6 c).tableContains v6PrivateTexts a

/-- `ip-networks.hpp:324-326`, `is_global`. -/
def v6IsGlobal (c : Cfg) (a : V6) : Res Bool := do
  let r ← v6IsPrivate c a
  .ok (!r)

/-- `ip-networks.hpp:328-330`, `is_multicast`. -/
def v6IsMulticast (c : Cfg) (a : V6) : Res Bool := (fam6 c).textContains v6MulticastText a

/-- `ip-networks.hpp:332-340`, `is_reserved`. -/
def v6IsReserved (c : Cfg) (a : V6) : Res Bool := (fam6 c).tableContains v6ReservedTexts a

/-- `ip-networks.hpp:342-348`: the conjunction `b[i] == 0 && ... && b[15] == 1`, `n` zero bytes left. -/
def v6LoopbackLoop (b : List (BitVec 8)) : Nat → Nat → Res Bool
  | 0, i => do
    let x ← rd b i
    .ok (x == 1#8)
  | n + 1, i => do
    let x ← rd b i
    if x = 0#8 then v6LoopbackLoop b n (i + 1) else .ok false

/-- `ip-networks.hpp:342-348`, `is_loopback`. -/
def v6IsLoopback (a : V6) : Res Bool := v6LoopbackLoop a.bytes 15 0

/-- `ip-networks.hpp:350-352`, `is_link_local`. -/
def v6IsLinkLocal (c : Cfg) (a : V6) : Res Bool := (fam6 c).textContains v6LinkLocalText a

/-- `ip-networks.hpp:397-400`, `is_site_local`: of a copy of the bytes without scope id. -/
def v6IsSiteLocal (c : Cfg) (a : V6) : Res Bool := (fam6 c).textContains v6SiteLocalText ⟨a.bytes, emptyScope c.M⟩

/-! ### Networks -/

/-- `ip-networks.hpp:233-243`, `is_private`. -/
def v4NetIsPrivate (le : Bool) (n : Net (List (BitVec 8))) : Res Bool := do
  let b ← (fam4 le).broadcast n
  (fam4 le).tableContainsBoth v4PrivateTexts n.addr b

/-- `ip-networks.hpp:245-250`, `is_global`. -/
def v4NetIsGlobal (le : Bool) (n : Net (List (BitVec 8))) : Res Bool := do
  let b ← (fam4 le).broadcast n
  if ← (fam4 le).textContainsBoth v4PublicText n.addr b then .ok false
  else do
    let r ← v4NetIsPrivate le n
    .ok (!r)

/-- `ip-network-base.hpp:752-754`, `is_multicast`. -/
def v4NetIsMulticast (le : Bool) (n : Net (List (BitVec 8))) : Res Bool := (fam4 le).bothEnds (v4IsMulticast le) n

/-- `ip-network-base.hpp:788-790`, `is_reserved`. -/
def v4NetIsReserved (le : Bool) (n : Net (List (BitVec 8))) : Res Bool := (fam4 le).bothEnds (v4IsReserved le) n

/-- `ip-network-base.hpp:802-804`, `is_loopback`. -/
def v4NetIsLoopback (le : Bool) (n : Net (List (BitVec 8))) : Res Bool := (fam4 le).bothEnds (v4IsLoopback le) n

/-- `ip-network-base.hpp:815-817`, `is_link_local`. -/
def v4NetIsLinkLocal (le : Bool) (n : Net (List (BitVec 8))) : Res Bool := (fam4 le).bothEnds (v4IsLinkLocal le) n

/-- `ip-network-base.hpp:829-831`, `is_unspecified`. -/
def v4NetIsUnspecified (le : Bool) (n : Net (List (BitVec 8))) : Res Bool :=
  (fam4 le).bothEnds (fun a => .ok (bytesUnspecified a)) n

/-- `ip-networks.hpp:255-265`, `is_private`. -/
def v6NetIsPrivate (c : Cfg) (n : Net V6) : Res Bool := do
  let b ← (fam6 c).broadcast n
  (fam6 c).tableContainsBoth v6PrivateTexts n.addr b

/-- `ip-networks.hpp:267-269`, `is_global`. -/
def v6NetIsGlobal (c : Cfg) (n : Net V6) : Res Bool := do
  let r ← v6NetIsPrivate c n
  .ok (!r)

/-- `ip-network-base.hpp:752-754`, `is_multicast`. -/
def v6NetIsMulticast (c : Cfg) (n : Net V6) : Res Bool := (fam6 c).bothEnds (v6IsMulticast c) n

/-- `ip-network-base.hpp:788-790`, `is_reserved`. -/
def v6NetIsReserved (c : Cfg) (n : Net V6) : Res Bool := (fam6 c).bothEnds (v6IsReserved c) n

/-- `ip-network-base.hpp:802-804`, `is_loopback`. -/
def v6NetIsLoopback (c : Cfg) (n : Net V6) : Res Bool := (fam6 c).bothEnds v6IsLoopback n

/-- `ip-network-base.hpp:815-817`, `is_link_local`. -/
def v6NetIsLinkLocal (c : Cfg) (n : Net V6) : Res Bool := (fam6 c).bothEnds (v6IsLinkLocal c) n

/-- `ip-network-base.hpp:829-831`, `is_unspecified`. -/
def v6NetIsUnspecified (c : Cfg) (n : Net V6) : Res Bool :=
  (fam6 c).bothEnds (fun a => .ok (bytesUnspecified a.bytes)) n

/-- `ipv6-network.hpp:41-44`, `is_site_local`. -/
def v6NetIsSiteLocal (c : Cfg) (n : Net V6) : Res Bool := (fam6 c).bothEnds (v6IsSiteLocal c) n

end Ip
