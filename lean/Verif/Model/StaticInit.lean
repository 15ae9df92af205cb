import Verif.Model.Class
/-
Static initialisation of the registry tables of `ip-networks.hpp`.

With `__cpp_constexpr >= 201304L` the tables are `static constexpr` members: constant initialisation
gives them their values before any code runs.  Otherwise they are `static const` members of a class
template that is implicitly instantiated (`using nets = networks<int>`): their dynamic initialisation is
unordered (C++11 [basic.start.init]p2), so an initialiser of another static object that asks
`is_private()` and the like can run before, between or after them.  Until then the storage is
zero-initialised and the lifetime of the networks has not begun: calling `contains` on one of them is
undefined ([basic.life]p6); what a compiler makes of it is to read the zeros.  The model has both
readings, selected by `z : Bool` (`false`: undefined behaviour, `true`: the zeros are read).

Simplified: one thread; the initialisation of one variable (all elements of an array) is one step, since
`parse` calls no code of the user; the queries of `ip_address` and `ip_network`, which forward to the
ones here, are left out, and so is `is_unspecified`, which reads no table.
-/
set_option autoImplicit false

namespace Ip.Boot

/-- The variables of type `ipv4_network`, `ip-networks.hpp:26-39`. -/
inductive Tab4 where
  | priv | pub | reserved | multicast | loopback | linkLocal
deriving DecidableEq, Repr

/-- The variables of type `ipv6_network`, `ip-networks.hpp:27-42`. -/
inductive Tab6 where
  | priv | reserved | multicast | linkLocal | siteLocal
deriving DecidableEq, Repr

/-- The initialisers of the variables, `ip-networks.hpp:46-164`; a variable that is no array counts as
an array of one element. -/
def Tab4.texts : Tab4 → List (List Char)
  | .priv => v4PrivateTexts
  | .pub => [v4PublicText]
  | .reserved => [v4ReservedText]
  | .multicast => [v4MulticastText]
  | .loopback => [v4LoopbackText]
  | .linkLocal => [v4LinkLocalText]

/-- The initialisers of the variables, `ip-networks.hpp:70-181`. -/
def Tab6.texts : Tab6 → List (List Char)
  | .priv => v6PrivateTexts
  | .reserved => v6ReservedTexts
  | .multicast => [v6MulticastText]
  | .linkLocal => [v6LinkLocalText]
  | .siteLocal => [v6SiteLocalText]

/-- The storage of one variable: `raw` before its dynamic initialisation (`count` elements, see
`array_size`, `ip-networks.hpp:222-225`), `made` afterwards. -/
inductive Slot (A : Type) where
  | raw (count : Nat)
  | made (nets : List (Net A))

/-- The storage of all variables of `networks<int>` (`ip-networks.hpp:219`). -/
structure Statics where
  v4 : Tab4 → Slot (List (BitVec 8))
  v6 : Tab6 → Slot V6

/-- A network whose bytes are all zero. -/
def zero4 : Net (List (BitVec 8)) := ⟨List.replicate 4 0, List.replicate 4 0, 0⟩

/-- A network whose bytes are all zero; a zeroed `fixed_string` is the empty one. -/
def zero6 (c : Cfg) : Net V6 :=
  ⟨⟨List.replicate 16 0, emptyScope c.M⟩, ⟨List.replicate 16 0, emptyScope c.M⟩, 0⟩

/-- Using the elements of a variable. -/
def Slot.read {A : Type} (z : Bool) (zero : Net A) : Slot A → Res (List (Net A))
  | .made ns => .ok ns
  | .raw k => if z then .ok (List.replicate k zero) else .ub

/-- `parse("...")` for each element of the initialiser (`ip-networks.hpp:46-181`). -/
def parseAll {A U : Type} (F : Fam A U) : List (List Char) → Res (List (Net A))
  | [] => .ok []
  | t :: ts => do
    let n ← F.parseNet (readChars t) true
    let ns ← parseAll F ts
    .ok (n :: ns)

section
variable {A U : Type} (F : Fam A U)

/-- The loops `ip-networks.hpp:275-281`, `314-321`, `333-339`, and `network.contains(address)` for a single
network. -/
def anyContains : List (Net A) → A → Res Bool
  | [], _ => .ok false
  | n :: ns, a => do
    if ← F.contains n a then .ok true else anyContains ns a

/-- The loops `ip-networks.hpp:236-242`, `258-264`, and `contains(address) && contains(broadcast)` for a
single network (`ip-networks.hpp:249`). -/
def anyContainsBoth : List (Net A) → A → A → Res Bool
  | [], _, _ => .ok false
  | n :: ns, a, b => do
    if ← (do if ← F.contains n a then F.contains n b else .ok false) then .ok true else anyContainsBoth ns a b

end

/-- The predicates of IPv4 addresses and networks that read the tables. -/
inductive Ask4 where
  | priv | glob | multicast | reserved | loopback | linkLocal
deriving DecidableEq, Repr

/-- The predicates of IPv6 addresses and networks. -/
inductive Ask6 where
  | priv | glob | multicast | reserved | loopback | linkLocal | siteLocal
deriving DecidableEq, Repr

/-- `variable.contains(a)` / the loop over the variable. -/
def Statics.has4 (st : Statics) (z : Bool) (t : Tab4) (a : List (BitVec 8)) : Res Bool := do
  let ns ← (st.v4 t).read z zero4
  anyContains (fam4 true) ns a

/-- `variable.contains(a)` / the loop over the variable. -/
def Statics.has6 (st : Statics) (c : Cfg) (z : Bool) (t : Tab6) (a : V6) : Res Bool := do
  let ns ← (st.v6 t).read z (zero6 c)
  anyContains (fam6 c) ns a

/-- `props<ipv4_address>`, `ip-networks.hpp:272-303` (with the forwarding functions `367-394`). -/
def Statics.addr4 (st : Statics) (z : Bool) : Ask4 → List (BitVec 8) → Res Bool
  | .priv, a => st.has4 z .priv a
  | .glob, a => do
    if ← st.has4 z .pub a then .ok false
    else do
      let r ← st.has4 z .priv a
      .ok (!r)
  | .multicast, a => st.has4 z .multicast a
  | .reserved, a => st.has4 z .reserved a
  | .loopback, a => st.has4 z .loopback a
  | .linkLocal, a => st.has4 z .linkLocal a

/-- `ip-networks.hpp:307-322`. -/
def Statics.priv6 (st : Statics) (c : Cfg) (z : Bool) (a : V6) : Res Bool := do
  let m ← v6Mapped a.bytes
  match m with
  | some b => st.addr4 z .priv b
  | none => st.has6 c z .priv a

/-- `props<ipv6_address>`, `ip-networks.hpp:305-353`, and `is_site_local`, `397-400`. -/
def Statics.addr6 (st : Statics) (c : Cfg) (z : Bool) : Ask6 → V6 → Res Bool
  | .priv, a => st.priv6 c z a
  | .glob, a => do
    let r ← st.priv6 c z a
    .ok (!r)
  | .multicast, a => st.has6 c z .multicast a
  | .reserved, a => st.has6 c z .reserved a
  | .loopback, a => v6IsLoopback a
  | .linkLocal, a => st.has6 c z .linkLocal a
  | .siteLocal, a => st.has6 c z .siteLocal ⟨a.bytes, emptyScope c.M⟩

/-- `ip-networks.hpp:233-243`. -/
def Statics.netPriv4 (st : Statics) (z : Bool) (n : Net (List (BitVec 8))) : Res Bool := do
  let b ← (fam4 true).broadcast n
  let ns ← (st.v4 .priv).read z zero4
  anyContainsBoth (fam4 true) ns n.addr b

/-- `props<ipv4_network>`, `ip-networks.hpp:231-251`, and `ip-network-base.hpp:752-817`. -/
def Statics.net4 (st : Statics) (z : Bool) : Ask4 → Net (List (BitVec 8)) → Res Bool
  | .priv, n => st.netPriv4 z n
  | .glob, n => do
    let b ← (fam4 true).broadcast n
    let ns ← (st.v4 .pub).read z zero4
    if ← anyContainsBoth (fam4 true) ns n.addr b then .ok false
    else do
      let r ← st.netPriv4 z n
      .ok (!r)
  | .multicast, n => (fam4 true).bothEnds (st.addr4 z .multicast) n
  | .reserved, n => (fam4 true).bothEnds (st.addr4 z .reserved) n
  | .loopback, n => (fam4 true).bothEnds (st.addr4 z .loopback) n
  | .linkLocal, n => (fam4 true).bothEnds (st.addr4 z .linkLocal) n

/-- `ip-networks.hpp:255-265`. -/
def Statics.netPriv6 (st : Statics) (c : Cfg) (z : Bool) (n : Net V6) : Res Bool := do
  let b ← (fam6 c).broadcast n
  let ns ← (st.v6 .priv).read z (zero6 c)
  anyContainsBoth (fam6 c) ns n.addr b

/-- `props<ipv6_network>`, `ip-networks.hpp:253-270`, `ip-network-base.hpp:752-817` and
`ipv6-network.hpp:41-44`. -/
def Statics.net6 (st : Statics) (c : Cfg) (z : Bool) : Ask6 → Net V6 → Res Bool
  | .priv, n => st.netPriv6 c z n
  | .glob, n => do
    let r ← st.netPriv6 c z n
    .ok (!r)
  | .multicast, n => (fam6 c).bothEnds (st.addr6 c z .multicast) n
  | .reserved, n => (fam6 c).bothEnds (st.addr6 c z .reserved) n
  | .loopback, n => (fam6 c).bothEnds (st.addr6 c z .loopback) n
  | .linkLocal, n => (fam6 c).bothEnds (st.addr6 c z .linkLocal) n
  | .siteLocal, n => (fam6 c).bothEnds (st.addr6 c z .siteLocal) n

/-- A question to the library. -/
inductive Query where
  | addr4 (q : Ask4) (a : List (BitVec 8))
  | addr6 (q : Ask6) (a : V6)
  | net4 (q : Ask4) (n : Net (List (BitVec 8)))
  | net6 (q : Ask6) (n : Net V6)

/-- The answer when the tables are in the state `st`. -/
def Statics.ask (st : Statics) (c : Cfg) (z : Bool) : Query → Res Bool
  | .addr4 q a => st.addr4 z q a
  | .addr6 q a => st.addr6 c z q a
  | .net4 q n => st.net4 z q n
  | .net6 q n => st.net6 c z q n

/-- One step of the start of the program: the initialisation of a variable of the library, or a question
asked by the initialiser of a static object of the user (or later by `main`). -/
inductive Step where
  | init4 (t : Tab4)
  | init6 (t : Tab6)
  | query (q : Query)

/-- All storage before dynamic initialisation, `__cpp_constexpr < 201304L`, `ip-networks.hpp:25-44`. -/
def Statics.zeroed : Statics := ⟨fun t => .raw t.texts.length, fun t => .raw t.texts.length⟩

/-- The dynamic initialisation of a variable. -/
def Statics.init4 (st : Statics) (t : Tab4) : Res Statics := do
  let ns ← parseAll (fam4 true) t.texts
  .ok { st with v4 := fun t' => if t' = t then .made ns else st.v4 t' }

/-- The dynamic initialisation of a variable. -/
def Statics.init6 (st : Statics) (c : Cfg) (t : Tab6) : Res Statics := do
  let ns ← parseAll (fam6 c) t.texts
  .ok { st with v6 := fun t' => if t' = t then .made ns else st.v6 t' }

/-- The state in which dynamic initialisation begins; `cx` is `__cpp_constexpr >= 201304L`
(`ip-networks.hpp:25,46-50,183-217`), where the compiler evaluates the initialisers. -/
def Statics.start (c : Cfg) (cx : Bool) : Res Statics :=
  if cx then do
    let st ← Statics.zeroed.init4 .priv
    let st ← st.init6 c .priv
    let st ← st.init4 .pub
    let st ← st.init4 .reserved
    let st ← st.init6 c .reserved
    let st ← st.init4 .multicast
    let st ← st.init6 c .multicast
    let st ← st.init4 .loopback
    let st ← st.init4 .linkLocal
    let st ← st.init6 c .linkLocal
    st.init6 c .siteLocal
  else .ok Statics.zeroed

/-- The answers of a program start, in order. -/
def run (c : Cfg) (z : Bool) : Statics → List Step → Res (List Bool)
  | _, [] => .ok []
  | st, .init4 t :: es => do
    let st ← st.init4 t
    run c z st es
  | st, .init6 t :: es => do
    let st ← st.init6 c t
    run c z st es
  | st, .query q :: es => do
    let r ← st.ask c z q
    let rs ← run c z st es
    .ok (r :: rs)

/-- A program from its beginning. -/
def boot (c : Cfg) (cx z : Bool) (es : List Step) : Res (List Bool) := do
  let st ← Statics.start c cx
  run c z st es

end Ip.Boot
