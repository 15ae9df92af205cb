import Verif.Model.StaticInit
import Verif.Spec.Class
import Verif.Lemmas.NetSpec
/-
What a user expects of the predicates while static objects are being initialised: the same answer as ever.
-/
set_option autoImplicit false

namespace Ip.Spec
open Ip.Boot

/-- The answer of the predicate at any other time (`Model/Class.lean`, see C39 and C40). -/
def Answer (c : Cfg) : Query → Res Bool
  | .addr4 .priv a => v4IsPrivate true a
  | .addr4 .glob a => v4IsGlobal true a
  | .addr4 .multicast a => v4IsMulticast true a
  | .addr4 .reserved a => v4IsReserved true a
  | .addr4 .loopback a => v4IsLoopback true a
  | .addr4 .linkLocal a => v4IsLinkLocal true a
  | .addr6 .priv a => v6IsPrivate c a
  | .addr6 .glob a => v6IsGlobal c a
  | .addr6 .multicast a => v6IsMulticast c a
  | .addr6 .reserved a => v6IsReserved c a
  | .addr6 .loopback a => v6IsLoopback a
  | .addr6 .linkLocal a => v6IsLinkLocal c a
  | .addr6 .siteLocal a => v6IsSiteLocal c a
  | .net4 .priv n => v4NetIsPrivate true n
  | .net4 .glob n => v4NetIsGlobal true n
  | .net4 .multicast n => v4NetIsMulticast true n
  | .net4 .reserved n => v4NetIsReserved true n
  | .net4 .loopback n => v4NetIsLoopback true n
  | .net4 .linkLocal n => v4NetIsLinkLocal true n
  | .net6 .priv n => v6NetIsPrivate c n
  | .net6 .glob n => v6NetIsGlobal c n
  | .net6 .multicast n => v6NetIsMulticast c n
  | .net6 .reserved n => v6NetIsReserved c n
  | .net6 .loopback n => v6NetIsLoopback c n
  | .net6 .linkLocal n => v6NetIsLinkLocal c n
  | .net6 .siteLocal n => v6NetIsSiteLocal c n

/-- The question is about a proper address or network. -/
def Proper (c : Cfg) : Query → Prop
  | .addr4 _ a => a.length = 4
  | .addr6 _ a => a.WF c.M
  | .net4 _ n => NetOk (fam4 true) WF4 n
  | .net6 _ n => NetOk (fam6 c) (V6.WF c.M) n

/-- The IPv4 variables that an answer depends on. -/
def Uses4 : Query → Tab4 → Prop
  | .addr4 .priv _, t => t = .priv
  | .addr4 .glob a, t => t = .pub ∨ (t = .priv ∧ ¬ Shared4 (beValue a))
  | .addr4 .multicast _, t => t = .multicast
  | .addr4 .reserved _, t => t = .reserved
  | .addr4 .loopback _, t => t = .loopback
  | .addr4 .linkLocal _, t => t = .linkLocal
  | .addr6 .priv a, t => t = .priv ∧ beValue a.bytes / 2 ^ 32 % 2 ^ 16 = 0xffff
  | .addr6 .glob a, t => t = .priv ∧ beValue a.bytes / 2 ^ 32 % 2 ^ 16 = 0xffff
  | .net4 .priv _, t => t = .priv
  | .net4 .glob n, t =>
    t = .pub ∨ (t = .priv ∧ ¬ ∀ x, InNet 32 n.plen (beValue n.addr) x → Shared4 x)
  | .net4 .multicast _, t => t = .multicast
  | .net4 .reserved _, t => t = .reserved
  | .net4 .loopback _, t => t = .loopback
  | .net4 .linkLocal _, t => t = .linkLocal
  | _, _ => False

/-- The IPv6 variables that an answer depends on. -/
def Uses6 : Query → Tab6 → Prop
  | .addr6 .priv a, t => t = .priv ∧ beValue a.bytes / 2 ^ 32 % 2 ^ 16 ≠ 0xffff
  | .addr6 .glob a, t => t = .priv ∧ beValue a.bytes / 2 ^ 32 % 2 ^ 16 ≠ 0xffff
  | .addr6 .multicast _, t => t = .multicast
  | .addr6 .reserved _, t => t = .reserved
  | .addr6 .linkLocal _, t => t = .linkLocal
  | .addr6 .siteLocal _, t => t = .siteLocal
  | .net6 .priv _, t => t = .priv
  | .net6 .glob _, t => t = .priv
  | .net6 .multicast _, t => t = .multicast
  | .net6 .reserved _, t => t = .reserved
  | .net6 .linkLocal _, t => t = .linkLocal
  | .net6 .siteLocal _, t => t = .siteLocal
  | _, _ => False

/-- Everything the question depends on has been initialised by the steps `pre`. -/
def Ready (pre : List Step) (q : Query) : Prop :=
  (∀ t, Uses4 q t → Step.init4 t ∈ pre) ∧ (∀ t, Uses6 q t → Step.init6 t ∈ pre)

/-- Every question comes after the initialisation of what it depends on. -/
def InOrder (es : List Step) : Prop :=
  ∀ pre q post, es = pre ++ Step.query q :: post → Ready pre q

/-- The questions of a program, in order. -/
def questions (es : List Step) : List Query :=
  es.filterMap fun
    | .query q => some q
    | _ => none

/-- The list of answers that is right for the questions. -/
def RightAnswers (c : Cfg) (qs : List Query) (rs : List Bool) : Prop :=
  List.Forall₂ (fun q r => Answer c q = .ok r) qs rs

/-- What reading zeros amounts to: the network that contains every address. -/
def zeroAnswer : Query → Bool
  | .addr4 .glob _ => false
  | .addr6 .glob _ => false
  | .net4 .glob _ => false
  | .net6 .glob _ => false
  | _ => true

end Ip.Spec
