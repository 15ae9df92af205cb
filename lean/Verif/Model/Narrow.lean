import Verif.Model.AnyNet
/-
Platforms where `size_t` has `w` bits, not 64.  The functions of `ip_network_base` whose result depends
on the width are the reader of netmasks, where the number wraps, and `subnets`, where the sum of the
prefix length and the difference wraps.  They are modelled once more here, with the width as an
argument; all other functions of `fam4` and `fam6` are shared with the 64 bit model (their `size_t`
values are at most 128, or are compared before they are used).
-/
set_option autoImplicit false

namespace Ip

/-- The digit loops of `base-v4.hpp:187-199` and `base-v6.hpp:249-261`, where `size_t prefixlen` has `w`
bits. -/
def digitsLoopW (w : Nat) : List Ev → Nat → Res (Option Nat)
  | [], p => .ok (some p)
  | .bad code sym :: _, _ => .err code sym
  | .ch c :: rest, p =>
    if '0'.toNat ≤ c.toNat ∧ c.toNat ≤ '9'.toNat then
      digitsLoopW w rest ((p * 10 + (c.toNat - '0'.toNat)) % 2 ^ w)
    else .ok none

/-- `base-v4.hpp:178-225`, `parse_netmask`, with a `size_t` of `w` bits. -/
def v4ParseNetmaskW (w : Nat) (le : Bool) (evs : List Ev) : Res (List (BitVec 8) × Nat × Nat) := do
  let d ← digitsLoopW w evs 0
  match d with
  | some p =>
    if p > 32 then .err .invalid_netmask 0
    else
      let p := if evs = [] then 32 else p
      let m ← v4FromPrefix le p
      .ok (m, p, 0)
  | none => do
    let p ← v4MaskText le evs
    let m ← v4FromPrefix le p
    .ok (m, p, 3)

/-- `base-v6.hpp:245-272`, `parse_netmask`, with a `size_t` of `w` bits. -/
def v6ParseNetmaskW (w : Nat) (evs : List Ev) : Res (List (BitVec 8) × Nat × Nat) := do
  let d ← digitsLoopW w evs 0
  match d with
  | some p =>
    if p > 128 then .err .invalid_netmask 0
    else
      let p := if evs = [] then 128 else p
      let m ← v6FromPrefix p
      .ok (m, p, 0)
  | none => .err .invalid_netmask 0

/-- IPv4 (`ipv4-network.hpp`, `ipv4-address.hpp`, `base-v4.hpp`) with a `size_t` of `w` bits. -/
def fam4W (w : Nat) (le : Bool) : Fam (List (BitVec 8)) (BitVec 32) :=
  { fam4 le with parseNetmask := v4ParseNetmaskW w le }

/-- IPv6 (`ipv6-network.hpp`, `ipv6-address.hpp`, `base-v6.hpp`) with a `size_t` of `w` bits. -/
def fam6W (w : Nat) (c : Cfg) : Fam V6 U128 :=
  { fam6 c with
    parseNetmask := fun evs => do
      let m ← v6ParseNetmaskW w evs
      .ok (⟨m.1, emptyScope c.M⟩, m.2) }

/-- `ip-network-base.hpp:1022-1049`, `subnets`, with a `size_t` of `w` bits; the arguments are values of
that type. -/
def Fam.subnetsW {A U : Type} (F : Fam A U) (w : Nat) (n : Net A) (diff : Nat) (newp : Option Nat) :
    Res (SubnetsSeq A U) := do
  let address ← noexcept (F.removeScope n.addr)
  if n.plen = F.maxPrefix then noexcept (F.subnetsMk1 address n.plen)
  else
    let go (diff : Nat) : Res (SubnetsSeq A U) :=
      let new_prefix := (n.plen + diff) % 2 ^ w
      if new_prefix > F.maxPrefix then .err .invalid_prefixlen_diff 0
      else noexcept (do
        let b ← F.broadcast n
        F.subnetsMk address b (F.hostmask n) diff new_prefix)
    match newp with
    | none => go diff
    | some p =>
      if p < n.plen then .err .new_prefix_must_be_longer 0
      else if diff ≠ 1 then .err .cannot_set_prefixlen_diff_and_new_prefix 0
      else go (p - n.plen)

/-- `ip-any-network.hpp:44-56`, `net_any_parser::parse` with `error_code`, with a `size_t` of `w` bits. -/
def anyNetFromEventsW (w : Nat) (c : Cfg) (evs : List Ev) (strict : Bool) : Res AnyNet :=
  match (fam4W w c.le).parseNet evs strict with
  | .ok n => .ok (.v4 n)
  | .err _ _ => do
    let n ← (fam6W w c).parseNet evs strict
    .ok (.v6 n)
  | .ub => .ub

end Ip
