import Verif.Spec.Net
/-
What the sequences of addresses and networks should contain.
-/
set_option autoImplicit false

namespace Ip.Spec

/-- The list `l` consists of the numbers satisfying `S`, each once, in increasing order. -/
def Lists (l : List Nat) (S : Nat → Prop) : Prop := l.Pairwise (· < ·) ∧ ∀ x, x ∈ l ↔ S x

/-- The usable host addresses of the network `v/p` of `w` bit addresses (as in Python's
`ipaddress`): all addresses when the network has one or two, otherwise all except the least one (the
network address), and for IPv4 except the greatest one (the broadcast address). -/
def IsHost (w p v : Nat) (isV6 : Bool) (x : Nat) : Prop :=
  InNet w p v x ∧ (w ≤ p + 1 ∨
    ((∃ y, InNet w p v y ∧ y < x) ∧ (isV6 = true ∨ ∃ y, InNet w p v y ∧ x < y)))

/-- The networks `l`, given by address and prefix length, are pairwise disjoint and their union is
`S`. -/
def Partitions (w : Nat) (l : List (Nat × Nat)) (S : Nat → Prop) : Prop :=
  l.Pairwise (fun a b => ∀ x, ¬ (InNet w a.2 a.1 x ∧ InNet w b.2 b.1 x)) ∧
  ∀ x, (∃ a ∈ l, InNet w a.2 a.1 x) ↔ S x

/-- Every address of an earlier network of the list is less than every address of a later one. -/
def Increasing (w : Nat) (l : List (Nat × Nat)) : Prop :=
  l.Pairwise (fun a b => ∀ x y, InNet w a.2 a.1 x → InNet w b.2 b.1 y → x < y)

end Ip.Spec
