import Verif.Spec.V6
/-
Independent specification of the texts the IPv6 parser takes although RFC 4291 does not: texts with
NUL characters.  No definition here refers to the model.
-/
set_option autoImplicit false

namespace Ip.Spec

/-- The characters before the first NUL. -/
def cutNul : List Char → List Char
  | [] => []
  | c :: t => if c = '\x00' then [] else c :: cutNul t

/-- `ip` consists of groups between colons, each of at most four characters (the last one of at most
16 if it has a dot, and then its dot is not only behind a NUL); `cut` is the same text with every
group ended at its first NUL. -/
def CutGroups (ip cut : List Char) : Prop :=
  ∃ (gs : List (List Char)) (g : List Char), (∀ t ∈ gs ++ [g], ':' ∉ t) ∧ ip = colons (gs ++ [g]) ∧
    cut = colons ((gs ++ [g]).map cutNul) ∧ (∀ t ∈ gs, t.length ≤ 4) ∧
    ('.' ∈ g → g.length ≤ 16 ∧ '.' ∈ cutNul g) ∧ ('.' ∉ g → g.length ≤ 4)

/-- The texts the parser takes, all of them: an address part `ip` without percent sign whose groups,
ended at NUL, form the RFC 4291 text `cut` of the groups `vs` (with at most six colons when it has a
dotted quad), and a legal zone id `z` that does not start with NUL. -/
def TakenText (spaces : Bool) (M : Nat) (s z : List Char) (vs : List Nat) : Prop :=
  ∃ ip cut : List Char, s = ip ++ zoneText z ∧ '%' ∉ ip ∧ CutGroups ip cut ∧ V6Text cut vs ∧
    ('.' ∈ cut → cut.count ':' ≤ 6) ∧ ZoneOk spaces M z ∧ z.head? ≠ some '\x00'

end Ip.Spec
