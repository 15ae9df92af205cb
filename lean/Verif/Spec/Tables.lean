import Verif.Model.Basic
/-
What programs do with tables of networks, in terms of the functions of the library that they call: `lt` is `operator<`,
`eq` is `operator==`, `sub m n` is `m.subnet_of(n)`, `con n a` is `n.contains(a)`, `from p` is `from_address(a, p, false)`.
-/
set_option autoImplicit false

namespace Ip.Spec

variable {N A : Type}

/-- A table that `std::sort`, `std::set` or `std::map` keeps in order: no element is less than an earlier one. -/
def TableSorted (lt : N → N → Res Bool) (table : List N) : Prop := table.Pairwise fun m n => lt n m = .ok false

/-- The rest of the loop of `collapse`, where `last` is `out.back()`. -/
def collapseFrom (sub : N → N → Res Bool) (last : N) : List N → Res (List N)
  | [] => .ok []
  | n :: rest => do
    if ← sub n last then collapseFrom sub last rest
    else do
      let out ← collapseFrom sub n rest
      .ok (n :: out)

/-- `for (auto& n : table) if (out.empty() || !n.subnet_of(out.back())) out.push_back(n);` -/
def collapse (sub : N → N → Res Bool) : List N → Res (List N)
  | [] => .ok []
  | n :: rest => do
    let out ← collapseFrom sub n rest
    .ok (n :: out)

/-- `for (; it != table.end() && it->subnet_of(n); ++it) out.push_back(*it);` -/
def walkUnder (sub : N → N → Res Bool) (n : N) : List N → Res (List N)
  | [] => .ok []
  | m :: rest => do
    if ← sub m n then do
      let out ← walkUnder sub n rest
      .ok (m :: out)
    else .ok []

/-- The walk begins at `table.lower_bound(n)`, the first element that is not less than `n`. -/
def under (lt sub : N → N → Res Bool) (n : N) : List N → Res (List N)
  | [] => .ok []
  | m :: rest => do
    if ← lt m n then under lt sub n rest
    else walkUnder sub n (m :: rest)

/-- `std::find_if(table.begin(), table.end(), [&](auto& n) { return n.contains(a); })`; with `rbegin()` and `rend()` on the
table in the opposite order. -/
def firstWith (con : N → A → Res Bool) (a : A) : List N → Res (Option N)
  | [] => .ok none
  | n :: rest => do
    if ← con n a then .ok (some n) else firstWith con a rest

/-- `std::find(table.begin(), table.end(), n) != table.end()`. -/
def found (eq : N → N → Res Bool) (n : N) : List N → Res Bool
  | [] => .ok false
  | m :: rest => do
    if ← eq m n then .ok true else found eq n rest

/-- `for (size_t p = width + 1; p-- > 0;) { auto n = from_address(a, p, false); if (find(table, n)) return n; }` -/
def lookup (frm : Nat → Res N) (eq : N → N → Res Bool) (table : List N) : Nat → Res (Option N)
  | 0 => .ok none
  | p + 1 => do
    let n ← frm p
    if ← found eq n table then .ok (some n) else lookup frm eq table p

end Ip.Spec
