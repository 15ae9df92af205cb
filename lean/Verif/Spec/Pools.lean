import Verif.Spec.Tables
/-
What a program does that hands out networks from a pool, in terms of the functions of the library that it calls: `sub m n` is
`m.subnet_of(n)`, `eq` is `operator==`, `sup n` is `n.supernet()` and `exc f o` are the networks that a loop over
`f.address_exclude(o)` visits.
-/
set_option autoImplicit false

namespace Ip.Spec

variable {N : Type}

/-- The networks that can be handed out and the ones that are. -/
structure Pool (N : Type) where
  free : List N
  taken : List N
deriving DecidableEq, Repr

inductive PoolOp (N : Type) where
  /-- hand out a network -/
  | take (o : N)
  /-- a network is not needed any more -/
  | give (o : N)
  /-- replace two free networks by their common supernet -/
  | merge (m n : N)

/-- `list.erase(std::find(list.begin(), list.end(), n))`. -/
def without (eq : N → N → Res Bool) (n : N) : List N → Res (List N)
  | [] => .ok []
  | m :: rest => do
    if ← eq m n then .ok rest
    else do
      let l ← without eq n rest
      .ok (m :: l)

/-- One operation; one that is not possible leaves the pool as it is. -/
def Pool.step (sub eq : N → N → Res Bool) (sup : N → Res N) (exc : N → N → Res (List N)) (p : Pool N) : PoolOp N → Res (Pool N)
  | .take o => do
    match ← firstWith (fun f o => sub o f) o p.free with
    | none => .ok p
    | some f => do
      let parts ← exc f o
      let rest ← without eq f p.free
      .ok ⟨parts ++ rest, o :: p.taken⟩
  | .give o => do
    if ← found eq o p.taken then do
      let rest ← without eq o p.taken
      .ok ⟨o :: p.free, rest⟩
    else .ok p
  | .merge m n => do
    if ← found eq m p.free then
      if ← found eq n p.free then
        if ← eq m n then .ok p
        else do
          let a ← sup m
          let b ← sup n
          if ← eq a b then do
            let l ← without eq m p.free
            let l ← without eq n l
            .ok ⟨a :: l, p.taken⟩
          else .ok p
      else .ok p
    else .ok p

/-- A sequence of operations. -/
def Pool.run (sub eq : N → N → Res Bool) (sup : N → Res N) (exc : N → N → Res (List N)) (p : Pool N) : List (PoolOp N) → Res (Pool N)
  | [] => .ok p
  | op :: ops => do
    let q ← p.step sub eq sup exc op
    q.run sub eq sup exc ops

/-- The networks that an operation names. -/
def PoolOp.names : PoolOp N → List N
  | .take o => [o]
  | .give o => [o]
  | .merge m n => [m, n]

end Ip.Spec
