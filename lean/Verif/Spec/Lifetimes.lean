import Verif.Model.Lifetimes
/-
Which blocks use an object whose lifetime has ended, read off the text of the block alone, and what blocks mean when
references are names for values.
-/
set_option autoImplicit false

namespace Ip.Spec

/-- The version that a class is for. -/
inductive Fl where
  | v4
  | v6
  | any
deriving DecidableEq, Repr

/-- The classes, apart from their version. -/
inductive Sh where
  | addr
  | net
  | ait
  | rait
  | nit
  | rnit
  | hosts
  | subs
  | exit
  | exs
deriving DecidableEq, Repr

/-- The types of objects. -/
inductive LTy where
  | obj (f : Fl) (s : Sh)
  | arr
  | optA (f : Fl)
  | optN (f : Fl)
deriving DecidableEq, Repr

def shapeOf {A U : Type} : Obj A U → Sh
  | .addr _ => .addr
  | .net _ => .net
  | .ait _ => .ait
  | .rait _ => .rait
  | .nit _ => .nit
  | .rnit _ => .rnit
  | .hosts _ => .hosts
  | .subs _ => .subs
  | .exit _ => .exit
  | .exs _ => .exs

def shapeOfAny : AnyObj → Sh
  | .addr _ => .addr
  | .net _ => .net
  | .ait _ => .ait
  | .rait _ => .rait
  | .nit _ => .nit
  | .rnit _ => .rnit
  | .hosts _ => .hosts
  | .subs _ => .subs
  | .exit _ => .exit
  | .exs _ _ => .exs

/-- The type of an object. -/
def typeOf : LObj → LTy
  | .one4 x => .obj .v4 (shapeOf x)
  | .one6 x => .obj .v6 (shapeOf x)
  | .any x => .obj .any (shapeOfAny x)
  | .arr _ => .arr
  | .optA4 _ => .optA .v4
  | .optA6 _ => .optA .v6
  | .optN4 _ => .optN .v4
  | .optN6 _ => .optN .v6

/-- The public interface: the member functions of every type, whether they return a reference to a part of the object
(`true`) or a new object, and of which type. -/
def interface : LCall → LTy → Option (Bool × LTy)
  | .network, .obj f .net => some (f != .any, .obj f .addr)
  | .netmask, .obj f .net => some (f != .any, .obj f .addr)
  | .hostmask, .obj f .net => some (false, .obj f .addr)
  | .broadcast, .obj f .net => some (false, .obj f .addr)
  | .supernet _ _, .obj f .net => some (false, .obj f .net)
  | .hosts, .obj f .net => some (false, .obj f .hosts)
  | .subnets _ _, .obj f .net => some (false, .obj f .subs)
  | .first, .obj f .hosts => some (false, .obj f .ait)
  | .first, .obj f .subs => some (false, .obj f .nit)
  | .first, .obj f .exs => some (false, .obj f .exit)
  | .last, .obj f .hosts => some (false, .obj f .ait)
  | .last, .obj f .subs => some (false, .obj f .nit)
  | .last, .obj f .exs => some (false, .obj f .exit)
  | .reverse, .obj f .ait => some (false, .obj f .rait)
  | .reverse, .obj f .nit => some (false, .obj f .rnit)
  | .base, .obj f .rait => some (false, .obj f .ait)
  | .base, .obj f .rnit => some (false, .obj f .nit)
  | .plus _, .obj f s => if s ∈ [.ait, .rait, .nit, .rnit] then some (false, .obj f s) else none
  | .minus _, .obj f s => if s ∈ [.ait, .rait, .nit, .rnit] then some (false, .obj f s) else none
  | .prev, .obj f s => if s ∈ [.ait, .rait, .nit, .rnit] then some (false, .obj f s) else none
  | .next, .obj f s => if s ∈ [.ait, .rait, .nit, .rnit, .exit] then some (false, .obj f s) else none
  | .deref, .obj f s =>
    if s ∈ [.ait, .rait] then some (true, .obj f .addr) else if s ∈ [.nit, .rnit, .exit] then some (true, .obj f .net) else none
  | .front, .obj f .hosts => some (false, .obj f .addr)
  | .front, .obj f .subs => some (false, .obj f .net)
  | .back, .obj f .hosts => some (false, .obj f .addr)
  | .back, .obj f .subs => some (false, .obj f .net)
  | .bytes, .obj .v4 .addr => some (true, .arr)
  | .bytes, .obj .v6 .addr => some (true, .arr)
  | .value, .optA f => some (true, .obj f .addr)
  | .value, .optN f => some (true, .obj f .net)
  | .v4, .obj .any .addr => some (false, .optA .v4)
  | .v4, .obj .any .net => some (false, .optN .v4)
  | .v6, .obj .any .addr => some (false, .optA .v6)
  | .v6, .obj .any .net => some (false, .optN .v6)
  | _, _ => none

/-- What an expression refers to: a part of what its root refers to; a new object; or a part of a new object. -/
inductive Reach where
  | inside (path : List LCall)
  | fresh
  | lost
deriving DecidableEq

/-- After one more call that returns a reference. -/
def Reach.part (k : LCall) : Reach → Reach
  | .inside path => .inside (path ++ [k])
  | _ => .lost

/-- What a chain of calls refers to, and its type; `none` if it does not compile. -/
def reach (ρ : Reach) (t : LTy) : List LCall → Option (Reach × LTy)
  | [] => some (ρ, t)
  | k :: ks =>
    match interface k t with
    | some (true, t') => reach (ρ.part k) t' ks
    | some (false, t') => reach .fresh t' ks
    | none => none

/-- The names of a block: the types of its variables; for every reference the variable it refers into and the calls that
lead to the part, or `none` if it refers into a temporary, and its type; the variables whose lifetime has ended. -/
structure Names where
  vars : List LTy
  refs : List (Option (Nat × List LCall) × LTy)
  dropped : List Nat

namespace Names

/-- The type of the root of an expression. -/
def rootType (σ : Names) : LRoot → Option LTy
  | .var i => σ.vars[i]?
  | .ref k => (σ.refs[k]?).map (·.2)

/-- The variable that the root of an expression refers into, and the calls that lead to the part. -/
def origin (σ : Names) : LRoot → Option (Nat × List LCall)
  | .var i => some (i, [])
  | .ref k => (σ.refs[k]?).bind (·.1)

/-- What an expression refers to, and its type. -/
def expr (σ : Names) (e : LExpr) : Option (Reach × LTy) :=
  match σ.rootType e.root with
  | some t => reach (.inside []) t e.calls
  | none => none

/-- A reference with what it refers to. -/
def bound (σ : Names) (from_ : Option (Nat × List LCall)) : Reach × LTy → Names
  | (.inside path, t) => { σ with refs := σ.refs ++ [(from_.map fun o => (o.1, o.2 ++ path), t)] }
  | (.fresh, t) => { σ with vars := σ.vars ++ [t], refs := σ.refs ++ [(some (σ.vars.length, []), t)] }
  | (.lost, t) => { σ with refs := σ.refs ++ [(none, t)] }

/-- The names after a statement. -/
def after (σ : Names) : LStmt → Names
  | .decl x => { σ with vars := σ.vars ++ [typeOf x] }
  | .copy e =>
    match σ.expr e with
    | some (_, t) => { σ with vars := σ.vars ++ [t] }
    | none => σ
  | .bind e =>
    match σ.expr e with
    | some r => σ.bound (σ.origin e.root) r
    | none => σ
  | .bindNew x ks =>
    match reach .fresh (typeOf x) ks with
    | some r => σ.bound none r
    | none => σ
  | .drop i => { σ with dropped := i :: σ.dropped }
  | .assign _ _ | .use _ => σ

/-- The statement compiles. -/
def Compiles (σ : Names) : LStmt → Prop
  | .decl _ => True
  | .copy e | .bind e | .use e => σ.expr e ≠ none
  | .bindNew x ks => reach .fresh (typeOf x) ks ≠ none
  | .assign i e => ∃ ρ t, σ.expr e = some (ρ, t) ∧ σ.vars[i]? = some t
  | .drop i => i < σ.vars.length

/-- The root of an expression refers into an object that is alive. -/
def Alive (σ : Names) (r : LRoot) : Prop := ∃ i path, σ.origin r = some (i, path) ∧ i ∉ σ.dropped

/-- The statement uses an object whose lifetime has ended. -/
def Dangles (σ : Names) : LStmt → Prop
  | .decl _ | .bindNew _ _ => False
  | .copy e | .bind e | .use e => ¬ σ.Alive e.root
  | .assign i e => ¬ σ.Alive e.root ∨ i ∈ σ.dropped
  | .drop i => i ∈ σ.dropped

end Names

/-- No names. -/
def noNames : Names := ⟨[], [], []⟩

/-- The names after a block. -/
def namesAfter (σ : Names) : List LStmt → Names
  | [] => σ
  | s :: rest => namesAfter (σ.after s) rest

/-- The block compiles. -/
def BlockOk (p : List LStmt) : Prop := ∀ a s b, p = a ++ s :: b → (namesAfter noNames a).Compiles s

/-- No statement of the block uses an object whose lifetime has ended. -/
def NoneDangles (p : List LStmt) : Prop := ∀ a s b, p = a ++ s :: b → ¬ (namesAfter noNames a).Dangles s

/-- The value of a chain of calls on a value. -/
def follow (c : Cfg) : LObj → List LCall → Res LObj
  | x, [] => .ok x
  | x, k :: ks =>
    match x.call c k with
    | some (.part y) => follow c y ks
    | some (.made r) => r >>= fun y => follow c y ks
    | none => .ub

/-- The values of the variables, and the output. -/
structure Env where
  vals : List LObj
  out : List LObj

/-- The value of an expression: a reference is a name for a part of a variable. -/
def valueOf (c : Cfg) (σ : Names) (env : Env) (e : LExpr) : Res LObj :=
  match σ.origin e.root with
  | some (i, path) =>
    match env.vals[i]? with
    | some x => follow c x (path ++ e.calls)
    | none => .ub
  | none => .ub

/-- What a statement means when references are names. -/
def meaning1 (c : Cfg) (σ : Names) (env : Env) : LStmt → Res Env
  | .decl x => .ok { env with vals := env.vals ++ [x] }
  | .copy e => do
    let x ← valueOf c σ env e
    .ok { env with vals := env.vals ++ [x] }
  | .bind e => do
    let x ← valueOf c σ env e
    match σ.expr e with
    | some (.fresh, _) => .ok { env with vals := env.vals ++ [x] }
    | _ => .ok env
  | .bindNew x ks => do
    let y ← follow c x ks
    match reach .fresh (typeOf x) ks with
    | some (.fresh, _) => .ok { env with vals := env.vals ++ [y] }
    | _ => .ok env
  | .assign i e => do
    let x ← valueOf c σ env e
    .ok { env with vals := env.vals.set i x }
  | .drop _ => .ok env
  | .use e => do
    let x ← valueOf c σ env e
    .ok { env with out := env.out ++ [x] }

/-- What a block means when references are names. -/
def meaningFrom (c : Cfg) (σ : Names) (env : Env) : List LStmt → Res Env
  | [] => .ok env
  | s :: rest => do
    let env ← meaning1 c σ env s
    meaningFrom c (σ.after s) env rest

/-- What a block means when references are names: its output. -/
def blockMeaning (c : Cfg) (p : List LStmt) : Res (List LObj) := do
  let env ← meaningFrom c noNames ⟨[], []⟩ p
  .ok env.out

end Ip.Spec
