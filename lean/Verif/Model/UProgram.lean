import Verif.Model.U128Ops
/-
Programs over variables of type `uint128_t`: every operator of `include/ipaddress/uint128.hpp`, with the
branches and loops of C++ around them.
-/
set_option autoImplicit false

namespace Ip

/-- A constant of a built-in integer type of 1 to 64 bits, as taken by the constructors of
`uint128.hpp:141-230`. -/
structure CInt where
  n : Builtin
  pos : 1 ≤ n.width
  le : n.width ≤ 64

/-- The comparison operators of `uint128.hpp:1092-1258`. -/
inductive Rel where
  | eq | ne | lt | gt | le | ge
deriving DecidableEq, Repr

/-- Expressions.  `lit n` is a constant converted by a constructor (`uint128.hpp:141-230`); `shift left e n` is
`e << n` or `e >> n` for a constant, `shiftBy left e s w a` the same with the amount `(T) a` for the
built-in type `T` with signedness `s` and `w + 1` bits; a truth value used as a number is 0 or 1. -/
inductive UExpr where
  | var (i : Nat)
  | lit (n : CInt)
  | plus (e : UExpr)
  | neg (e : UExpr)
  | not (e : UExpr)
  | bin (op : U128.Op) (a b : UExpr)
  | shift (left : Bool) (e : UExpr) (n : CInt)
  | shiftBy (left : Bool) (e : UExpr) (signed : Bool) (w : Fin 64) (a : UExpr)
  | rel (r : Rel) (a b : UExpr)
  | isZero (e : UExpr)
  | both (a b : UExpr)
  | either (a b : UExpr)
  | sel (c a b : UExpr)

/-- Statements.  The assignments are `uint128.hpp:673-800`, `inc` to `postDec` are `992-1033` (the returned value of
the postfix operators is stored in `j`), `swap` is `310-314`. -/
inductive UStmt where
  | skip
  | set (i : Nat) (e : UExpr)
  | opSet (op : U128.Op) (i : Nat) (e : UExpr)
  | shiftSet (left : Bool) (i : Nat) (n : CInt)
  | inc (i : Nat)
  | dec (i : Nat)
  | postInc (j i : Nat)
  | postDec (j i : Nat)
  | swap (i j : Nat)
  | seq (s t : UStmt)
  | ite (c : UExpr) (s t : UStmt)
  | loop (c : UExpr) (s : UStmt)

/-- The number of bits that a signed or unsigned built-in value stands for as a shift amount
(`uint128.hpp:948-983`; the comparisons there are of the value of the amount). -/
def Builtin.amount (n : Builtin) : Int := if n.signed then n.bits.toInt else n.bits.toNat

/-- The result of a comparison operator (`uint128.hpp:1092-1258`). -/
def CmpOps.get (o : CmpOps) : Rel → Bool
  | .eq => o.eq
  | .ne => o.ne
  | .lt => o.lt
  | .gt => o.gt
  | .le => o.le
  | .ge => o.ge

/-- A `bool` converted to `uint128_t`, through `int` (`uint128.hpp:216-217`). -/
def U128.ofBool (b : Bool) : U128 := U128.ofI64 (if b then 1 else 0)

/-- `<<` or `>>`, `uint128.hpp:948-983`. -/
def U128.shiftDir (left : Bool) (x : U128) (n : Int) : Res U128 := if left then x.shl n else x.shr n

/-- The value of an expression; the operators are those of `uint128.hpp:809-1258`. `&&` and `||` are overloaded
(`1054-1068`), so both operands are evaluated; `?:` uses the conversion to `bool` (`507-509`). -/
def UExpr.eval (ss : Bool) (env : Nat → U128) : UExpr → Res U128
  | .var i => .ok (env i)
  | .lit n => .ok n.n.toU128
  | .plus e => do let x ← e.eval ss env; .ok x.plus
  | .neg e => do let x ← e.eval ss env; .ok x.neg
  | .not e => do let x ← e.eval ss env; .ok x.not
  | .bin op a b => do let x ← a.eval ss env; let y ← b.eval ss env; U128.apply op x y
  | .shift left e n => do let x ← e.eval ss env; x.shiftDir left n.n.amount
  | .shiftBy left e s w a => do
    let x ← e.eval ss env
    let y ← a.eval ss env
    x.shiftDir left (y.toBuiltin s (w.val + 1)).amount
  | .rel r a b => do
    let x ← a.eval ss env
    let y ← b.eval ss env
    let o ← u128CmpOps ss x y
    .ok (U128.ofBool (o.get r))
  | .isZero e => do let x ← e.eval ss env; .ok (U128.ofBool x.isZero)
  | .both a b => do let x ← a.eval ss env; let y ← b.eval ss env; .ok (U128.ofBool (x.both y))
  | .either a b => do let x ← a.eval ss env; let y ← b.eval ss env; .ok (U128.ofBool (x.either y))
  | .sel c a b => do
    let x ← c.eval ss env
    if x.toBool then a.eval ss env else b.eval ss env

/-- Assignment to a variable (`uint128.hpp:100`). -/
def setVar {T : Type} (env : Nat → T) (i : Nat) (x : T) : Nat → T := fun k => if k = i then x else env k

/-- Running a statement for at most `fuel` steps; `none` is a program that has not ended by then.  The
operators are those of `uint128.hpp:310-314, 507-509, 673-800, 992-1033`. -/
def UStmt.run (ss : Bool) : Nat → UStmt → (Nat → U128) → Option (Res (Nat → U128))
  | 0, _, _ => none
  | _ + 1, .skip, env => some (.ok env)
  | _ + 1, .set i e, env => some (do let x ← e.eval ss env; .ok (setVar env i x))
  | _ + 1, .opSet op i e, env => some (do
    let y ← e.eval ss env
    let x ← U128.assign op (env i) y
    .ok (setVar env i x))
  | _ + 1, .shiftSet left i n, env => some (do
    let x ← if left then U128.assignShl (env i) n.n.amount else U128.assignShr (env i) n.n.amount
    .ok (setVar env i x))
  | _ + 1, .inc i, env => some (.ok (setVar env i (env i).inc))
  | _ + 1, .dec i, env => some (.ok (setVar env i (env i).dec))
  | _ + 1, .postInc j i, env =>
    let p := (env i).postInc
    some (.ok (setVar (setVar env i p.2) j p.1))
  | _ + 1, .postDec j i, env =>
    let p := (env i).postDec
    some (.ok (setVar (setVar env i p.2) j p.1))
  | _ + 1, .swap i j, env =>
    let p := (env i).swap (env j)
    some (.ok (setVar (setVar env i p.1) j p.2))
  | fuel + 1, .seq s t, env =>
    match s.run ss fuel env with
    | some (.ok env) => t.run ss fuel env
    | r => r
  | fuel + 1, .ite c s t, env =>
    match c.eval ss env with
    | .ok x => if x.toBool then s.run ss fuel env else t.run ss fuel env
    | .err c v => some (.err c v)
    | .ub => some .ub
  | fuel + 1, .loop c s, env =>
    match c.eval ss env with
    | .ok x =>
      if x.toBool then
        match s.run ss fuel env with
        | some (.ok env) => (UStmt.loop c s).run ss fuel env
        | r => r
      else some (.ok env)
    | .err c v => some (.err c v)
    | .ub => some .ub

end Ip
