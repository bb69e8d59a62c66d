import Verif.Basic

set_option autoImplicit false

/-!
# Fixnums (src/core/c/number.c, prelude.min:517-722)

A fixnum is a machine word read as a two's complement `long`.  Signed overflow and division by zero are undefined behaviour.
-/

namespace Minim.Num

/-- an argument: a fixnum, or any other object -/
inductive Val where
  | num (w : Word)
  | other
deriving DecidableEq, Repr

/-- `fx_neg` (number.c:22-25) -/
def fxNeg (x : Word) : Res Word := if x.negOverflow then .ub else .ok (-x)

/-- `fx2_add` (number.c:27-30) -/
def fx2Add (x y : Word) : Res Word := if x.saddOverflow y then .ub else .ok (x + y)

/-- `fx2_sub` (number.c:32-35) -/
def fx2Sub (x y : Word) : Res Word := if x.ssubOverflow y then .ub else .ok (x - y)

/-- `fx2_mul` (number.c:37-40) -/
def fx2Mul (x y : Word) : Res Word := if x.smulOverflow y then .ub else .ok (x * y)

/-- the machine's signed division is undefined for a zero divisor and for LONG_MIN / -1 (C11 6.5.5) -/
def divUndefined (x y : Word) : Bool := y == 0#64 || (x == BitVec.intMin 64 && y == -1#64)

/-- `fx2_div` (number.c:42-45), truncating -/
def fx2Div (x y : Word) : Res Word := if divUndefined x y then .ub else .ok (x.sdiv y)

/-- `fx_remainder` (number.c:47-50) -/
def fxRemainder (x y : Word) : Res Word := if divUndefined x y then .ub else .ok (x.srem y)

/-- `fx_modulo` (number.c:52-60) -/
def fxModulo (x y : Word) : Res Word := do
  let z ← fxRemainder x y
  if (x.slt 0#64) != (y.slt 0#64) then fx2Add z y else pure z

/-- `fx2_eq` (number.c:62-65) -/
def fx2Eq (x y : Word) : Bool := x == y

/-- `fx2_gt` (number.c:67-70) -/
def fx2Gt (x y : Word) : Bool := y.slt x

/-- `fx2_lt` (number.c:72-75) -/
def fx2Lt (x y : Word) : Bool := x.slt y

/-- `fx2_ge` (number.c:77-80) -/
def fx2Ge (x y : Word) : Bool := y.sle x

/-- `fx2_le` (number.c:82-85) -/
def fx2Le (x y : Word) : Bool := x.sle y

/-- the loop over further arguments (prelude.min:601-607, 626-632, 652-658) -/
def argLoop (op : Word → Word → Res Word) : Word → List Val → Res Word
  | x, [] => .ok x
  | x, .num y :: ys => do
    let z ← op x y
    argLoop op z ys
  | _, .other :: _ => .err

/-- the clauses for two and more arguments (prelude.min:592-610, 617-635, 643-661): both are checked before the first
operation -/
def fold2 (op : Word → Word → Res Word) : Val → Val → List Val → Res Word
  | .num x, .num y, rest => do
    let z ← op x y
    argLoop op z rest
  | _, _, _ => .err

/-- `+` (prelude.min:585-610) -/
def add : List Val → Res Word
  | [] => .ok 0#64
  | [.num x] => .ok x
  | [.other] => .err
  | x :: y :: rest => fold2 fx2Add x y rest

/-- `-` (prelude.min:611-635); no clause for zero arguments -/
def sub : List Val → Res Word
  | [] => .err
  | [.num x] => fx2Sub 0#64 x
  | [.other] => .err
  | x :: y :: rest => fold2 fx2Sub x y rest

/-- `*` (prelude.min:636-661) -/
def mul : List Val → Res Word
  | [] => .ok 1#64
  | [.num x] => .ok x
  | [.other] => .err
  | x :: y :: rest => fold2 fx2Mul x y rest

/-- the loop of `/` (prelude.min:683-691), which subtracts; `division-0-error` is unbound, referring to it is an error -/
def divLoop : Word → List Val → Res Word
  | x, [] => .ok x
  | x, .num y :: ys => if y = 0#64 then .err else do
    let z ← fx2Sub x y
    divLoop z ys
  | _, .other :: _ => .err

/-- `/` (prelude.min:662-694) -/
def div : List Val → Res Word
  | [] => .err
  | [.num x] => if x = 0#64 then .err else fx2Div 1#64 x
  | [.other] => .err
  | [.num x, .num y] => if y = 0#64 then .err else fx2Div x y
  | .num x :: .num y :: rest => if y = 0#64 then .err else do
    let z ← fx2Sub x y
    divLoop z rest
  | _ :: _ :: _ => .err

/-- `add1` (prelude.min:696-700) -/
def add1 : Val → Res Word
  | .num x => fx2Add x 1#64
  | .other => .err

/-- `sub1` (prelude.min:702-706) -/
def sub1 : Val → Res Word
  | .num x => fx2Sub x 1#64
  | .other => .err

/-- `remainder` (prelude.min:708-714): no test for zero -/
def remainder : Val → Val → Res Word
  | .num x, .num y => fxRemainder x y
  | _, _ => .err

/-- `modulo` (prelude.min:716-722): no test for zero -/
def modulo : Val → Val → Res Word
  | .num x, .num y => fxModulo x y
  | _, _ => .err

/-- the result of a comparison: a boolean, or the number given -/
inductive CmpVal where
  | bool (b : Bool)
  | num (w : Word)
deriving DecidableEq, Repr

/-- the loop of the comparisons (prelude.min:543-551) -/
def cmpLoop (cmp : Word → Word → Bool) : Word → List Val → Res CmpVal
  | _, [] => .ok (.bool true)
  | x, .num y :: ys => if cmp x y then cmpLoop cmp y ys else .ok (.bool false)
  | _, .other :: _ => .err

/-- the procedures built by `go` (prelude.min:528-553) -/
def compare (cmp : Word → Word → Bool) : List Val → Res CmpVal
  | [] => .err
  | [.num x] => .ok (.num x)
  | [.other] => .err
  | [.num x, .num y] => .ok (.bool (cmp x y))
  | [_, _] => .err
  | .num x :: rest => cmpLoop cmp x rest
  | .other :: _ => .err

/-- the five comparisons (prelude.min:554-558) -/
inductive Cmp where
  | eq | gt | lt | ge | le
deriving DecidableEq, Repr

/-- the primitive behind a comparison (prelude.min:554-558) -/
def Cmp.prim : Cmp → Word → Word → Bool
  | .eq => fx2Eq
  | .gt => fx2Gt
  | .lt => fx2Lt
  | .ge => fx2Ge
  | .le => fx2Le

/-- `=`, `>`, `<`, `>=`, `<=` (prelude.min:524-558) -/
def Cmp.run (c : Cmp) : List Val → Res CmpVal := compare c.prim

/-- `negative?` (prelude.min:560-561, 573) -/
def negative : Val → Res CmpVal
  | .num x => Cmp.lt.run [.num x, .num 0#64]
  | .other => .ok (.bool false)

/-- `non-negative?` (prelude.min:563-564, 574) -/
def nonNegative : Val → Res CmpVal
  | .num x => Cmp.ge.run [.num x, .num 0#64]
  | .other => .ok (.bool false)

/-- `positive?` (prelude.min:566-567, 575) -/
def positive : Val → Res CmpVal
  | .num x => Cmp.gt.run [.num x, .num 0#64]
  | .other => .ok (.bool false)

/-- `zero?` (prelude.min:569-570) -/
def zero (x : Val) : Res CmpVal := Cmp.eq.run [x, .num 0#64]

end Minim.Num
