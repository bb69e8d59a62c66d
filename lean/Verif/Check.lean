import Verif.Sx

set_option autoImplicit false

/-!
# The syntax checker

Model of check.c.  Taking the car or cdr of an object that is no pair is undefined behaviour (minim.h:229-230: the accessors read the
memory behind the header, which for the empty list is one byte long).
-/

namespace Minim.Chk

open Minim.Sx

/-- The bindings of `check_let_values` (check.c:93-117): a proper list of `((id ...) datum)`. -/
def bindShape : X → Bool
  | .cons (.cons i (.cons _ .null)) bs => isIds i && bindShape bs
  | .null => true
  | _ => false

mutual

/-- `check_expr` (check.c:168-250).  The jumps back to the start after `Mcons(begin_symbol, body)` are calls of `check_begin` (check.c:122-130)
and `checkSeq`. -/
def check : X → Res Unit
  | .null => .err
  | .other _ => .err
  | .lit _ => .ok ()
  | .sym _ => .ok ()
  | .cons h r =>
    if h = .sym .defineValues then
      -- check_define_values, check.c:60-80
      match r with
      | .cons i (.cons e .null) => if isIds i then check e else .err
      | _ => .err
    else if h = .sym .letValues ∨ h = .sym .letrecValues then
      -- check_let_values, check.c:86-118
      match r with
      | .cons bs body =>
        match body with
        | .cons _ _ => if bindShape bs then checkInits bs >>= fun _ => (if isList body then checkSeq body else .err) else .err
        | _ => .err
      | _ => .err
    else if h = .sym .quote ∨ h = .sym .quoteSyntax then
      -- check_1ary_syntax, check.c:17-21
      match r with
      | .cons _ .null => .ok ()
      | _ => .err
    else if h = .sym .setb then
      -- check_assign, check.c:43-56
      match r with
      | .cons (.sym _) (.cons e .null) => check e
      | _ => .err
    else if h = .sym .ifS then
      -- check_3ary_syntax, check.c:25-39
      match r with
      | .cons c (.cons t (.cons e .null)) => check c >>= fun _ => check t >>= fun _ => check e
      | _ => .err
    else if h = .sym .lambda then
      -- check_lambda, check.c:134-143: `minim_cadr(expr)` without a test
      match r with
      | .cons fs body => if isFormals fs then (if isList body then checkSeq body else .err) else .err
      | _ => .ub
    else if h = .sym .caseLambda then checkClauses r
    else if h = .sym .begin then (if isList r then checkSeq r else .err)
    else if isList r then checkArgs r
    else .err

/-- The loop of the `begin` case (check.c:217-223): `minim_cdr(expr)` is taken before `expr` is known to be a pair. -/
def checkSeq : X → Res Unit
  | .cons e .null => check e
  | .cons e (.cons e' r) => check e >>= fun _ => checkSeq (.cons e' r)
  | .cons e _ => check e >>= fun _ => .ub
  | _ => .ub

/-- The loop over the arguments of an application (check.c:227-229); the operator is not looked at. -/
def checkArgs : X → Res Unit
  | .cons e r => check e >>= fun _ => checkArgs r
  | .null => .ok ()
  | _ => .ub

/-- The loop over the right-hand sides of bindings (check.c:183-184). -/
def checkInits : X → Res Unit
  | .cons b bs =>
    match b with
    | .cons _ (.cons e _) => check e >>= fun _ => checkInits bs
    | _ => .ub
  | .null => .ok ()
  | _ => .ub

/-- `check_case_lambda` (check.c:147-162): `minim_caar(clauses)` without a test. -/
def checkClauses : X → Res Unit
  | .cons c cs =>
    match c with
    | .cons fs body => if isFormals fs then (if isList body then checkSeq body else .err) >>= fun _ => checkClauses cs else .err
    | _ => .ub
  | .null => .ok ()
  | _ => .err

end

end Minim.Chk
