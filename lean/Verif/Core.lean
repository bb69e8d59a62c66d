import Verif.CheckProps

set_option autoImplicit false

/-!
# Core expressions as trees

The optimiser, the analyses and the compiler dispatch on the head symbol of a list (jitopt.c:206-255, 405-470, 562-623,
jitanalyze.c:108-169, 235-296, jitcompile.c:436-497).  `E` has one constructor for each case of this dispatch, `enc` is the
S-expression it stands for.  S-expressions that are no encoding of an `E` (malformed forms) are not represented: the checker rejects
them except in operator position (C45), and the passes take cars and cdrs of them without any test.
-/

namespace Minim.Core

open Minim.Sx

/-- Formals of a procedure: required parameters and possibly a rest parameter (check.c:136-142). -/
structure Formals where
  req : List Sym
  rest : Option Sym
deriving DecidableEq, Repr

/-- `formals_to_ids` (jitanalyze.c:12-22). -/
def Formals.ids (f : Formals) : List Sym := f.req ++ f.rest.toList

mutual

/-- Core expressions: the source forms (check.c:168-250) and the forms the optimiser introduces (`mv-call`, `mv-let`, `mv-values`,
`make-unbound`; jitopt.c).  `lit` is a self-evaluating datum. -/
inductive E where
  | var (s : Sym)
  | lit (l : Lit)
  | quote (d : X)
  | quoteSyntax (d : X)
  | unbound
  | define (xs : List Sym) (e : E)
  | set (x : Sym) (e : E)
  | ite (c t e : E)
  | letv (bs : List Bd) (body : List E)
  | letrecv (bs : List Bd) (body : List E)
  | lam (f : Formals) (body : List E)
  | clam (cs : List Cl)
  | begin (es : List E)
  | app (f : E) (args : List E)
  | mvcall (e c : E)
  | mvlet (e : E) (xs : List Sym) (body : E)
  | mvvals (es : List E)

/-- A binding `((id ...) e)` (check.c:94-113). -/
inductive Bd where
  | mk (xs : List Sym) (e : E)

/-- A clause `(formals body ...)` (check.c:150-158). -/
inductive Cl where
  | mk (f : Formals) (body : List E)

end

/-- Identifiers of a binding (`minim_car(bind)`, jitopt.c:50). -/
def Bd.ids : Bd → List Sym | .mk xs _ => xs
/-- Right-hand side of a binding (`minim_cadr(bind)`, jitopt.c:71). -/
def Bd.rhs : Bd → E | .mk _ e => e
/-- Formals of a clause (`minim_caar(clauses)`, jitcompile.c:183). -/
def Cl.fs : Cl → Formals | .mk f _ => f
/-- Body of a clause (`minim_cdar(clauses)`, jitanalyze.c:72). -/
def Cl.body : Cl → List E | .mk _ b => b

mutual

/-- The S-expression of a core expression (modelling device). -/
def enc : E → X
  | .var s => .sym s
  | .lit l => .lit l
  | .quote d => ofList [.sym .quote, d]
  | .quoteSyntax d => ofList [.sym .quoteSyntax, d]
  | .unbound => ofList [.sym .makeUnbound]
  | .define xs e => ofList [.sym .defineValues, ids xs, enc e]
  | .set x e => ofList [.sym .setb, .sym x, enc e]
  | .ite c t e => ofList [.sym .ifS, enc c, enc t, enc e]
  | .letv bs body => .cons (.sym .letValues) (.cons (encBds bs) (encs body))
  | .letrecv bs body => .cons (.sym .letrecValues) (.cons (encBds bs) (encs body))
  | .lam f body => .cons (.sym .lambda) (.cons (formals f.req f.rest) (encs body))
  | .clam cs => .cons (.sym .caseLambda) (encCls cs)
  | .begin es => .cons (.sym .begin) (encs es)
  | .app f args => .cons (enc f) (encs args)
  | .mvcall e c => ofList [.sym .mvCall, enc e, enc c]
  | .mvlet e xs body => ofList [.sym .mvLet, enc e, ids xs, enc body]
  | .mvvals es => .cons (.sym .mvValues) (encs es)

/-- A list of expressions as an object (modelling device). -/
def encs : List E → X
  | [] => .null
  | e :: es => .cons (enc e) (encs es)

/-- A binding as an object (modelling device). -/
def encBd : Bd → X
  | .mk xs e => ofList [ids xs, enc e]

/-- A list of bindings as an object (modelling device). -/
def encBds : List Bd → X
  | [] => .null
  | b :: bs => .cons (encBd b) (encBds bs)

/-- A clause as an object (modelling device). -/
def encCl : Cl → X
  | .mk f body => .cons (formals f.req f.rest) (encs body)

/-- A list of clauses as an object (modelling device). -/
def encCls : List Cl → X
  | [] => .null
  | c :: cs => .cons (encCl c) (encCls cs)

end

end Minim.Core
