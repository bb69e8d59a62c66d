import Verif.Core

set_option autoImplicit false

/-!
# Free and bound variables

Model of jitanalyze.c on the trees of `Verif/Core.lean`.  The analyses run on optimised expressions: `let-values` and `letrec-values`
no longer occur (C46); for these two forms the functions below return nothing, and every theorem excludes them.
The tables map lambda expressions, by address, to their variables; the model keeps the list of entries.
-/

namespace Minim.Jit

open Minim.Sx Minim.Core

/-- `merge_free_vars` (jitanalyze.c:24-33). -/
def mergeFv (xs1 xs2 : List Sym) : List Sym :=
  xs1.foldl (fun acc x => if x ∈ xs2 then acc else x :: acc) xs2

/-- `remove_free_vars` (jitanalyze.c:35-45). -/
def removeFv (ks fvs : List Sym) : List Sym :=
  fvs.foldl (fun acc x => if x ∈ ks then acc else x :: acc) []

/-- A table of variables by expression, newest entry first (jitanalyze.c:62, 78). -/
abbrev Tab := List (E × List Sym)

/-- The entry made for a lambda expression with free variables (jitanalyze.c:61-62, 77-78). -/
def noteFv (e : E) (fvs : List Sym) (t : Tab) : Tab := if fvs = [] then t else (e, fvs) :: t

mutual

/-- `free_vars` (jitanalyze.c:108-169). -/
def freeVars : E → Tab → List Sym × Tab
  | .var s, t => ([s], t)
  | .lit _, t => ([], t)
  | .quote _, t => ([], t)
  | .quoteSyntax _, t => ([], t)
  | .unbound, t => ([], t)
  -- define_values_free_vars, jitanalyze.c:47-52
  | .define xs e, t => let (fvs, t) := freeVars e t; (removeFv xs fvs, t)
  -- begin_free_vars on the identifier and the expression, jitanalyze.c:117-119
  | .set x e, t => let (f, t) := freeVars e t; (mergeFv f (mergeFv [x] []), t)
  | .ite c a b, t =>
    let (f1, t) := freeVars c t
    let (f2, t) := freeVars a t
    let (f3, t) := freeVars b t
    (mergeFv f3 (mergeFv f2 (mergeFv f1 [])), t)
  | .letv _ _, t => ([], t)
  | .letrecv _ _, t => ([], t)
  -- lambda_free_vars, jitanalyze.c:54-64
  | .lam f body, t =>
    let (fvs, t) := freeVarsSeq body [] t
    (removeFv f.ids fvs, noteFv (.lam f body) (removeFv f.ids fvs) t)
  -- case_lambda_free_vars, jitanalyze.c:66-80
  | .clam cs, t =>
    let (fvs, t) := freeVarsClauses cs [] t
    (fvs, noteFv (.clam cs) fvs t)
  | .begin es, t => freeVarsSeq es [] t
  -- app_free_vars, jitanalyze.c:101-106
  | .app f args, t => let (f1, t) := freeVars f t; freeVarsSeq args f1 t
  | .mvcall e c, t =>
    let (f1, t) := freeVars e t
    let (f2, t) := freeVars c t
    (mergeFv f2 (mergeFv f1 []), t)
  -- mvlet_free_vars, jitanalyze.c:82-90; the order in which C evaluates the two arguments changes the order of table entries only
  | .mvlet e xs body, t =>
    let (f1, t) := freeVars e t
    let (f2, t) := freeVars body t
    (mergeFv (removeFv xs f2) f1, t)
  | .mvvals es, t => freeVarsSeq es [] t

/-- The loop of `begin_free_vars` and `app_free_vars` (jitanalyze.c:96-98, 103-105). -/
def freeVarsSeq : List E → List Sym → Tab → List Sym × Tab
  | [], acc, t => (acc, t)
  | e :: es, acc, t => let (f, t) := freeVars e t; freeVarsSeq es (mergeFv f acc) t

/-- The loop of `case_lambda_free_vars` (jitanalyze.c:70-75). -/
def freeVarsClauses : List Cl → List Sym → Tab → List Sym × Tab
  | [], acc, t => (acc, t)
  | .mk f body :: cs, acc, t =>
    let (fvs, t) := freeVarsSeq body [] t
    freeVarsClauses cs (mergeFv (removeFv f.ids fvs) acc) t

end

end Minim.Jit
