import Verif.SxMatch3

set_option autoImplicit false

/-!
# `syntax-case`: the clauses

Model of the part of library/private/stxcase.min that turns the clauses into nested conditionals (lines 610-709), with the bindings of pattern variables that the expander records for the templates in
a clause (expander.min:523-556).

Simplifications: fenders and results are arbitrary functions of the pattern variables in scope and of the environment; that a transformer sees the pattern variables in scope and no others is taken for
granted here.
-/

namespace Minim.Sc

/-- The pattern variables in scope: depth and the variable that holds the value (expander.min:276-287). -/
abbrev Scope := Nm → Option (Nat × Nm)

/-- A fender or the result of a clause. -/
abbrev Body := Scope → Env → Res V

/-- A clause of `syntax-case` (stxcase.min:35-57). -/
structure Clause where
  pat : V
  fender : Option Body
  result : Body

/-- A clause with what is generated for it: the matcher, the pattern variables and their temporaries. -/
structure Compiled where
  matcher : Code
  vars : List (Nm × Nat)
  temps : List Nm
  fender : Option Body
  result : Body

/-- The temporaries made by `n` calls of `gen-temp-id` with `sc` (stxcase.min:640, gen-temp.min:8-13), the counter standing at `c` before. -/
def scIds (c n : Nat) : List Nm := (List.range n).map fun k => .sc (c + 1 + k)

/-- What is generated for the clauses (stxcase.min:624-640).  The expander rejects duplicate pattern variables, which are bound by one `let-syntaxes` (expander.min:539). -/
def compile (lits : List Nm) (fuel : Nat) : List Clause → Nat → Res (List Compiled)
  | [], _ => .ok []
  | cl :: cls, c => do
    let vs ← getVars lits fuel cl.pat 0 []
    let vars := vs.reverse
    let m ← gen lits fuel cl.pat (.var .arg)
    let rest ← compile lits fuel cls (c + vars.length)
    if (vars.map Prod.fst).Nodup then .ok (⟨m, vars, scIds c vars.length, cl.fender, cl.result⟩ :: rest) else .err

/-- The `let` that binds the temporaries to the elements of the list of matches (stxcase.min:642-663). -/
def bindTemps : Env → List Nm → V → Res Env
  | env, [], _ => .ok env
  | env, t :: ts, .cons v r => bindTemps (upd env t v) ts r
  | _, _ :: _, _ => .err

/-- The pattern variables that `let-syntaxes` puts into scope (stxcase.min:665-681). -/
def extend (sc : Scope) : List (Nm × Nat) → List Nm → Scope
  | (x, k) :: xs, t :: ts => fun y => if y = x then some (k, t) else extend sc xs ts y
  | _, _ => sc

/-- Evaluation of the nested conditionals (stxcase.min:627-632, 683-709). -/
def exec (sc : Scope) : List Compiled → Env → Res V
  | [], _ => .err
  | k :: ks, env => do
    let r ← run k.matcher env
    let env1 := upd env .rslt r
    let cond ← match k.fender with
      | none => Res.ok r
      | some f =>
        if r = .fls then Res.ok .fls else do
          let env2 ← bindTemps env1 k.temps r
          f (extend sc k.vars k.temps) env2
    if cond = .fls then exec sc ks env1
    else do
      let env2 ← bindTemps env1 k.temps r
      k.result (extend sc k.vars k.temps) env2

/-- `syntax-case` on the value `v` of its expression (stxcase.min:610-623). -/
def syntaxCase (lits : List Nm) (fuel : Nat) (cls : List Clause) (c : Nat) (sc : Scope) (v : V) (env : Env) : Res V := do
  let ks ← compile lits fuel cls c
  exec sc ks (upd env .arg (toSyntax v))

end Minim.Sc
