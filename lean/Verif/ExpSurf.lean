import Verif.Exp
import Verif.RefSem

set_option autoImplicit false

/-!
# The language with derived forms

A specification: the expressions a program is written in, as trees (`S`), how they are written (`dat`) and what they mean (`sev`), independent of the expander.  Values, stores and
environments are those of the reference semantics of the core language (`RefSem`).
-/

namespace Minim.Exp

open Minim.Sx Minim.Core Minim.Jit

/-- Specification: expressions and definitions.  In `letv`, `letrecv`, `let1`, `letstar`, `letrec`, `nlet` the variables and the right-hand sides are given as two lists, in `clam` and `cond` the heads and
the bodies; an empty list of expressions in place of the body of an `else` clause means that there is none. -/
inductive S where
  | var (x : Sym)
  | lit (l : Lit)
  | quote (d : X)
  | quoteSyntax (d : X)
  | set (x : Sym) (e : S)
  | ite (c t e : S)
  | lam (f : Formals) (body : List S)
  | clam (fs : List Formals) (bodies : List (List S))
  | begin (es : List S)
  | app (f : S) (args : List S)
  | letv (xss : List (List Sym)) (es : List S) (body : List S)
  | letrecv (xss : List (List Sym)) (es : List S) (body : List S)
  | and (es : List S)
  | or (es : List S)
  | when (c : S) (body : List S)
  | unless (c : S) (body : List S)
  | cond (tests : List S) (bodies : List (List S)) (els : List S)
  | let1 (xs : List Sym) (es : List S) (body : List S)
  | letstar (xs : List Sym) (es : List S) (body : List S)
  | letrec (xs : List Sym) (es : List S) (body : List S)
  | nlet (f : Sym) (xs : List Sym) (es : List S) (body : List S)
  | define (xs : List Sym) (e : S)
  | def1 (x : Sym) (e : S)
  | fn (f : Sym) (fs : Formals) (body : List S)

/-! ### how they are written -/

/-- Specification: `[(id ...) e] ...`. -/
def bds2 : List (List Sym) → List X → X
  | xs :: xss, e :: es => .cons (ofList [ids xs, e]) (bds2 xss es)
  | _, _ => .null

/-- Specification: `[id e] ...`. -/
def bds1 : List Sym → List X → X
  | x :: xs, e :: es => .cons (ofList [.sym x, e]) (bds1 xs es)
  | _, _ => .null

/-- Specification: `[formals body] ...`. -/
def cls2 : List Formals → List X → X
  | f :: fs, b :: bs => .cons (.cons (formals f.req f.rest) b) (cls2 fs bs)
  | _, _ => .null

/-- Specification: `[test body] ...`, in front of the clause `[else els]` if there is one. -/
def conds : List X → List X → X → X
  | t :: ts, b :: bs, els => .cons (.cons t b) (conds ts bs els)
  | _, _, .null => .null
  | _, _, els => ofList [.cons (.sym sElse) els]

mutual

/-- Specification: the datum of an expression. -/
def dat : S → X
  | .var x => .sym x
  | .lit l => .lit l
  | .quote d => ofList [.sym .quote, d]
  | .quoteSyntax d => ofList [.sym .quoteSyntax, d]
  | .set x e => ofList [.sym .setb, .sym x, dat e]
  | .ite c t e => ofList [.sym .ifS, dat c, dat t, dat e]
  | .lam f body => .cons (.sym .lambda) (.cons (formals f.req f.rest) (ofList (dats body)))
  | .clam fs bodies => .cons (.sym .caseLambda) (cls2 fs (datss bodies))
  | .begin es => .cons (.sym .begin) (ofList (dats es))
  | .app f args => .cons (dat f) (ofList (dats args))
  | .letv xss es body => .cons (.sym .letValues) (.cons (bds2 xss (dats es)) (ofList (dats body)))
  | .letrecv xss es body => .cons (.sym .letrecValues) (.cons (bds2 xss (dats es)) (ofList (dats body)))
  | .and es => .cons (.sym sAnd) (ofList (dats es))
  | .or es => .cons (.sym sOr) (ofList (dats es))
  | .when c body => .cons (.sym sWhen) (.cons (dat c) (ofList (dats body)))
  | .unless c body => .cons (.sym sUnless) (.cons (dat c) (ofList (dats body)))
  | .cond tests bodies els => .cons (.sym sCond) (conds (dats tests) (datss bodies) (ofList (dats els)))
  | .let1 xs es body => .cons (.sym sLet) (.cons (bds1 xs (dats es)) (ofList (dats body)))
  | .letstar xs es body => .cons (.sym sLetStar) (.cons (bds1 xs (dats es)) (ofList (dats body)))
  | .letrec xs es body => .cons (.sym sLetrec) (.cons (bds1 xs (dats es)) (ofList (dats body)))
  | .nlet f xs es body => .cons (.sym sLet) (.cons (.sym f) (.cons (bds1 xs (dats es)) (ofList (dats body))))
  | .define xs e => ofList [.sym .defineValues, ids xs, dat e]
  | .def1 x e => ofList [.sym sDefine, .sym x, dat e]
  | .fn f fs body => .cons (.sym sDefine) (.cons (.cons (.sym f) (formals fs.req fs.rest)) (ofList (dats body)))

/-- Specification: the data of several expressions. -/
def dats : List S → List X
  | [] => []
  | e :: es => dat e :: dats es

/-- Specification: the data of several bodies. -/
def datss : List (List S) → List X
  | [] => []
  | b :: bs => ofList (dats b) :: datss bs

end

/-- Specification: a datum as a syntax object, all parts of which are syntax objects; the tails of lists are not. -/
def syn : X → T
  | .null => .stx .null
  | .sym s => .stx (.sym s)
  | .lit l => .stx (.lit l)
  | .other n => .stx (.other n)
  | .cons a d => .stx (.cons (syn a) (tl d))
where
  /-- the tail of a list -/
  tl : X → T
  | .null => .null
  | .sym s => .stx (.sym s)
  | .lit l => .stx (.lit l)
  | .other n => .stx (.other n)
  | .cons a d => .cons (syn a) (tl d)

/-! ### what they mean -/

/-- Specification: procedures. -/
inductive SC where
  | clo (ρ : REnv) (fs : List Formals) (bodies : List (List S))
  | prim (p n : Nat)
  | values
  | apply
  | cwv

/-- Specification: values. -/
abbrev SV := V SC

/-- Specification: the store: local variables, top-level variables. -/
structure SS where
  cells : List SV
  globs : Sym → Option SV

/-- Specification: bind identifiers to values in new cells, one after the other. -/
def sBind (ρ : REnv) (σ : SS) : List Sym → List SV → REnv × SS
  | x :: xs, v :: vs => sBind (ρ.set x σ.cells.length) { σ with cells := σ.cells ++ [v] } xs vs
  | _, _ => (ρ, σ)

/-- Specification: set a top-level variable. -/
def SS.setGlob (σ : SS) (x : Sym) (v : SV) : SS := { σ with globs := fun y => if y = x then some v else σ.globs y }

/-- Specification: the value of a variable; using an unbound variable is an error. -/
def sLookup (ρ : REnv) (σ : SS) (x : Sym) : Res SV :=
  match (match ρ x with | some c => σ.cells[c]? | none => σ.globs x) with
  | none => .err
  | some .unbound => .err
  | some v => .ok v

/-- Specification: assignment; the variable must exist. -/
def sAssign (ρ : REnv) (σ : SS) (x : Sym) (v : SV) : Res SS :=
  match ρ x with
  | some c => if c < σ.cells.length then .ok { σ with cells := σ.cells.set c v } else .err
  | none =>
    match σ.globs x with
    | none => .err
    | some _ => .ok (σ.setGlob x v)

/-- Specification: assign several variables. -/
def sAssigns (ρ : REnv) (σ : SS) : List Sym → List SV → Res SS
  | x :: xs, v :: vs => do
    let σ ← sAssign ρ σ x v
    sAssigns ρ σ xs vs
  | _, _ => .ok σ

/-- Specification: the first clause that accepts the number of arguments. -/
def sSelect : List Formals → List (List S) → Nat → Option (Formals × List S)
  | f :: fs, b :: bs, n => if acceptsN f n then some (f, b) else sSelect fs bs n
  | _, _, _ => none

/-- Specification: the identifiers a definition defines, its right-hand side; `none` for expressions. -/
def defn : S → Option (List Sym × S)
  | .define xs e => some (xs, e)
  | .def1 x e => some ([x], e)
  | .fn f fs body => some ([f], .lam fs body)
  | _ => none

/-- Specification: all identifiers defined in a body. -/
def defIds : List S → List Sym
  | [] => []
  | e :: es => (match defn e with | some (xs, _) => xs | none => []) ++ defIds es

mutual

/-- Specification: the values of an expression. -/
def sev (P : Prims) : Nat → REnv → S → SS → Res (List SV × SS)
  | 0, _, _, _ => .oof
  | _ + 1, ρ, .var x, σ => do let v ← sLookup ρ σ x; .ok ([v], σ)
  | _ + 1, _, .lit l, σ => .ok ([.lit l], σ)
  | _ + 1, _, .quote d, σ => .ok ([ofX d], σ)
  | _ + 1, _, .quoteSyntax d, σ => .ok ([.stx d], σ)
  | n + 1, ρ, .set x e, σ => do
    let (vs, σ) ← sev P n ρ e σ
    let v ← single vs
    let σ ← sAssign ρ σ x v
    .ok ([.void], σ)
  | n + 1, ρ, .ite c a b, σ => do
    let (vs, σ) ← sev P n ρ c σ
    let v ← single vs
    if isFalse v then sev P n ρ b σ else sev P n ρ a σ
  | _ + 1, ρ, .lam f body, σ => .ok ([.clo (.clo ρ [f] [body])], σ)
  | _ + 1, ρ, .clam fs bodies, σ => .ok ([.clo (.clo ρ fs bodies)], σ)
  | n + 1, ρ, .begin es, σ => sSeq P n ρ es σ
  | n + 1, ρ, .app f args, σ => do
    let (vs, σ) ← sev P n ρ f σ
    let f ← single vs
    let (as, σ) ← sArgs P n ρ args σ
    sApply P n f as σ
  | n + 1, ρ, .letv xss es body, σ => do
    let (vs, σ) ← sBds P n ρ xss es σ
    let (ρ, σ) := sBind ρ σ xss.flatten vs
    sBody P n ρ body σ
  | n + 1, ρ, .letrecv xss es body, σ => do
    let (ρ, σ) := sBind ρ σ xss.flatten (List.replicate xss.flatten.length .unbound)
    let σ ← sRecs P n ρ xss es σ
    sBody P n ρ body σ
  | n + 1, ρ, .and es, σ => sAnds P n ρ es σ
  | n + 1, ρ, .or es, σ => sOrs P n ρ es σ
  | n + 1, ρ, .when c body, σ => do
    let (vs, σ) ← sev P n ρ c σ
    let v ← single vs
    if isFalse v then .ok ([.void], σ) else sBody P n ρ body σ
  | n + 1, ρ, .unless c body, σ => do
    let (vs, σ) ← sev P n ρ c σ
    let v ← single vs
    if isFalse v then sBody P n ρ body σ else .ok ([.void], σ)
  | n + 1, ρ, .cond ts bs els, σ => sConds P n ρ ts bs els σ
  | n + 1, ρ, .let1 xs es body, σ => do
    let (vs, σ) ← sBds P n ρ (xs.map fun x => [x]) es σ
    let (ρ, σ) := sBind ρ σ xs vs
    sBody P n ρ body σ
  | n + 1, ρ, .letstar xs es body, σ => sStar P n ρ xs es body σ
  | n + 1, ρ, .letrec xs es body, σ => do
    let (ρ, σ) := sBind ρ σ xs (List.replicate xs.length .unbound)
    let σ ← sRecs P n ρ (xs.map fun x => [x]) es σ
    sBody P n ρ body σ
  | n + 1, ρ, .nlet f xs es body, σ =>
    let (ρ', σ) := sBind ρ σ [f] [.unbound]
    do
      let σ ← sAssign ρ' σ f (.clo (.clo ρ' [⟨xs, none⟩] [body]))
      let (as, σ) ← sArgs P n ρ es σ
      sApply P n (.clo (.clo ρ' [⟨xs, none⟩] [body])) as σ
  | _ + 1, _, .define _ _, _ => .err
  | _ + 1, _, .def1 _ _, _ => .err
  | _ + 1, _, .fn _ _ _, _ => .err

/-- Specification: a sequence of expressions; the values of the last one. -/
def sSeq (P : Prims) : Nat → REnv → List S → SS → Res (List SV × SS)
  | 0, _, _, _ => .oof
  | _ + 1, _, [], σ => .ok ([.void], σ)
  | n + 1, ρ, [e], σ => sev P n ρ e σ
  | n + 1, ρ, e :: e' :: es, σ => do
    let (_, σ) ← sev P n ρ e σ
    sSeq P n ρ (e' :: es) σ

/-- Specification: a body.  The identifiers defined in it are bound from the first definition on, and assigned in the order of the definitions.  A body ends with an expression. -/
def sBody (P : Prims) : Nat → REnv → List S → SS → Res (List SV × SS)
  | 0, _, _, _ => .oof
  | _ + 1, _, [], _ => .err
  | n + 1, ρ, e :: es, σ =>
    if (defn e).isSome then
      let (ρ, σ) := sBind ρ σ (defIds (e :: es)) (List.replicate (defIds (e :: es)).length .unbound)
      sDefs P n ρ (e :: es) σ
    else
      match es with
      | [] => sev P n ρ e σ
      | e' :: es => do
        let (_, σ) ← sev P n ρ e σ
        sBody P n ρ (e' :: es) σ

/-- Specification: the part of a body that begins with a definition. -/
def sDefs (P : Prims) : Nat → REnv → List S → SS → Res (List SV × SS)
  | 0, _, _, _ => .oof
  | _ + 1, _, [], _ => .err
  | n + 1, ρ, e :: es, σ =>
    match defn e with
    | some (xs, r) => do
      let (vs, σ) ← sev P n ρ r σ
      if vs.length = xs.length ∧ bound vs then
        let σ ← sAssigns ρ σ xs vs
        sDefs P n ρ es σ
      else .err
    | none =>
      match es with
      | [] => sev P n ρ e σ
      | e' :: es => do
        let (_, σ) ← sev P n ρ e σ
        sDefs P n ρ (e' :: es) σ

/-- Specification: arguments, from left to right; each has one value. -/
def sArgs (P : Prims) : Nat → REnv → List S → SS → Res (List SV × SS)
  | 0, _, _, _ => .oof
  | _ + 1, _, [], σ => .ok ([], σ)
  | n + 1, ρ, e :: es, σ => do
    let (vs, σ) ← sev P n ρ e σ
    let v ← single vs
    let (ws, σ) ← sArgs P n ρ es σ
    .ok (v :: ws, σ)

/-- Specification: the values of right-hand sides, from left to right; each has as many values as identifiers. -/
def sBds (P : Prims) : Nat → REnv → List (List Sym) → List S → SS → Res (List SV × SS)
  | 0, _, _, _, _ => .oof
  | n + 1, ρ, xs :: xss, e :: es, σ => do
    let (vs, σ) ← sev P n ρ e σ
    if vs.length = xs.length ∧ bound vs then
      let (ws, σ) ← sBds P n ρ xss es σ
      .ok (vs ++ ws, σ)
    else .err
  | _ + 1, _, _, _, σ => .ok ([], σ)

/-- Specification: recursive bindings: each right-hand side is evaluated and its values are assigned, from left to right. -/
def sRecs (P : Prims) : Nat → REnv → List (List Sym) → List S → SS → Res SS
  | 0, _, _, _, _ => .oof
  | n + 1, ρ, xs :: xss, e :: es, σ => do
    let (vs, σ) ← sev P n ρ e σ
    if vs.length = xs.length ∧ bound vs then
      let σ ← sAssigns ρ σ xs vs
      sRecs P n ρ xss es σ
    else .err
  | _ + 1, _, _, _, σ => .ok σ

/-- Specification: `and`: the first false value, else what the last expression returns. -/
def sAnds (P : Prims) : Nat → REnv → List S → SS → Res (List SV × SS)
  | 0, _, _, _ => .oof
  | _ + 1, _, [], σ => .ok ([.lit .tru], σ)
  | n + 1, ρ, [e], σ => sev P n ρ e σ
  | n + 1, ρ, e :: e' :: es, σ => do
    let (vs, σ) ← sev P n ρ e σ
    let v ← single vs
    if isFalse v then .ok ([.lit .fls], σ) else sAnds P n ρ (e' :: es) σ

/-- Specification: `or`: the first true value, else what the last expression returns.  (A cell is used up for the value of each expression but the last; nothing refers to it.) -/
def sOrs (P : Prims) : Nat → REnv → List S → SS → Res (List SV × SS)
  | 0, _, _, _ => .oof
  | _ + 1, _, [], σ => .ok ([.lit .fls], σ)
  | n + 1, ρ, [e], σ => sev P n ρ e σ
  | n + 1, ρ, e :: e' :: es, σ => do
    let (vs, σ) ← sev P n ρ e σ
    let v ← single vs
    if bound [v] then
      if isFalse v then sOrs P n ρ (e' :: es) { σ with cells := σ.cells ++ [v] } else .ok ([v], { σ with cells := σ.cells ++ [v] })
    else .err

/-- Specification: `cond`: the body of the first clause whose test is true. -/
def sConds (P : Prims) : Nat → REnv → List S → List (List S) → List S → SS → Res (List SV × SS)
  | 0, _, _, _, _, _ => .oof
  | n + 1, ρ, t :: ts, b :: bs, els, σ => do
    let (vs, σ) ← sev P n ρ t σ
    let v ← single vs
    if isFalse v then sConds P n ρ ts bs els σ else sBody P n ρ b σ
  | n + 1, ρ, _, _, els, σ =>
    match els with
    | [] => .ok ([.void], σ)
    | e :: es => sBody P n ρ (e :: es) σ

/-- Specification: `let*`: each right-hand side is evaluated with the variables before it. -/
def sStar (P : Prims) : Nat → REnv → List Sym → List S → List S → SS → Res (List SV × SS)
  | 0, _, _, _, _, _ => .oof
  | n + 1, ρ, x :: xs, e :: es, body, σ => do
    let (vs, σ) ← sev P n ρ e σ
    let v ← single vs
    if bound [v] then
      let (ρ, σ) := sBind ρ σ [x] [v]
      sStar P n ρ xs es body σ
    else .err
  | n + 1, ρ, _, _, body, σ => sBody P n ρ body σ

/-- Specification: application. -/
def sApply (P : Prims) : Nat → SV → List SV → SS → Res (List SV × SS)
  | 0, _, _, _ => .oof
  | n + 1, .clo (.clo ρ fs bodies), vs, σ =>
    match sSelect fs bodies vs.length with
    | none => .err
    | some (f, body) =>
      let (ρ, σ) := sBind ρ σ f.ids (params f vs)
      sBody P n ρ body σ
  | _ + 1, .clo (.prim p k), vs, σ =>
    if vs.length = k ∧ k ≤ 6 then
      match P.f SC p vs with
      | none => .err
      | some v => .ok ([v], σ)
    else .err
  | _ + 1, .clo .values, vs, σ => .ok (vs, σ)
  | n + 1, .clo .apply, vs, σ =>
    match vs with
    | f :: v :: ws =>
      match spread (v :: ws) with
      | none => .err
      | some as => sApply P n f as σ
    | _ => .err
  | n + 1, .clo .cwv, vs, σ =>
    match vs with
    | [p, c] => do
      let (as, σ) ← sApply P n p [] σ
      sApply P n c as σ
    | _ => .err
  | _ + 1, _, _, _ => .err

end

end Minim.Exp
