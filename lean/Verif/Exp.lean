import Verif.Sx

set_option autoImplicit false

/-!
# The macro expander and the derived forms

Model of library/expander.min (macro expansion of expressions, bodies and modules) and of the macros of library/private/and-or.min, cond.min, let.min, define.min and
when-unless.min.  Transformers are functions from syntax objects to syntax objects; the right-hand sides of `define-syntaxes` and `let-syntaxes` are evaluated by a parameter of the
model (`ex`), so that nothing is assumed about user-defined macros.

Simplifications: source locations are left out; every raised exception is the outcome `err`; the table of pattern variables (expander.min:269, 508-509), which is only read by templates,
is left out; the sets of identifiers are lists of symbols.
-/

namespace Minim.Exp

open Minim.Sx

/-- Objects as far as the expander distinguishes them (syntax.c:74-106, minim.h:50-77): those of `X`, and syntax objects (without source location). -/
inductive T where
  | null
  | sym (s : Sym)
  | lit (l : Lit)
  | other (n : Nat)
  | cons (a d : T)
  | stx (e : T)
deriving DecidableEq, Repr

/-! ### names -/

/-- the name `and` (and-or.min:8) -/
abbrev sAnd : Sym := .user 0
/-- the name `or` (and-or.min:26) -/
abbrev sOr : Sym := .user 1
/-- the name `cond` (cond.min:8) -/
abbrev sCond : Sym := .user 2
/-- the name `else` (cond.min:46) -/
abbrev sElse : Sym := .user 3
/-- the name `let` (let.min:8) -/
abbrev sLet : Sym := .user 4
/-- the name `let*` (let.min:80) -/
abbrev sLetStar : Sym := .user 5
/-- the name `letrec` (let.min:136) -/
abbrev sLetrec : Sym := .user 6
/-- the name `when` (when-unless.min:8) -/
abbrev sWhen : Sym := .user 7
/-- the name `unless` (when-unless.min:26) -/
abbrev sUnless : Sym := .user 8
/-- the name `define` (define.min:8) -/
abbrev sDefine : Sym := .user 9
/-- the name `let-syntaxes` (expander.min:96) -/
abbrev sLetSyntaxes : Sym := .user 10
/-- the name `define-syntaxes` (expander.min:93) -/
abbrev sDefineSyntaxes : Sym := .user 11
/-- the name `void` (cond.min:15, when-unless.min:24) -/
abbrev sVoid : Sym := .user 12
/-- the name `or-t` (and-or.min:37) -/
abbrev sOrT : Sym := .user 13

/-! ### syntax objects -/

/-- A proper list (`list`, list.c). -/
def listT : List T → T
  | [] => .null
  | x :: xs => .cons x (listT xs)

/-- `list?` (list.c:16-19). -/
def isList : T → Bool
  | .cons _ d => isList d
  | .null => true
  | _ => false

/-- The elements of a proper list (the loops with `null?`, `car` and `cdr`; `car` of anything else raises an exception). -/
def rawList : T → Res (List T)
  | .null => .ok []
  | .cons a d => do let xs ← rawList d; .ok (a :: xs)
  | _ => .err

mutual

/-- `to_syntax` (syntax.c:74-88), `datum->syntax` (prim.c:165). -/
def toSyntax : T → T
  | .stx e => .stx e
  | .cons a d => .stx (.cons (toSyntax a) (pairTail d))
  | .null => .stx .null
  | .sym s => .stx (.sym s)
  | .lit l => .stx (.lit l)
  | .other n => .stx (.other n)

/-- The loop of `pair_to_syntax` over the cdrs (syntax.c:20-29). -/
def pairTail : T → T
  | .cons a d => .cons (toSyntax a) (pairTail d)
  | .null => .null
  | .stx e => .stx e
  | .sym s => .stx (.sym s)
  | .lit l => .stx (.lit l)
  | .other n => .stx (.other n)

end

/-- `strip_syntax` (syntax.c:91-106), `syntax->datum` (prelude.min:2292-2296). -/
def strip : T → X
  | .stx e => strip e
  | .cons a d => .cons (strip a) (strip d)
  | .null => .null
  | .sym s => .sym s
  | .lit l => .lit l
  | .other n => .other n

/-- The loop of `syntax_to_list` (syntax.c:112-128). -/
def listLoop : T → Option (List T)
  | .cons a (.stx e) => (listLoop e).map (a :: ·)
  | .cons a d => (listLoop d).map (a :: ·)
  | .null => some []
  | _ => none

/-- `syntax->list` (prelude.min:2298-2302, syntax.c:108-133); `none` is `#f`. -/
def syntaxToList : T → Res (Option (List T))
  | .stx e => .ok (listLoop e)
  | _ => .err

/-- `syntax->list` where `#f` leads to an exception (`car` or `cdr` of `#f`, or an explicit test). -/
def stxElems (t : T) : Res (List T) := do
  match ← syntaxToList t with
  | some xs => .ok xs
  | none => .err

/-- `syntax-e` (prelude.min:2280-2284). -/
def syntaxE : T → Res T
  | .stx e => .ok e
  | _ => .err

/-- `identifier?` (stx.min:12-16). -/
def identifierQ : T → Bool
  | .stx (.sym _) => true
  | _ => false

/-- `stx-null?` (stx.min:27-33). -/
def stxNull : T → Bool
  | .null => true
  | .stx .null => true
  | _ => false

/-- `stx-pair?` (stx.min:35-41). -/
def stxPair : T → Bool
  | .cons _ _ => true
  | .stx (.cons _ _) => true
  | _ => false

/-- `stx-list?` (stx.min:43-49). -/
def stxList : T → Bool
  | .stx e => isList e
  | t => isList t

/-- `stx-car` (stx.min:59-63). -/
def stxCar : T → Res T
  | .cons a _ => .ok a
  | .stx (.cons a _) => .ok a
  | _ => .err

/-- `stx-cdr` (stx.min:65-69). -/
def stxCdr : T → Res T
  | .cons _ d => .ok d
  | .stx (.cons _ d) => .ok d
  | _ => .err

/-- `(quote-syntax x)` of a symbol (jitcompile.c:472-474). -/
def qs (s : Sym) : T := .stx (.sym s)

/-- `(quote-syntax (void))` (cond.min:15). -/
def qsVoid : T := toSyntax (listT [.sym sVoid])

/-! ### the macros -/

/-- the test whether one expression is left (and-or.min:15-18, 33-36); `b` is the answer if `e` is no pair -/
def lastQ (b : Bool) (e : T) : Res Bool :=
  if stxPair e then do let d ← stxCdr e; .ok (stxNull d) else .ok b

/-- `and` (and-or.min:8-24). -/
def andM (stx : T) : Res T :=
  if stxList stx then do
    let e ← stxCdr stx
    if stxNull e then .ok (.stx (.lit .tru)) else do
      let one ← lastQ true e
      if one then stxCar e else do
        let a ← stxCar e
        let d ← stxCdr e
        .ok (toSyntax (listT [qs .ifS, a, .cons (qs sAnd) d, .stx (.lit .fls)]))
  else .err

/-- `or` (and-or.min:26-45). -/
def orM (stx : T) : Res T :=
  if stxList stx then do
    let e ← stxCdr stx
    if stxNull e then .ok (.stx (.lit .fls)) else do
      let one ← lastQ false e
      if one then stxCar e else do
        let a ← stxCar e
        let d ← stxCdr e
        .ok (toSyntax (listT [qs .letValues, listT [listT [listT [.sym sOrT], a]], listT [qs .ifS, qs sOrT, qs sOrT, .cons (qs sOr) d]]))
  else .err

/-- `then-clause` (cond.min:20-27). -/
def thenClause (t : T) : Res T := do
  let d ← stxCdr t
  if stxNull d then stxCar t else .ok (.cons (qs sLet) (.cons (.stx .null) t))

/-- `cond` (cond.min:8-44). -/
def condM (stx : T) : Res T :=
  if stxList stx then do
    let e ← stxCdr stx
    if stxNull e then .ok qsVoid else do
      let c ← stxCar e
      if stxList c && !(c == .null) then do
        let test ← stxCar c
        let body ← stxCdr c
        let rest ← stxCdr e
        if body == .null then .err
        else if test == qs sElse then
          if rest == .null then do let r ← thenClause body; .ok (toSyntax r) else .err
        else do
          let r ← thenClause body
          .ok (toSyntax (listT [qs .ifS, test, r, .cons (qs sCond) rest]))
      else .err
  else .err

/-- `else` (cond.min:46-48). -/
def elseM (_ : T) : Res T := .err

/-- `when` (when-unless.min:8-24). -/
def whenM (stx : T) : Res T :=
  if stxList stx then do
    let e ← stxCdr stx
    if stxNull e then .err else do
      let b ← stxCdr e
      if stxNull b then .err else do
        let c ← stxCar e
        .ok (toSyntax (listT [qs .ifS, c, .cons (qs .letValues) (.cons .null b), qsVoid]))
  else .err

/-- `unless` (when-unless.min:26-42). -/
def unlessM (stx : T) : Res T :=
  if stxList stx then do
    let e ← stxCdr stx
    if stxNull e then .err else do
      let b ← stxCdr e
      if stxNull b then .err else do
        let c ← stxCar e
        .ok (toSyntax (listT [qs .ifS, c, qsVoid, .cons (qs sLet) (.cons .null b)]))
  else .err

/-- one step of `splice-bindings` (let.min:24-38): the variable and the value of a binding -/
def spliceOne (b : T) : Res (T × T) :=
  if stxPair b then do
    let var ← stxCar b
    let rib ← stxCdr b
    if stxPair rib && identifierQ var then do
      let val ← stxCar rib
      let r ← stxCdr rib
      if stxNull r then .ok (var, val) else .err
    else .err
  else .err

/-- `splice-bindings` (let.min:21-38, 93-110, 149-166). -/
def splice : T → Res (List (T × T))
  | .null => .ok []
  | .cons b d => do let p ← spliceOne b; let ps ← splice d; .ok (p :: ps)
  | .stx (.cons b d) => do let p ← spliceOne b; let ps ← splice d; .ok (p :: ps)
  | _ => .err

/-- the bindings of `let-values` made from those of `let` (let.min:69-76, 176-183) -/
def bindings (ps : List (T × T)) : T := listT (ps.map fun p => listT [listT [p.1], p.2])

/-- what `let`, `let*` and `letrec` do first (let.min:9-20, 81-92, 137-148): the bindings and the body -/
def letParts (stx : T) : Res (T × T) :=
  if stxList stx then do
    let e ← stxCdr stx
    if stxNull e then .err else do
      let bs ← stxCar e
      let body ← stxCdr e
      if stxNull body then .err else .ok (bs, body)
  else .err

/-- `let` (let.min:8-78). -/
def letM (stx : T) : Res T := do
  let (bs, e) ← letParts stx
  if identifierQ bs then do
    let b ← stxCar e
    let body ← stxCdr e
    let raw ← syntaxE b
    let ps ← splice raw
    .ok (toSyntax (listT [qs .letrecValues, listT [listT [listT [bs], toSyntax (.cons (qs .lambda) (.cons (listT (ps.map (·.1))) body))]], .cons bs (listT (ps.map (·.2)))]))
  else do
    let raw ← syntaxE bs
    let ps ← splice raw
    .ok (toSyntax (.cons (qs .letValues) (.cons (bindings ps) e)))

/-- the loop of `let*` (let.min:116-128), for at least one binding -/
def letStarLoop (e : T) : T × T → List (T × T) → T
  | p, [] => .cons (qs .letValues) (.cons (bindings [p]) e)
  | p, q :: ps => listT [qs .letValues, bindings [p], letStarLoop e q ps]

/-- `let*` (let.min:80-134). -/
def letStarM (stx : T) : Res T := do
  let (bs, e) ← letParts stx
  let raw ← syntaxE bs
  let ps ← splice raw
  match ps with
  | [] => .ok (toSyntax (.cons (qs .letValues) (.cons .null e)))
  | p :: ps => .ok (toSyntax (letStarLoop e p ps))

/-- `letrec` (let.min:136-185). -/
def letrecM (stx : T) : Res T := do
  let (bs, e) ← letParts stx
  let raw ← syntaxE bs
  let ps ← splice raw
  .ok (toSyntax (.cons (qs .letrecValues) (.cons (bindings ps) e)))

/-- `define` (define.min:8-46). -/
def defineM (stx : T) : Res T :=
  if stxList stx then do
    let e ← stxCdr stx
    if stxNull e then .err else do
      let id ← stxCar e
      let r ← stxCdr e
      if r == .null then .err
      else if identifierQ id then do
        let v ← stxCar r
        let n ← stxCdr r
        if n == .null then .ok (toSyntax (listT [qs .defineValues, listT [id], v])) else .err
      else if stxPair id then do
        let head ← stxCar id
        let rest ← stxCdr id
        .ok (toSyntax (listT [qs sDefine, head, .cons (qs .lambda) (.cons rest r)]))
      else .err
  else .err

/-! ### transformers in scope -/

/-- An entry of the list `xforms` without its name: the transformer and the transformers in scope at its definition (expander.min:11-12). -/
inductive Xf where
  | mk (fn : T → Res T) (scope : List (Sym × Xf))

/-- `xforms` (expander.min:11-12). -/
abbrev Xforms := List (Sym × Xf)

/-- the transformer (`car`, expander.min:415) -/
def Xf.fn : Xf → T → Res T | .mk f _ => f

/-- the scope (`cadr`, expander.min:628) -/
def Xf.scope : Xf → Xforms | .mk _ s => s

/-- `lookup-xform` of an identifier (expander.min:69-72). -/
def lookup (s : Sym) : Xforms → Option Xf
  | [] => none
  | (n, x) :: xs => if n = s then some x else lookup s xs

/-- `merge-xforms` (expander.min:74-78). -/
def merge (xs : Xforms) : Xforms → Xforms
  | [] => xs
  | x :: new => if (lookup x.1 xs).isSome then merge xs new else merge (x :: xs) new

/-- `eval/xform` (expander.min:414-425); transformers return one value. -/
def runX (x : Xf) (e : T) : Res T := do
  match ← x.fn e with
  | .stx r => .ok (.stx r)
  | _ => .err

/-! ### checks of the forms -/

/-- The name of a form: `_-form?` (expander.min:86-90) holds of this name. -/
def headSym : T → Option Sym
  | .cons (.stx (.sym s)) _ => some s
  | .stx (.cons (.stx (.sym s)) _) => some s
  | _ => none

/-- the symbols of a list of identifiers (`syntax->datum`, `(map syntax-e (syntax->list ...))`; expander.min:293, 538, 568) -/
def idSyms : List T → List Sym
  | [] => []
  | .stx (.sym s) :: xs => s :: idSyms xs
  | _ :: xs => idSyms xs

/-- `duplicate-identifier` finds one (expander.min:116-125) -/
def dup (seen new : List Sym) : Bool := new.any (fun x => decide (x ∈ seen)) || !decide new.Nodup

/-- the test for a sequence of expressions (expander.min:153-155, 196-198, 216-218) -/
def seqQ (t : T) : Bool :=
  isList t || (match t with | .stx e => (listLoop e).isSome | _ => false)

/-- The loop of `check-let-syntaxes/values-form!` over the bindings (expander.min:159-167); the identifiers and values. -/
def checkBinds : List T → Res (List (T × List Sym × T))
  | [] => .ok []
  | b :: bs => do
    let b ← stxElems b
    match b with
    | [i, v] => do
      let is ← stxElems i
      if is.all identifierQ then do
        let r ← checkBinds bs
        .ok ((i, idSyms is, v) :: r)
      else .err
    | _ => .err

/-- `check-let-syntaxes/values-form!` (expander.min:145-167), and the parts of the form that the callers take out again (expander.min:526-527, 537-538, 560-561, 567-568). -/
def letForm (form : T) : Res (List (T × List Sym × T) × List T) := do
  let rib ← stxCdr form
  if stxNull rib then .err else do
    let bt ← stxCar rib
    let bs ← stxElems bt
    let br ← stxCdr rib
    if br == .null || !seqQ br then .err else do
      let bs ← checkBinds bs
      let all ← stxElems form
      .ok (bs, all.drop 2)

/-- `check-lambda-form!` (expander.min:187-199) from the formals on, the body of the checked part. -/
def lambdaForm (rib0 : T) : Res (T × List T) :=
  if stxNull rib0 then .err else do
    let fs ← stxCar rib0
    let rib1 ← stxCdr rib0
    if rib1 == .null then .err else do
      let rib2 ← stxCdr rib1
      if seqQ rib2 then do
        let body ← rawList rib1
        .ok (fs, body)
      else .err

/-- `check-case-lambda-form!` (expander.min:203-224). -/
def clauses : T → Res (List (T × List T))
  | .null => .ok []
  | .cons c d => do
    let c ← lambdaForm c
    let cs ← clauses d
    .ok (c :: cs)
  | _ => .err

/-- `check-if-form!` (expander.min:242-254), `check-set!-form!` (171-183), `check-1ary-form!` (233-239), `check-define-syntaxes/values-form!` (129-141): so many parts after the name. -/
def parts (n : Nat) (form : T) : Res (List T) := do
  let all ← stxElems form
  if all.length = n + 1 then .ok all else .err

/-- `check-define-syntaxes/values-form!` (expander.min:129-141), the identifiers (expander.min:292-293) and the expression (expander.min:296-297). -/
def defineForm (form : T) : Res (List Sym × T) := do
  let p ← parts 2 form
  match p with
  | [_, i, v] => do
    let is ← stxElems i
    if is.all identifierQ then .ok (idSyms is, v) else .err
  | _ => .err

/-! ### expansion -/

/-- `map` with a procedure that may raise an exception (prelude.min). -/
def mapR {α β : Type} (f : α → Res β) : List α → Res (List β)
  | [] => .ok []
  | x :: xs => do let y ← f x; let ys ← mapR f xs; .ok (y :: ys)

/-- The `map` over the bindings of `let-values` (expander.min:565-572). -/
def expandBinds (loop : T → Res T) : List Sym → List (T × List Sym × T) → Res (List T)
  | _, [] => .ok []
  | seen, (i, is, v) :: bs =>
    if dup seen is then .err else do
      let v ← loop v
      let r ← expandBinds loop (is ++ seen) bs
      .ok (listT [i, v] :: r)

/-- `bind-xforms` (expander.min:545-556). -/
def bindXforms (xs : Xforms) : List Sym → List (T → Res T) → Xforms
  | i :: is, f :: fs => bindXforms ((i, .mk f xs) :: xs) is fs
  | _, _ => xs

/-- The bindings of pending definitions (expander.min:453-455, 500-502). -/
def pending (ds : List (T × T)) : T := listT (ds.reverse.map fun d => listT [d.1, d.2])

mutual

/-- `expand/expr` (expander.min:507-635).  `ex` evaluates the right-hand side of macro definitions; `rb` is `recur-begin?`. -/
def expandExpr (ex : T → Res (List (T → Res T))) : Nat → Xforms → Bool → T → Res T
  | 0, _, _, _ => .oof
  | n + 1, xs, rb, .stx (.sym s) =>
    match lookup s xs with
    | some x => do let r ← runX x (.stx (.sym s)); expandExpr ex n xs rb r
    | none => .ok (.stx (.sym s))
  | _ + 1, _, _, .stx (.lit l) => .ok (.stx (.lit l))
  | n + 1, xs, rb, .stx (.cons (.stx (.sym s)) d) => expandForm ex n xs rb s d
  | n + 1, xs, rb, .stx (.cons a d) => do
    let es ← stxElems (.stx (.cons a d))
    let es ← mapR (expandExpr ex n xs rb) es
    .ok (toSyntax (listT es))
  | _ + 1, _, _, _ => .err

/-- The cases of `expand/expr` for the form `(s . d)` (expander.min:519-633). -/
def expandForm (ex : T → Res (List (T → Res T))) : Nat → Xforms → Bool → Sym → T → Res T
  | 0, _, _, _, _ => .oof
  | n + 1, xs, rb, s, d =>
    let expr : T := .stx (.cons (.stx (.sym s)) d)
    if s = .defineValues ∨ s = sDefineSyntaxes then .ok expr
    else if s = sLetSyntaxes then do
      let (bs, body) ← letForm expr
      let xs ← letSyntaxes ex n xs [] bs
      let body ← expandBody ex n xs body
      .ok (toSyntax (.cons (qs .letValues) (.cons .null (listT body))))
    else if s = .letValues ∨ s = .letrecValues then do
      let (bs, body) ← letForm expr
      let bs ← expandBinds (expandExpr ex n xs rb) [] bs
      let body ← expandBody ex n xs body
      .ok (toSyntax (.cons (.stx (.sym s)) (.cons (listT bs) (listT body))))
    else if s = .lambda then do
      let (fs, body) ← lambdaForm d
      let body ← expandBody ex n xs body
      .ok (toSyntax (.cons (.stx (.sym s)) (.cons fs (listT body))))
    else if s = .caseLambda then do
      let cs ← clauses d
      let cs ← mapR (fun (c : T × List T) => do let body ← expandBody ex n xs c.2; .ok (T.cons c.1 (listT body))) cs
      .ok (toSyntax (.cons (.stx (.sym s)) (listT cs)))
    else if s = .ifS then do
      let es ← parts 3 expr
      let es' ← mapR (expandExpr ex n xs rb) (es.drop 1)
      .ok (toSyntax (.cons (.stx (.sym s)) (listT es')))
    else if s = .begin then do
      let _ ← stxElems expr
      if d == .null then .ok (toSyntax (listT [.sym sVoid]))
      else do
        let es ← rawList d
        if rb then do
          let es ← expandBody ex n xs es
          match es with
          | [e] => .ok e
          | _ => .ok (toSyntax (.cons (.sym .begin) (listT es)))
        else do
          let es ← mapR (expandExpr ex n xs rb) es
          .ok (toSyntax (.cons (.sym .begin) (listT es)))
    else if s = .setb then do
      let es ← parts 2 expr
      match es with
      | [a, x, v] => if identifierQ x then do let v ← expandExpr ex n xs rb v; .ok (toSyntax (listT [a, x, v])) else .err
      | _ => .err
    else if s = .quote ∨ s = .quoteSyntax then do
      let _ ← parts 1 expr
      .ok expr
    else
      match lookup s xs with
      | some x => do let r ← runX x expr; expandExpr ex n (merge xs x.scope) rb r
      | none => do
        let es ← stxElems expr
        let es ← mapR (expandExpr ex n xs rb) es
        .ok (toSyntax (listT es))

/-- The loop `rec` of `let-syntaxes` over the bindings (expander.min:529-556). -/
def letSyntaxes (ex : T → Res (List (T → Res T))) : Nat → Xforms → List Sym → List (T × List Sym × T) → Res Xforms
  | 0, _, _, _ => .oof
  | _ + 1, xs, _, [] => .ok xs
  | n + 1, xs, seen, (_, is, v) :: bs =>
    if dup seen is then .err else do
      let rhs ← expandExpr ex n xs true v
      let fs ← ex rhs
      if fs.length = is.length then letSyntaxes ex n (bindXforms xs is fs) (is ++ seen) bs else .err

/-- `expand/body` (expander.min:429-503). -/
def expandBody (ex : T → Res (List (T → Res T))) : Nat → Xforms → List T → Res (List T)
  | 0, _, _ => .oof
  | _ + 1, _, [] => .err
  | n + 1, xs, e :: es => bodyLoop ex n xs e es []

/-- The loop of `expand/body` (expander.min:430-503). -/
def bodyLoop (ex : T → Res (List (T → Res T))) : Nat → Xforms → T → List T → List (T × T) → Res (List T)
  | 0, _, _, _, _ => .oof
  | n + 1, xs, e0, rest, ds => do
    let e ← expandExpr ex n xs false e0
    if headSym e = some .begin then do
      let form ← stxElems e
      match form with
      | _ :: a :: more => bodyLoop ex n xs a (more ++ rest) ds
      | _ => .err
    else if headSym e = some sDefineSyntaxes then do
      let form ← stxElems e
      match form, rest with
      | _ :: ids :: v :: _, _ :: _ => do
        let inner ← expandExpr ex n xs true (toSyntax (.cons (qs sLetSyntaxes) (.cons (listT [listT [ids, v]]) (listT rest))))
        .ok [toSyntax (listT [qs .letrecValues, pending ds, inner])]
      | _, _ => .err
    else if headSym e = some .defineValues then do
      let form ← stxElems e
      match form, rest with
      | _ :: ids :: v :: _, r :: rs => do
        let v ← expandExpr ex n xs true v
        bodyLoop ex n xs r rs ((ids, v) :: ds)
      | _, _ => .err
    else
      match rest, ds with
      | r :: rs, [] => do
        let more ← bodyLoop ex n xs r rs []
        .ok (e :: more)
      | r :: rs, _ :: _ => bodyLoop ex n xs r rs ((.null, listT [qs .letValues, .null, e, listT [qs .values]]) :: ds)
      | [], [] => .ok [e]
      | [], _ :: _ => .ok [toSyntax (listT [qs .letrecValues, pending ds, e])]

end

/-! ### modules -/

/-- `expand/top-level` (expander.min:645-660). -/
def expandTop : Nat → Xforms → T → Res (T × Xforms)
  | 0, _, _ => .oof
  | n + 1, xs, e =>
    match headSym e with
    | some s =>
      if s = sDefineSyntaxes ∨ s = .defineValues ∨ s = .begin then .ok (e, xs)
      else
        match lookup s xs with
        | some x => do let r ← runX x e; expandTop n (merge xs x.scope) r
        | none => .ok (e, xs)
    | none => .ok (e, xs)

/-- The state of `expand/non-define-values` (expander.min:663-666): the transformers, the identifiers defined as variables and as macros. -/
structure St where
  xforms : Xforms
  defs : List Sym
  macros : List Sym

/-- One definition of a macro in a module (expander.min:691-710): the scope of all macros of the module is renewed; the list of transformers is reversed on the way. -/
def addMacro (st : St) (id : Sym) (f : T → Res T) : St :=
  let scope : Xforms := (id, .mk f []) :: st.xforms
  let ms := id :: st.macros
  { st with macros := ms, xforms := (scope.map fun p => if p.1 ∈ ms then (p.1, Xf.mk p.2.fn scope) else p).reverse }

/-- The loop `rec` over the identifiers of one `define-syntaxes` (expander.min:687-711). -/
def addMacros (st : St) : List Sym → List (T → Res T) → St
  | i :: is, f :: fs => addMacros (addMacro st i f) is fs
  | _, _ => st

mutual

/-- The loop of `expand/non-define-values` (expander.min:668-673). -/
def nonDefs (ex : T → Res (List (T → Res T))) : Nat → St → List T → Res (List T × St)
  | 0, _, _ => .oof
  | _ + 1, st, [] => .ok ([], st)
  | n + 1, st, e :: es => withScope ex n st st.xforms e es

/-- `with-scope` (expander.min:673-725). -/
def withScope (ex : T → Res (List (T → Res T))) : Nat → St → Xforms → T → List T → Res (List T × St)
  | 0, _, _, _, _ => .oof
  | n + 1, st, sc, e, es => do
    let (e, sc) ← expandTop n sc e
    if headSym e = some sDefineSyntaxes then do
      let (is, rhs) ← defineForm e
      if dup st.macros is then .err else do
        let rhs ← expandExpr ex n sc true rhs
        let fs ← ex rhs
        if fs.length = is.length then nonDefs ex n (addMacros st is fs) es else .err
    else if headSym e = some .defineValues then do
      let (is, _) ← defineForm e
      if dup st.defs is then .err else do
        let (out, st) ← nonDefs ex n { st with defs := is ++ st.defs } es
        .ok (e :: out, st)
    else if headSym e = some .begin then do
      let all ← stxElems e
      match all.drop 1 with
      | [] => nonDefs ex n st es
      | f :: fs => do
        let (a, st) ← withScope ex n st sc f fs
        let (b, st) ← nonDefs ex n st es
        .ok (a ++ b, st)
    else do
      let e ← expandExpr ex n sc true e
      let (out, st) ← nonDefs ex n st es
      .ok (e :: out, st)

end

/-- One step of `expand/define-values` (expander.min:735-743). -/
def expandDef (ex : T → Res (List (T → Res T))) (n : Nat) (xs : Xforms) (e : T) : Res T :=
  if headSym e = some .defineValues then do
    let form ← stxElems e
    match form with
    | a :: i :: v :: _ => do let v ← expandExpr ex n xs true v; .ok (toSyntax (listT [a, i, v]))
    | _ => .err
  else .ok e

/-- `expand/module` without the final check (expander.min:404, 643-751). -/
def expandModule (ex : T → Res (List (T → Res T))) (n : Nat) (xs : Xforms) (es : List T) : Res (List T × Xforms) := do
  let (es, st) ← nonDefs ex n ⟨xs, [], []⟩ es
  let es ← mapR (expandDef ex n st.xforms) es
  .ok (es, st.xforms)

end Minim.Exp
