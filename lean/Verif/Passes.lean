import Verif.RefSem

set_option autoImplicit false

/-!
# The optimisation passes (jitopt.c)

`compile_expr` (jit.c:153-162) runs three passes over an expression before it compiles it.  They work on S-expressions; here they work on `E`, which has one
constructor for each case of their dispatch.  Undefined behaviour (car or cdr of something that is no pair) is the outcome `ub`.
-/

namespace Minim.Jit

open Minim.Sx Minim.Core

/-! ## First pass -/

/-- `make_tmp_ids` (jitopt.c:27-41): as many generated symbols as identifiers; `k` is `gensym_counter` (symbol.c:192). -/
def tmpIds : Nat → List Sym → List Sym
  | _, [] => []
  | k, _ :: xs => .gen k :: tmpIds (k + 1) xs

/-- Formals without a rest parameter (modelling device). -/
abbrev fixed (xs : List Sym) : Formals := ⟨xs, none⟩

/-- `jit_opt_L0_let_values2` (jitopt.c:126-141). -/
def let2 : Nat → List Bd → List Sym → List Sym → List E → E
  | _, [], ids, tmps, body => .app (.lam (fixed ids) body) (tmps.map .var)
  | k, .mk xs e :: bs, ids, tmps, body =>
    .app (.var .callWithValues) [.lam (fixed []) [e], .lam (fixed (tmpIds k xs)) [let2 (k + xs.length) bs (xs ++ ids) (tmpIds k xs ++ tmps) body]]

/-- `jit_opt_L0_let_values` (jitopt.c:148-166) on bindings and body that are already processed (the C code builds the expression first and then descends into
it; the calls of `Mgensym` come first in both). -/
def letExpr (k : Nat) (bs : List Bd) (body : List E) : E :=
  match bs with
  | [] => .begin body
  | [.mk xs e] => .app (.var .callWithValues) [.lam (fixed []) [e], .lam (fixed xs) body]
  | _ => let2 k bs [] [] body

/-- The number of symbols `jit_opt_L0_let_values` generates (jitopt.c:153-163). -/
def letTmps : List Bd → Nat
  | [] => 0
  | [_] => 0
  | bs => (bdsIds bs).length

/-- The assignments of `letrec_set_expr` (jitopt.c:73-82). -/
def setBody : List Sym → List Sym → List E
  | x :: xs, t :: ts => .set x (.var t) :: setBody xs ts
  | _, _ => []

/-- `letrec_set_expr` (jitopt.c:65-85), after the `let-values` it builds went through `jit_opt_L0_let_values` (jitopt.c:155-160). -/
def setExpr (k : Nat) : Bd → E
  | .mk xs e => .app (.var .callWithValues) [.lam (fixed []) [e],
      .lam (fixed (tmpIds k xs)) (if xs.isEmpty then [.app (.var .values) []] else setBody xs (tmpIds k xs))]

/-- The loop over the bindings (jitopt.c:111-116). -/
def setExprs : Nat → List Bd → List E
  | _, [] => []
  | k, b :: bs => setExpr k b :: setExprs (k + b.ids.length) bs

/-- `jit_opt_L0_letrec_values` (jitopt.c:97-123) on bindings and body that are already processed. -/
def letrecExpr (k : Nat) (bs : List Bd) (body : List E) : E :=
  if bs.isEmpty then .begin body
  else .app (.var .callWithValues)
    [.lam (fixed []) [.app (.var .values) (List.replicate (bdsIds bs).length .unbound)], .lam (fixed (bdsIds bs)) (setExprs k bs ++ body)]

/-- `jit_opt_L0_case_lambda` (jitopt.c:174-190) on processed clauses. -/
def clamExpr : List Cl → E
  | [.mk f body] => .lam f body
  | cs => .clam cs

mutual

/-- `jit_opt_L0` (jitopt.c:206-255); the second component is `gensym_counter`.  `mv-call`, `mv-let`, `mv-values` and `make-unbound` do not occur in the source;
the code would treat them as applications (jitopt.c:193-203). -/
def L0 : Nat → E → E × Nat
  | k, .var x => (.var x, k)
  | k, .lit l => (.lit l, k)
  | k, .quote d => (.quote d, k)
  | k, .quoteSyntax d => (.quoteSyntax d, k)
  | k, .unbound => (.unbound, k)
  | k, .define xs e => (.define xs (L0 k e).1, (L0 k e).2)
  | k, .set x e => (.set x (L0 k e).1, (L0 k e).2)
  | k, .ite c t e => (.ite (L0 k c).1 (L0 (L0 k c).2 t).1 (L0 (L0 (L0 k c).2 t).2 e).1, (L0 (L0 (L0 k c).2 t).2 e).2)
  | k, .letv bs body =>
    (letExpr k (L0B (k + letTmps bs) bs).1 (L0s (L0B (k + letTmps bs) bs).2 body).1, (L0s (L0B (k + letTmps bs) bs).2 body).2)
  | k, .letrecv bs body =>
    (letrecExpr k (L0B (k + (bdsIds bs).length) bs).1 (L0s (L0B (k + (bdsIds bs).length) bs).2 body).1, (L0s (L0B (k + (bdsIds bs).length) bs).2 body).2)
  | k, .lam f body => (.lam f (L0s k body).1, (L0s k body).2)
  | k, .clam cs => (clamExpr (L0C k cs).1, (L0C k cs).2)
  | k, .begin es => (.begin (L0s k es).1, (L0s k es).2)
  | k, .app f args => (.app (L0 k f).1 (L0s (L0 k f).2 args).1, (L0s (L0 k f).2 args).2)
  | k, .mvcall e c => (.mvcall (L0 k e).1 (L0 (L0 k e).2 c).1, (L0 (L0 k e).2 c).2)
  | k, .mvlet e xs body => (.mvlet (L0 k e).1 xs (L0 (L0 k e).2 body).1, (L0 (L0 k e).2 body).2)
  | k, .mvvals es => (.mvvals (L0s k es).1, (L0s k es).2)

/-- `jit_opt_L0_seq` (jitopt.c:11-25). -/
def L0s : Nat → List E → List E × Nat
  | k, [] => ([], k)
  | k, e :: es => ((L0 k e).1 :: (L0s (L0 k e).2 es).1, (L0s (L0 k e).2 es).2)

/-- The right-hand sides of bindings, in order (reached from jitopt.c:165). -/
def L0B : Nat → List Bd → List Bd × Nat
  | k, [] => ([], k)
  | k, .mk xs e :: bs => (.mk xs (L0 k e).1 :: (L0B (L0 k e).2 bs).1, (L0B (L0 k e).2 bs).2)

/-- `jit_opt_L0_case_lambda_clause` (jitopt.c:169-171) for each clause (jitopt.c:182-186). -/
def L0C : Nat → List Cl → List Cl × Nat
  | k, [] => ([], k)
  | k, .mk f body :: cs => (.mk f (L0s k body).1 :: (L0C (L0s k body).2 cs).1, (L0C (L0s k body).2 cs).2)

end

/-! ## Second pass -/

/-- The loops that apply the pass to each expression of a list (jitopt.c:263-277, 302-312, 325-328). -/
def mapR (f : E → Res E) : List E → Res (List E)
  | [] => .ok []
  | e :: es => do
    let e ← f e
    let es ← mapR f es
    .ok (e :: es)

/-- The loop over clauses (jitopt.c:280-298). -/
def mapC (f : E → Res E) : List Cl → Res (List Cl)
  | [] => .ok []
  | .mk fs body :: cs => do
    let body ← mapR f body
    let cs ← mapC f cs
    .ok (.mk fs body :: cs)

/-- `minim_nullp(minim_cdr(body)) ? minim_car(body) : Mcons(begin_symbol, body)` (jitopt.c:345-350, 392, 525-527, 533-535, 542-544); the cdr of an empty body is
undefined. -/
def bodyExpr : List E → Res E
  | [] => .ub
  | [e] => .ok e
  | es => .ok (.begin es)

/-- `jit_opt_L1_values` (jitopt.c:315-332). -/
def l1Values (rec : E → Res E) : List E → Res E
  | [] => .ok (.mvvals [])
  | [e] => rec e
  | es => do
    let es ← mapR rec es
    .ok (.mvvals es)

/-- The end of `jit_opt_L1_mvcall` (jitopt.c:382-396).  With a rest parameter the list of identifiers of the `mv-let` is improper; the later passes take its
cars and cdrs to the end, which is undefined. -/
def l1Consumer (rec : E → Res E) (e c : E) : Res E :=
  match c with
  | .lam f body =>
    if f.req.isEmpty then .ok (.mvcall e c)
    else if f.rest.isSome then .ub
    else do
      let b ← bodyExpr body
      rec (.mvlet e f.req b)
  | _ => .ok (.mvcall e c)

/-- `(begin e ... e_last)` becomes `(begin e ... (mv-call e_last consumer))` (jitopt.c:360-369); without expressions the cdr is undefined. -/
def pushCall (c : E) : List E → Res (List E)
  | [] => .ub
  | [e] => .ok [.mvcall e c]
  | e :: e' :: es => do
    let es ← pushCall c (e' :: es)
    .ok (e :: es)

/-- `jit_opt_L1_mvcall` (jitopt.c:335-402). -/
def l1Mvcall (rec : E → Res E) (e c : E) : Res E :=
  match e with
  | .app (.lam f body) _ =>
    if f.req.isEmpty && f.rest.isNone then do
      let b ← bodyExpr body
      rec (.mvcall b c)
    else l1Consumer rec e c
  | .mvvals es => rec (.app c es)
  | .begin es => do
    let es ← pushCall c es
    rec (.begin es)
  | .ite a t f => rec (.ite a (.mvcall t c) (.mvcall f c))
  | .lam _ _ | .quote _ | .quoteSyntax _ => rec (.app c [e])
  | .var _ | .lit _ => rec (.app c [e])
  | _ => l1Consumer rec e c

/-- One level of `jit_opt_L1` (jitopt.c:405-470).  `(call-with-values)` without a producer and a consumer takes the car of the empty list; more arguments are
dropped (jitopt.c:443-450).  `let-values` and `letrec-values` do not occur after the first pass. -/
def l1Step (rec : E → Res E) (e : E) : Res E :=
  match e with
  | .var _ | .lit _ | .quote _ | .quoteSyntax _ | .unbound => .ok e
  | .define xs e => do let e ← rec e; .ok (.define xs e)
  | .set x e => do let e ← rec e; .ok (.set x e)
  | .lam f body => do let body ← mapR rec body; .ok (.lam f body)
  | .clam cs => do let cs ← mapC rec cs; .ok (.clam cs)
  | .begin es => do let es ← mapR rec es; .ok (.begin es)
  | .ite c t f => do let c ← rec c; let t ← rec t; let f ← rec f; .ok (.ite c t f)
  | .app (.var .values) args => l1Values rec args
  | .app (.var .callWithValues) (p :: c :: _) => do let p ← rec p; let c ← rec c; l1Mvcall rec (.app p []) c
  | .app (.var .callWithValues) _ => .ub
  | .app f args => do let f ← rec f; let args ← mapR rec args; .ok (.app f args)
  | .mvcall e c => l1Mvcall rec e c
  | .mvlet e xs body => do let e ← rec e; let body ← rec body; .ok (.mvlet e xs body)
  | .mvvals es => do let es ← mapR rec es; .ok (.mvvals es)
  | .letv _ _ | .letrecv _ _ => .ub

/-- `jit_opt_L1` (jitopt.c:405-470); the first argument bounds the depth of the recursion (the pass goes over expressions it built, too). -/
def L1 : Nat → E → Res E
  | 0, _ => .oof
  | n + 1, e => l1Step (L1 n) e

/-! ## Third pass -/

/-- `jit_opt_L2_app` (jitopt.c:516-559) on a procedure whose body, and arguments that are already processed (the C code builds the expression first and then
descends into it). -/
def l2App (xs : List Sym) (body args : Res (List E)) : Res E := do
  let args ← args
  let body ← body
  let b ← bodyExpr body
  match args with
  | [] => .ok b
  | [a] => .ok (.mvlet a xs b)
  | args => .ok (.mvlet (.app (.var .values) args) xs b)

mutual

/-- `jit_opt_L2` (jitopt.c:562-623).  `let-values` and `letrec-values` do not occur after the first pass. -/
def L2 : E → Res E
  | .var x => .ok (.var x)
  | .lit l => .ok (.lit l)
  | .quote d => .ok (.quote d)
  | .quoteSyntax d => .ok (.quoteSyntax d)
  | .unbound => .ok .unbound
  | .define xs e => do let e ← L2 e; .ok (.define xs e)
  | .set x e => do let e ← L2 e; .ok (.set x e)
  | .lam f body => do let body ← L2s body; .ok (.lam f body)
  | .clam cs => do let cs ← L2C cs; .ok (.clam cs)
  | .mvcall e c => do let e ← L2 e; let c ← L2 c; .ok (.mvcall e c)
  | .mvlet e xs body => do let e ← L2 e; let body ← L2 body; .ok (.mvlet e xs body)
  | .mvvals es => do let es ← L2s es; .ok (.mvvals es)
  | .begin es => do let es ← L2s es; .ok (.begin es)
  | .ite c t f => do let c ← L2 c; let t ← L2 t; let f ← L2 f; .ok (.ite c t f)
  | .app (.lam f body) args =>
    if f.rest.isNone then l2App f.req (L2s body) (L2s args)
    else do let body ← L2s body; let args ← L2s args; .ok (.app (.lam f body) args)
  | .app f args => do let f ← L2 f; let args ← L2s args; .ok (.app f args)
  | .letv _ _ => .ub
  | .letrecv _ _ => .ub

/-- `jit_opt_L2_seq` (jitopt.c:477-491). -/
def L2s : List E → Res (List E)
  | [] => .ok []
  | e :: es => do let e ← L2 e; let es ← L2s es; .ok (e :: es)

/-- `jit_opt_L2_case_lambda` (jitopt.c:494-513). -/
def L2C : List Cl → Res (List Cl)
  | [] => .ok []
  | .mk f body :: cs => do let body ← L2s body; let cs ← L2C cs; .ok (.mk f body :: cs)

end

/-- The passes of `compile_expr` (jit.c:160-162). -/
def passes (n k : Nat) (e : E) : Res E := do
  let e ← L1 n (L0 k e).1
  L2 e

end Minim.Jit
