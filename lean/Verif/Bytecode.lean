import Verif.JitFv

set_option autoImplicit false

/-!
# Bytecode, the compiler and label resolution

Model of jitcompile.c, jitcommon.c (compiler environments, `resolve_refs`) and the parts of jit.c that write code objects.
-/

namespace Minim.Jit

open Minim.Sx Minim.Core

/-- Registers (`load_reg`, eval.c:394-409). -/
inductive Reg where
  | res | t0 | t1 | cp | ac
deriving DecidableEq, Repr

/-- Operands of `literal` (jitcompile.c:431-434, 322-324, 473-483): a datum, a datum converted to syntax, the unbound marker, void. -/
inductive K where
  | datum (d : X)
  | stx (d : X)
  | unbound
  | void
deriving DecidableEq, Repr

/-- Instructions (eval.c:477-636).  `L` is the type of jump targets: labels before resolution, positions afterwards; `C` the type of references to
procedure code: template indices before resolution, code objects afterwards.  `ccall p` calls the C function number `p`. -/
inductive I (L C : Type) where
  | literal (k : K) | lookup (i : Nat) | lookupCell (i : Nat) | tlLookup (s : Sym) | tlLookupCell (s : Sym)
  | setProc | push | pop | mov (dst src : Reg) | closureRef (r : Reg) (i : Nat) | closureSet (r : Reg) (i : Nat) (src : Reg) | closureBind
  | apply | ret | ccall (p : Nat) | bind (i : Nat) (s : Sym) | bindCell (i : Nat) | bindValues (i n : Nat) (ids : List Sym)
  | tlBindValues (n : Nat) (ids : List Sym) | rebind (i : Nat) | tlRebind (s : Sym) | pushEnv (n : Nat) | saveCC (l : L)
  | getArg (r : Reg) (i : Nat) | setArg (i : Nat) (r : Reg) | getTenv (r : Reg) | setTenv (r : Reg)
  | doApply | doArityError | doEval | doRaise | doRest (i : Nat) | doValues | doWithValues | clearFrame
  | brancha (l : L) | branchf (l : L) | branchgt (n : Nat) (l : L) | branchlt (n : Nat) (l : L) | branchne (n : Nat) (l : L)
  | makeClosure (c : C) (n : Nat) | checkStack (n : Nat)
deriving Repr

/-- Arities of code objects (`update_arity`, jitcompile.c:16-65): `()`, a fixnum, `#f`, a pair. -/
inductive Ar where
  | null
  | fix (n : Nat)
  | fls
  | pair (n : Nat) (d : Ar)
deriving DecidableEq, Repr

/-- Code objects (`Mcode`, `write_code`, jit.c:9-15, 86-147).  The relocation table, used only to print code, is left out. -/
inductive Code where
  | mk (ins : List (I Nat Code)) (arity : Ar)

/-- The instruction stream (`minim_code_it`, minim.h). -/
def Code.ins : Code → List (I Nat Code) | .mk is _ => is
/-- The arity (`minim_code_arity`, minim.h). -/
def Code.arity : Code → Ar | .mk _ a => a

/-- Elements of an instruction list before resolution: labels are strings made by `cenv_make_label` (jitcommon.c:84-101), numbered within
their procedure, and compared by address; every call makes a new one. -/
inductive Item where
  | lab (n : Nat)
  | ins (i : I Nat Nat)
deriving Repr

/-! ## Resolving labels -/

/-- `assq_set` (list.c:290-313). -/
def assqSet {β : Type} : List (Nat × β) → Nat → β → List (Nat × β)
  | [], k, v => [(k, v)]
  | (k', v') :: xs, k, v => if k' = k then (k, v) :: xs else (k', v') :: assqSet xs k v

/-- `assq_ref` (list.c:281-288). -/
def assqRef {β : Type} : List (Nat × β) → Nat → Option β
  | [], _ => none
  | (k', v') :: xs, k => if k' = k then some v' else assqRef xs k

/-- Is the element a label (`minim_stringp`, jitcommon.c:167)? -/
def isLab : Item → Bool
  | .lab _ => true
  | .ins _ => false

/-- `next_non_label` (jitcommon.c:165-172) on the list behind a label.  Instructions are identified by address in the C code; no instruction object
occurs twice in a list, and the model names them by their number `n` among the instructions of the list. -/
def nextNonLabel (rest : List Item) (n : Nat) : Res Nat :=
  if rest.any (fun i => !isLab i) then .ok n else .err

/-- The first loop of `resolve_refs` (jitcommon.c:181-191): `n` instructions come before the list; `lead` is the first of the labels that
immediately precede the list (the inner loop maps every further label to it). -/
def relocLoop : List Item → Nat → Option Nat → List (Nat × Nat) → List (Nat × Nat) → Res (List (Nat × Nat) × List (Nat × Nat))
  | [], _, _, reloc, map => .ok (reloc, map)
  | .ins _ :: r, n, _, reloc, map => relocLoop r (n + 1) none reloc map
  | .lab l :: r, n, none, reloc, map => do
    let k ← nextNonLabel r n
    relocLoop r n (some l) (assqSet reloc l k) (assqSet map l l)
  | .lab l :: r, n, some f, reloc, map => relocLoop r n (some f) reloc (assqSet map l f)

/-- `minim_cdr(assq_ref(...))` (jitcommon.c:199-221, jit.c:121-137): undefined if the key is missing. -/
def cdrRef {β : Type} (t : List (Nat × β)) (k : Nat) : Res β :=
  match assqRef t k with
  | some v => .ok v
  | none => .ub

/-- `global_cenv_ref_template` (jitcommon.c:30-41).  When a procedure is compiled `resolve_refs` is given a scope environment where a procedure
environment is expected (jitcompile.c:207): the vector of the global environment is then read as a pair, whose cdr happens to be the template list; the
reversed list has one element more at its end, which is never reached. -/
def templateRef (tm : List Code) (i : Nat) : Res Code :=
  match tm.reverse[i]? with
  | some c => .ok c
  | none => .ub

/-- The second loop of `resolve_refs` (jitcommon.c:194-225) followed by the rewriting of jumps in `write_code` (jit.c:117-139), on one instruction. -/
def resolveIns (tm : List Code) (map reloc : List (Nat × Nat)) : I Nat Nat → Res (I Nat Code)
  | .brancha l => do let m ← cdrRef map l; let k ← cdrRef reloc m; .ok (.brancha k)
  | .branchf l => do let m ← cdrRef map l; let k ← cdrRef reloc m; .ok (.branchf k)
  | .branchgt n l => do let m ← cdrRef map l; let k ← cdrRef reloc m; .ok (.branchgt n k)
  | .branchlt n l => do let m ← cdrRef map l; let k ← cdrRef reloc m; .ok (.branchlt n k)
  | .branchne n l => do let m ← cdrRef map l; let k ← cdrRef reloc m; .ok (.branchne n k)
  | .saveCC l => do let m ← cdrRef map l; let k ← cdrRef reloc m; .ok (.saveCC k)
  | .makeClosure i n => do let c ← templateRef tm i; .ok (.makeClosure c n)
  | .literal k => .ok (.literal k)
  | .lookup i => .ok (.lookup i)
  | .lookupCell i => .ok (.lookupCell i)
  | .tlLookup s => .ok (.tlLookup s)
  | .tlLookupCell s => .ok (.tlLookupCell s)
  | .setProc => .ok .setProc
  | .push => .ok .push
  | .pop => .ok .pop
  | .mov d s => .ok (.mov d s)
  | .closureRef r i => .ok (.closureRef r i)
  | .closureSet r i s => .ok (.closureSet r i s)
  | .closureBind => .ok .closureBind
  | .apply => .ok .apply
  | .ret => .ok .ret
  | .ccall p => .ok (.ccall p)
  | .bind i s => .ok (.bind i s)
  | .bindCell i => .ok (.bindCell i)
  | .bindValues i n ids => .ok (.bindValues i n ids)
  | .tlBindValues n ids => .ok (.tlBindValues n ids)
  | .rebind i => .ok (.rebind i)
  | .tlRebind s => .ok (.tlRebind s)
  | .pushEnv n => .ok (.pushEnv n)
  | .getArg r i => .ok (.getArg r i)
  | .setArg i r => .ok (.setArg i r)
  | .getTenv r => .ok (.getTenv r)
  | .setTenv r => .ok (.setTenv r)
  | .doApply => .ok .doApply
  | .doArityError => .ok .doArityError
  | .doEval => .ok .doEval
  | .doRaise => .ok .doRaise
  | .doRest i => .ok (.doRest i)
  | .doValues => .ok .doValues
  | .doWithValues => .ok .doWithValues
  | .clearFrame => .ok .clearFrame
  | .checkStack n => .ok (.checkStack n)

/-- The instructions of a list without labels (`remove_labels`, jit.c:72-84). -/
def instrs : List Item → List (I Nat Nat)
  | [] => []
  | .lab _ :: r => instrs r
  | .ins i :: r => i :: instrs r

/-- Resolve each instruction (jitcommon.c:194-225, jit.c:117-143). -/
def resolveAll (tm : List Code) (map reloc : List (Nat × Nat)) : List (I Nat Nat) → Res (List (I Nat Code))
  | [] => .ok []
  | i :: is => do
    let j ← resolveIns tm map reloc i
    let js ← resolveAll tm map reloc is
    .ok (j :: js)

/-- `resolve_refs` (jitcommon.c:174-228) and `write_code` (jit.c:86-147).  `write_code` looks every instruction of the relocation table up in the label-free list
by address; numbering instructions, this is the identity.  `remove_labels` keeps the first element of the list even if it is a label: undefined here. -/
def assemble (tm : List Code) (items : List Item) (arity : Ar) : Res Code :=
  match items with
  | .ins _ :: _ => do
    let (reloc, map) ← relocLoop items 0 none [] []
    let is ← resolveAll tm map reloc (instrs items)
    .ok (.mk is arity)
  | _ => .ub

/-! ## Bound variables -/

/-- A table of bound variables by expression: one list for each clause (jitanalyze.c:192, 205-208). -/
abbrev BTab := List (E × List (List Sym))

mutual

/-- `bound_vars` (jitanalyze.c:235-296): the identifiers that need a slot in the environment of the enclosing procedure; each procedure inside gets an entry
in the table. -/
def boundVars : E → BTab → List Sym × BTab
  | .var _, t => ([], t)
  | .lit _, t => ([], t)
  | .quote _, t => ([], t)
  | .quoteSyntax _, t => ([], t)
  | .unbound, t => ([], t)
  -- define_values_bound_vars, jitanalyze.c:179-184
  | .define xs e, t => let (b, t) := boundVars e t; (xs ++ b, t)
  | .set _ e, t => boundVars e t
  | .ite c a b, t =>
    let (b1, t) := boundVars c t
    let (b2, t) := boundVars a t
    let (b3, t) := boundVars b t
    (b1 ++ b2 ++ b3, t)
  | .letv _ _, t => ([], t)
  | .letrecv _ _, t => ([], t)
  -- lambda_bound_vars, jitanalyze.c:186-193
  | .lam f body, t => let (b, t) := boundVarsSeq body t; ([], (.lam f body, [f.ids ++ b]) :: t)
  -- case_lambda_bound_vars, jitanalyze.c:195-209
  | .clam cs, t => let (bs, t) := boundVarsClauses cs t; ([], (.clam cs, bs) :: t)
  | .begin es, t => boundVarsSeq es t
  | .app f args, t => let (b, t) := boundVars f t; let (bs, t) := boundVarsSeq args t; (b ++ bs, t)
  | .mvcall e c, t => let (b1, t) := boundVars e t; let (b2, t) := boundVars c t; (b1 ++ b2, t)
  -- mvlet_bound_vars, jitanalyze.c:211-219; the order in which C evaluates the two arguments changes the order of table entries only
  | .mvlet e xs body, t => let (b1, t) := boundVars e t; let (b2, t) := boundVars body t; (b1 ++ (xs ++ b2), t)
  | .mvvals es, t => boundVarsSeq es t

/-- The loops of `begin_bound_vars` and `app_bound_vars` (jitanalyze.c:221-226, 228-233). -/
def boundVarsSeq : List E → BTab → List Sym × BTab
  | [], t => ([], t)
  | e :: es, t => let (b, t) := boundVars e t; let (bs, t) := boundVarsSeq es t; (b ++ bs, t)

/-- The loop of `case_lambda_bound_vars` (jitanalyze.c:197-202): the parameters are counted twice. -/
def boundVarsClauses : List Cl → BTab → List (List Sym) × BTab
  | [], t => ([], t)
  | .mk f body :: cs, t =>
    let (b, t) := boundVarsSeq body t
    let (bs, t) := boundVarsClauses cs t
    ((f.ids ++ (f.ids ++ b)) :: bs, t)

end

/-- `global_cenv_get_bound` (jitcommon.c:57-60).  The C code looks the expression up by address in the table of the whole program; the model analyses the
expression again, with the same result (`boundVars_lookup`). -/
def clauseBounds (l : E) : List (List Sym) :=
  match (boundVars l []).2 with
  | (_, bs) :: _ => bs
  | [] => []

/-! ## The compiler -/

/-- Compile-time scope: the identifiers bound in the current procedure, newest first (`scope_cenv_bound`, jitcommon.c:113). -/
abbrev Scope := List Sym

/-- `scope_cenv_ref` (jitcommon.c:152-159). -/
def scopeRef : Scope → Sym → Option Nat
  | [], _ => none
  | x :: xs, s => if x = s then some xs.length else scopeRef xs s

/-- `scope_cenv_bind` for each identifier of a list (jitcommon.c:146-150, jitcompile.c:287-288). -/
def scopeBind (sc : Scope) (xs : List Sym) : Scope := xs.foldl (fun sc x => x :: sc) sc

/-- `with_tail_ret` (jitcompile.c:71-78). -/
def tailRet (t : Bool) : List Item := if t then [.ins .ret] else []

/-- `update_arity` (jitcompile.c:16-65). -/
def updateArity : Ar → Nat → Bool → Ar
  | .null, req, rest => if rest then .pair req .fls else .fix req
  | .fix a, req, rest =>
    if req > a then (if rest then .pair a (.pair req .fls) else .pair a (.pair req .null))
    else if req = a then (if rest then .pair a .fls else .fix a)
    else (if rest then .pair req .fls else .pair req (.fix a))
  | .fls, _, _ => .fls
  | .pair a d, req, rest =>
    if req > a then (if d = .fls then .pair a d else .pair a (updateArity d req rest))
    else if req = a then (if rest then .pair a .fls else .pair a d)
    else (if rest then .pair a .fls else .pair req (.pair a d))

/-- The arity of a list of clauses (jitcompile.c:202). -/
def clausesArity (fs : List Formals) : Ar := fs.foldl (fun a f => updateArity a f.req.length f.rest.isSome) .null

/-- The arguments of a clause are bound in order (jitcompile.c:117-126): argument number `a` into slot number `b`. -/
def bindArgs : List Sym → Nat → Nat → List Item
  | [], _, _ => []
  | x :: xs, a, b => .ins (.getArg .res a) :: .ins (.bind b x) :: bindArgs xs (a + 1) (b + 1)

/-- The head of a clause (`compile_lambda_clause`, jitcompile.c:109-138). -/
def clauseHead (nfv nbound : Nat) (f : Formals) : List Item :=
  [.ins (.pushEnv (nfv + nbound)), .ins .closureBind] ++ bindArgs f.req 0 nfv ++
    (match f.rest with
     | none => []
     | some r => [.ins (.doRest f.req.length), .ins (.bind (nfv + f.req.length) r)]) ++
    [.ins .clearFrame]

/-- The scope of a clause body (jitcompile.c:167-169, 115-136). -/
def clauseScope (fvs : List Sym) (f : Formals) : Scope := scopeBind (scopeBind [] fvs) f.ids

/-- The test at the start of a clause (jitcompile.c:183-200). -/
def clauseEntry (prev : Option Nat) (f : Formals) (l : Nat) : List Item :=
  (match prev with
   | none => .ins (.mov .res .ac)
   | some p => .lab p) :: [.ins (if f.rest.isSome then .branchlt f.req.length l else .branchne f.req.length l)]

/-- `compile_lookup_cell` (jitcompile.c:146-155). -/
def lookupCellIns (sc : Scope) (s : Sym) : I Nat Nat :=
  match scopeRef sc s with
  | none => .tlLookupCell s
  | some i => .lookupCell i

/-- The loop that fills a closure (jitcompile.c:222-227). -/
def fillClosure (sc : Scope) : List Sym → Nat → List Item
  | [], _ => []
  | x :: xs, i => .ins (lookupCellIns sc x) :: .ins (.closureSet .t0 i .res) :: fillClosure sc xs (i + 1)

/-- The instructions that make a closure (jitcompile.c:213-231). -/
def closureIns (sc : Scope) (idx : Nat) (fvs : List Sym) : List Item :=
  .ins (.makeClosure idx fvs.length) ::
    (match fvs with
     | [] => []
     | _ :: _ => .ins (.mov .t0 .res) :: (fillClosure sc fvs 0 ++ [.ins (.mov .res .t0)]))

/-- What the compiler returns: instructions, number of labels made in this procedure, templates (newest first). -/
abbrev Out := List Item × Nat × List Code

mutual

/-- `compile_expr2` (jitcompile.c:436-500): scope, tail position, labels made so far in this procedure, templates of the compilation. -/
def compile : E → Scope → Bool → Nat → List Code → Res Out
  -- compile_lookup, jitcompile.c:416-429
  | .var s, sc, t, n, tm =>
    .ok (.ins (match scopeRef sc s with | none => .tlLookup s | some i => .lookup i) :: tailRet t, n, tm)
  -- compile_literal, jitcompile.c:431-434, 473-483
  | .lit l, _, t, n, tm => .ok (.ins (.literal (.datum (.lit l))) :: tailRet t, n, tm)
  | .quote d, _, t, n, tm => .ok (.ins (.literal (.datum d)) :: tailRet t, n, tm)
  | .quoteSyntax d, _, t, n, tm => .ok (.ins (.literal (.stx d)) :: tailRet t, n, tm)
  | .unbound, _, t, n, tm => .ok (.ins (.literal .unbound) :: tailRet t, n, tm)
  -- compile_define_values, jitcompile.c:80-87
  | .define xs e, sc, t, n, tm => do
    let (is, n, tm) ← compile e sc false n tm
    .ok (is ++ .ins (.tlBindValues xs.length xs) :: tailRet t, n, tm)
  -- compile_setb, jitcompile.c:89-103
  | .set x e, sc, t, n, tm => do
    let (is, n, tm) ← compile e sc false n tm
    .ok (is ++ .ins (match scopeRef sc x with | none => .tlRebind x | some i => .rebind i) :: tailRet t, n, tm)
  -- compile_if, jitcompile.c:345-377
  | .ite c a b, sc, t, n, tm => do
    let (ci, n, tm) ← compile c sc false n tm
    let (ai, n, tm) ← compile a sc t n tm
    let (bi, n, tm) ← compile b sc t n tm
    if t then .ok (ci ++ .ins (.branchf n) :: (ai ++ .lab n :: bi), n + 1, tm)
    else .ok (ci ++ .ins (.branchf n) :: (ai ++ .ins (.brancha (n + 1)) :: .lab n :: (bi ++ [.lab (n + 1)])), n + 2, tm)
  -- never reached: `let-values` and `letrec-values` are gone after the first pass
  | .letv _ _, _, _, _, _ => .err
  | .letrecv _ _, _, _, _, _ => .err
  -- compile_lambda, jitcompile.c:238-243, and compile_case_lambda2, 157-236, for one clause
  | .lam f body, sc, t, n, tm => do
    let fvs := (freeVars (.lam f body) []).1
    let (is, _, tm) ← compileBody body (clauseScope fvs f) true 1 tm
    let items := clauseEntry none f 0 ++ clauseHead fvs.length ((clauseBounds (.lam f body)).headD []).length f ++ is ++
      [.lab 0, .ins .doArityError]
    let code ← assemble tm items (clausesArity [f])
    .ok (closureIns sc tm.length fvs ++ tailRet t, n, code :: tm)
  -- compile_case_lambda, jitcompile.c:245-249, and compile_case_lambda2, 157-236
  | .clam cs, sc, t, n, tm => do
    let fvs := (freeVars (.clam cs) []).1
    let (is, last, _, tm) ← compileClauses cs fvs (clauseBounds (.clam cs)) none 0 tm
    match last with
    | none => .err -- no clause: `list_set_tail` on the empty list
    | some l => do
      let code ← assemble tm (is ++ [.lab l, .ins .doArityError]) (clausesArity (cs.map Cl.fs))
      .ok (closureIns sc tm.length fvs ++ tailRet t, n, code :: tm)
  | .begin es, sc, t, n, tm => compileBody es sc t n tm
  -- compile_app, jitcompile.c:379-414
  | .app f args, sc, t, n, tm => do
    let lbl := n
    let (fi, n, tm) ← compile f sc false (if t then n else n + 1) tm
    let (ai, n, tm) ← compileArgs args sc n tm
    let call := fi ++ .ins .setProc :: .ins (.checkStack args.length) :: (ai ++ [.ins .apply])
    if t then .ok (call, n, tm) else .ok (.ins (.saveCC lbl) :: (call ++ [.lab lbl]), n, tm)
  -- compile_mvcall, jitcompile.c:251-273
  | .mvcall e c, sc, t, n, tm => do
    let lbl := n
    let (ei, n, tm) ← compile e sc false (if t then n else n + 1) tm
    let (ci, n, tm) ← compile c sc false n tm
    let call := ei ++ .ins .clearFrame :: .ins .doWithValues :: (ci ++ [.ins .setProc, .ins .apply])
    if t then .ok (call, n, tm) else .ok (.ins (.saveCC lbl) :: (call ++ [.lab lbl]), n, tm)
  -- compile_mvlet, jitcompile.c:275-298
  | .mvlet e xs body, sc, t, n, tm => do
    let (ei, n, tm) ← compile e sc false n tm
    let (bi, n, tm) ← compile body (scopeBind sc xs) t n tm
    .ok (ei ++ .ins (.bindValues sc.length xs.length xs) :: bi, n, tm)
  -- compile_mvvalues, jitcompile.c:300-317
  | .mvvals es, sc, t, n, tm =>
    match es with
    | [] => .ok (.ins .doValues :: tailRet t, n, tm)
    | e :: r => do
      let (ei, n, tm) ← compile e sc false n tm
      let (ri, n, tm) ← compileArgs r sc n tm
      .ok (.ins (.checkStack (r.length + 1)) :: (ei ++ .ins .push :: (ri ++ .ins .doValues :: .ins .clearFrame :: tailRet t)), n, tm)

/-- `compile_begin` (jitcompile.c:319-343). -/
def compileBody : List E → Scope → Bool → Nat → List Code → Res Out
  | [], _, t, n, tm => .ok (.ins (.literal .void) :: tailRet t, n, tm)
  | e :: r, sc, t, n, tm =>
    match r with
    | [] => compile e sc t n tm
    | e' :: r' => do
      let (ei, n, tm) ← compile e sc false n tm
      let (ri, n, tm) ← compileBody (e' :: r') sc t n tm
      .ok (ei ++ ri, n, tm)

/-- The loops over arguments (jitcompile.c:309-312, 400-403). -/
def compileArgs : List E → Scope → Nat → List Code → Res Out
  | [], _, n, tm => .ok ([], n, tm)
  | e :: r, sc, n, tm => do
    let (ei, n, tm) ← compile e sc false n tm
    let (ri, n, tm) ← compileArgs r sc n tm
    .ok (ei ++ .ins .push :: ri, n, tm)

/-- The loop over clauses (jitcompile.c:178-206): free variables, bound variables of each clause, label of the previous clause. -/
def compileClauses : List Cl → List Sym → List (List Sym) → Option Nat → Nat → List Code →
    Res (List Item × Option Nat × Nat × List Code)
  | [], _, _, prev, n, tm => .ok ([], prev, n, tm)
  | .mk f body :: cs, fvs, bounds, prev, n, tm => do
    let lbl := n
    let (is, n, tm) ← compileBody body (clauseScope fvs f) true (n + 1) tm
    let (rest, last, n, tm) ← compileClauses cs fvs bounds.tail (some lbl) n tm
    .ok (clauseEntry prev f lbl ++ clauseHead fvs.length (bounds.headD []).length f ++ is ++ rest, last, n, tm)

end

/-- `compile_expr` (jit.c:153-188) on an optimised expression. -/
def compileExpr (e : E) : Res Code := do
  let b := (boundVars e []).1
  let (is, _, tm) ← compile e [] true 0 []
  assemble tm ((if b = [] then [] else [.ins (.pushEnv b.length)]) ++ is) (.fix 0)

end Minim.Jit
