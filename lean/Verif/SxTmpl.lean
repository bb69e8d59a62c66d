import Verif.SxCase

set_option autoImplicit false

/-!
# `syntax`: the template engine

Model of library/private/template-utils.min and template.min: a template is parsed to instructions, the instructions are annotated with the variables of every ellipsis, constants are folded, and the
result is turned into program text, which is evaluated where the `syntax` form stands.

Simplifications: the syntax objects that instructions carry for messages are left out; the text of the generated program is the type `TCode`; procedures that the text refers to (`map`,
`template-subst`, ...) are those of the library; `get-pattern-variable` is a parameter (expander.min:276-287 looks the symbol up in a list); the recursion over a template takes fuel.
-/

namespace Minim.Sc

/-- A pattern variable in a template: name, depth, and the identifier its value is bound to (template-utils.min:129, 243). -/
structure VD where
  name : Nm
  depth : Nat
  value : Nm
deriving DecidableEq, Repr

/-- Substitution operators (template-utils.min:71-73): an index, with `append` or `tail` in front or not. -/
inductive Op where
  | idx (n : Nat)
  | append (n : Nat)
  | tail (n : Nat)
deriving DecidableEq, Repr

/-- The operator `(append op)` (template-utils.min:171); a tail is never repeated. -/
def Op.toAppend : Op → Op
  | .idx n => .append n
  | .append n => .append n
  | .tail n => .append n

/-- Template instructions (template-utils.min:65-69). -/
inductive Instr where
  | subst (form : V) (ops : List Op) (inputs : List Instr)
  | vector (i : Instr)
  | append (mapped const : List VD) (i : Instr)
  | const (v : V)
  | var (vd : VD)
deriving Repr

/-- `get-pattern-variable` (expander.min:276-287): the depth and the value of a pattern variable. -/
abbrev GetPat := Nm → Option (Nat × Nm)

/-- `make-wildcard-list` (template-utils.min:27-30). -/
def wildList : Nat → Bool → V
  | 0, tail => if tail then .sym .under else .null
  | n + 1, tail => .cons (.sym .under) (wildList n tail)

/-- `make-range-list` (template-utils.min:32-35). -/
def rangeList (n : Nat) (tail : Bool) : List Op :=
  (List.range n).map .idx ++ (if tail then [.tail n] else [])

/-- `replace-slots` (template-utils.min:41-60). -/
def replaceSlots : V → List V → Res V
  | .null, plugs => if plugs.isEmpty then .ok .null else .err
  | .cons a d, plugs =>
    if a = .sym .under then
      match plugs with
      | [] => .err
      | p :: ps => do
        let r ← replaceSlots d ps
        .ok (.cons p r)
    else
      match plugs with
      | [] => .err
      | _ :: ps => do
        let r ← replaceSlots d ps
        .ok (.cons a r)
  | form, plugs =>
    if form = .sym .under then
      match plugs with
      | [] => .err
      | [p] => .ok p
      | _ => .err
    else .ok form

/-! ### parsing -/

/-- The loop that collects the elements of a list template and its tail (template-utils.min:193-201); `none` for no tail. -/
def tmplList : V → List V × Option V
  | .null => ([], none)
  | .cons a d => let (l, t) := tmplList d; (a :: l, t)
  | .stx (.cons a d) => let (l, t) := tmplList d; (a :: l, t)
  | t => ([], some t)

/-- The loop over the elements (template-utils.min:202-213): instructions in order. -/
def parseElems (f : V → Nat → Res Instr) (depth : Nat) : List V → Res (List Instr)
  | [] => .ok []
  | [x] => do
    let i ← f x depth
    .ok [i]
  | x :: y :: rest =>
    if isDots y then do
      let i ← f x (depth + 1)
      let is ← parseElems f depth rest
      .ok (.append [] [] i :: is)
    else do
      let i ← f x depth
      let is ← parseElems f depth (y :: rest)
      .ok (i :: is)

/-- `parse` (template-utils.min:192-252). -/
def parse (gp : GetPat) : Nat → V → Nat → Res Instr
  | 0, _, _ => .oof
  | n + 1, t, depth =>
    if stxPair t then do
      let (lst, tail) := tmplList t
      let is ← parseElems (parse gp n) depth lst
      match tail with
      | some tl => do
        let ti ← parse gp n tl depth
        .ok (.subst (wildList is.length true) (rangeList is.length true) (is ++ [ti]))
      | none => .ok (.subst (wildList is.length false) (rangeList is.length false) is)
    else if stxVector t then do
      let es ← stxVecElems t
      let i ← parse gp n (toSyntax (listV es)) depth
      .ok (.vector i)
    else match identOf t with
      | some s => match gp s with
        | some (pdepth, value) => if pdepth > depth then .err else .ok (.var ⟨s, pdepth, value⟩)
        | none => .ok (.const (.sym s))
      | none => do
        let d ← syntaxE t
        .ok (.const d)

/-! ### the variables of ellipses -/

mutual

/-- `compute-vars-for-append` (template-utils.min:76-133): the annotated instruction and its variables in order.  The test for too many ellipses is `(>= pdepth depth)`. -/
def compVars : Instr → Nat → Res (Instr × List VD)
  | .subst form ops inputs, depth => do
    let (is, vs) ← compVarsL inputs depth
    .ok (.subst form ops is, vs)
  | .append _ _ i, depth => do
    let (i', vs) ← compVars i (depth + 1)
    if vs.isEmpty then .err
    else if vs.any (fun v => v.depth ≥ depth) then
      .ok (.append (vs.filter fun v => v.depth > depth) (vs.filter fun v => ¬ v.depth > depth) i', vs)
    else .err
  | .vector i, depth => do
    let (i', vs) ← compVars i depth
    .ok (.vector i', vs)
  | .const v, _ => .ok (.const v, [])
  | .var vd, _ => .ok (.var vd, [vd])

/-- the loop over the inputs (template-utils.min:83-92) -/
def compVarsL : List Instr → Nat → Res (List Instr × List VD)
  | [], _ => .ok ([], [])
  | i :: is, depth => do
    let (i', vs) ← compVars i depth
    let (is', vs') ← compVarsL is depth
    .ok (i' :: is', vs ++ vs')

end

/-! ### folding of constants -/

/-- `(instr-eq? i 'const)` with the datum -/
def constOf : Instr → Option V
  | .const v => some v
  | _ => none

/-- `(instr-eq? i 'append)` -/
def isAppend : Instr → Bool
  | .append _ _ _ => true
  | _ => false

/-- The operators of the inputs that remain, with `append` where the input is an `append` (template-utils.min:166-173). -/
def markOps : List Instr → List Op → List Op
  | i :: is, o :: os => (if isAppend i then o.toAppend else o) :: markOps is os
  | _, _ => []

/-- The separation of constant inputs from the others (template-utils.min:149-163): inputs, operators, plugs. -/
def foldConsts : List Instr → List Op → List Instr × List Op × List V
  | i :: is, o :: os =>
    let (is', os', ps) := foldConsts is os
    match constOf i with
    | some v => (is', os', v :: ps)
    | none => (i :: is', o :: os', .sym .under :: ps)
  | _, _ => ([], [], [])

/-- The rule for substitutions after their inputs are optimized (template-utils.min:142-174); the loop `rec` is entered a second time only when a constant was folded, and then none is left. -/
def optSubst (form : V) (ops : List Op) (inputs : List Instr) : Res Instr :=
  if inputs.all (fun i => (constOf i).isSome) then do
    let v ← replaceSlots form (inputs.filterMap constOf)
    .ok (.const v)
  else if inputs.any (fun i => (constOf i).isSome) then do
    let (is, os, ps) := foldConsts inputs ops
    let form' ← replaceSlots form ps
    .ok (.subst form' (markOps is os) is)
  else .ok (.subst form (markOps inputs ops) inputs)

mutual

/-- `optimize-template` (template-utils.min:135-189). -/
def optimize : Instr → Res Instr
  | .subst form ops inputs => do
    let is ← optimizeL inputs
    optSubst form ops is
  | .append m c i => do
    let i' ← optimize i
    .ok (.append m c i')
  | .vector i => do
    let i' ← optimize i
    .ok (.vector i')
  | .const v => .ok (.const v)
  | .var vd => .ok (.var vd)

/-- `(map loop inputs)` (template-utils.min:141) -/
def optimizeL : List Instr → Res (List Instr)
  | [] => .ok []
  | i :: is => do
    let i' ← optimize i
    let is' ← optimizeL is
    .ok (i' :: is')

end

/-! ### the text that is generated -/

/-- Forms of the text made by `make-template-builder`. -/
inductive TCode where
  /-- `(template-subst 'form 'ops arg ...)` -/
  | subst (form : V) (ops : List Op) (args : List TCode)
  /-- `(map (lambda (x ...) body) ref ...)` -/
  | map (xs : List Nm) (body : TCode) (refs : List Nm)
  /-- `(template-vector c)` -/
  | vector (c : TCode)
  /-- `(quote-syntax v)` -/
  | const (v : V)
  | ref (x : Nm)
deriving Repr

/-- `assoc` in the list of renamed variables (template-utils.min:19-25, 296-297, 311-312) -/
def refOf (vm : List (Nm × Nm)) (vd : VD) : Nm :=
  match vm.lookup vd.name with
  | some x => x
  | none => vd.value

/-- The names made by `n` calls of `gen-temp-id` with `pv` (gen-temp.min:7-13), the counter standing at `c` before. -/
def tempIds (c n : Nat) : List Nm := (List.range n).map fun k => .pv (c + 1 + k)

mutual

/-- `make-template-builder` (template-utils.min:258-315); the counter of `gen-temp-id` is passed along. -/
def build : Instr → List (Nm × Nm) → Nat → TCode × Nat
  | .subst form ops inputs, vm, c =>
    let (cs, c') := buildL inputs vm c
    (.subst form ops cs, c')
  | .append mapped _ i, vm, c =>
    let temps := tempIds c mapped.length
    let vm' := ((mapped.map VD.name).zip temps).reverse ++ vm
    let (body, c') := build i vm' (c + mapped.length)
    (.map temps body (mapped.map (refOf vm)), c')
  | .vector i, vm, c =>
    let (b, c') := build i vm c
    (.vector b, c')
  | .const v, _, c => (.const v, c)
  | .var vd, vm, c => (.ref (refOf vm vd), c)

/-- the arguments from left to right -/
def buildL : List Instr → List (Nm × Nm) → Nat → List TCode × Nat
  | [], _, c => ([], c)
  | i :: is, vm, c =>
    let (b, c1) := build i vm c
    let (bs, c2) := buildL is vm c1
    (b :: bs, c2)

end

/-- `do-template` (template-utils.min:254-256, 319-321). -/
def doTemplate (gp : GetPat) (fuel : Nat) (t : V) (c : Nat) : Res (TCode × Nat) := do
  let i ← parse gp fuel t 0
  let (i, _) ← compVars i 0
  let i ← optimize i
  .ok (build i [] c)

/-! ### evaluation -/

/-- `run/mode` (template-utils.min:324-331): the walk over `n` elements of the guide and the substitution. -/
def runMode (k : V → V → Res V) (arg : V) : Nat → V → Res V
  | n + 1, guide => match guide with
    | .cons a d => do
      let r ← runMode k arg n d
      .ok (.cons a r)
    | _ => .err
  | 0, guide => k arg guide

/-- One operator with its argument (template-utils.min:335-342). -/
def runOp (o : Op) (arg guide : V) : Res V :=
  match o with
  | .idx n => runMode (fun arg g => match g with | .cons _ d => .ok (.cons arg d) | _ => .err) arg n guide
  | .append n => runMode (fun arg g => match g with | .cons _ d => append2 arg d | _ => .err) arg n guide
  | .tail n => runMode (fun arg _ => .ok arg) arg n guide

/-- The run over the reversed lists of operators and arguments (template-utils.min:333-345): the last operator first. -/
def runOps (guide : V) : List Op → List V → Res V
  | [], _ => .ok guide
  | o :: os, a :: as => do
    let g ← runOps guide os as
    runOp o a g
  | _ :: _, [] => .err

/-- the parameters of the `lambda` bound to one element each -/
def bindRow : Env → List Nm → List V → Env
  | env, x :: xs, v :: vs => bindRow (upd env x v) xs vs
  | env, _, _ => env

/-- The first elements and the rests of all lists; `none` when one of them is empty (prelude.min:1037-1043). -/
def mapRows (f : List V → Res V) : Nat → List (List V) → Res (List V)
  | 0, _ => .ok []
  | n + 1, ls => match headsTails ls with
    | none => .ok []
    | some (hs, ts) => do
      let y ← f hs
      let ys ← mapRows f n ts
      .ok (y :: ys)

/-- `(map f l ...)` (prelude.min:1030-1043): at least one list, all of them lists of the same length. -/
def mapCall (f : List V → Res V) (args : List V) : Res V :=
  match args.mapM rawList with
  | none => .err
  | some [] => .err
  | some (l :: ls) =>
    if ls.all (·.length = l.length) then do
      let ys ← mapRows f l.length (l :: ls)
      .ok (listV ys)
    else .err

/-- The values of variables. -/
def lookups (env : Env) : List Nm → Res (List V)
  | [] => .ok []
  | x :: xs => match env x with
    | none => .err
    | some v => do
      let vs ← lookups env xs
      .ok (v :: vs)

/-- `template-vector` (template-utils.min:347-348). -/
def templateVector (v : V) : Res V := do
  let d ← syntaxE v
  if isList d then .ok (toSyntax (.vec d)) else .err

mutual

/-- Evaluation of the generated text. -/
def runT : TCode → Env → Res V
  | .subst form ops args, env => do
    let vs ← runTL args env
    let g ← runOps form ops vs
    .ok (toSyntax g)
  | .map xs body refs, env => do
    let vs ← lookups env refs
    mapCall (fun row => runT body (bindRow env xs row)) vs
  | .vector c, env => do
    let v ← runT c env
    templateVector v
  | .const v, _ => .ok (toSyntax v)
  | .ref x, env => match env x with
    | some v => .ok v
    | none => .err

/-- the arguments of a call -/
def runTL : List TCode → Env → Res (List V)
  | [], _ => .ok []
  | c :: cs, env => do
    let v ← runT c env
    let vs ← runTL cs env
    .ok (v :: vs)

end

end Minim.Sc
