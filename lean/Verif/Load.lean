import Verif.PathProps

set_option autoImplicit false

/-!
# The module loader

Model of library/module.min.  Expansion and evaluation are parameters.

Simplifications: a path is its text (`build-path` and `split-path` as proved in C65); a file is the list of its forms, so reading does not fail; environments are finite maps (C19 and following);
scopes and the handlers that print results are left out.
-/

namespace Minim.Load

open Minim.Path Minim.Str

/-- the text of a path -/
abbrev Path := List Byte

/-- the elements of a path text, as `path->list` finds them (path.min:42-65) -/
def compsGo : List Byte → List Byte → List (List Byte)
  | [], [] => []
  | [], c :: cur => [c :: cur]
  | b :: t, [] => if b = 47#8 then [47#8] :: compsGo t [] else compsGo t [b]
  | b :: t, c :: cur => if b = 47#8 then (c :: cur) :: compsGo t [] else compsGo t (c :: cur ++ [b])

/-- `(car (split-path path))` (path.min:30-40, module.min:23); `none` is `#f` -/
def dirOf (p : Path) : Option Path :=
  match compsGo p [] with
  | a :: b :: rest => some (join a (b :: rest).dropLast)
  | _ => none

/-- `(build-path new-cwd name)` (module.min:62, 91) -/
def sibling (p : Path) (name : List Byte) : Option Path :=
  match dirOf p with
  | some [] => none
  | some d => some (join d [name])
  | none => none

/-- one element of an `export` form (module.min:76-106) -/
inductive Exp (K : Type) where
  | sym (k : K)
  | all (name : List Byte)
  | bad

/-- one form of a file: the elements of an `import` form (`none`: not a string), those of an `export` form, or another form -/
inductive Item (K F : Type) where
  | imp (names : List (Option (List Byte)))
  | exp (es : List (Exp K))
  | form (f : F)

/-- the exports of a module: macros and values (module.min:13) -/
structure Exports (K X V : Type) where
  xforms : List (K × X)
  vals : List (K × V)

/-- The language around the loader: the base environment, what is added to the environment of macros (`$base-stx-env`, expander.min:272-293), `expand/module` and `$eval-exprs`.  `W` is the rest of the state. -/
structure Lang (K F X V W : Type) where
  base : K → Option V
  stx : (K → Option V) → (K → Option V)
  expand : Path → List F → List (K × X) → (K → Option V) → W → Res (List F × List (K × X) × (K → Option V) × W)
  eval : List F → (K → Option V) → W → Res ((K → Option V) × W)

/-- one evaluation of a module: its path, the forms, macros and environment it began with, the macros and the environment it ended with -/
structure Run (K F X V : Type) where
  path : Path
  forms : List F
  xforms : List (K × X)
  env : K → Option V
  macros : List (K × X)
  final : K → Option V

/-- the state of the loader: `$module-table`, `$module-envs` (module.min:16-18) and the rest; `log` is the history of evaluations, the first one first -/
structure St (K F X V W : Type) where
  table : List (Path × Exports K X V)
  envs : List (Path × (K → Option V) × (K → Option V))
  log : List (Run K F X V)
  w : W

/-- the variables of `$load-module` (module.min:27-32) and the forms left to expand -/
structure Loc (K F X V : Type) where
  exported : List K
  imported : List (K × V)
  xforms : List (K × X)
  modules : List Path
  forms : List F

section

variable {K F X V W : Type} [DecidableEq K]

/-- `assoc` with symbols, `hashtable-ref` with strings -/
def get {A B : Type} [DecidableEq A] (k : A) : List (A × B) → Option B
  | [] => none
  | (a, b) :: xs => if a = k then some b else get k xs

/-- `merge-xforms` (expander.min:74-78) -/
def mergeX (xs : List (K × X)) : List (K × X) → List (K × X)
  | [] => xs
  | x :: new => if (get x.1 xs).isSome then mergeX xs new else mergeX (x :: xs) new

/-- `$eval-environment` (module.min:130-139) -/
def evalEnv (env : K → Option V) : List (K × V) → K → Option V
  | [] => env
  | (k, v) :: xs => evalEnv (fun x => if x = k then some v else env x) xs

variable (L : Lang K F X V W) (files : Path → Option (List (Item K F))) (cwd : Path)

/-- the imports of one `import` form (module.min:56-75); `ld` is `$load-or-import` -/
def impLoop (ld : Path → St K F X V W → Res (St K F X V W)) (cur : Path) : List (Option (List Byte)) → Loc K F X V → St K F X V W → Res (Loc K F X V × St K F X V W)
  | [], l, st => .ok (l, st)
  | none :: _, _, _ => .err
  | some name :: names, l, st =>
    match sibling cur name with
    | none => .err
    | some path => do
      let st ← ld path st
      match get path st.table with
      | none => .err
      | some m => impLoop ld cur names { l with modules := path :: l.modules, xforms := mergeX l.xforms m.xforms, imported := m.vals ++ l.imported } st

/-- the elements of one `export` form (module.min:77-106) -/
def expLoop (cur : Path) (st : St K F X V W) : List (Exp K) → Loc K F X V → Res (Loc K F X V)
  | [], l => .ok l
  | .sym k :: es, l => expLoop cur st es { l with exported := k :: l.exported }
  | .all name :: es, l =>
    match sibling cur name with
    | none => .err
    | some path =>
      if path ∈ l.modules then
        match get path st.table with
        | none => .err
        | some m => expLoop cur st es { l with exported := m.xforms.map Prod.fst ++ m.vals.map Prod.fst ++ l.exported }
      else .err
  | .bad :: _, _ => .err

/-- `$import` (module.min:47-108) -/
def itemLoop (ld : Path → St K F X V W → Res (St K F X V W)) (cur : Path) : List (Item K F) → Loc K F X V → St K F X V W → Res (Loc K F X V × St K F X V W)
  | [], l, st => .ok ({ l with forms := l.forms.reverse }, st)
  | .imp names :: is, l, st => do
    let (l, st) ← impLoop ld cur names l st
    itemLoop ld cur is l st
  | .exp es :: is, l, st => do
    let l ← expLoop cur st es l
    itemLoop ld cur is l st
  | .form f :: is, l, st => itemLoop ld cur is { l with forms := f :: l.forms } st

/-- the exports of a module once it is evaluated (module.min:170-186) -/
def exports (xforms : List (K × X)) (env : K → Option V) : List K → Exports K X V → Res (Exports K X V)
  | [], m => .ok m
  | k :: ks, m =>
    match get k xforms with
    | some x => exports xforms env ks { m with xforms := (k, x) :: m.xforms }
    | none =>
      match env k with
      | some v => exports xforms env ks { m with vals := (k, v) :: m.vals }
      | none => .err

/-- the path in use (module.min:219-222) -/
def resolve (name : Path) : Path := if name.head? = some 47#8 then name else join cwd [name]

/-- `$load-or-import-no-check` with `$load-module` inlined (module.min:21-126, 160-195); `ld` is `$load-or-import` -/
def loadNew (ld : Path → St K F X V W → Res (St K F X V W)) (path : Path) (st : St K F X V W) : Res (St K F X V W) :=
  match files path with
  | none => .err
  | some items => do
    let (l, st) ← itemLoop ld path items ⟨[], [], [], [], []⟩ st
    let (forms, xforms, stxEnv, w) ← L.expand path l.forms l.xforms (L.stx (evalEnv L.base l.imported)) st.w
    let (env, w) ← L.eval forms (evalEnv L.base l.imported) w
    let m ← exports xforms env l.exported ⟨[], []⟩
    .ok { table := (path, m) :: st.table, envs := (path, stxEnv, env) :: st.envs, log := st.log ++ [⟨path, l.forms, l.xforms, evalEnv L.base l.imported, xforms, env⟩], w := w }

/-- `$load-or-import` (module.min:217-225) -/
def load : Nat → Path → St K F X V W → Res (St K F X V W)
  | 0, _, _ => .oof
  | n + 1, name, st =>
    let path := resolve cwd name
    if (get path st.table).isSome then .ok st else loadNew L files (load n) path st

/-- the environments of the prompt that `enter!` starts: that of evaluation and that of expansion (module.min:245-262; `$repl` takes the former first, module.min:198) -/
def enter (st : St K F X V W) (name : Path) : Res ((K → Option V) × (K → Option V)) :=
  match get (resolve cwd name) st.envs with
  | none => .err
  | some (stxEnv, env) => .ok (stxEnv, env)

/-! ### specification -/

/-- Specification: the paths a file imports, in order. -/
def impsOf (p : Path) : List Path :=
  match files p with
  | none => []
  | some items => (items.flatMap fun i => match i with | .imp ns => ns | _ => []).filterMap fun n => n.bind (sibling p)

/-- Specification: the file `p` imports the file `q`. -/
def Imports (p q : Path) : Prop := q ∈ impsOf files p

/-- Specification: `q` is `p` or imported by `p`, directly or not. -/
inductive Reach (p : Path) : Path → Prop where
  | refl : Reach p p
  | step {q r : Path} : Reach p q → Imports files q r → Reach p r

/-- Specification: the forms of a file that are neither imports nor exports. -/
def formsOf (p : Path) : List F :=
  match files p with
  | none => []
  | some items => items.filterMap fun i => match i with | .form f => some f | _ => none

/-- Specification: one element of an `export` form of `p` exports the name, by itself or with all exports of another module. -/
def Exporting (p : Path) (st : St K F X V W) (k : K) : Exp K → Prop
  | .sym k' => k' = k
  | .all name => ∃ q m, sibling p name = some q ∧ get q st.table = some m ∧ (k ∈ m.xforms.map Prod.fst ∨ k ∈ m.vals.map Prod.fst)
  | .bad => False

/-- Specification: the file `p` exports the name. -/
def Listed (p : Path) (st : St K F X V W) (k : K) : Prop := ∃ items es e, files p = some items ∧ Item.exp es ∈ items ∧ e ∈ es ∧ Exporting p st k e

/-- Specification: the first of the modules that has the name. -/
def firstOf {B : Type} (t : Path → Option (List (K × B))) (k : K) : List Path → Option B
  | [] => none
  | p :: ps => match (t p).bind (get k) with | some b => some b | none => firstOf t k ps

end

end Minim.Load
