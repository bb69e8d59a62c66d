import Verif.Basic

set_option autoImplicit false

/-!
# `syntax-case`: the matcher

Model of library/private/stxcase.min (the macro `syntax-case`) with the procedures of library/private/stx.min and gen-temp.min that its expansion calls.  The macro makes program text; the
text it makes is represented by the type `Code`, one constructor for each form that occurs in it, with the variables it binds under their own names, and `run` evaluates it.

Simplifications: source locations and messages are left out; every raised exception is the outcome `err`; procedures that the generated text refers to (`stx-car`, `map/#f`, `list`, ...) are taken to be
those of the library, i.e. programs do not rebind them; the fixnums in the generated text are integers (they are bounded by lengths of vectors); the recursion over a pattern takes fuel.
-/

namespace Minim.Sc

/-- Symbols: the variables bound by the generated text (stxcase.min:13, 192, 215, 329-331, 401, 639), the identifiers with a special meaning in patterns and templates, the numbered
identifiers of `gen-temp-id` (gen-temp.min:8-13) and all others.  A program may use every one of them. -/
inductive Nm where
  | e | tmp | pre | post | okq | rep | arg | rslt
  | under | dots
  | sc (n : Nat)
  | pv (n : Nat)
  | user (n : Nat)
deriving DecidableEq, Repr

/-- Objects (minim.h:50-77) as far as the matcher distinguishes them.  The elements of a vector are given as a proper list; `other` stands for strings, characters and so on, up to `equal?`. -/
inductive V where
  | null
  | tru
  | fls
  | num (n : Int)
  | sym (s : Nm)
  | other (n : Nat)
  | cons (a d : V)
  | vec (es : V)
  | stx (e : V)
deriving DecidableEq, Repr

/-- A proper list (`list`, list.c). -/
def listV : List V → V
  | [] => .null
  | x :: xs => .cons x (listV xs)

/-- The elements of a proper list; `none` if it is none (`list?`, list.c:16-19). -/
def rawList : V → Option (List V)
  | .null => some []
  | .cons a d => (rawList d).map (a :: ·)
  | _ => none

/-- `list?` (list.c:16-19). -/
def isList (v : V) : Bool := (rawList v).isSome

/-- `syntax?` (syntax.c:59-62). -/
def isStx : V → Bool
  | .stx _ => true
  | _ => false

mutual

/-- `to_syntax` (syntax.c:74-88), `datum->syntax` (prim.c:165); vectors as in `vector_to_syntax` (syntax.c:35-40). -/
def toSyntax : V → V
  | .stx e => .stx e
  | .cons a d => .stx (.cons (toSyntax a) (pairTail d))
  | .vec es => .stx (.vec (pairTail es))
  | .null => .stx .null
  | .tru => .stx .tru
  | .fls => .stx .fls
  | .num n => .stx (.num n)
  | .sym s => .stx (.sym s)
  | .other n => .stx (.other n)

/-- The loop of `pair_to_syntax` over the cdrs (syntax.c:20-29). -/
def pairTail : V → V
  | .cons a d => .cons (toSyntax a) (pairTail d)
  | .null => .null
  | .stx e => .stx e
  | .vec es => .stx (.vec (pairTail es))
  | .tru => .stx .tru
  | .fls => .stx .fls
  | .num n => .stx (.num n)
  | .sym s => .stx (.sym s)
  | .other n => .stx (.other n)

end

/-- `strip_syntax` (syntax.c:91-106), `syntax->datum` (prelude.min:2292-2296). -/
def strip : V → V
  | .stx e => strip e
  | .cons a d => .cons (strip a) (strip d)
  | .vec es => .vec (strip es)
  | .null => .null
  | .tru => .tru
  | .fls => .fls
  | .num n => .num n
  | .sym s => .sym s
  | .other n => .other n

/-- `syntax-e` (prelude.min:2280-2284). -/
def syntaxE : V → Res V
  | .stx e => .ok e
  | _ => .err

/-- The symbol of an identifier, `none` for anything else (`identifier?`, stx.min:12-16). -/
def identOf : V → Option Nm
  | .stx (.sym s) => some s
  | _ => none

/-- `stx-null?` (stx.min:27-33). -/
def stxNull : V → Bool
  | .null => true
  | .stx .null => true
  | _ => false

/-- `stx-pair?` (stx.min:35-41). -/
def stxPair : V → Bool
  | .cons _ _ => true
  | .stx (.cons _ _) => true
  | _ => false

/-- `stx-list?` (stx.min:43-49): of a syntax object only the outermost layer is removed. -/
def stxList : V → Bool
  | .stx e => isList e
  | t => isList t

/-- `stx-vector?` (stx.min:51-57). -/
def stxVector : V → Bool
  | .vec _ => true
  | .stx (.vec _) => true
  | _ => false

/-- `stx-car` (stx.min:59-63). -/
def stxCar : V → Res V
  | .cons a _ => .ok a
  | .stx (.cons a _) => .ok a
  | _ => .err

/-- `stx-cdr` (stx.min:65-69). -/
def stxCdr : V → Res V
  | .cons _ d => .ok d
  | .stx (.cons _ d) => .ok d
  | _ => .err

/-- `vector-length` (prelude.min:1121-1125). -/
def vecLen : V → Res V
  | .vec es => match rawList es with
    | some xs => .ok (.num xs.length)
    | none => .err
  | _ => .err

/-- `stx-vector-ref` (stx.min:71-73, prelude.min:1127-1136): the index must be a fixnum within the vector. -/
def vecRef (s i : V) : Res V := do
  let v ← syntaxE s
  match v, i with
  | .vec es, .num i => match rawList es with
    | some xs => if 0 ≤ i then (match xs[i.toNat]? with | some x => .ok x | none => .err) else .err
    | none => .err
  | _, _ => .err

/-- `stx-null/#f` (stx.min:75-83). -/
def stxNullF (t : V) : V := if stxNull t then .null else .fls

/-- `cons/#f` (stx.min:85-89). -/
def consF (x1 x2 : V) : V := if x2 = .fls then .fls else .cons x1 x2

/-- `append` of two lists (prelude.min:951-956). -/
def append2 (l1 l2 : V) : Res V :=
  match rawList l1, rawList l2 with
  | some xs, some ys => .ok (listV (xs ++ ys))
  | _, _ => .err

/-- `append/#f` (stx.min:91-99). -/
def appendF (l1 l2 : V) : Res V :=
  if l1 = .fls then .ok .fls
  else if l2 = .fls then .ok .fls
  else if l2 = .null then .ok l1
  else append2 l1 l2

/-- `stx->list` (stx.min:108-118). -/
def stxToList : V → V
  | .stx e => if isList e then e else .fls
  | t => match rawList t with
    | some xs => if xs.all isStx then t else .fls
    | none => .fls

/-- The first elements and the rests of all lists; `none` when one of them is empty (`map` of several lists, prelude.min:1037-1043). -/
def headsTails : List (List V) → Option (List V × List (List V))
  | [] => some ([], [])
  | [] :: _ => none
  | (x :: xs) :: rows => (headsTails rows).map fun (hs, ts) => (x :: hs, xs :: ts)

/-- The loop of `(map list row ...)` (prelude.min:1037-1043); `n` bounds the number of turns by the length of the first row. -/
def mapList : Nat → List (List V) → List V
  | 0, _ => []
  | n + 1, rows => match headsTails rows with
    | none => []
    | some (hs, ts) => listV hs :: mapList n ts

/-- `(apply map/#f list rows)` (stx.min:101-106): `#f` if one of the rows is `#f`; the rows must be lists of the same length (prelude.min:997-1013). -/
def applyMapList (t : V) : Res V :=
  match rawList t with
  | none => .err
  | some [] => .err
  | some (r :: rows) =>
    if (r :: rows).any (· = .fls) then .ok .fls
    else match (r :: rows).mapM rawList with
      | none => .err
      | some [] => .err
      | some (x :: xs) => if xs.all (·.length = x.length) then .ok (listV (mapList x.length (x :: xs))) else .err

/-- `split-stx-list` (stx.min:120-136): the elements in front, the rest, and the number `m` (`-1` for a list that should be proper and is not). -/
def splitLoop (n : Int) (prop : Bool) : V → List V × V × Int
  | .cons a d =>
    let (pre, post, m) := splitLoop n prop d
    if m < n then ([], .cons a d, m + 1) else (a :: pre, post, m)
  | .stx (.cons a d) =>
    let (pre, post, m) := splitLoop n prop d
    if m < n then ([], .stx (.cons a d), m + 1) else (a :: pre, post, m)
  | s => ([], s, if prop then (if stxNull s then 0 else -1) else 1)

/-- `split-stx-list` with its third result (stx.min:136). -/
def splitStx (s : V) (n : Nat) (prop : Bool) : List V × V × Bool :=
  let (pre, post, m) := splitLoop n prop s
  (pre, post, m = n)

/-! ### the text that is generated -/

/-- Forms of the text made by `gen-matcher` (stxcase.min:129-608). -/
inductive Code where
  | var (x : Nm)
  /-- `null` and `'()` -/
  | null
  | fls
  | num (n : Int)
  /-- `(quote v)` -/
  | quote (v : V)
  /-- `((lambda (x) body) arg)` and `(let ([x arg]) body)` -/
  | app (x : Nm) (body arg : Code)
  | ite (c t f : Code)
  | stxNullF (c : Code) | stxNull (c : Code) | stxList (c : Code) | stxPair (c : Code) | stxVector (c : Code)
  | isNull (c : Code) | stxCar (c : Code) | stxCdr (c : Code) | stxToList (c : Code) | syntaxE (c : Code) | vecLen (c : Code)
  | consF (a b : Code) | appendF (a b : Code) | equal (a b : Code) | vecRef (s i : Code)
  | add (a b : Code) | sub (a b : Code) | ge (a b : Code) | eqn (a b : Code)
  /-- `(list c)` -/
  | list1 (c : Code)
  /-- `(list null ...)` -/
  | nulls (n : Nat)
  /-- `(map/#f (lambda (x) body) l)` -/
  | mapF (x : Nm) (body l : Code)
  /-- `(apply map/#f list l)` -/
  | applyMapList (l : Code)
  /-- `(let-values ([(pre post ok?) (split-stx-list s n prop?)]) body)` -/
  | split (s : Code) (n : Nat) (prop : Bool) (body : Code)
  /-- `(let loop ([t 0]) (if (= t repeat) '() (cons (stx-vector-ref e (+ k t)) (loop (+ t 1)))))` -/
  | range (e : Code) (k : Int) (rep : Code)
deriving Repr

/-- Environments of the generated text. -/
abbrev Env := Nm → Option V

/-- binding of a variable (`lambda`, `let`) -/
def upd (env : Env) (x : Nm) (v : V) : Env := fun y => if y = x then some v else env y

/-- A truth value as an object. -/
def ofBool (b : Bool) : V := if b then .tru else .fls

/-- a fixnum operation; anything but fixnums raises an exception (prelude.min:517-722) -/
def numOp (f : Int → Int → V) : V → V → Res V
  | .num a, .num b => .ok (f a b)
  | _, _ => .err

/-- the calls of a procedure by `map` with one list, from the left (prelude.min:975-982) -/
def mapRes (f : V → Res V) : List V → Res (List V)
  | [] => .ok []
  | x :: xs => do
    let y ← f x
    let ys ← mapRes f xs
    .ok (y :: ys)

/-- the named `let` over the elements of a vector (stxcase.min:433-459): elements `k + t` for `t` from `t₀` on, `n` turns -/
def rangeLoop (v : V) (k : Int) : Nat → Int → Res (List V)
  | 0, _ => .ok []
  | n + 1, t => do
    let x ← vecRef v (.num (k + t))
    let xs ← rangeLoop v k n (t + 1)
    .ok (x :: xs)

/-- Evaluation of the generated text.  A negative `repeat` would make the named `let` run beyond the vector, which raises an exception. -/
def run : Code → Env → Res V
  | .var x, env => match env x with
    | some v => .ok v
    | none => .err
  | .null, _ => .ok .null
  | .fls, _ => .ok .fls
  | .num n, _ => .ok (.num n)
  | .quote v, _ => .ok v
  | .app x body arg, env => do
    let v ← run arg env
    run body (upd env x v)
  | .ite c t f, env => do
    let v ← run c env
    if v = .fls then run f env else run t env
  | .stxNullF c, env => do let v ← run c env; .ok (Sc.stxNullF v)
  | .stxNull c, env => do let v ← run c env; .ok (ofBool (Sc.stxNull v))
  | .stxList c, env => do let v ← run c env; .ok (ofBool (Sc.stxList v))
  | .stxPair c, env => do let v ← run c env; .ok (ofBool (Sc.stxPair v))
  | .stxVector c, env => do let v ← run c env; .ok (ofBool (Sc.stxVector v))
  | .isNull c, env => do let v ← run c env; .ok (ofBool (v = .null))
  | .stxCar c, env => do let v ← run c env; Sc.stxCar v
  | .stxCdr c, env => do let v ← run c env; Sc.stxCdr v
  | .stxToList c, env => do let v ← run c env; .ok (Sc.stxToList v)
  | .syntaxE c, env => do let v ← run c env; Sc.syntaxE v
  | .vecLen c, env => do let v ← run c env; Sc.vecLen v
  | .consF a b, env => do
    let x ← run a env
    let y ← run b env
    .ok (Sc.consF x y)
  | .appendF a b, env => do
    let x ← run a env
    let y ← run b env
    Sc.appendF x y
  | .equal a b, env => do
    let x ← run a env
    let y ← run b env
    .ok (ofBool (x = y))
  | .vecRef s i, env => do
    let x ← run s env
    let y ← run i env
    Sc.vecRef x y
  | .add a b, env => do
    let x ← run a env
    let y ← run b env
    numOp (fun a b => .num (a + b)) x y
  | .sub a b, env => do
    let x ← run a env
    let y ← run b env
    numOp (fun a b => .num (a - b)) x y
  | .ge a b, env => do
    let x ← run a env
    let y ← run b env
    numOp (fun a b => ofBool (a ≥ b)) x y
  | .eqn a b, env => do
    let x ← run a env
    let y ← run b env
    numOp (fun a b => ofBool (a = b)) x y
  | .list1 c, env => do let v ← run c env; .ok (.cons v .null)
  | .nulls n, _ => .ok (listV (List.replicate n .null))
  | .mapF x body l, env => do
    let v ← run l env
    if v = .fls then .ok .fls else
      match rawList v with
      | none => .err
      | some xs => do
        let ys ← mapRes (fun y => run body (upd env x y)) xs
        .ok (listV ys)
  | .applyMapList l, env => do let v ← run l env; Sc.applyMapList v
  | .split s n prop body, env => do
    let v ← run s env
    let (pre, post, ok) := splitStx v n prop
    run body (upd (upd (upd env .pre (listV pre)) .post post) .okq (ofBool ok))
  | .range e k rep, env => do
    let v ← run e env
    match ← run rep env with
    | .num r => if r < 0 then .err else do
      let xs ← rangeLoop v k r.toNat 0
      .ok (listV xs)
    | _ => .err

/-! ### the generator -/

/-- `...` as an element of a pattern (stxcase.min:81-85, 135-137). -/
def isDots (v : V) : Bool := identOf v = some .dots

/-- `_` as a pattern (stxcase.min:113-114, 131-133). -/
def isWild (v : V) : Bool := identOf v = some .under

/-- `variable?` (stxcase.min:58-64): an identifier that is not among the literals. -/
def isVariable (lits : List Nm) (v : V) : Bool :=
  match identOf v with
  | some s => s ∉ lits
  | none => false

/-- The rest of a pattern, made a syntax object if it is none (stxcase.min:76-80, 89-93, 183-187). -/
def patTail (t : V) : V := if isStx t then t else toSyntax t

/-- The loop over the elements of a vector pattern (stxcase.min:98-112). -/
def varsVec (f : V → Nat → List (Nm × Nat) → Res (List (Nm × Nat))) (depth : Nat) :
    List V → List (Nm × Nat) → Res (List (Nm × Nat))
  | [], vs => .ok vs
  | [x], vs => f x depth vs
  | x :: y :: es, vs =>
    if isDots y then do
      let vs ← f x (depth + 1) vs
      varsVec f depth es vs
    else do
      let vs ← f x depth vs
      varsVec f depth (y :: es) vs

/-- The elements of a vector in a syntax object (`syntax-e` of a bare vector raises an exception). -/
def stxVecElems (p : V) : Res (List V) := do
  match ← syntaxE p with
  | .vec es => match rawList es with
    | some xs => .ok xs
    | none => .err
  | _ => .err

/-- `get-pattern-vars` (stxcase.min:66-127): the variables of a pattern with their depths, last first. -/
def getVars (lits : List Nm) : Nat → V → Nat → List (Nm × Nat) → Res (List (Nm × Nat))
  | 0, _, _, _ => .oof
  | n + 1, p, depth, vs =>
    if stxNull p then .ok vs
    else if stxPair p then do
      let head ← stxCar p
      let tail ← stxCdr p
      let tail := patTail tail
      let dotsNext ← if stxPair tail then (do let nx ← stxCar tail; .ok (isDots nx)) else .ok false
      if dotsNext then do
        let vs ← getVars lits n head (depth + 1) vs
        let after ← stxCdr tail
        getVars lits n (patTail after) depth vs
      else do
        let vs ← getVars lits n head depth vs
        getVars lits n tail depth vs
    else if stxVector p then do
      let es ← stxVecElems p
      varsVec (getVars lits n) depth es vs
    else if isWild p then .ok vs
    else match identOf p with
      | some s => if s ∈ lits then .ok vs else .ok ((s, depth) :: vs)
      | none => do
        let d ← syntaxE p
        if isStx d then .err else .ok vs

/-- The loop that counts the elements in front of and behind the ellipsis (stxcase.min:143-167): the two numbers, whether there is an ellipsis, whether the pattern is a proper list. -/
def countP : V → Nat → Nat → Bool → Res (Nat × Nat × Bool × Bool)
  | .null, be, ae, el => .ok (be, ae, el, true)
  | .stx .null, be, ae, el => .ok (be, ae, el, true)
  | .cons a d, be, ae, el =>
    if isDots a then (if el then .err else if be = 0 then .err else countP d be ae true)
    else if el then countP d be (ae + 1) el else countP d (be + 1) ae el
  | .stx (.cons a d), be, ae, el =>
    if isDots a then (if el then .err else if be = 0 then .err else countP d be ae true)
    else if el then countP d be (ae + 1) el else countP d (be + 1) ae el
  | _, be, ae, el => if el then .ok (be, ae + 1, el, false) else .ok (be + 1, ae, el, false)

/-- The same for vectors (stxcase.min:350-369). -/
def countV : List V → Nat → Nat → Bool → Res (Nat × Nat × Bool)
  | [], be, ae, el => .ok (be, ae, el)
  | a :: es, be, ae, el =>
    if isDots a then (if el then .err else if be = 0 then .err else countV es be ae true)
    else if el then countV es be (ae + 1) el else countV es (be + 1) ae el

/-- `gen-match/datum` (stxcase.min:549-606). -/
def genDatum (lits : List Nm) (p : V) (arg : Code) : Res Code :=
  if stxNull p then .ok (.app .e (.stxNullF (.var .e)) arg)
  else if isWild p then .ok (.app .e .null arg)
  else if isVariable lits p then .ok (.app .e (.list1 (.var .e)) arg)
  else do
    let d ← syntaxE p
    if isStx d then .err
    else .ok (.app .e (.ite (.equal (.quote (strip d)) (.syntaxE (.var .e))) .null .fls) arg)

/-- The chain of `append/#f` over the elements of a vector pattern from index `i` on (stxcase.min:530-542). -/
def genChain (f : V → Code → Res Code) : Nat → List V → Res Code
  | _, [] => .ok .null
  | i, p :: ps => do
    let c ← f p (.vecRef (.var .e) (.num i))
    let r ← genChain f (i + 1) ps
    .ok (.appendF c r)

/-- The chain over the elements behind the ellipsis (stxcase.min:491-507).  The patterns are taken from the front of the vector: `(vector-ref v i)` with `i` from 0 on. -/
def genAfter (f : V → Code → Res Code) (be : Nat) : Nat → List V → Res Code
  | _, [] => .ok .null
  | i, p :: ps => do
    let c ← f p (.vecRef (.var .e) (.add (.add (.num (be - 1)) (.var .rep)) (.num i)))
    let r ← genAfter f be (i + 1) ps
    .ok (.appendF c r)

/-- What is made of the rows of an ellipsis (stxcase.min:225-239, 460-474). -/
def transposeCode : Code :=
  .ite (.var .tmp) (.ite (.isNull (.var .tmp)) (.var .tmp) (.applyMapList (.var .tmp))) .fls

/-- `(- (vector-length (syntax-e e)) k)` (stxcase.min:401-409, 481-490). -/
def repCode (k : Nat) : Code := .sub (.vecLen (.syntaxE (.var .e))) (.num k)

/-- The chain over the elements in front of the one with the ellipsis, then that one, then those behind the ellipsis (stxcase.min:393-517); `front` are the remaining elements in front. -/
def genFront (f : V → Code → Res Code) (last : Res Code) : Nat → List V → Res Code
  | _, [] => last
  | i, p :: ps => do
    let c ← f p (.vecRef (.var .e) (.num i))
    let r ← genFront f last (i + 1) ps
    .ok (.appendF c r)

/-- Vector patterns (stxcase.min:347-545); `nv` counts the variables of a pattern. -/
def genVec (f : V → Code → Res Code) (nv : V → Res Nat) (v : List V) (arg : Code) : Res Code := do
  let (be, ae, el) ← countV v 0 0 false
  let body ←
    if el then do
      let k := be + ae - 1
      let last : Res Code := do
        let p ← match v[be - 1]? with | some p => Res.ok p | none => .err
        let nvars ← nv p
        let c ← f p (.var .e)
        let rows := Code.mapF .e c (.range (.var .e) (be - 1) (.var .rep))
        let ell := Code.app .rep (.ite (.eqn (.var .rep) (.num 0)) (.nulls nvars) (.app .tmp transposeCode rows)) (repCode k)
        let after ← genAfter f be 0 (v.take ae)
        .ok (.appendF ell (.app .rep after (repCode k)))
      let c ← genFront f last 0 (v.take (be - 1))
      Res.ok (Code.ite (.ge (.vecLen (.syntaxE (.var .e))) (.num k)) c .fls)
    else do
      let c ← genChain f 0 v
      Res.ok (Code.ite (.eqn (.vecLen (.syntaxE (.var .e))) (.num v.length)) c .fls)
  .ok (.app .e (.ite (.stxVector (.var .e)) body .fls) arg)

/-- `(stx-car e)` and `(stx-cdr e)` in the generated text -/
abbrev carE : Code := .stxCar (.var .e)
/-- `(stx-cdr e)` in the generated text -/
abbrev cdrE : Code := .stxCdr (.var .e)

mutual

/-- `gen-match/expr` (stxcase.min:139-547). -/
def gen (lits : List Nm) : Nat → V → Code → Res Code
  | 0, _, _ => .oof
  | n + 1, pat, arg =>
    if stxPair pat then do
      let (be, ae, el, prop) ← countP pat 0 0 false
      if !el || ae = 0 then genLoop lits n be el prop pat 0 arg
      else do
        let (pre, post, _) := splitStx pat ae prop
        let c1 ← gen lits n (toSyntax (listV pre)) (.var .pre)
        let c2 ← gen lits n (toSyntax post) (.var .post)
        .ok (.split arg ae prop (.ite (.var .okq) (.appendF c1 c2) .fls))
    else if stxVector pat then do
      let v ← stxVecElems pat
      genVec (gen lits n) (fun p => do let vs ← getVars lits n p 0 []; .ok vs.length) v arg
    else genDatum lits pat arg

/-- The loop over the elements of a list pattern without ellipsis or with the ellipsis at its end (stxcase.min:173-317). -/
def genLoop (lits : List Nm) : Nat → Nat → Bool → Bool → V → Nat → Code → Res Code
  | 0, _, _, _, _, _, _ => .oof
  | n + 1, be, el, prop, pat, idx, arg =>
    if (if prop then idx = be else idx + 1 = be) then genDatum lits (if prop then .stx .null else pat) arg
    else do
      let head ← stxCar pat
      let tail ← stxCdr pat
      let tail := patTail tail
      let body ←
        if el && idx + 1 = be then do
          let vs ← getVars lits n head 0 []
          let c ← gen lits n head (.var .e)
          Res.ok (Code.ite (.stxList (.var .e))
            (.ite (.stxNull (.var .e)) (.nulls vs.length) (.app .tmp transposeCode (.mapF .e c (.stxToList (.var .e))))) .fls)
        else if isWild head then do
          let c ← genLoop lits n be el prop tail (idx + 1) cdrE
          Res.ok (Code.ite (.stxNullF (.var .e)) .fls c)
        else if isVariable lits head then do
          let c ← genLoop lits n be el prop tail (idx + 1) cdrE
          Res.ok (Code.ite (.stxPair (.var .e)) (.consF carE c) .fls)
        else if stxPair head || stxVector head then do
          let c1 ← gen lits n head carE
          let c2 ← genLoop lits n be el prop tail (idx + 1) cdrE
          Res.ok (Code.ite (.stxPair (.var .e)) (.appendF c1 c2) .fls)
        else do
          let c1 ← gen lits n head carE
          let c2 ← genLoop lits n be el prop tail (idx + 1) cdrE
          Res.ok (Code.ite (.stxPair (.var .e)) (.ite c1 c2 .fls) .fls)
      .ok (.app .e body arg)

end

end Minim.Sc
