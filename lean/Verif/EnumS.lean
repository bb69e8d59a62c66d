import Verif.SetS

set_option autoImplicit false

/-!
# Enumeration sets (src/library/private/enum.min)

Procedures only; the macro `define-enumeration` (191-235) is not modelled.  Enumeration types and sets are records with immutable fields, named by number.  Elements are those of `SetS`, `sym` tells which
are symbols.  A list that is shared between a caller and the records is an object with a number; its pairs are not modelled one by one: assigning them replaces the contents of the list.
-/

namespace Minim.EnumS

open Minim.Hash Minim.SetS

/-- an `enum-set-type` record (enum.min:27-36): the list and the set of the universe -/
structure Ty where
  univ : Nat
  univSet : Nat
deriving DecidableEq, Repr

/-- an `enum-set` record (enum.min:40-50): type, list and set of the elements -/
structure ES where
  ty : Nat
  vals : Nat
  valSet : Nat
deriving DecidableEq, Repr

/-- the state: tables, lists, enumeration types, enumeration sets -/
structure EW (K : Type) where
  w : SW K Unit
  lists : List (List K)
  types : List Ty
  sets : List ES

section
variable {K : Type} (hash : K → Word) (eqv : K → K → Bool) (sym : K → Bool)

/-- `make-enum-set` (enum.min:47-50): `vals` is the number of a list -/
def mkSet (s : EW K) (ty vals : Nat) : Res (EW K) :=
  match s.lists[vals]? with
  | none => .ub
  | some xs => do
    let (w, t) ← makeSet hash eqv s.w xs
    pure { s with w := w, sets := s.sets ++ [⟨ty, vals, t⟩] }

/-- `make-enum-set` of a list that was just built -/
def mkSetNew (s : EW K) (ty : Nat) (xs : List K) : Res (EW K) := mkSet hash eqv { s with lists := s.lists ++ [xs] } ty s.lists.length

/-- `make-enumeration` (enum.min:64-71) of the list with number `l` -/
def makeEnumeration (s : EW K) (l : Nat) : Res (EW K) :=
  match s.lists[l]? with
  | none => .err
  | some xs =>
    if xs.all sym then do
      let (w, t) ← makeSet hash eqv s.w xs
      mkSet hash eqv { s with w := w, types := s.types ++ [⟨l, t⟩] } s.types.length l
    else .err

/-- the set with the given number and its type; no set is refused (`enum-set?`) -/
def getSet (s : EW K) (e : Nat) : Res (ES × Ty) :=
  match s.sets[e]? with
  | none => .err
  | some es =>
    match s.types[es.ty]? with
    | none => .ub
    | some t => .ok (es, t)

/-- the contents of a list -/
def listOf (s : EW K) (l : Nat) : Res (List K) :=
  match s.lists[l]? with
  | none => .ub
  | some xs => .ok xs

/-- `enum-set->list` (enum.min:73-76): the list itself -/
def toListId (s : EW K) (e : Nat) : Res Nat := do
  let (es, _) ← getSet s e
  pure es.vals

/-- the contents of that list -/
def toList (s : EW K) (e : Nat) : Res (List K) := do
  let l ← toListId s e
  listOf s l

/-- `enum-set-universe` (enum.min:78-82) -/
def univOf (s : EW K) (e : Nat) : Res (EW K) := do
  let (es, t) ← getSet s e
  mkSet hash eqv s es.ty t.univ

/-- the loop of `enum-set-constructor` (enum.min:97-101), and `filter` (list.min:91-97) with a membership test: the elements of a list that pass -/
def keep (f : K → Res Bool) : List K → List K → Res (List K)
  | [], acc => .ok acc.reverse
  | y :: ys, acc => do
    let b ← f y
    keep f ys (if b then y :: acc else acc)

/-- `enum-set-constructor` (enum.min:84-101) and the application of its result to a list -/
def construct (s : EW K) (e : Nat) (xs : List K) : Res (EW K) := do
  let (es, t) ← getSet s e
  if xs.all sym then do
    let (w, x) ← makeSet hash eqv s.w xs
    let u ← listOf s t.univ
    let ys ← keep (setMember hash eqv w x) u []
    mkSetNew hash eqv { s with w := w } es.ty ys
  else .err

/-- `index-of` (list.min:119-124) -/
def indexLoop (x : K) : List K → Nat → Option Nat
  | [], _ => none
  | y :: ys, i => if eqv x y then some i else indexLoop x ys (i + 1)

/-- `enum-set-indexer` (enum.min:103-111) and the application of its result; the index is a natural number here (universes are shorter than 2^61) -/
def index (s : EW K) (e : Nat) (x : K) : Res (Option Nat) := do
  let (_, t) ← getSet s e
  if sym x then do
    let u ← listOf s t.univ
    pure (indexLoop eqv x u 0)
  else .err

/-- `enum-set-member?` (enum.min:113-119) -/
def member (s : EW K) (x : K) (e : Nat) : Res Bool := do
  let (es, _) ← getSet s e
  setMember hash eqv s.w es.valSet x

/-- `$enum-set-subset?` (enum.min:124-128) -/
def subsetOf (s : EW K) (a b : ES × Ty) : Res Bool := do
  let c ← subset hash eqv s.w a.2.univSet b.2.univSet
  if c then subset hash eqv s.w a.1.valSet b.1.valSet else pure false

/-- `enum-set-subset?` (enum.min:130-135) -/
def enumSubset (s : EW K) (e f : Nat) : Res Bool := do
  let a ← getSet s e
  let b ← getSet s f
  subsetOf hash eqv s a b

/-- `enum-set=?` (enum.min:137-142) -/
def enumEq (s : EW K) (e f : Nat) : Res Bool := do
  let a ← getSet s e
  let b ← getSet s f
  let c ← subsetOf hash eqv s a b
  if c then subsetOf hash eqv s b a else pure false

/-- which of the three mergers -/
inductive Merge where
  | union | inter | diff
deriving DecidableEq, Repr

/-- the membership procedures (enum.min:158-170) -/
def mergeTest (w : SW K Unit) (m : Merge) (s1 s2 : Nat) (x : K) : Res Bool :=
  match m with
  | .union => do
    let b ← setMember hash eqv w s1 x
    if b then pure true else setMember hash eqv w s2 x
  | .inter => do
    let b ← setMember hash eqv w s1 x
    if b then setMember hash eqv w s2 x else pure false
  | .diff => do
    let b ← setMember hash eqv w s1 x
    if b then do
      let c ← setMember hash eqv w s2 x
      pure (!c)
    else pure false

/-- `enum-set-merger` (enum.min:144-156): `enum-set-union`, `enum-set-intersect`, `enum-set-difference` -/
def merge (m : Merge) (s : EW K) (e f : Nat) : Res (EW K) := do
  let (a, t) ← getSet s e
  let (b, _) ← getSet s f
  if a.ty = b.ty then do
    let u ← listOf s t.univ
    let ys ← keep (mergeTest hash eqv s.w m a.valSet b.valSet) u []
    mkSetNew hash eqv s a.ty ys
  else .err

/-- `enum-set-complement` (enum.min:172-179) -/
def complement (s : EW K) (e : Nat) : Res (EW K) := do
  let (a, t) ← getSet s e
  let u ← listOf s t.univ
  let ys ← keep (fun x => do
    let b ← setMember hash eqv s.w a.valSet x
    pure (!b)) u []
  mkSetNew hash eqv s a.ty ys

/-- `enum-set-projection` (enum.min:181-190) -/
def projection (s : EW K) (e f : Nat) : Res (EW K) := do
  let (a, _) ← getSet s e
  let (_, t) ← getSet s f
  let vs ← listOf s a.vals
  let ys ← keep (setMember hash eqv s.w t.univSet) vs []
  construct hash eqv sym s f ys

/-- an operation of a program; sets are numbered in the order in which they were made -/
inductive Op (K : Type) where
  | enum (xs : List K)
  | enumOf (e : Nat)
  | univ (e : Nat)
  | construct (e : Nat) (xs : List K)
  | merge (m : Merge) (e f : Nat)
  | complement (e : Nat)
  | projection (e f : Nat)
  | assign (e : Nat) (xs : List K)

/-- one operation: `make-enumeration` of a new list, or of the list of a set; the other procedures; `assign` changes the contents of the list that `enum-set->list` returns with `set-car!` and `set-cdr!` -/
def step (s : EW K) : Op K → Res (EW K)
  | .enum xs => makeEnumeration hash eqv sym { s with lists := s.lists ++ [xs] } s.lists.length
  | .enumOf e => do
    let l ← toListId s e
    makeEnumeration hash eqv sym s l
  | .univ e => univOf hash eqv s e
  | .construct e xs => construct hash eqv sym s e xs
  | .merge m e f => merge hash eqv m s e f
  | .complement e => complement hash eqv s e
  | .projection e f => projection hash eqv sym s e f
  | .assign e xs => do
    let l ← toListId s e
    pure { s with lists := s.lists.set l xs }

/-- a program; it goes on after an operation that was refused -/
def run (s : EW K) : List (Op K) → Res (EW K)
  | [] => .ok s
  | op :: ops =>
    match step hash eqv sym s op with
    | .ok s' => run s' ops
    | .err => run s ops
    | .ub => .ub
    | .oof => .oof

end

end Minim.EnumS
