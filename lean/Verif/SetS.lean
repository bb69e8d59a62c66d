import Verif.HashScm

set_option autoImplicit false

/-!
# Sets (src/library/private/set.min)

A set is a record with one immutable field, a hashtable (set.min:36-45), so a set is named by its table in the world of `HashScm`; the values in the table are all `#f`.  The hash and equivalence
procedures are parameters, as there.  A set argument that is no set is an index without table.
-/

namespace Minim.SetS

open Minim.Hash

section
variable {K : Type} (hash : K → Word) (eqv : K → K → Bool)

/-- `set?` -/
def isSet (w : SW K Unit) (t : Nat) : Bool := (w.tables[t]?).isSome

/-- `set-member?` (set.min:62-65) -/
def setMember (w : SW K Unit) (t : Nat) (x : K) : Res Bool := if isSet w t then scmContains hash eqv w t x else .err

/-- `set-count` (set.min:72-75) -/
def setCount (w : SW K Unit) (t : Nat) : Res Nat := if isSet w t then scmSize w t else .err

/-- `set-empty?` (set.min:67-70) -/
def setEmpty (w : SW K Unit) (t : Nat) : Res Bool :=
  if isSet w t then do
    let n ← scmSize w t
    pure (n == 0)
  else .err

/-- `set-add!` (set.min:84-87) -/
def setAdd (w : SW K Unit) (t : Nat) (x : K) : Res (SW K Unit) := if isSet w t then scmSet hash eqv w t x () else .err

/-- `set-remove!` (set.min:89-92) -/
def setRemove (w : SW K Unit) (t : Nat) (x : K) : Res (SW K Unit) := if isSet w t then scmDelete hash eqv w t x else .err

/-- `set-clear!` (set.min:94-97) -/
def setClear (w : SW K Unit) (t : Nat) : Res (SW K Unit) := if isSet w t then scmClear w t else .err

/-- `vector->list` of a vector of keys; a slot that was not filled would be `#f`, which is no key of this model -/
def slots : List (Option K) → Res (List K)
  | [] => .ok []
  | none :: _ => .ub
  | some k :: v => do
    let ks ← slots v
    pure (k :: ks)

/-- `set->list` (set.min:99-102) -/
def setToList (w : SW K Unit) (t : Nat) : Res (List K) :=
  if isSet w t then do
    let v ← scmKeys w t
    slots v
  else .err

/-- `(for-each (lambda (x) (set-add! t x)) xs)` (set.min:44, 81, 163, 169-171, 187, 192) -/
def addAll (t : Nat) : SW K Unit → List K → Res (SW K Unit)
  | w, [] => .ok w
  | w, x :: xs => do
    let w ← setAdd hash eqv w t x
    addAll t w xs

/-- `make-set` (set.min:40-45) -/
def makeSet (w : SW K Unit) (xs : List K) : Res (SW K Unit × Nat) := do
  let w1 ← scmMake w
  let w2 ← addAll hash eqv w.tables.length w1 xs
  pure (w2, w.tables.length)

/-- `set-copy` (set.min:77-82) -/
def setCopy (w : SW K Unit) (t : Nat) : Res (SW K Unit × Nat) :=
  if isSet w t then do
    let (w, c) ← makeSet hash eqv w []
    let xs ← setToList w t
    let w ← addAll hash eqv c w xs
    pure (w, c)
  else .err

/-- the loop of `subset?` (set.min:113-117) -/
def subsetLoop (w : SW K Unit) (t : Nat) : List K → Res Bool
  | [] => .ok true
  | x :: xs => do
    let b ← setMember hash eqv w t x
    if b then subsetLoop w t xs else pure false

/-- `subset?` (set.min:108-117) -/
def subset (w : SW K Unit) (s t : Nat) : Res Bool :=
  if isSet w s && isSet w t then do
    let xs ← setToList w s
    subsetLoop hash eqv w t xs
  else .err

/-- `proper-subset?` (set.min:119-124) -/
def properSubset (w : SW K Unit) (s t : Nat) : Res Bool :=
  if isSet w s && isSet w t then do
    let b ← subset hash eqv w s t
    if b then do
      let c ← subset hash eqv w t s
      pure (!c)
    else pure false
  else .err

/-- `set=?` (set.min:126-131) -/
def setEq (w : SW K Unit) (s t : Nat) : Res Bool :=
  if isSet w s && isSet w t then do
    let b ← subset hash eqv w s t
    if b then subset hash eqv w t s else pure false
  else .err

/-- the outer `for-each` of `set-union` (set.min:167-172) -/
def unionLoop (u : Nat) : SW K Unit → List Nat → Res (SW K Unit)
  | w, [] => .ok w
  | w, s :: ss => do
    let xs ← setToList w s
    let w ← addAll hash eqv u w xs
    unionLoop u w ss

/-- `set-union` (set.min:151-173) -/
def setUnion (w : SW K Unit) (ss : List Nat) : Res (SW K Unit × Nat) :=
  if ss.all (isSet w) then
    match ss with
    | [] => makeSet hash eqv w []
    | [s] => do
      let (w, c) ← makeSet hash eqv w []
      let xs ← setToList w s
      let w ← addAll hash eqv c w xs
      pure (w, c)
    | ss => do
      let (w, u) ← makeSet hash eqv w []
      let w ← unionLoop hash eqv u w ss
      pure (w, u)
  else .err

/-- `(when (set-member? s x) (set-add! i* x))` for the elements of a list (set.min:200-203) -/
def addIf (s i : Nat) : SW K Unit → List K → Res (SW K Unit)
  | w, [] => .ok w
  | w, x :: xs => do
    let b ← setMember hash eqv w s x
    let w ← if b then setAdd hash eqv w i x else pure w
    addIf s i w xs

/-- the loop of `set-intersect` (set.min:193-204) -/
def interLoop : SW K Unit → List Nat → Nat → Res (SW K Unit × Nat)
  | w, [], i => .ok (w, i)
  | w, s :: ss, i => do
    let n ← setCount w i
    if n = 0 then pure (w, i) else do
      let (w, j) ← makeSet hash eqv w []
      let xs ← setToList w i
      let w ← addIf hash eqv s j w xs
      interLoop w ss j

/-- `set-intersect` (set.min:175-204).  Simplified: the branch for one set (184-188) does what the general branch does when no set is left, and is one with it here. -/
def setIntersect (w : SW K Unit) (ss : List Nat) : Res (SW K Unit × Nat) :=
  if ss.all (isSet w) then
    match ss with
    | [] => makeSet hash eqv w []
    | s :: ss => do
      let (w, i) ← makeSet hash eqv w []
      let xs ← setToList w s
      let w ← addAll hash eqv i w xs
      interLoop hash eqv w ss i
  else .err

/-- `(when (set-member? st x) (set-remove! diff x))` for the elements of a list (set.min:218-222) -/
def removeIf (s d : Nat) : SW K Unit → List K → Res (SW K Unit)
  | w, [] => .ok w
  | w, x :: xs => do
    let b ← setMember hash eqv w s x
    let w ← if b then setRemove hash eqv w d x else pure w
    removeIf s d w xs

/-- the loop of `set-subtract` (set.min:213-223) -/
def subLoop (d : Nat) : SW K Unit → List Nat → Res (SW K Unit)
  | w, [] => .ok w
  | w, s :: ss => do
    let xs ← setToList w d
    let w ← removeIf hash eqv s d w xs
    subLoop d w ss

/-- `set-subtract` (set.min:206-223) -/
def setSubtract (w : SW K Unit) (s : Nat) (ss : List Nat) : Res (SW K Unit × Nat) :=
  if (s :: ss).all (isSet w) then do
    let (w, d) ← setCopy hash eqv w s
    let w ← subLoop hash eqv d w ss
    pure (w, d)
  else .err

/-- the toggling `for-each` (set.min:237-242) -/
def toggle (d : Nat) : SW K Unit → List K → Res (SW K Unit)
  | w, [] => .ok w
  | w, x :: xs => do
    let b ← setMember hash eqv w d x
    let w ← if b then setRemove hash eqv w d x else setAdd hash eqv w d x
    toggle d w xs

/-- the loop of `set-symmetric-difference` (set.min:232-243) -/
def symLoop (d : Nat) : SW K Unit → List Nat → Res (SW K Unit)
  | w, [] => .ok w
  | w, s :: ss => do
    let xs ← setToList w s
    let w ← toggle hash eqv d w xs
    symLoop d w ss

/-- `set-symmetric-difference` (set.min:225-243) -/
def setSymDiff (w : SW K Unit) (s : Nat) (ss : List Nat) : Res (SW K Unit × Nat) :=
  if (s :: ss).all (isSet w) then do
    let (w, d) ← setCopy hash eqv w s
    let w ← symLoop hash eqv d w ss
    pure (w, d)
  else .err

end

/-- an operation of a program; sets are numbered in the order in which the program obtained them -/
inductive Op (K : Type) where
  | make (xs : List K)
  | copy (i : Nat)
  | add (i : Nat) (x : K)
  | remove (i : Nat) (x : K)
  | clear (i : Nat)
  | union (is : List Nat)
  | intersect (is : List Nat)
  | subtract (i : Nat) (is : List Nat)
  | symDiff (i : Nat) (is : List Nat)

/-- the sets that a program knows, by number -/
structure St (K : Type) where
  w : SW K Unit
  regs : List Nat

section
variable {K : Type} (hash : K → Word) (eqv : K → K → Bool)

/-- the arguments of an operation -/
def args (s : St K) : List Nat → Res (List Nat)
  | [] => .ok []
  | i :: is =>
    match s.regs[i]? with
    | none => .err
    | some t => do
      let ts ← args s is
      pure (t :: ts)

/-- note the result of an operation -/
def St.push (s : St K) (r : SW K Unit × Nat) : St K := ⟨r.1, s.regs ++ [r.2]⟩

/-- one operation -/
def step (s : St K) : Op K → Res (St K)
  | .make xs => do
    let r ← makeSet hash eqv s.w xs
    pure (s.push r)
  | .copy i =>
    match s.regs[i]? with
    | none => .err
    | some t => do
      let r ← setCopy hash eqv s.w t
      pure (s.push r)
  | .add i x =>
    match s.regs[i]? with
    | none => .err
    | some t => do
      let w ← setAdd hash eqv s.w t x
      pure { s with w := w }
  | .remove i x =>
    match s.regs[i]? with
    | none => .err
    | some t => do
      let w ← setRemove hash eqv s.w t x
      pure { s with w := w }
  | .clear i =>
    match s.regs[i]? with
    | none => .err
    | some t => do
      let w ← setClear s.w t
      pure { s with w := w }
  | .union is => do
    let ts ← args s is
    let r ← setUnion hash eqv s.w ts
    pure (s.push r)
  | .intersect is => do
    let ts ← args s is
    let r ← setIntersect hash eqv s.w ts
    pure (s.push r)
  | .subtract i is =>
    match s.regs[i]? with
    | none => .err
    | some t => do
      let ts ← args s is
      let r ← setSubtract hash eqv s.w t ts
      pure (s.push r)
  | .symDiff i is =>
    match s.regs[i]? with
    | none => .err
    | some t => do
      let ts ← args s is
      let r ← setSymDiff hash eqv s.w t ts
      pure (s.push r)

/-- a program; it goes on after an operation that was refused (arguments are checked before anything is done) -/
def run (s : St K) : List (Op K) → Res (St K)
  | [] => .ok s
  | op :: ops =>
    match step hash eqv s op with
    | .ok s' => run s' ops
    | .err => run s ops
    | .ub => .ub
    | .oof => .oof

end

end Minim.SetS
