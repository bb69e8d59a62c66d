import Verif.Hash

set_option autoImplicit false

/-!
# Equality and hashing of objects (src/core/c/object.c, src/core/c/hashtable.c, prelude.min:1837-1934)

Memory maps addresses to objects, so sharing and cycles are represented.  Recursive procedures take fuel; running out of it
(`oof`) stands for a comparison not followed to its end.
-/

namespace Minim.Equal

open Minim.Hash

/-- An object in memory (minim.h:115-137).  `table` is a Scheme hashtable seen through `hashtable-entries`, with the
identities of its hash and equivalence procedures; `other` stands for all types compared by address (closures, ports,
records without equality procedure, ...). -/
inductive Cell where
  | fix (v : Word)
  | chr (c : Byte)
  | str (buf : List Byte)
  | sym (name : List Byte)
  | pair (a d : Word)
  | vec (elts : List Word)
  | box (a : Word)
  | table (hp ep : Nat) (entries : List (Word × Word))
  | other (tag : Nat)
deriving DecidableEq, Repr

/-- memory: the object at an address -/
abbrev Mem := Word → Cell

/-- what `eq?` and `eq-hash` see of an object (hashtable.c:27-37, object.c:78-93) -/
def kind (m : Mem) (a : Word) : EqKind :=
  match m a with
  | .fix v => .fix v
  | .chr c => .chr c
  | _ => .other

/-- `minim_eqp` (object.c:78-93) -/
def eq (m : Mem) (a b : Word) : Bool := eqp (kind m) a b

/-- `eq_hash` (hashtable.c:27-41) -/
def hashEq (m : Mem) (a : Word) : Word := eqHash (kind m) a

/-- the element loop of `minim_vector_equalp` (object.c:99-104) and of `equal-vector?` (prelude.min:1846-1849) -/
def allEqual (f : Word → Word → Res Bool) : List Word → List Word → Res Bool
  | x :: xs, y :: ys => do
    let r ← f x y
    if r then allEqual f xs ys else pure false
  | _, _ => .ok true

/-- `minim_vector_equalp` (object.c:95-105) -/
def vectorEqual (f : Word → Word → Res Bool) (xs ys : List Word) : Res Bool :=
  if xs.length = ys.length then allEqual f xs ys else .ok false

/-- comparison of pairs with `&&` (object.c:121-122; prelude.min:1838-1842) -/
def pairEqual (f : Word → Word → Res Bool) (a1 d1 a2 d2 : Word) : Res Bool := do
  let r ← f a1 a2
  if r then f d1 d2 else pure false

/-- the `switch` of `minim_equalp` (object.c:113-129); `f` is the recursive call -/
def equalBody (f : Word → Word → Res Bool) : Cell → Cell → Res Bool
  | .chr c, .chr d => .ok (c == d)
  | .fix v, .fix w => .ok (v == w)
  | .str s, .str t => .ok (cstr s == cstr t)
  | .pair a1 d1, .pair a2 d2 => pairEqual f a1 d1 a2 d2
  | .vec xs, .vec ys => vectorEqual f xs ys
  | .box x, .box y => f x y
  | _, _ => .ok false

/-- `minim_equalp` (object.c:107-131), the primitive `$equal?`. -/
def equalp (m : Mem) : Nat → Word → Word → Res Bool
  | 0, _, _ => .oof
  | n + 1, a, b => if a = b then .ok true else equalBody (equalp m n) (m a) (m b)

/-- the loop of `equal-hashtable?` (prelude.min:1856-1863): every entry of the first table is looked up in the second.
`same` is the equivalence procedure of the tables, a pure predicate on keys. -/
def subTable (same : Word → Word → Bool) (f : Word → Word → Res Bool) : List (Word × Word) → List (Word × Word) → Res Bool
  | [], _ => .ok true
  | (k, v) :: es, fs =>
    match fs.find? (fun e => same e.1 k) with
    | none => .ok false
    | some e => do
      let r ← f v e.2
      if r then subTable same f es fs else pure false

/-- `equal-hashtable?` (prelude.min:1851-1865) -/
def tableEqual (same : Nat → Word → Word → Bool) (f : Word → Word → Res Bool) (hp ep : Nat) (es : List (Word × Word))
    (hp' ep' : Nat) (fs : List (Word × Word)) : Res Bool :=
  if hp = hp' then (if ep = ep' then subTable (same ep) f es fs else .ok false) else .ok false

/-- the tests of `equal?` after `eq?` (prelude.min:1869-1897); `f` is the recursive call, `base` is `$equal?`.
Simplification: no record type has its own equality procedure and the default one is #f (it cannot be set:
prelude.min:1727 calls the getter), so records are compared by `$equal?`. -/
def schemeBody (same : Nat → Word → Word → Bool) (f base : Word → Word → Res Bool) (a b : Word) : Cell → Cell → Res Bool
  | .str _, _ => base a b
  | .pair a1 d1, .pair a2 d2 => pairEqual f a1 d1 a2 d2
  | .pair _ _, _ => .ok false
  | .vec xs, .vec ys => vectorEqual f xs ys
  | .vec _, _ => .ok false
  | .box x, .box y => f x y
  | .box _, _ => .ok false
  | .table hp ep es, .table hp' ep' fs => tableEqual same f hp ep es hp' ep' fs
  | .table _ _ _, _ => .ok false
  | _, _ => base a b

/-- `equal?` (prelude.min:1837-1897). -/
def equalS (m : Mem) (same : Nat → Word → Word → Bool) : Nat → Word → Word → Res Bool
  | 0, _, _ => .oof
  | n + 1, a, b => if eq m a b then .ok true else schemeBody same (equalS m same n) (equalp m 1) a b (m a) (m b)

/-- `equal_hash_proc` (hashtable.c:235-247) on the objects `equal-hash` gives it, symbols and strings. -/
def textHash (s : List Byte) : Word := hashBytes (cstr s) 5381#64

/-- the loop of `hash-vector` (prelude.min:1903-1910) -/
def hashAll (f : Word → Int → Res Int) : List Word → Int → Res Int
  | [], hc => .ok hc
  | x :: xs, hc => do
    let hc ← f x hc
    hashAll f xs hc

/-- the loop of `equal-hash` (prelude.min:1913-1933).  `hashtable->list` (line 1924) is not defined anywhere, so a table is
an error.  The addition at line 1922 is a C addition of longs, overflow is undefined.  Simplification: no record type has
its own hash procedure. -/
def equalHash (m : Mem) : Nat → Word → Int → Res Int
  | 0, _, _ => .oof
  | n + 1, x, hc =>
    match m x with
    | .sym s => .ok (textHash s).toNat
    | .str s => .ok (textHash s).toNat
    | .pair a d => do
      let h ← equalHash m n a hc
      equalHash m n d h
    | .vec xs => hashAll (equalHash m n) xs hc
    | .box y => if hc + 410225874 < 2 ^ 63 then equalHash m n y (hc + 410225874) else .ub
    | .table _ _ _ => .err
    | _ => .ok (hashEq m x).toNat

end Minim.Equal
