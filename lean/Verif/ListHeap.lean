import Verif.Basic

set_option autoImplicit false

/-!
# Native lists and vectors on a heap (src/core/c/list.c, src/core/c/vector.c)

Objects are allocated at increasing addresses; pairs and vectors are mutable and may be shared or cyclic.  Loops take fuel.
Dereferencing something that is not an object of the expected kind is undefined behaviour.
-/

namespace Minim.LH

/-- a value: the empty list, #f, the C null pointer, a reference to an object, or an object without parts -/
inductive V where
  | null
  | fals
  | nullptr
  | ptr (a : Nat)
  | atom (n : Nat)
deriving DecidableEq, Repr

/-- an object with parts (minim.h:224-240, 266-275) -/
inductive Obj where
  | pair (a d : V)
  | vec (elts : List V)
deriving DecidableEq, Repr

/-- objects by address, in order of allocation -/
abbrev Heap := List Obj

/-- the pair at a value, if there is one -/
def pairAt (h : Heap) : V → Option (V × V)
  | .ptr a => match h[a]? with
    | some (.pair x d) => some (x, d)
    | _ => none
  | _ => none

/-- the vector at a value, if there is one -/
def vecAt (h : Heap) : V → Option (List V)
  | .ptr a => match h[a]? with
    | some (.vec es) => some es
    | _ => none
  | _ => none

/-- `minim_consp` (minim.h:228) -/
def consp (h : Heap) (v : V) : Bool := (pairAt h v).isSome

/-- `minim_car` (minim.h:229), unchecked -/
def car (h : Heap) (v : V) : Res V :=
  match pairAt h v with
  | some c => .ok c.1
  | none => .ub

/-- `minim_cdr` (minim.h:230), unchecked -/
def cdr (h : Heap) (v : V) : Res V :=
  match pairAt h v with
  | some c => .ok c.2
  | none => .ub

/-- assignment to `minim_cdr` (minim.h:230), unchecked -/
def setCdr (h : Heap) (v d : V) : Res Heap :=
  match v with
  | .ptr a => match h[a]? with
    | some (.pair x _) => .ok (h.set a (.pair x d))
    | _ => .ub
  | _ => .ub

/-- `Mcons` (list.c:7-13): the object goes to address `h.length` -/
def cons (h : Heap) (a d : V) : Heap := h ++ [.pair a d]

/-- the address of the object allocated next -/
def next (h : Heap) : V := .ptr h.length

/-- `minim_listp` (list.c:15-19) -/
def listp (h : Heap) : Nat → V → Res Bool
  | 0, _ => .oof
  | n + 1, x => match pairAt h x with
    | some c => listp h n c.2
    | none => .ok (x == .null)

/-- `make_list` (list.c:21-27), the loop -/
def makeLoop (init : V) : Nat → Heap → V → Heap × V
  | 0, h, l => (h, l)
  | n + 1, h, l => makeLoop init n (cons h init l) (next h)

/-- `make_list` (list.c:21-27) -/
def makeList (h : Heap) (len : Nat) (init : V) : Heap × V := makeLoop init len h .null

/-- `list_length` (list.c:46-51).  Simplification: the counter is a natural number (memory holds fewer than 2^63 pairs,
except for a cyclic list, on which the C loop does not end before the counter overflows). -/
def length (h : Heap) : Nat → V → Res Nat
  | 0, _ => .oof
  | n + 1, x => match pairAt h x with
    | some c => do
      let k ← length h n c.2
      pure (k + 1)
    | none => .ok 0

/-- `list_reverse` (list.c:53-58) -/
def reverse : Nat → Heap → V → V → Res (Heap × V)
  | 0, _, _, _ => .oof
  | n + 1, h, xs, ys => if xs = .null then .ok (h, ys) else do
    let x ← car h xs
    let d ← cdr h xs
    reverse n (cons h x ys) d (next h)

/-- the loops of `copy_list` (list.c:37-40) and `list_append2` (list.c:262-265): `init` is the cdr of the cells when they
are allocated.  Returns the heap and the last cell. -/
def copyLoop (init : V) : Nat → Heap → V → V → Res (Heap × V)
  | 0, _, _, _ => .oof
  | n + 1, h, tl, it => if it = .null then .ok (h, tl) else do
    let x ← car h it
    let d ← cdr h it
    let h' ← setCdr (cons h x init) tl (next h)
    copyLoop init n h' (next h) d

/-- `copy_list` (list.c:29-44) -/
def copyList (n : Nat) (h : Heap) (xs : V) : Res (Heap × V) :=
  if xs = .null then .ok (h, xs) else do
    let x ← car h xs
    let d ← cdr h xs
    let r ← copyLoop .null n (cons h x .null) (next h) d
    pure (r.1, next h)

/-- `list_append2` (list.c:254-270) -/
def append2 (n : Nat) (h : Heap) (xs ys : V) : Res (Heap × V) :=
  if xs = .null then .ok (h, ys) else do
    let x ← car h xs
    let d ← cdr h xs
    let r ← copyLoop .nullptr n (cons h x .nullptr) (next h) d
    let h' ← setCdr r.1 r.2 ys
    pure (h', next h)

/-- the loop of `list_set_tail` (list.c:66) -/
def lastCell (h : Heap) : Nat → V → Res V
  | 0, _ => .oof
  | n + 1, t => do
    let d ← cdr h t
    if consp h d then lastCell h n d else pure t

/-- `list_set_tail` (list.c:60-68) -/
def setTail (n : Nat) (h : Heap) (xs ys : V) : Res Heap :=
  if consp h xs then do
    let t ← lastCell h n xs
    setCdr h t ys
  else .err

/-- `memq` (list.c:272-279); `eqp` is `minim_eqp` -/
def memq (eqp : V → V → Bool) (h : Heap) : Nat → V → V → Res V
  | 0, _, _ => .oof
  | n + 1, xs, k => if xs = .null then .ok .fals else do
    let x ← car h xs
    if eqp x k then pure xs else do
      let d ← cdr h xs
      memq eqp h n d k

/-- `assq_ref` (list.c:281-288) -/
def assqRef (eqp : V → V → Bool) (h : Heap) : Nat → V → V → Res V
  | 0, _, _ => .oof
  | n + 1, xs, k => if xs = .null then .ok .fals else do
    let e ← car h xs
    let key ← car h e
    if eqp key k then pure e else do
      let d ← cdr h xs
      assqRef eqp h n d k

/-- the new entry and the cell holding it, in front of `rest` (list.c:297, 302, 310) -/
def consEntry (h : Heap) (k v rest : V) : Heap := cons (cons h k v) (next h) rest

/-- the loop of `assq_set` (list.c:300-310) -/
def assqLoop (eqp : V → V → Bool) (k v : V) : Nat → Heap → V → V → Res Heap
  | 0, _, _, _ => .oof
  | n + 1, h, tl, xs => if xs = .null then setCdr (consEntry h k v .null) tl (.ptr (h.length + 1)) else do
    let e ← car h xs
    let key ← car h e
    let d ← cdr h xs
    if eqp key k then setCdr (consEntry h key v d) tl (.ptr (h.length + 1))
    else do
      let h' ← setCdr (cons h e .null) tl (next h)
      assqLoop eqp k v n h' (next h) d

/-- `assq_set` (list.c:290-312; the code after line 312 is unreachable) -/
def assqSet (eqp : V → V → Bool) (n : Nat) (h : Heap) (xs k v : V) : Res (Heap × V) :=
  if xs = .null then .ok (consEntry h k v .null, .ptr (h.length + 1)) else do
    let e ← car h xs
    let key ← car h e
    let d ← cdr h xs
    if eqp key k then pure (consEntry h key v d, .ptr (h.length + 1))
    else do
      let h' ← assqLoop eqp k v n (cons h e .null) (next h) d
      pure (h', next h)

/-- the loop of `list_to_vector` (vector.c:63-66): the remaining elements -/
def fillLoop (h : Heap) : Nat → V → Res (List V)
  | 0, _ => .ok []
  | k + 1, it => do
    let x ← car h it
    let d ← cdr h it
    let xs ← fillLoop h k d
    pure (x :: xs)

/-- `list_to_vector` (vector.c:56-69) -/
def listToVector (n : Nat) (h : Heap) (l : V) : Res (Heap × V) := do
  let k ← length h n l
  let es ← fillLoop h k l
  pure (h ++ [.vec es], next h)

/-- the loop of `vector_to_list` (vector.c:74-75), from the last element to the first -/
def consAll : List V → Heap → V → Heap × V
  | [], h, l => (h, l)
  | x :: xs, h, l => consAll xs (cons h x l) (next h)

/-- `vector_to_list` (vector.c:71-77) -/
def vectorToList (h : Heap) (v : V) : Res (Heap × V) :=
  match vecAt h v with
  | some es => .ok (consAll es.reverse h .null)
  | none => .ub

/-! ### the procedures of the prelude -/

/-- `length` (prelude.min:929-933) -/
def pLength (n : Nat) (h : Heap) (xs : V) : Res Nat := do
  let b ← listp h n xs
  if b then length h n xs else .err

/-- `reverse` (prelude.min:935-939) -/
def pReverse (n : Nat) (h : Heap) (xs : V) : Res (Heap × V) := do
  let b ← listp h n xs
  if b then reverse n h xs .null else .err

/-- the loop of `append` (prelude.min:958-964) -/
def appendLoop (n : Nat) : Heap → V → List V → Res (Heap × V)
  | h, acc, [] => .ok (h, acc)
  | h, acc, xs :: xss => do
    let b ← listp h n xs
    if b then do
      let r ← append2 n h xs acc
      appendLoop n r.1 r.2 xss
    else .err

/-- `append` (prelude.min:941-965).  The argument list is a list of values; reversing it (`$reverse xss`) does not touch
the heap of the program. -/
def pAppend (n : Nat) (h : Heap) : List V → Res (Heap × V)
  | [] => .ok (h, .null)
  | [xs] => do
    let b ← listp h n xs
    if b then pure (h, xs) else .err
  | [xs, ys] => do
    let b ← listp h n xs
    if b then do
      let c ← listp h n ys
      if c then append2 n h xs ys else .err
    else .err
  | xss => appendLoop n h .null xss.reverse

/-- `for-each1` (prelude.min:968-974); the procedure may change the heap -/
def forEach1 (f : Heap → V → Res Heap) : Nat → Heap → V → Res Heap
  | 0, _, _ => .oof
  | n + 1, h, xs => if xs = .null then .ok h else do
    let x ← car h xs
    let h' ← f h x
    let d ← cdr h' xs
    forEach1 f n h' d

/-- `for-each` with one list (prelude.min:1017-1019): the list is checked once, before the first call -/
def pForEach (f : Heap → V → Res Heap) (n : Nat) (h : Heap) (xs : V) : Res Heap := do
  let b ← listp h n xs
  if b then forEach1 f n h xs else .err

/-- `list->vector` (prelude.min:1153-1157) -/
def pListToVector (n : Nat) (h : Heap) (xs : V) : Res (Heap × V) := do
  let b ← listp h n xs
  if b then listToVector n h xs else .err

/-- `vector->list` (prelude.min:1159-1163) -/
def pVectorToList (h : Heap) (v : V) : Res (Heap × V) :=
  match vecAt h v with
  | some _ => vectorToList h v
  | none => .err

end Minim.LH
