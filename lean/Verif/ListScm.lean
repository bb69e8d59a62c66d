import Verif.Num

set_option autoImplicit false

/-!
# Lists of the prelude and of the library (prelude.min:921-1099, library/private/list.min)

Values are trees (no mutation of pairs; mutation is the subject of `ListHeap.lean`).  A procedure is a function from its
arguments and a state of an arbitrary type `S` to a result and a new state, an error or undefined behaviour, so callbacks
with side effects are covered.
-/

namespace Minim.LS

/-- a Scheme value; `atom` stands for everything else.  Fixnums are words (minim.h). -/
inductive Sv where
  | null
  | bool (b : Bool)
  | num (w : Word)
  | pair (a d : Sv)
  | atom (n : Nat)
deriving DecidableEq, Repr

/-- a procedure applied to a list of arguments in a state -/
abbrev Fn (S : Type) := List Sv → S → Res (Sv × S)

/-- the list with the given elements (the list a Scheme program sees for a rest argument, prelude.min:921) -/
def ofList : List Sv → Sv
  | [] => .null
  | x :: xs => .pair x (ofList xs)

/-- what counts as true in `if` (eval.c: everything but #f) -/
def truthy (v : Sv) : Bool := v != .bool false

/-- `list?` (list.c:15-19) -/
def listp : Sv → Bool
  | .null => true
  | .pair _ d => listp d
  | _ => false

/-- `$length` (list.c:46-51).  Simplification: a natural number. -/
def length : Sv → Nat
  | .pair _ d => length d + 1
  | _ => 0

/-- `$car` (minim.h:229), unchecked -/
def uCar : Sv → Res Sv
  | .pair a _ => .ok a
  | _ => .ub

/-- `$cdr` (minim.h:230), unchecked -/
def uCdr : Sv → Res Sv
  | .pair _ d => .ok d
  | _ => .ub

/-- `$reverse` (list.c:53-58) onto `ys` -/
def reverseOnto : Sv → Sv → Res Sv
  | .null, ys => .ok ys
  | .pair a d, ys => reverseOnto d (.pair a ys)
  | _, _ => .ub

/-- `reverse` (prelude.min:935-939) -/
def reverse (xs : Sv) : Res Sv := if listp xs then reverseOnto xs .null else .err

/-- `$append2` (list.c:254-270) -/
def append2 : Sv → Sv → Res Sv
  | .null, ys => .ok ys
  | .pair a d, ys => do
    let r ← append2 d ys
    pure (.pair a r)
  | _, _ => .ub

/-- `append` with two arguments (prelude.min:951-956) -/
def append (xs ys : Sv) : Res Sv := if listp xs then (if listp ys then append2 xs ys else .err) else .err

/-! ### map, for-each, andmap, ormap -/

section
variable {S : Type}

/-- the comparison with the length of the list before, if there is one (prelude.min:1006-1008) -/
def sameLen (prev : Option Nat) (len : Nat) : Bool :=
  match prev with
  | some k => k == len
  | none => true

/-- the loop of `check-args!` (prelude.min:1000-1011) -/
def checkLoop : Option Nat → List Sv → Res Unit
  | _, [] => .ok ()
  | prev, xs :: xss =>
    if listp xs then
      (if sameLen prev (length xs) then checkLoop (some (length xs)) xss else .err)
    else .err

/-- `check-args!` (prelude.min:997-1013); `none` stands for an argument that is not a procedure.  Returns the procedure. -/
def checkArgs (f : Option (Fn S)) (xss : List Sv) : Res (Fn S) :=
  match f with
  | some f => do
    checkLoop none xss
    pure f
  | none => .err

/-- `for-each1` (prelude.min:968-974) -/
def forEach1 (f : Fn S) : Sv → S → Res S
  | .null, s => .ok s
  | .pair x d, s => do
    let r ← f [x] s
    forEach1 f d r.2
  | _, _ => .ub

/-- the loop of `map1` (prelude.min:977-982) -/
def map1Loop (f : Fn S) : Sv → Sv → S → Res (Sv × S)
  | .null, acc, s => do
    let r ← reverse acc
    pure (r, s)
  | .pair x d, acc, s => do
    let r ← f [x] s
    map1Loop f d (.pair r.1 acc) r.2
  | _, _, _ => .ub

/-- `andmap1` (prelude.min:983-989) -/
def andmap1 (f : Fn S) : Sv → S → Res (Sv × S)
  | .null, s => .ok (.bool true, s)
  | .pair x d, s => do
    let r ← f [x] s
    if truthy r.1 then andmap1 f d r.2 else pure (.bool false, r.2)
  | _, _ => .ub

/-- `ormap1` (prelude.min:990-996) -/
def ormap1 (f : Fn S) : Sv → S → Res (Sv × S)
  | .null, s => .ok (.bool false, s)
  | .pair x d, s => do
    let r ← f [x] s
    if truthy r.1 then pure (.bool true, r.2) else ormap1 f d r.2
  | _, _ => .ub

/-- `(ormap1 null? xss)` (prelude.min:1024, 1039, 1053, 1068) -/
def anyNull (xss : List Sv) : Bool := xss.any (· == .null)

/-- `(map1 $car xss)` and `(map1 $cdr xss)` (prelude.min:1027-1028, 1041-1042, 1055-1056, 1070-1072) -/
def mapU (g : Sv → Res Sv) : List Sv → Res (List Sv)
  | [] => .ok []
  | x :: xs => do
    let y ← g x
    let ys ← mapU g xs
    pure (y :: ys)

/-- the loop of `for-each` over several lists (prelude.min:1022-1029) -/
def forEachLoop (f : Fn S) : Nat → List Sv → S → Res S
  | 0, _, _ => .oof
  | n + 1, xss, s => if anyNull xss then .ok s else do
    let as ← mapU uCar xss
    let r ← f as s
    let ds ← mapU uCdr xss
    forEachLoop f n ds r.2

/-- the loop of `map` over several lists (prelude.min:1037-1043).  The arguments of `loop` are evaluated from the left, but
`(map1 $cdr xss)` has no effects. -/
def mapLoop (f : Fn S) : Nat → List Sv → Sv → S → Res (Sv × S)
  | 0, _, _, _ => .oof
  | n + 1, xss, acc, s => if anyNull xss then (do let r ← reverse acc; pure (r, s)) else do
    let ds ← mapU uCdr xss
    let as ← mapU uCar xss
    let r ← f as s
    mapLoop f n ds (.pair r.1 acc) r.2

/-- the loop of `andmap` over several lists (prelude.min:1051-1058) -/
def andmapLoop (f : Fn S) : Nat → List Sv → S → Res (Sv × S)
  | 0, _, _ => .oof
  | n + 1, xss, s => if anyNull xss then .ok (.bool true, s) else do
    let as ← mapU uCar xss
    let r ← f as s
    if truthy r.1 then (do let ds ← mapU uCdr xss; andmapLoop f n ds r.2) else pure (.bool false, r.2)

/-- the loop of `ormap` over several lists (prelude.min:1066-1073) -/
def ormapLoop (f : Fn S) : Nat → List Sv → S → Res (Sv × S)
  | 0, _, _ => .oof
  | n + 1, xss, s => if anyNull xss then .ok (.bool false, s) else do
    let as ← mapU uCar xss
    let r ← f as s
    if truthy r.1 then pure (.bool true, r.2) else (do let ds ← mapU uCdr xss; ormapLoop f n ds r.2)

/-- `for-each` (prelude.min:1016-1029); without lists no clause applies -/
def forEach (n : Nat) (f : Option (Fn S)) (xss : List Sv) (s : S) : Res S :=
  match xss with
  | [] => .err
  | [xs] => do
    let g ← checkArgs f [xs]
    forEach1 g xs s
  | xss => do
    let g ← checkArgs f xss
    forEachLoop g n xss s

/-- `map` (prelude.min:1031-1043) -/
def map (n : Nat) (f : Option (Fn S)) (xss : List Sv) (s : S) : Res (Sv × S) :=
  match xss with
  | [] => .err
  | [xs] => do
    let g ← checkArgs f [xs]
    map1Loop g xs .null s
  | xss => do
    let g ← checkArgs f xss
    mapLoop g n xss .null s

/-- `andmap` (prelude.min:1045-1058) -/
def andmap (n : Nat) (f : Option (Fn S)) (xss : List Sv) (s : S) : Res (Sv × S) :=
  match xss with
  | [] => .err
  | [xs] => do
    let g ← checkArgs f [xs]
    andmap1 g xs s
  | xss => do
    let g ← checkArgs f xss
    andmapLoop g n xss s

/-- `ormap` (prelude.min:1060-1073) -/
def ormap (n : Nat) (f : Option (Fn S)) (xss : List Sv) (s : S) : Res (Sv × S) :=
  match xss with
  | [] => .err
  | [xs] => do
    let g ← checkArgs f [xs]
    ormap1 g xs s
  | xss => do
    let g ← checkArgs f xss
    ormapLoop g n xss s

end

/-! ### iota, make-list, enumerate -/

/-- `non-negative-integer?` (prelude.min:563-569) -/
def nonNeg : Sv → Bool
  | .num w => (0#64).sle w
  | _ => false

/-- the loop of `iota` (prelude.min:1078-1084) -/
def iotaLoop : Nat → Word → Sv → Res Sv
  | 0, _, _ => .oof
  | m + 1, n, xs =>
    if Num.fx2Gt n 0#64 then do
      let n2 ← Num.fx2Sub n 2#64
      let n1 ← Num.fx2Sub n 1#64
      iotaLoop m n2 (.pair (.num n1) (.pair (.num n) xs))
    else if Num.fx2Eq n 0#64 then .ok (.pair (.num 0#64) xs) else .ok xs

/-- `iota` (prelude.min:1075-1086) -/
def iota (m : Nat) (n : Sv) : Res Sv :=
  match n with
  | .num w => if nonNeg n then (do let k ← Num.fx2Sub w 1#64; iotaLoop m k .null) else .err
  | _ => .err

/-- the loop of `$make-list` (list.c:21-27) -/
def makeLoop (init : Sv) : Nat → Sv → Sv
  | 0, l => l
  | n + 1, l => makeLoop init n (.pair init l)

/-- `make-list` (prelude.min:923-927) -/
def makeList (len init : Sv) : Res Sv :=
  match len with
  | .num w => if Num.fx2Ge w 0#64 then .ok (makeLoop init w.toNat .null) else .err
  | _ => .err

/-- the loop of `enumerate` (prelude.min:1091-1097) -/
def enumLoop : Sv → Word → Sv → Res Sv
  | .null, _, acc => reverseOnto acc .null
  | .pair x d, i, acc => do
    let j ← Num.fx2Add i 1#64
    enumLoop d j (.pair (.pair x (.num i)) acc)
  | _, _, _ => .ub

/-- `enumerate` (prelude.min:1088-1099) -/
def enumerate (xs : Sv) : Res Sv := if listp xs then enumLoop xs 0#64 .null else .err

/-! ### library/private/list.min -/

/-- `cons*` (list.min:18-21): the first argument and the rest -/
def consStar : Sv → List Sv → Sv
  | x, [] => x
  | x, y :: ys => .pair x (consStar y ys)

/-- `car` (prelude.min, checked) -/
def car : Sv → Res Sv
  | .pair a _ => .ok a
  | _ => .err

/-- `cdr` (prelude.min, checked) -/
def cdr : Sv → Res Sv
  | .pair _ d => .ok d
  | _ => .err

/-- `first` (list.min:25-28) -/
def first (xs : Sv) : Res Sv := if listp xs then car xs else .err

/-- the loop of the accessors (list.min:35-40).  Simplification: the position, a literal between 2 and 10 that is counted
down to 1, is a natural number. -/
def accLoop : Sv → Nat → Res Sv
  | .pair a d, pos => if pos = 1 then .ok a else accLoop d (pos - 1)
  | _, _ => .err

/-- `define-list-accessor` (list.min:30-41) -/
def accessor (npos : Nat) (xs : Sv) : Res Sv := if listp xs then accLoop xs npos else .err

/-- `second` ... `tenth` (list.min:43-51) -/
def second := accessor 2
/-- list.min:44 -/
def third := accessor 3
/-- list.min:45 -/
def fourth := accessor 4
/-- list.min:46 -/
def fifth := accessor 5
/-- list.min:47 -/
def sixth := accessor 6
/-- list.min:48 -/
def seventh := accessor 7
/-- list.min:49 -/
def eighth := accessor 8
/-- list.min:50 -/
def ninth := accessor 9
/-- list.min:51 -/
def tenth := accessor 10

/-- the loop of `list-ref` (list.min:56-59); `car` and `cdr` of something else than a pair are errors -/
def refLoop (k : Word) : Sv → Word → Res Sv
  | .null, _ => .err
  | .pair a d, i => if Num.fx2Eq i k then .ok a else do
    let j ← Num.fx2Add i 1#64
    refLoop k d j
  | _, _ => .err

/-- `list-ref` (list.min:53-59) -/
def listRef (lst k : Sv) : Res Sv :=
  match k with
  | .num w => if nonNeg k then refLoop w lst 0#64 else .err
  | _ => .err

/-- `member` (list.min:63-67); `eqp` is `equal?` -/
def member (eqp : Sv → Sv → Bool) (k : Sv) : Sv → Res Sv
  | .null => .ok (.bool false)
  | .pair a d => if eqp a k then .ok a else member eqp k d
  | _ => .err

/-- `remove` (list.min:69-75), also `loop2` of `remove*` (list.min:84-89) -/
def remove (eqp : Sv → Sv → Bool) (k : Sv) : Sv → Res Sv
  | .null => .ok .null
  | .pair a d => if eqp a k then remove eqp k d else do
    let r ← remove eqp k d
    pure (.pair a r)
  | _ => .err

/-- the loop of `remove*` (list.min:80-89) -/
def removeLoop (eqp : Sv → Sv → Bool) : Sv → Sv → Res Sv
  | .null, xs => .ok xs
  | .pair k ks, xs => if xs = .null then .ok .null else do
    let ys ← remove eqp k xs
    removeLoop eqp ks ys
  | _, _ => .err

/-- `remove*` (list.min:77-89) -/
def removeStar (eqp : Sv → Sv → Bool) (ks xs : Sv) : Res Sv := if listp ks then removeLoop eqp ks xs else .err

section
variable {S : Type}

/-- the loop of `filter` (list.min:92-97) -/
def filterLoop (f : Fn S) : Sv → Sv → S → Res (Sv × S)
  | .null, acc, s => do
    let r ← reverse acc
    pure (r, s)
  | .pair a d, acc, s => do
    let r ← f [a] s
    if truthy r.1 then filterLoop f d (.pair a acc) r.2 else filterLoop f d acc r.2
  | _, _, _ => .err

/-- `filter` (list.min:91-97) -/
def filter (f : Fn S) (lst : Sv) (s : S) : Res (Sv × S) := filterLoop f lst .null s

/-- `foldl` (list.min:99-103) -/
def foldl (f : Fn S) : Sv → Sv → S → Res (Sv × S)
  | acc, .null, s => .ok (acc, s)
  | acc, .pair a d, s => do
    let r ← f [acc, a] s
    foldl f r.1 d r.2
  | _, _, _ => .err

/-- `foldr` (list.min:105-109) -/
def foldr (f : Fn S) (acc : Sv) : Sv → S → Res (Sv × S)
  | .null, s => .ok (acc, s)
  | .pair a d, s => do
    let r ← foldr f acc d s
    f [r.1, a] r.2
  | _, _ => .err

end

/-- `assoc` (list.min:111-117) -/
def assoc (eqp : Sv → Sv → Bool) (k : Sv) : Sv → Res Sv
  | .null => .ok (.bool false)
  | .pair (.pair a v) d => if eqp k a then .ok (.pair a v) else assoc eqp k d
  | _ => .err

/-- the loop of `index-of` (list.min:120-124) -/
def indexLoop (eqp : Sv → Sv → Bool) (k : Sv) : Sv → Word → Res Sv
  | .null, _ => .ok (.bool false)
  | .pair a d, i => if eqp k a then .ok (.num i) else do
    let j ← Num.fx2Add i 1#64
    indexLoop eqp k d j
  | _, _ => .err

/-- `index-of` (list.min:119-124) -/
def indexOf (eqp : Sv → Sv → Bool) (k lst : Sv) : Res Sv := indexLoop eqp k lst 0#64

/-- the loop of `list-set` (list.min:129-134); the index is compared before `xs` is known to be a pair, `cdr` is checked -/
def setLoop (k : Word) (v : Sv) : Sv → Word → Sv → Res Sv
  | .null, _, _ => .err
  | .pair a d, i, acc => if Num.fx2Eq i k then (do
      let r ← reverse acc
      append r (.pair v d))
    else do
      let j ← Num.fx2Add i 1#64
      setLoop k v d j (.pair a acc)
  | _, _, _ => .err

/-- `list-set` (list.min:126-134) -/
def listSet (lst k v : Sv) : Res Sv :=
  match k with
  | .num w => if nonNeg k then setLoop w v lst 0#64 .null else .err
  | _ => .err

end Minim.LS
