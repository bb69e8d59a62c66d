import Verif.ListHeap

set_option autoImplicit false

/-!
# Sorting (src/library/private/sort.min)

On the heap of `ListHeap`.  Simplifications: the comparison procedure `less?` reads the heap but does not change it, and does not escape; it may fail.  Lengths are natural numbers.
-/

namespace Minim.LH

/-- a comparison procedure -/
abbrev Less := Heap → V → V → Res Bool

/-- `car` (prelude.min, checked) -/
def pCar (h : Heap) (v : V) : Res V :=
  match pairAt h v with
  | some c => .ok c.1
  | none => .err

/-- `cdr` (prelude.min, checked) -/
def pCdr (h : Heap) (v : V) : Res V :=
  match pairAt h v with
  | some c => .ok c.2
  | none => .err

/-- `set-car!` (prelude.min:505-509) -/
def pSetCar (h : Heap) (v x : V) : Res Heap :=
  match v with
  | .ptr a => match h[a]? with
    | some (.pair _ d) => .ok (h.set a (.pair x d))
    | _ => .err
  | _ => .err

/-- `set-cdr!` (prelude.min:511-515) -/
def pSetCdr (h : Heap) (v d : V) : Res Heap :=
  match v with
  | .ptr a => match h[a]? with
    | some (.pair x _) => .ok (h.set a (.pair x d))
    | _ => .err
  | _ => .err

/-- the inner `loop` of `merge!` (sort.min:18-30) -/
def mergeLoop (less : Less) : Nat → Heap → V → V → V → Res Heap
  | 0, _, _, _, _ => .oof
  | n + 1, h, r, a, b => do
    let y ← pCar h b
    let x ← pCar h a
    let c ← less h y x
    if c then do
      let h ← pSetCdr h r b
      let d ← pCdr h b
      if d = .null then pSetCdr h b a else mergeLoop less n h b a d
    else do
      let h ← pSetCdr h r a
      let d ← pCdr h a
      if d = .null then pSetCdr h a b else mergeLoop less n h a d b

/-- `merge!` (sort.min:17-43) -/
def merge (less : Less) (n : Nat) (h : Heap) (a b : V) : Res (Heap × V) :=
  if a = .null then .ok (h, b) else
  if b = .null then .ok (h, a) else do
    let y ← pCar h b
    let x ← pCar h a
    let c ← less h y x
    if c then do
      let d ← pCdr h b
      let h ← if d = .null then pSetCdr h b a else mergeLoop less n h b a d
      pure (h, b)
    else do
      let d ← pCdr h a
      let h ← if d = .null then pSetCdr h a b else mergeLoop less n h a d b
      pure (h, a)

/-- the inner `step` of `sort!` (sort.min:54-78); the assigned variable `seq` is threaded through: heap, rest of the sequence, result.  `quotient` is `/` (sort.min:10), which truncates. -/
def step (less : Less) (f : Nat) : Nat → Heap → V → Nat → Res (Heap × V × V)
  | 0, _, _, _ => .oof
  | n + 1, h, seq, k =>
    if k > 2 then do
      let j := k / 2
      let (h, seq, a) ← step less f n h seq j
      let (h, seq, b) ← step less f n h seq (k - j)
      let (h, r) ← merge less f h a b
      pure (h, seq, r)
    else if k = 2 then do
      let x ← pCar h seq
      let p2 ← pCdr h seq
      let y ← pCar h p2
      let rest ← pCdr h p2
      let c ← less h y x
      let h ← if c then do
          let h ← pSetCar h seq y
          let q ← pCdr h seq
          pSetCar h q x
        else pure h
      let q ← pCdr h seq
      let h ← pSetCdr h q .null
      pure (h, rest, seq)
    else if k = 1 then do
      let rest ← pCdr h seq
      let h ← pSetCdr h seq .null
      pure (h, rest, seq)
    else pure (h, seq, .null)

/-- `sort!` on a list (sort.min:53-78, 88).  The branch for vectors (sort.min:79-86) is never taken: `sort` is the only caller and passes a list. -/
def sortBang (less : Less) (n : Nat) (h : Heap) (seq : V) : Res (Heap × V) := do
  let k ← pLength n h seq
  let (h, _, r) ← step less n n h seq k
  pure (h, r)

/-- `sort` (sort.min:93-96) -/
def sort (less : Less) (n : Nat) (h : Heap) (seq : V) : Res (Heap × V) :=
  match vecAt h seq with
  | some _ => do
    let (h, l) ← pVectorToList h seq
    let (h, l) ← sortBang less n h l
    pListToVector n h l
  | none => do
    let (h, l) ← pAppend n h [seq, .null]
    sortBang less n h l

end Minim.LH
