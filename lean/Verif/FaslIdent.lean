import Verif.Fasl
import Verif.Intern

set_option autoImplicit false

/-!
# Identity of objects through FASL (src/core/c/fasl.c with src/core/c/symbol.c)

`Verif.Fasl` treats objects as trees.  Here every symbol and heap object has its address, and what `read_fasl` decodes is
allocated and interned in the order in which it is read.
-/

namespace Minim.FaslIdent

open Minim.Fasl Minim.Intern

/-- Objects with addresses.  `leaf` is a datum without parts whose identity does not matter here (strings, fixnums,
characters and the shared constants). -/
inductive Obj where
  | leaf (d : Datum)
  | sym (s : Sym)
  | pair (addr : Nat) (a d : Obj)
  | vec (addr : Nat) (elts : List Obj)
  | baseRtd
  | record (addr : Nat) (rtd : Obj) (fields : List Obj)

mutual
/-- the tree `write_fasl` sees (fasl.c:294-340): line 306 does not distinguish uninterned symbols -/
def erase : Obj → Datum
  | .leaf d => d
  | .sym s => .sym s.name
  | .pair _ a d => .pair (erase a) (erase d)
  | .vec _ es => .vec (eraseList es)
  | .baseRtd => .baseRtd
  | .record _ r fs => .record (erase r) (eraseList fs)
/-- elements of a vector or record -/
def eraseList : List Obj → List Datum
  | [] => []
  | o :: os => erase o :: eraseList os
end

/-- the next free address -/
def alloc (st : St) : Nat × St := (st.next, { st with next := st.next + 1 })

mutual
/-- Allocation by `read_fasl` (fasl.c:100-221) of what it decoded: symbols are interned (line 110), pairs, vectors and
records are new objects (lines 141-151, 161-163, 172-176), the base record type is the existing object (line 212).
Simplification: addresses of strings, fixnums and characters are not tracked. -/
def build (hash : Name → Nat) : Datum → St → Res (Obj × St)
  | .sym s, st => do
    let r ← intern hash st s
    pure (.sym r.1, r.2)
  | .pair a d, st => do
    let ra ← build hash a st
    let rd ← build hash d ra.2
    pure (.pair (alloc rd.2).1 ra.1 rd.1, (alloc rd.2).2)
  | .vec es, st => do
    let r ← buildList hash es st
    pure (.vec (alloc r.2).1 r.1, (alloc r.2).2)
  | .baseRtd, st => .ok (.baseRtd, st)
  | .record rtd fs, st => do
    let rr ← build hash rtd st
    let rf ← buildList hash fs rr.2
    pure (.record (alloc rf.2).1 rr.1 rf.1, (alloc rf.2).2)
  | d, st => .ok (.leaf d, st)
/-- the element loops (fasl.c:162-163, 175-176) -/
def buildList (hash : Name → Nat) : List Datum → St → Res (List Obj × St)
  | [], st => .ok ([], st)
  | d :: ds, st => do
    let r ← build hash d st
    let rs ← buildList hash ds r.2
    pure (r.1 :: rs.1, rs.2)
end

/-- `fasl-write` followed by `fasl-read` (fasl.c:181-221, 294-340) -/
def reload (hash : Name → Nat) (st : St) (x : Obj) : Res (Obj × St) := do
  let b ← writeFasl (erase x)
  let r ← readFasl b
  build hash r.1 st

/-- `eq?` on record type descriptors: same address -/
def eqRtd : Obj → Obj → Bool
  | .record i _ _, .record j _ _ => i == j
  | .baseRtd, .baseRtd => true
  | _, _ => false

/-- `$record-type-parent` (record.c:76-79, minim.h:394): field 1 of the descriptor, `none` for #f. -/
def rtdParent : Obj → Option Obj
  | .record _ _ fs => match (fs[1]? : Option Obj) with
    | some (.leaf .fls) => none
    | some o => some o
    | none => none
  | _ => none

/-- the loop of `record-value?` (prelude.min:1370-1378), which the procedures made by `record-predicate` call;
the fuel bounds the length of the chain of parents -/
def isA (rtd : Obj) : Nat → Obj → Bool
  | 0, _ => false
  | n + 1, r => if eqRtd rtd r then true else
    match rtdParent r with
    | some p => isA rtd n p
    | none => false

end Minim.FaslIdent
