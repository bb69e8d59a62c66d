import Verif.Basic

set_option autoImplicit false

/-!
# Records

Model of record.c and of the record procedures of the prelude (prelude.min:1222-1449, 1743-1832).

Record types and records live in two lists of a store and are referred to by their index (two types are `eq?` exactly if they are the
same entry).  The eq-hashtables that hold custom procedures are finite maps (that hashtables behave like finite maps is C05-C08 for the native
and C69-C71 for the Scheme tables).  Sizes and positions are natural numbers: they count fields that exist in memory.
-/

namespace Minim.Rec

/-- A field specification, an element of the vector given to `make-record-type-descriptor`: `(mutable name)`, `(immutable name)`,
or anything else (`bad`). -/
inductive FSpec where
  | spec (isMutable : Bool) (name : Nat)
  | bad
deriving DecidableEq, Repr

/-- Values the record procedures tell apart.  `ctor`, `pred`, `acc` and `mutr` are the closures made by `record-constructor`,
`record-predicate`, `record-accessor` and `record-mutator` with the variables they capture (prelude.min:1390-1396, 1403-1406, 1412-1425, 1433-1446);
`proc` is any other procedure. -/
inductive Val where
  | fls
  | tru
  | num (w : Word)
  | sym (n : Nat)
  | fvec (fs : List FSpec)
  | rtd (i : Nat)
  | rcd (i : Nat)
  | proc (n : Nat)
  | ctor (t : Nat) (size : Nat)
  | pred (t : Nat)
  | acc (t : Nat) (pos : Nat)
  | mutr (t : Nat) (pos : Nat)
  | other (n : Nat)
deriving DecidableEq, Repr

/-- Contents of a record type descriptor (minim.h:392-403); the protocol field, always `#f`, is left out. -/
structure Rtd where
  name : Val
  parent : Val
  uid : Val
  sealed : Val
  opq : Val
  fields : List FSpec
deriving DecidableEq, Repr

/-- A record (`Mrecord`, record.c:7-13): its type and its fields. -/
structure Rcd where
  rtd : Nat
  fields : List Val
deriving DecidableEq, Repr

/-- The record types, the records, and the three tables of custom procedures (prelude.min:1744-1745, 1815). -/
structure Store where
  rtds : List Rtd
  rcds : List Rcd
  eqT : List (Nat × Val)
  hashT : List (Nat × Val)
  wrT : List (Nat × Val)
deriving DecidableEq, Repr

/-- Reading a record type descriptor through the macros of minim.h:392-403: undefined on anything that is none. -/
def rtdOf (s : Store) : Val → Res Rtd
  | .rtd i => match s.rtds[i]? with
    | some t => .ok t
    | none => .ub
  | _ => .ub

/-- Reading a record (minim.h, `minim_record_rtd`, `minim_record_ref`). -/
def rcdOf (s : Store) : Val → Res Rcd
  | .rcd i => match s.rcds[i]? with
    | some r => .ok r
    | none => .ub
  | _ => .ub

/-- `make_rtd` (record.c:56-69); `minim_vector_len` of something that is no vector is undefined. -/
def makeRtd (s : Store) (name parent uid sealed opq : Val) : Val → Res (Store × Val)
  | .fvec fs => .ok ({ s with rtds := s.rtds ++ [⟨name, parent, uid, sealed, opq, fs⟩] }, .rtd s.rtds.length)
  | _ => .ub

/-- `record_rtdp` (record.c:33-35). -/
def isRtd : Val → Bool
  | .rtd _ => true
  | _ => false

/-- `record_valuep` (record.c:28-30). -/
def isValue : Val → Bool
  | .rcd _ => true
  | _ => false

/-- `procedure?`. -/
def isProc : Val → Bool
  | .proc _ | .ctor _ _ | .pred _ | .acc _ _ | .mutr _ _ => true
  | _ => false

/-- `rtd_length` (record.c:96-99). -/
def rtdLength (s : Store) (t : Val) : Res Nat := do
  let r ← rtdOf s t
  .ok r.fields.length

/-- `rtd_fields` (record.c:101-107): `minim_cadr` of each field specification. -/
def rtdFieldNames : List FSpec → Res (List Nat)
  | [] => .ok []
  | .spec _ n :: fs => do
    let ns ← rtdFieldNames fs
    .ok (n :: ns)
  | .bad :: _ => .ub

/-- `rtd_field_mutablep` (record.c:109-113). -/
def rtdFieldMutable (s : Store) (t : Val) (i : Nat) : Res Bool := do
  let r ← rtdOf s t
  match r.fields[i]? with
  | some (.spec m _) => .ok m
  | _ => .ub

/-- `make_record` (record.c:115-128). -/
def makeRecord (s : Store) (t : Nat) (args : List Val) : Store × Val :=
  ({ s with rcds := s.rcds ++ [⟨t, args⟩] }, .rcd s.rcds.length)

/-- `record_ref_proc` (record.c:135-138), no bounds check. -/
def recordRef (s : Store) (r : Val) (pos : Nat) : Res Val := do
  let x ← rcdOf s r
  match x.fields[pos]? with
  | some v => .ok v
  | none => .ub

/-- `record_set_proc` (record.c:140-144), no bounds check. -/
def recordSet (s : Store) (r : Val) (pos : Nat) (v : Val) : Res Store :=
  match r with
  | .rcd i => match s.rcds[i]? with
    | some x => if pos < x.fields.length then .ok { s with rcds := s.rcds.set i { x with fields := x.fields.set pos v } } else .ub
    | none => .ub
  | _ => .ub

/-! ## Custom procedures -/

/-- One-argument case of `record-type-equal-procedure`, `record-type-hash-procedure` and `record-writer` (prelude.min:1769-1772, 1781-1784,
1823-1826): the table entry or `#f`.  For a non-descriptor `non-rtd-error` is called, whose body names the unbound variable `v_`: an error as well. -/
def tableRef (t : List (Nat × Val)) : Val → Res Val
  | .rtd i => .ok ((t.lookup i).getD .fls)
  | _ => .err

/-- Two-argument case of the same procedures (prelude.min:1773-1778, 1785-1790, 1827-1832). -/
def tableSet (t : List (Nat × Val)) : Val → Val → Res (List (Nat × Val))
  | .rtd i, p => if isProc p then .ok ((i, p) :: t) else .err
  | _, _ => .err

/-- `(if rec-equal? (record-type-equal-procedure rtd rec-equal?) (void))` (prelude.min:1311-1316). -/
def inherit (t : List (Nat × Val)) (new p : Val) : Res (List (Nat × Val)) :=
  if p = .fls then .ok t else tableSet t new p

/-- `make-record-type-descriptor` (prelude.min:1305-1321).  The checks of its arguments (prelude.min:1238-1304) are defined but never called.
Line 1318 is `(record-writer rec-writer)`, with the parent's writer as the only argument.  (If an error occurs the new type is reachable by
nobody; the model drops it.) -/
def makeType (s : Store) (name parent uid sealed opq fields : Val) : Res (Store × Val) := do
  let (s1, t) ← makeRtd s name parent uid sealed opq fields
  if parent = .fls then .ok (s1, t) else do
    let e ← tableRef s1.eqT parent
    let h ← tableRef s1.hashT parent
    let w ← tableRef s1.wrT parent
    let eqT ← inherit s1.eqT t e
    let hashT ← inherit s1.hashT t h
    if w = .fls then .ok ({ s1 with eqT := eqT, hashT := hashT }, t) else do
      let _ ← tableRef s1.wrT w
      .ok ({ s1 with eqT := eqT, hashT := hashT }, t)

/-! ## Inspection -/

/-- The loop of `record-size` (prelude.min:1360-1369). -/
def recordSize (s : Store) : Nat → Val → Nat → Res Nat
  | 0, _, _ => .oof
  | n + 1, t, size => do
    let r ← rtdOf s t
    if r.parent = .fls then .ok (size + r.fields.length) else recordSize s n r.parent (size + r.fields.length)

/-- The loop of `record-value?` (prelude.min:1370-1378). -/
def recordValueLoop (s : Store) (t : Nat) : Nat → Val → Res Bool
  | 0, _ => .oof
  | n + 1, v => if v = .rtd t then .ok true else do
    let r ← rtdOf s v
    if r.parent = .fls then .ok false else recordValueLoop s t n r.parent

/-- `record?` (prelude.min:1380-1383): records of opaque types are not recognised. -/
def pRecord (s : Store) (v : Val) : Res Bool :=
  if isValue v then do
    let r ← rcdOf s v
    let t ← rtdOf s (.rtd r.rtd)
    .ok (t.opq == .fls)
  else .ok false

/-- `record-rtd` (prelude.min:1384-1387). -/
def pRecordRtd (s : Store) (v : Val) : Res Val := do
  let b ← pRecord s v
  if b then do
    let r ← rcdOf s v
    .ok (.rtd r.rtd)
  else .err

/-- `record-constructor` (prelude.min:1388-1400). -/
def pConstructor (n : Nat) (s : Store) : Val → Res Val
  | .rtd t => do
    let size ← recordSize s n (.rtd t) 0
    .ok (.ctor t size)
  | _ => .err

/-- `record-predicate` (prelude.min:1401-1407). -/
def pPredicate : Val → Res Val
  | .rtd t => .ok (.pred t)
  | _ => .err

/-- The closure of `record-predicate` (prelude.min:1403-1406). -/
def applyPred (n : Nat) (s : Store) (t : Nat) (v : Val) : Res Bool :=
  if isValue v then do
    let r ← rcdOf s v
    recordValueLoop s t n (.rtd r.rtd)
  else .ok false

/-- Index checks and position common to `record-accessor` and `record-mutator` (prelude.min:1409-1416, 1430-1437). -/
def fieldPos (n : Nat) (s : Store) : Val → Val → Res (Nat × Nat)
  | .rtd t, .num i => if (0#64).sle i then (do
      let r ← rtdOf s (.rtd t)
      if i.toNat < r.fields.length then (do
        if r.parent = .fls then .ok (t, i.toNat) else do
          let size ← recordSize s n r.parent 0
          .ok (t, i.toNat + size))
      else .err)
    else .err
  | _, _ => .err

/-- `record-accessor` (prelude.min:1408-1428). -/
def pAccessor (n : Nat) (s : Store) (t i : Val) : Res Val := do
  let p ← fieldPos n s t i
  .ok (.acc p.1 p.2)

/-- `record-mutator` (prelude.min:1429-1449).  Whether the field was declared mutable is not looked at. -/
def pMutator (n : Nat) (s : Store) (t i : Val) : Res Val := do
  let p ← fieldPos n s t i
  .ok (.mutr p.1 p.2)

/-- `record-type-field-mutable?` (prelude.min:1343-1352). -/
def pFieldMutable (s : Store) : Val → Val → Res Bool
  | .rtd t, .num i => if (0#64).sle i then (do
      let r ← rtdOf s (.rtd t)
      let ns ← rtdFieldNames r.fields
      if i.toNat < ns.length then rtdFieldMutable s (.rtd t) i.toNat else .err)
    else .err
  | _, _ => .err

/-- Application of the closures made by the procedures above.  `proc` stands for procedures that are not modelled here: the result is an error
in the model, programs below do not apply them.  Applying anything else is an error. -/
def apply (n : Nat) (s : Store) : Val → List Val → Res (Store × Val)
  | .ctor t size, args => if args.length = size then .ok (makeRecord s t args) else .err
  | .pred t, [v] => do
    let b ← applyPred n s t v
    .ok (s, if b then .tru else .fls)
  | .acc t pos, [v] => do
    let b ← applyPred n s t v
    if b then (do
      let x ← recordRef s v pos
      .ok (s, x))
    else .err
  | .mutr t pos, [v, x] => do
    let b ← applyPred n s t v
    if b then (do
      let s' ← recordSet s v pos x
      .ok (s', .other 0))
    else .err
  | _, _ => .err

/-- `record-equal-procedure` (prelude.min:1792-1805). -/
def pRecordEqual (s : Store) (a b : Val) : Res Val :=
  if isValue a then
    if isValue b then do
      let x ← rcdOf s a
      let y ← rcdOf s b
      let p ← tableRef s.eqT (.rtd x.rtd)
      if p = .fls then .ok .fls else do
        let q ← tableRef s.eqT (.rtd y.rtd)
        if p = q then .ok p else .ok .fls
    else .err
  else .err

/-- `record-hash-procedure` (prelude.min:1807-1812). -/
def pRecordHash (s : Store) (a : Val) : Res Val :=
  if isValue a then do
    let x ← rcdOf s a
    tableRef s.hashT (.rtd x.rtd)
  else .err

/-! ## Default procedures -/

/-- The default equality and hash procedures of records (`tc_record_equal`, `tc_record_hash`). -/
structure Defaults where
  eqP : Val
  hashP : Val
deriving DecidableEq, Repr

/-- Call of a primitive made by `add_procedure(name, f, arity)` (prim.c:136-139): another number of arguments is an error. -/
def prim {α : Type} (arity : Nat) (args : List Val) (r : α) : Res α := if args.length = arity then .ok r else .err

/-- `default-record-equal-procedure` (prelude.min:1722-1730), case by number of arguments; the setter calls the primitive
`$default-record-equal-procedure`, which takes none (prim.c:136). -/
def pDefaultEqual (d : Defaults) : List Val → Res (Defaults × Val)
  | [] => do
    let v ← prim 0 [] d.eqP
    .ok (d, v)
  | [p] => if isProc p then (do
      let v ← prim 0 [p] d.eqP
      .ok (d, v))
    else .err
  | _ => .err

/-- `default-record-hash-procedure` (prelude.min:1733-1741); the getter calls the primitive of the equality procedure. -/
def pDefaultHash (d : Defaults) : List Val → Res (Defaults × Val)
  | [] => do
    let v ← prim 0 [] d.eqP
    .ok (d, v)
  | [p] => if isProc p then (do
      let v ← prim 0 [p] d.hashP
      .ok (d, v))
    else .err
  | _ => .err

/-! ## Programs -/

/-- One step of a program over the record procedures; arguments are numbers of earlier results.  The field vector of `newType` is part of the
operation, so it is a vector. -/
inductive Op where
  | newType (name parent uid sealed opq : Nat) (fs : List FSpec)
  | constructor (t : Nat)
  | predicate (t : Nat)
  | accessor (t i : Nat)
  | mutator (t i : Nat)
  | call (f : Nat) (args : List Nat)
  | isRecord (v : Nat)
  | recordRtd (v : Nat)
  | setEqual (t p : Nat)
  | setHash (t p : Nat)
  | setWriter (t p : Nat)
  | equalProc (t : Nat)
  | hashProc (t : Nat)
deriving DecidableEq, Repr

/-- Result number `i` (modelling device). -/
def get (rs : List Val) (i : Nat) : Res Val :=
  match rs[i]? with
  | some v => .ok v
  | none => .err

/-- Results number `is` (modelling device). -/
def getAll (rs : List Val) : List Nat → Res (List Val)
  | [] => .ok []
  | i :: is => do
    let v ← get rs i
    let vs ← getAll rs is
    .ok (v :: vs)

/-- One call. -/
def step (n : Nat) (s : Store) (rs : List Val) : Op → Res (Store × Val)
  | .newType a b c d e fs => do
    let name ← get rs a
    let parent ← get rs b
    let uid ← get rs c
    let sealed ← get rs d
    let opq ← get rs e
    makeType s name parent uid sealed opq (.fvec fs)
  | .constructor t => do
    let t ← get rs t
    let v ← pConstructor n s t
    .ok (s, v)
  | .predicate t => do
    let t ← get rs t
    let v ← pPredicate t
    .ok (s, v)
  | .accessor t i => do
    let t ← get rs t
    let i ← get rs i
    let v ← pAccessor n s t i
    .ok (s, v)
  | .mutator t i => do
    let t ← get rs t
    let i ← get rs i
    let v ← pMutator n s t i
    .ok (s, v)
  | .call f as => do
    let f ← get rs f
    let as ← getAll rs as
    apply n s f as
  | .isRecord v => do
    let v ← get rs v
    let b ← pRecord s v
    .ok (s, if b then .tru else .fls)
  | .recordRtd v => do
    let v ← get rs v
    let t ← pRecordRtd s v
    .ok (s, t)
  | .setEqual t p => do
    let t ← get rs t
    let p ← get rs p
    let e ← tableSet s.eqT t p
    .ok ({ s with eqT := e }, .other 0)
  | .setHash t p => do
    let t ← get rs t
    let p ← get rs p
    let e ← tableSet s.hashT t p
    .ok ({ s with hashT := e }, .other 0)
  | .setWriter t p => do
    let t ← get rs t
    let p ← get rs p
    let e ← tableSet s.wrT t p
    .ok ({ s with wrT := e }, .other 0)
  | .equalProc t => do
    let t ← get rs t
    let p ← tableRef s.eqT t
    .ok (s, p)
  | .hashProc t => do
    let t ← get rs t
    let p ← tableRef s.hashT t
    .ok (s, p)

/-- A program: calls one after the other, each appending its result; an error is caught and leaves `#f` as the result, so a program goes on
after errors (as under an exception handler). -/
def run (n : Nat) : Store → List Val → List Op → Res (Store × List Val)
  | s, rs, [] => .ok (s, rs)
  | s, rs, op :: ops =>
    match step n s rs op with
    | .ok (s', v) => run n s' (rs ++ [v]) ops
    | .err => run n s (rs ++ [.fls]) ops
    | .ub => .ub
    | .oof => .oof

/-- The store before any record type exists. -/
def empty : Store := ⟨[], [], [], [], []⟩

end Minim.Rec
