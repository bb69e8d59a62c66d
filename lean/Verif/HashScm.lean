import Verif.Hash

set_option autoImplicit false

/-!
# Scheme hashtables (src/core/s/prelude.min:1454-1716)

A table is a record whose mutable field holds a store object.  Stores are objects with identity (an update in progress
holds on to one while the table moves to another), so a world has a list of stores and a list of tables, each table
naming its current store.  The hash and equivalence procedures are parameters; simplification: they are the same for all
tables of a world, pure, total, and the hash is a fixnum (`do-hash`, prelude.min:1549-1554, never raises).
-/

namespace Minim.Hash

/-- Cells, stores, and for each table the index of its store (record field 0, prelude.min:1462-1464). -/
structure SW (K V : Type) where
  heap : Heap K V
  stores : List Store
  tables : List Nat

section
variable {K V : Type} (hash : K → Word) (eqv : K → K → Bool)

/-- the store object with index `i` (a dangling index, which no table has, reads as an empty store) -/
def SW.store (w : SW K V) (i : Nat) : Store := w.stores.getD i ⟨13, List.replicate 13 [], 0⟩

/-- writing through a store object -/
def SW.putStore (w : SW K V) (i : Nat) (s : Store) : SW K V := { w with stores := w.stores.set i s }

/-- `adjust!` (prelude.min:1571-1581): move the cells of `store` into a new store with room for `n2`. -/
def adjust (w : SW K V) (t : Nat) (sid : Nat) (n2 : Nat) : Res (SW K V) := do
  let s := w.store sid
  let s2 ← mkStore n2
  let bs := s.cells.foldl (pushCell hash w.heap s2.alloc) s2.buckets
  let s2 : Store := { s2 with buckets := bs, count := s.count }
  pure { w with stores := w.stores ++ [s2], tables := w.tables.set t w.stores.length }

/-- `incr-size!` (prelude.min:1555-1562). -/
def incrSize (w : SW K V) (t : Nat) (sid : Nat) : Res (SW K V) :=
  let s := w.store sid
  let size := s.count + 1
  let w := w.putStore sid { s with count := size }
  if s.alloc < size then adjust hash w t sid size else .ok w

/-- `decr-size!` (prelude.min:1563-1570); the count is at least 1 when it is called. -/
def decrSize (w : SW K V) (t : Nat) (sid : Nat) : Res (SW K V) :=
  let s := w.store sid
  let size := s.count - 1
  let w := w.putStore sid { s with count := size }
  if size < s.alloc / 4 ∧ 13 < size then adjust hash w t sid size else .ok w

/-- inserting a fresh cell for a key at the front of its bucket (prelude.min:1638-1641, 1655-1660) -/
def insertCell (w : SW K V) (t : Nat) (sid : Nat) (k : K) (v : V) : Res (SW K V × Nat) := do
  let s := w.store sid
  let r := w.heap.alloc k v
  let w := { w with heap := r.1 }
  let w := w.putStore sid (s.setBucket (hash k) (r.2 :: s.bucket (hash k)))
  let w ← incrSize hash w t sid
  pure (w, r.2)

/-- `1/hashtable-set!` with `1/hashtable-cell` (prelude.min:1632-1647). -/
def scmSet (w : SW K V) (t : Nat) (k : K) (v : V) : Res (SW K V) :=
  match w.tables[t]? with
  | none => .err
  | some sid =>
    match findCell hash eqv w.heap (w.store sid) k with
    | some c => .ok { w with heap := w.heap.setVal c v }
    | none => do
      let (w, c) ← insertCell hash w t sid k v
      pure { w with heap := w.heap.setVal c v }

/-- the deletion loop (prelude.min:1602-1614) on the cells of a bucket: without the first match, or `none` -/
def removeIn (h : Heap K V) (k : K) : List Nat → Option (List Nat)
  | [] => none
  | c :: b => if eqv (h.key c) k then some b else (removeIn h k b).map (c :: ·)

/-- `1/hashtable-cell-delete!` (prelude.min:1596-1614). -/
def scmDelete (w : SW K V) (t : Nat) (k : K) : Res (SW K V) :=
  match w.tables[t]? with
  | none => .err
  | some sid =>
    let s := w.store sid
    match removeIn eqv w.heap k (s.bucket (hash k)) with
    | none => .ok w
    | some b => decrSize hash (w.putStore sid (s.setBucket (hash k) b)) t sid

/-- `1/hashtable-update!` (prelude.min:1649-1660).  The updater is a state transformer: it may use any table.
`default = none` stands for the procedure that raises the missing-key error (prelude.min:1697).  Simplification: a
default that is a procedure is represented by its value. -/
def scmUpdate (w : SW K V) (t : Nat) (k : K) (upd : V → SW K V → Res (V × SW K V)) (default : Option V) :
    Res (SW K V) :=
  match w.tables[t]? with
  | none => .err
  | some sid =>
    match findCell hash eqv w.heap (w.store sid) k with
    | some c => do
      let (v, w) ← upd (w.heap.val c) w
      pure { w with heap := w.heap.setVal c v }
    | none =>
      match default with
      | none => .err
      | some d => do
        let (v, w) ← upd d w
        let (w, _) ← insertCell hash w t sid k v
        pure w

/-- `hashtable-clear!` (prelude.min:1712-1716). -/
def scmClear (w : SW K V) (t : Nat) : Res (SW K V) :=
  match w.tables[t]? with
  | none => .err
  | some sid => .ok (w.putStore sid (clearStore (w.store sid)))

/-- `make-custom-hashtable` (prelude.min:1467-1468). -/
def scmMake (w : SW K V) : Res (SW K V) := do
  let s ← mkStore 0
  pure { w with stores := w.stores ++ [s], tables := w.tables ++ [w.stores.length] }

/-- `hashtable-copy` (prelude.min:1474-1479). -/
def scmCopy (w : SW K V) (t : Nat) : Res (SW K V) :=
  match w.tables[t]? with
  | none => .err
  | some sid =>
    let r := copyStore w.heap (w.store sid)
    .ok { heap := r.1, stores := w.stores ++ [r.2], tables := w.tables ++ [w.stores.length] }

/-- `hashtable-ref` without a default (prelude.min:1622-1630, 1678-1681): the missing-key error if there is no cell. -/
def scmRef (w : SW K V) (t : Nat) (k : K) : Res V :=
  match w.tables[t]? with
  | none => .err
  | some sid =>
    match findCell hash eqv w.heap (w.store sid) k with
    | some c => .ok (w.heap.val c)
    | none => .err

/-- `hashtable-ref` with a default that is not a procedure (prelude.min:1622-1630, 1682-1685). -/
def scmRefDefault (w : SW K V) (t : Nat) (k : K) (d : V) : Res V :=
  match w.tables[t]? with
  | none => .err
  | some sid =>
    match findCell hash eqv w.heap (w.store sid) k with
    | some c => .ok (w.heap.val c)
    | none => .ok d

/-- `hashtable-contains?` (prelude.min:1616-1620). -/
def scmContains (w : SW K V) (t : Nat) (k : K) : Res Bool :=
  match w.tables[t]? with
  | none => .err
  | some sid => .ok (findCell hash eqv w.heap (w.store sid) k).isSome

/-- `hashtable-size` (prelude.min:1485-1489). -/
def scmSize (w : SW K V) (t : Nat) : Res Nat :=
  match w.tables[t]? with
  | none => .err
  | some sid => .ok (w.store sid).count

/-- checked `vector-set!` on a vector whose slots start as `#f` (`none`) -/
def vecSet {α : Type} (v : List (Option α)) (i : Nat) (x : α) : Res (List (Option α)) :=
  if i < v.length then .ok (v.set i (some x)) else .err

/-- the loop of `hashtable-entries` (prelude.min:1505-1511) -/
def entriesLoop (h : Heap K V) : List Nat → Nat → List (Option K) → List (Option V) →
    Res (List (Option K) × List (Option V))
  | [], _, ks, vs => .ok (ks, vs)
  | c :: cs, i, ks, vs => do
    let ks ← vecSet ks i (h.key c)
    let vs ← vecSet vs i (h.val c)
    entriesLoop h cs (i + 1) ks vs

/-- `hashtable-entries` (prelude.min:1499-1512). -/
def scmEntries (w : SW K V) (t : Nat) : Res (List (Option K) × List (Option V)) :=
  match w.tables[t]? with
  | none => .err
  | some sid =>
    let s := w.store sid
    entriesLoop w.heap s.cells 0 (List.replicate s.count none) (List.replicate s.count none)

/-- the loop of `hashtable-keys`/`hashtable-vals` (prelude.min:1519-1524, 1532-1537), `f` taking the key or the value -/
def fillLoop {α : Type} (f : Nat → α) : List Nat → Nat → List (Option α) → Res (List (Option α))
  | [], _, v => .ok v
  | c :: cs, i, v => do
    let v ← vecSet v i (f c)
    fillLoop f cs (i + 1) v

/-- `hashtable-keys` (prelude.min:1514-1525). -/
def scmKeys (w : SW K V) (t : Nat) : Res (List (Option K)) :=
  match w.tables[t]? with
  | none => .err
  | some sid =>
    let s := w.store sid
    fillLoop w.heap.key s.cells 0 (List.replicate s.count none)

/-- `hashtable-vals` (prelude.min:1527-1538). -/
def scmVals (w : SW K V) (t : Nat) : Res (List (Option V)) :=
  match w.tables[t]? with
  | none => .err
  | some sid =>
    let s := w.store sid
    fillLoop w.heap.val s.cells 0 (List.replicate s.count none)

end

/-- Operations of a history.  `update` has a pure updater; re-entrant updaters are the subject of C11. -/
inductive SOp (K V : Type) where
  | make
  | copy (t : Nat)
  | clear (t : Nat)
  | set (t : Nat) (k : K) (v : V)
  | delete (t : Nat) (k : K)
  | update (t : Nat) (k : K) (f : V → V) (default : Option V)

section
variable {K V : Type} (hash : K → Word) (eqv : K → K → Bool)

/-- one operation of a history (see the operations above) -/
def SW.step (w : SW K V) : SOp K V → Res (SW K V)
  | .make => scmMake w
  | .copy t => scmCopy w t
  | .clear t => scmClear w t
  | .set t k v => scmSet hash eqv w t k v
  | .delete t k => scmDelete hash eqv w t k
  | .update t k f d => scmUpdate hash eqv w t k (fun v w => .ok (f v, w)) d

/-- A history.  An operation that raises (argument error, missing key) does so before changing anything, so the history
goes on from the same state, as after a caught exception. -/
def SW.run (w : SW K V) : List (SOp K V) → Res (SW K V)
  | [] => .ok w
  | op :: ops =>
    match w.step hash eqv op with
    | .ok w' => w'.run ops
    | .err => w.run ops
    | .ub => .ub
    | .oof => .oof

end

end Minim.Hash
