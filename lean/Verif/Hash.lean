import Verif.Basic

/-!
# Hashtable stores (src/core/c/hashtable.c, src/core/c/symbol.c:11-72)

A store is the C hashtable object.  Its buckets hold association cells (`(key . value)` pairs), which are mutable heap
objects: a cell is an index into a `Heap`.  Spine pairs of a bucket are reachable from that bucket only, so a bucket is
a list of cells.
-/

namespace Minim.Hash

/-- `bucket_sizes` without the terminating 0 (symbol.c:11-70). -/
def bucketSizes : List Nat :=
  [13, 29, 59, 113, 257, 509, 1031, 2053, 4099, 8209, 16411, 32771, 65537, 131101, 262147, 524309, 1048583, 2097169,
   4194319, 8388617, 16777259, 33554467, 67108879, 134217757, 268435459, 536870923, 1073741827, 2147483659, 4294967311,
   8589934609, 17179869209, 34359738421, 68719476767, 137438953481, 274877906951, 549755813911, 1099511627791,
   2199023255579, 4398046511119, 8796093022237, 17592186044423, 35184372088891, 70368744177679, 140737488355333,
   281474976710677, 562949953421381, 1125899906842679, 2251799813685269, 4503599627370517, 9007199254740997,
   18014398509482143, 36028797018963971, 72057594037928017, 144115188075855881, 288230376151711813, 576460752303423619,
   1152921504606847009, 2305843009213693967, 4611686018427388039]

/-- The size scan `for (; *alloc_ptr < size_hint; ++alloc_ptr);` (hashtable.c:53-54, 117-118).  A hint above the last
size runs past the terminating 0 and off the array. -/
def findSize (hint : Nat) : Res Nat :=
  match bucketSizes.find? (fun s => decide (hint ≤ s)) with
  | some s => .ok s
  | none => .ub

/-- The association cells of the heap: `get c` is the pair at cell `c`, cells below `next` are allocated. -/
structure Heap (K V : Type) where
  get : Nat → K × V
  next : Nat

/-- `Mcons(k, v)` for an association cell (hashtable.c:78, 80, 145). -/
def Heap.alloc {K V : Type} (h : Heap K V) (k : K) (v : V) : Heap K V × Nat :=
  ({ get := fun c => if c = h.next then (k, v) else h.get c, next := h.next + 1 }, h.next)

/-- `minim_cdar(bi) = v` / `set-cdr!` on an association cell (hashtable.c:140, prelude.min:1647). -/
def Heap.setVal {K V : Type} (h : Heap K V) (c : Nat) (v : V) : Heap K V :=
  { h with get := fun d => if d = c then ((h.get c).1, v) else h.get d }

/-- `minim_caar` of a bucket position: the key in a cell. -/
def Heap.key {K V : Type} (h : Heap K V) (c : Nat) : K := (h.get c).1
/-- `minim_cdar` of a bucket position: the value in a cell. -/
def Heap.val {K V : Type} (h : Heap K V) (c : Nat) : V := (h.get c).2

/-- The hashtable object (src/core/minim.h:412-418).  `alloc` is `*alloc_ptr`.  Simplification: `count` is unbounded. -/
structure Store where
  alloc : Nat
  buckets : List (List Nat)
  count : Nat
deriving Repr

/-- all cells, bucket by bucket (order in which the C loops visit them) -/
def Store.flat (s : Store) : List Nat := s.buckets.flatten

/-- `Mhashtable` (hashtable.c:49-62). -/
def mkStore (hint : Nat) : Res Store := do
  let n ← findSize hint
  pure { alloc := n, buckets := List.replicate n [], count := 0 }

/-- the inner loop of `hashtable_copy2` (hashtable.c:74-86): a bucket of fresh cells in the same order -/
def copyBucket {K V : Type} (h : Heap K V) : List Nat → Heap K V × List Nat
  | [] => (h, [])
  | c :: b =>
    let r := h.alloc (h.key c) (h.val c)
    let r' := copyBucket r.1 b
    (r'.1, r.2 :: r'.2)

/-- the outer loop of `hashtable_copy2` (hashtable.c:73-87) -/
def copyBuckets {K V : Type} (h : Heap K V) : List (List Nat) → Heap K V × List (List Nat)
  | [] => (h, [])
  | b :: bs =>
    let r := copyBucket h b
    let r' := copyBuckets r.1 bs
    (r'.1, r.2 :: r'.2)

/-- `hashtable_copy2` (hashtable.c:64-90). -/
def copyStore {K V : Type} (h : Heap K V) (s : Store) : Heap K V × Store :=
  let r := copyBuckets h s.buckets
  (r.1, { alloc := s.alloc, buckets := r.2, count := s.count })

/-- `hashtable_clear` (hashtable.c:222-228); `start_size_ptr` is the first size (hashtable.c:47). -/
def clearStore (_ : Store) : Store := { alloc := 13, buckets := List.replicate 13 [], count := 0 }

/-- `hashtable_ref` (hashtable.c:187-191): the bucket for a hash value. -/
def Store.bucket (s : Store) (hv : Word) : List Nat := s.buckets.getD (hv.toNat % s.alloc) []

/-- `hashtable_set` (hashtable.c:193-198): replace the bucket for a hash value. -/
def Store.setBucket (s : Store) (hv : Word) (b : List Nat) : Store :=
  { s with buckets := s.buckets.set (hv.toNat % s.alloc) b }

/-- `hashtable_cells` (hashtable.c:200-209): consing reverses the visiting order. -/
def Store.cells (s : Store) : List Nat := s.buckets.foldl (fun acc b => b.foldl (fun acc c => c :: acc) acc) []

section
variable {K V : Type} (hash : K → Word) (eqv : K → K → Bool)

/-- the search loop of `eq_hashtable_find2` (hashtable.c:102-106) and of `1/hashtable-cell-ref` (prelude.min:1587-1594) -/
def findIn (h : Heap K V) (k : K) : List Nat → Option Nat
  | [] => none
  | c :: b => if eqv (h.key c) k then some c else findIn h k b

/-- `eq_hashtable_find` (hashtable.c:92-109); `1/hashtable-cell-ref` (prelude.min:1583-1594) applied to the hash of `k`. -/
def findCell (h : Heap K V) (s : Store) (k : K) : Option Nat := findIn eqv h k (s.bucket (hash k))

/-- one step of the rehashing loops (hashtable.c:123-124, prelude.min:1576-1578): push a cell onto its bucket -/
def pushCell (h : Heap K V) (n : Nat) (nb : List (List Nat)) (c : Nat) : List (List Nat) :=
  nb.set ((hash (h.key c)).toNat % n) (c :: nb.getD ((hash (h.key c)).toNat % n) [])

/-- `eq_hashtable_resize` (hashtable.c:111-130). -/
def eqResize (h : Heap K V) (s : Store) : Res Store := do
  let n ← findSize s.count
  let nb := s.buckets.foldl (fun nb b => b.foldl (pushCell hash h n) nb) (List.replicate n [])
  pure { alloc := n, buckets := nb, count := s.count }

/-- `eq_hashtable_set` (hashtable.c:132-150). -/
def eqSet (h : Heap K V) (s : Store) (k : K) (v : V) : Res (Heap K V × Store) :=
  let b := s.bucket (hash k)
  match findIn eqv h k b with
  | some c => .ok (h.setVal c v, s)
  | none =>
    let r := h.alloc k v
    let s' := s.setBucket (hash k) (r.2 :: b)
    let s' := { s' with count := s'.count + 1 }
    if s'.alloc < s'.count then do
      let s'' ← eqResize hash r.1 s'
      pure (r.1, s'')
    else .ok (r.1, s')

end

/-! ## `eq?` and `eq-hash` -/

/-- What `minim_eqp` and `eq_hash2` look at in an object: fixnums and characters by content, everything else by address. -/
inductive EqKind where
  | fix (v : Word)
  | chr (c : Byte)
  | other
deriving DecidableEq, Repr

/-- `minim_eqp` (object.c:78-93) on addresses, `obj` giving the (immutable) content at an address. -/
def eqp (obj : Word → EqKind) (a b : Word) : Bool :=
  if a = b then true
  else match obj a, obj b with
    | .chr c, .chr d => c == d
    | .fix v, .fix w => v == w
    | _, _ => false

/-- `hash_bytes` (hashtable.c:13-25); `char` is signed, so a byte is sign-extended before it is added. -/
def hashBytes (data : List Byte) (hash0 : Word) : Word :=
  (data.foldl (fun (hash : Word) (c : Byte) => ((hash <<< 6) + hash) + c.signExtend 64) hash0) >>> 2

/-- the bytes of a word in memory (little endian) -/
def wordBytes (w : Word) : List Byte := (List.range 8).map (fun i => (w >>> (8 * i)).setWidth 8)

/-- `eq_hash` (hashtable.c:27-41). -/
def eqHash (obj : Word → EqKind) (o : Word) : Word :=
  match obj o with
  | .fix v => hashBytes (wordBytes v) 5381#64
  | .chr c => hashBytes [c] 5381#64
  | .other => hashBytes (wordBytes o) 5381#64

/-! ## Native tables -/

/-- A history of native tables: several tables (by index) sharing one cell heap. -/
structure World (K V : Type) where
  heap : Heap K V
  tables : List Store

/-- Operations of the native interface (hashtable.c:132, 161, 166, 222): an operation on a table that does not exist does
nothing. -/
inductive NOp (K V : Type) where
  | make (hint : Nat)
  | copy (t : Nat)
  | clear (t : Nat)
  | set (t : Nat) (k : K) (v : V)

section
variable {K V : Type} (hash : K → Word) (eqv : K → K → Bool)

/-- one operation: `make_hashtable`, `hashtable_copy`, `hashtable_clear` (hashtable.c:161-169, 222-228) and
`eq_hashtable_set` (hashtable.c:132-150) -/
def World.step (w : World K V) : NOp K V → Res (World K V)
  | .make hint => do
    let s ← mkStore hint
    pure { w with tables := w.tables ++ [s] }
  | .copy t =>
    match w.tables[t]? with
    | none => .ok w
    | some s =>
      let r := copyStore w.heap s
      .ok { heap := r.1, tables := w.tables ++ [r.2] }
  | .clear t =>
    match w.tables[t]? with
    | none => .ok w
    | some s => .ok { w with tables := w.tables.set t (clearStore s) }
  | .set t k v =>
    match w.tables[t]? with
    | none => .ok w
    | some s => do
      let r ← eqSet hash eqv w.heap s k v
      pure { heap := r.1, tables := w.tables.set t r.2 }

/-- a history of operations -/
def World.run (w : World K V) : List (NOp K V) → Res (World K V)
  | [] => .ok w
  | op :: ops => do
    let w' ← w.step hash eqv op
    w'.run ops

/-- what a lookup answers: the value in the cell `eq_hashtable_find` returns, or absence (hashtable.c:92-109) -/
def World.find (w : World K V) (t : Nat) (k : K) : Option V :=
  match w.tables[t]? with
  | none => none
  | some s => (findCell hash eqv w.heap s k).map w.heap.val

end

end Minim.Hash
