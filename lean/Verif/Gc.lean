import Verif.Basic

set_option autoImplicit false

/-!
# The collector

Model of src/gc/minim-gc (gc-impl.c, gc.c, gc-types.h).  A record is identified by the address of its block (`gc_record_ptr`); the flag bits in the low end of `next` are fields of their own.
The array of buckets is a function from indices, chains are lists.  `malloc`, `calloc` and `realloc` are given by the address they return and by how often they fail before.  The words of the stack and of
the registers that are scanned are an argument of each operation that may collect.  Calls of the C library and of destructors are recorded as events.
-/

namespace Minim.Gc

/-- Marker of a block (gc-types.h:17): none (every word may be a pointer), `GC_atomic_mrk` (gc-impl.c:472-477), or a function that calls back with pointers, given by their list. -/
inductive Mrk where
  | default | atomic | custom (f : (Nat → Nat) → List Nat)

/-- `gc_record_t` (gc-types.h:20-25) with flags (gc-types.h:7-8, 42, 50-51); destructors are named by numbers. -/
structure Rec where
  addr : Nat
  size : Nat
  dtor : Option Nat
  mrk : Mrk
  mark : Bool
  root : Bool

/-- Calls of the C library and of destructors, and undefined behaviour.  `malloc a n` is a call that returned room for `n` bytes for record and block at `a`. -/
inductive Ev where
  | malloc (a n : Nat) | free (a : Nat) | realloc (a b n : Nat) | dtor (d a : Nat) | ub
deriving DecidableEq

/-- `gc_t` (gc-types.h:28-34) with the range of addresses taken for heap (gc-impl.c:134-136: from the code of `gc_mark_ptr` to the bottom of the stack), the contents of blocks and the events so far. -/
structure GC where
  buckets : Nat → List Rec
  idx : Nat
  alloc : Nat
  size : Nat
  allocs : Nat
  dirty : Nat
  collecting : Bool
  lo : Nat
  hi : Nat
  mem : Nat → Nat → Nat
  events : List Ev

/-- `bucket_sizes` (gc-impl.c:13-65). -/
def bucketSizes : List Nat :=
  [8209, 16411, 32771, 65537, 131101, 262147, 524309, 1048583, 2097169, 4194319, 8388617, 16777259, 33554467, 67108879, 134217757, 268435459, 536870923, 1073741827, 2147483659, 4294967311,
   8589934609, 17179869209, 34359738421, 68719476767, 137438953481, 274877906951, 549755813911, 1099511627791, 2199023255579, 4398046511119, 8796093022237, 17592186044423, 35184372088891,
   70368744177679, 140737488355333, 281474976710677, 562949953421381, 1125899906842679, 2251799813685269, 4503599627370517, 9007199254740997, 18014398509482143, 36028797018963971,
   72057594037928017, 144115188075855881, 288230376151711813, 576460752303423619, 1152921504606847009, 2305843009213693967, 4611686018427388039, 0]

/-- `*alloc_ptr`. -/
def sizeAt (i : Nat) : Nat := bucketSizes.getD i 0

/-- `gc_hash(p) % gc->alloc` (gc-types.h:45). -/
def GC.slot (g : GC) (p : Nat) : Nat := p / 8 % g.alloc

/-- All records, in the order in which loops over the table meet them. -/
def GC.recs (g : GC) : List Rec := (List.range g.alloc).flatMap g.buckets

/-- Replacing the chain of a bucket. -/
def GC.setBucket (g : GC) (i : Nat) (c : List Rec) : GC := { g with buckets := fun j => if j = i then c else g.buckets j }

/-- `gc_get_record` (gc-impl.c:390-401). -/
def GC.get (g : GC) (p : Nat) : Option Rec := (g.buckets (g.slot p)).find? (fun r => r.addr == p)

/-- Changing the first record of a chain for a block. -/
def updC (p : Nat) (f : Rec → Rec) : List Rec → List Rec
  | [] => []
  | r :: rs => if r.addr = p then f r :: rs else r :: updC p f rs

/-- Assigning to a field of the record found for a block (gc-impl.c:427-428, 435-436, 441-442). -/
def GC.upd (g : GC) (p : Nat) (f : Rec → Rec) : GC := g.setBucket (g.slot p) (updC p f (g.buckets (g.slot p)))

/-- `insert_record` (gc-impl.c:75-84). -/
def GC.insert (g : GC) (r : Rec) : GC := g.setBucket (g.slot r.addr) (r :: g.buckets (g.slot r.addr))

/-- `gc_resize` (gc-impl.c:86-108).  With no buckets the next remainder divides by zero. -/
def GC.resize (g : GC) (i : Nat) : GC :=
  if sizeAt i = 0 then { g with events := g.events ++ [.ub] }
  else g.recs.foldl GC.insert { g with idx := i, alloc := sizeAt i, buckets := fun _ => [] }

/-- `gc_expand_if_needed` (gc-impl.c:110-115); the quotient of doubles is taken to be exact, it is for less than 2^51 buckets. -/
def GC.expand (g : GC) : GC := if 4 * g.size > 3 * g.alloc then g.resize (g.idx + 1) else g

/-- The loop of `gc_shrink_if_needed` (gc-impl.c:121-122). -/
def ideal (n : Nat) : Nat → Nat
  | 0 => 0
  | i + 1 => if sizeAt (i + 1) > 4 * n then ideal n i else i + 1

/-- `gc_shrink_if_needed` (gc-impl.c:117-126). -/
def GC.shrink (g : GC) : GC := if ideal g.size g.idx ≠ g.idx then g.resize (ideal g.size g.idx) else g

/-- The pointers that marking a block follows (gc-impl.c:150-156). -/
def Rec.children (mem : Nat → Nat → Nat) (r : Rec) : List Nat :=
  match r.mrk with
  | .default => (List.range (r.size / 8)).map (mem r.addr)
  | .atomic => []
  | .custom f => f (mem r.addr)

/-- A loop that marks pointers. -/
def markList (f : GC → Nat → Option GC) : GC → List Nat → Option GC
  | g, [] => some g
  | g, p :: ps => (f g p).bind (fun g => markList f g ps)

/-- `gc_mark_ptr` (gc-impl.c:128-161); the first argument bounds the depth of the recursion.  The C stack is taken to be large enough. -/
def markPtr : Nat → GC → Nat → Option GC
  | 0, _, _ => none
  | n + 1, g, p =>
    if p < g.lo ∨ p > g.hi then some g
    else
      match g.get p with
      | none => some g
      | some r => if r.mark ∨ r.root then some g else markList (markPtr n) (g.upd p (fun r => { r with mark := true })) (r.children g.mem)

/-- The body of the loop over roots (gc-impl.c:184-193); the record is looked up by its address. -/
def markRoot (n : Nat) (g : GC) (p : Nat) : Option GC :=
  match g.get p with
  | none => some g
  | some r => if r.root then markList (markPtr n) (g.upd p (fun r => { r with mark := true })) (r.children g.mem) else some g

/-- `gc_mark` (gc-impl.c:173-201) with `gc_mark_stack` (163-171). -/
def GC.markAll (n : Nat) (g : GC) (stack : List Nat) : Option GC :=
  if g.size = 0 then some g else (markList (markRoot n) g (g.recs.map Rec.addr)).bind (fun g => markList (markPtr n) g stack)

/-- `gc_unmark` (gc-impl.c:203-209). -/
def GC.unmark (g : GC) : GC := { g with buckets := fun i => (g.buckets i).map (fun r => { r with mark := false }) }

/-- Freeing a record in `gc_sweep` (gc-impl.c:219-226). -/
def GC.drop (g : GC) (r : Rec) : GC :=
  { g with
    allocs := g.allocs - r.size, size := g.size - 1,
    events := g.events ++ ((match r.dtor with | none => [] | some d => [.dtor d r.addr]) ++ [.free r.addr]) }

/-- The loops of `gc_sweep` (gc-impl.c:213-239): each unmarked record is freed, in order, and taken from its chain. -/
def GC.sweepLoop (g : GC) : GC :=
  let g' := (g.recs.filter (fun r => !r.mark)).foldl GC.drop g
  { g' with buckets := fun i => (g.buckets i).filter Rec.mark }

/-- `gc_sweep` (gc-impl.c:211-245). -/
def GC.sweep (g : GC) : GC := ({ g.sweepLoop with dirty := 0 }.unmark).shrink

/-- `gc_collect` (gc-impl.c:416-420).  The depth of the recursion is at most the number of blocks. -/
def GC.collect (g : GC) (stack : List Nat) : GC :=
  match g.markAll (g.recs.length + 1) stack with
  | none => { g with events := g.events ++ [.ub] }
  | some g' => g'.sweep

/-- `gc_create` (gc-impl.c:247-260). -/
def create (lo hi : Nat) (mem : Nat → Nat → Nat) : GC :=
  { buckets := fun _ => [], idx := 0, alloc := sizeAt 0, size := 0, allocs := 0, dirty := 0, collecting := true, lo := lo, hi := hi, mem := mem, events := [] }

/-- `gc_destroy` (gc-impl.c:262-276) without freeing the table itself. -/
def GC.destroy (g : GC) : GC := GC.sweep { g with buckets := fun i => (g.buckets i).map (fun r => { r with root := false }) }

/-- `gc_record_next_set(pr, r->next)` (gc-impl.c:306): the bits of the removed record stay in the value. -/
def Rec.orFlags (pr r : Rec) : Rec := { pr with mark := pr.mark || r.mark, root := pr.root || r.root }

/-- The loop of `gc_remove` (gc-impl.c:298-315) behind a record. -/
def removeAfter (p : Nat) (pr : Rec) : List Rec → Option (Rec × List Rec)
  | [] => none
  | r :: rs => if r.addr = p then some (r, pr.orFlags r :: rs) else (removeAfter p r rs).map (fun x => (x.1, pr :: x.2))

/-- The loop of `gc_remove` (gc-impl.c:298-315): record and remaining chain. -/
def removeC (p : Nat) : List Rec → Option (Rec × List Rec)
  | [] => none
  | r :: rs => if r.addr = p then some (r, rs) else removeAfter p r rs

/-- `gc_remove` (gc-impl.c:288-316); freeing is left to the caller. -/
def GC.remove (g : GC) (p : Nat) : Option (Rec × GC) :=
  (removeC p (g.buckets (g.slot p))).map (fun x => (x.1, { g.setBucket (g.slot p) x.2 with allocs := g.allocs - x.1.size, size := g.size - 1 }))

/-- Sizes are `size_t`. -/
def wrap (n : Nat) : Nat := n % 2 ^ 64

/-- `gc_add_record` (gc-impl.c:403-413).  The counters are `size_t`; `allocs` is kept as a natural number, of which `allocated` takes the remainder;
the number of blocks cannot wrap around, the blocks being disjoint. -/
def GC.add (g : GC) (r : Rec) : GC :=
  let g := g.expand.insert r
  { g with dirty := wrap (g.dirty + r.size), allocs := g.allocs + r.size, size := g.size + 1 }

/-- `gc_collect_if_needed` (gc-impl.h:52-57) with `GC_MIN_AUTO_COLLECT_SIZE` (gc-impl.h:14). -/
def GC.collectIfNeeded (g : GC) (stack : List Nat) : GC := if g.collecting ∧ g.dirty > 8 * 1024 * 1024 then g.collect stack else g

/-- Asking the C library for memory (gc-impl.c:323-330, 345-352, 370-377): `fails` is the number of attempts that fail, after the first a collection is run.
`none` is the null pointer. -/
def GC.tryMem (g : GC) (fails : Nat) (stack : List Nat) : Option GC × GC :=
  match fails with
  | 0 => (some g, g)
  | 1 => (some (g.collect stack), g)
  | _ => (none, g.collect stack)

/-- `GC_alloc_opt` (gc.c:25-37) with `gc_alloc_record` (gc-impl.c:318-337); `a` is the address of the block, `words` its contents.
A null pointer is passed on to `gc_add_record`, which reads from it (gc-impl.c:403-413). -/
def GC.allocOpt (g : GC) (fails size : Nat) (dtor : Option Nat) (mrk : Mrk) (stack : List Nat) (a : Nat) (words : Nat → Nat) : GC :=
  match (g.collectIfNeeded stack).tryMem fails stack with
  | (none, g) => { g with events := g.events ++ [.ub] }
  | (some g, _) =>
    GC.add { g with events := g.events ++ [.malloc a (wrap (size + 32))], mem := fun b => if b = a then words else g.mem b } ⟨a, size, dtor, mrk, false, false⟩

/-- `GC_calloc_opt` (gc.c:39-52) with `gc_calloc_record` (gc-impl.c:339-359). -/
def GC.callocOpt (g : GC) (fails nmem size : Nat) (dtor : Option Nat) (mrk : Mrk) (stack : List Nat) (a : Nat) : GC :=
  match (g.collectIfNeeded stack).tryMem fails stack with
  | (none, g) => { g with events := g.events ++ [.ub] }
  | (some g, _) =>
    GC.add { g with events := g.events ++ [.malloc a (wrap (wrap (nmem * size) + 32))], mem := fun b => if b = a then fun _ => 0 else g.mem b }
      ⟨a, wrap (nmem * size), dtor, mrk, false, false⟩

/-- `GC_free` (gc.c:108-110). -/
def GC.free (g : GC) (p : Nat) : GC :=
  match g.remove p with
  | none => g
  | some (r, g') => { g' with events := g'.events ++ [.free r.addr] }

/-- `GC_realloc_opt` (gc.c:54-82) with `gc_realloc_record` (gc-impl.c:361-388); `a` is the address of the new block, `words` is what follows the contents copied.
The block is not in the table while a collection for lack of memory runs.  Without memory the null pointer is returned. -/
def GC.reallocOpt (g : GC) (fails p size : Nat) (dtor : Option Nat) (mrk : Mrk) (stack : List Nat) (a : Nat) (words : Nat → Nat) : GC :=
  if size = 0 then g.free p
  else if p = 0 then g.allocOpt fails size dtor mrk stack a words
  else
    match g.remove p with
    | none => g.allocOpt fails size dtor mrk stack a words
    | some (r, g') =>
      match g'.tryMem fails stack with
      | (none, g') => g'
      | (some g', _) =>
        GC.add
          { g' with
            events := g'.events ++ [.realloc r.addr a (wrap (size + 32))],
            mem := fun b => if b = a then fun k => if k < r.size / 8 then g'.mem p k else words k else g'.mem b }
          ⟨a, size, dtor, mrk, false, r.root⟩

/-- `gc_get_allocated` (gc-impl.c:445-448). -/
def GC.allocated (g : GC) : Nat := wrap g.allocs

/-- `gc_get_reachable` (gc-impl.c:450-464): the total, and the table unmarked again.  `none` never occurs. -/
def GC.reachable (g : GC) (stack : List Nat) : Option (Nat × GC) :=
  (g.markAll (g.recs.length + 1) stack).map (fun g' => (wrap ((g'.recs.filter Rec.mark).map Rec.size).sum, g'.unmark))

/-- `gc_get_collectable` (gc-impl.c:466-469): `gc->alloc`, the number of buckets, is used. -/
def GC.collectable (g : GC) (stack : List Nat) : Option (Nat × GC) := (g.reachable stack).map (fun x => (wrap (g.alloc + 2 ^ 64 - x.1), x.2))

/-- The operations of gc.h; `write` is an assignment of the program to a word of a block. -/
inductive Op where
  | alloc (fails size : Nat) (dtor : Option Nat) (mrk : Mrk) (stack : List Nat) (a : Nat) (words : Nat → Nat)
  | calloc (fails nmem size : Nat) (dtor : Option Nat) (mrk : Mrk) (stack : List Nat) (a : Nat)
  | realloc (fails p size : Nat) (dtor : Option Nat) (mrk : Mrk) (stack : List Nat) (a : Nat) (words : Nat → Nat)
  | free (p : Nat)
  | collect (stack : List Nat)
  | registerDtor (p d : Nat)
  | registerMrk (p : Nat) (m : Mrk)
  | registerRoot (p : Nat)
  | pause
  | resume
  | write (a k w : Nat)

/-- One operation (gc.c:17-126; gc-impl.c:278-286, 422-443). -/
def GC.exec (g : GC) : Op → GC
  | .alloc fails size dtor mrk stack a words => g.allocOpt fails size dtor mrk stack a words
  | .calloc fails nmem size dtor mrk stack a => g.callocOpt fails nmem size dtor mrk stack a
  | .realloc fails p size dtor mrk stack a words => g.reallocOpt fails p size dtor mrk stack a words
  | .free p => g.free p
  | .collect stack => g.collect stack
  | .registerDtor p d => g.upd p (fun r => { r with dtor := some d })
  | .registerMrk p m => g.upd p (fun r => { r with mrk := m })
  | .registerRoot p => g.upd p (fun r => { r with root := true })
  | .pause => { g with collecting := false }
  | .resume => { g with collecting := true }
  | .write a k w => { g with mem := fun b j => if b = a ∧ j = k then w else g.mem b j }

/-- How often the C library has no memory. -/
def Op.fails : Op → Nat
  | .alloc n .. => n
  | .calloc n .. => n
  | .realloc n .. => n
  | _ => 0

/-- A sequence of operations. -/
def GC.run (g : GC) (os : List Op) : GC := os.foldl GC.exec g

end Minim.Gc
