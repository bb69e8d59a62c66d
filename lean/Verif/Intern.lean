import Verif.Hash

set_option autoImplicit false

/-!
# The symbol table (src/core/c/symbol.c)

A symbol object is its address (`id`) and the text it was made with; the text is never changed after `Msymbol`.
-/

namespace Minim.Intern

open Minim.Hash

/-- the text of a symbol, without the terminating NUL -/
abbrev Name := List Byte

/-- A symbol object (minim.h, `MINIM_OBJ_SYMBOL`): `id` is its address, what `eq?` compares. -/
structure Sym where
  id : Nat
  name : Name
deriving DecidableEq, Repr

/-- `intern_table` (minim.h:944-956): `ptr` is the index of `alloc_ptr` in `bucket_sizes`. -/
structure Tab where
  ptr : Nat
  alloc : Nat
  buckets : List (List Sym)
  size : Nat
deriving DecidableEq, Repr

/-- the table, the next address the allocator returns and `gensym_counter` (symbol.c:192) -/
structure St where
  tab : Tab
  next : Nat
  counter : Nat
deriving DecidableEq, Repr

/-- `hash_bytes` (symbol.c:90-98): a 32-bit word; `str[i]` is a `char`, signed on the supported platforms. -/
def symHash (nm : Name) : Nat :=
  (nm.foldl (fun (h : BitVec 32) (c : Byte) => ((h <<< 5) + h) + c.signExtend 32) 5381#32).toNat

/-- `make_intern_table` (symbol.c:134-141): starts with `bucket_sizes[9]` = 8209 buckets. -/
def makeTab : Tab := { ptr := 9, alloc := 8209, buckets := List.replicate 8209 [], size := 0 }

/-- the state before the first symbol is interned (global.c:9-10) -/
def start : St := { tab := makeTab, next := 0, counter := 0 }

/-- all symbols in the table, bucket by bucket -/
def Tab.flat (t : Tab) : List Sym := t.buckets.flatten

/-- `new_bucket` (symbol.c:83-88): push at the front of a bucket. -/
def pushSym (bs : List (List Sym)) (i : Nat) (s : Sym) : List (List Sym) := bs.set i (s :: bs.getD i [])

/-- the loop moving all entries to new buckets (symbol.c:106-121) -/
def rehash (hash : Name → Nat) (n : Nat) (bs : List (List Sym)) : List (List Sym) :=
  bs.foldl (fun nb b => b.foldl (fun nb s => pushSym nb (hash s.name % n) s) nb) (List.replicate n [])

/-- `intern_table_resize` (symbol.c:100-126).  Moving past the last size reads the terminating 0 as the new size, after
which `h % new_alloc` divides by zero. -/
def resize (hash : Name → Nat) (t : Tab) : Res Tab :=
  match bucketSizes[t.ptr + 1]? with
  | none => .ub
  | some n => .ok { ptr := t.ptr + 1, alloc := n, buckets := rehash hash n t.buckets, size := t.size }

/-- `resize_if_needed` (symbol.c:78-81).  Simplification: the quotient of doubles is compared with 0.75 exactly (the same
answer for tables below 2^51 buckets). -/
def resizeIfNeeded (hash : Name → Nat) (t : Tab) : Res Tab :=
  if 3 * t.alloc < 4 * t.size then resize hash t else .ok t

/-- `intern_table_insert` (symbol.c:128-132). -/
def insertAt (t : Tab) (i : Nat) (s : Sym) : Tab := { t with buckets := pushSym t.buckets i s, size := t.size + 1 }

/-- `intern_symbol` (symbol.c:143-178) on a NUL-free name.  The bucket index is computed before the table may grow and
used after it.  The comparison of addresses at line 155 is subsumed by the comparison of texts. -/
def intern (hash : Name → Nat) (st : St) (nm : Name) : Res (Sym × St) :=
  let i := hash nm % st.tab.alloc
  match (st.tab.buckets.getD i []).find? (fun s => s.name == nm) with
  | some s => .ok (s, st)
  | none => do
    let o : Sym := { id := st.next, name := nm }
    let t ← resizeIfNeeded hash st.tab
    pure (o, { st with tab := insertAt t i o, next := st.next + 1 })

/-- the decimal digits `%ld` prints for a non-negative counter -/
def digits (n : Nat) : Name := (Nat.toDigits 10 n).map (fun c => BitVec.ofNat 8 c.toNat)

/-- `Mgensym` (symbol.c:194-206); incrementing the counter past 2^63 - 1 overflows a `long`. -/
def gensym (st : St) (pre : Name) : Res (Sym × St) :=
  if st.counter + 1 < 2 ^ 63 then
    .ok ({ id := st.next, name := pre ++ digits st.counter }, { st with next := st.next + 1, counter := st.counter + 1 })
  else .ub

/-- one request for a symbol -/
inductive Op where
  | intern (nm : Name)
  | gensym (pre : Name)
deriving DecidableEq, Repr

/-- perform a request -/
def step (hash : Name → Nat) (st : St) : Op → Res (Sym × St)
  | .intern nm => intern hash st nm
  | .gensym pre => gensym st pre

/-- perform a history of requests, collecting the symbols returned -/
def run (hash : Name → Nat) (st : St) : List Op → Res (List Sym × St)
  | [] => .ok ([], st)
  | op :: ops => do
    let r ← step hash st op
    let r' ← run hash r.2 ops
    pure (r.1 :: r'.1, r'.2)

end Minim.Intern
