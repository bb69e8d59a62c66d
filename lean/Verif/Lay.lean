import Verif.Basic

set_option autoImplicit false

/-!
# The layout of objects (src/core/minim.h) and their constructors

Objects are blocks of bytes that `GC_alloc` and `GC_alloc_atomic` return; `malloc` is asked for exactly the given number of bytes (gc-impl.c:323), so an access beyond them is undefined.  A value stored in a
field is the list of its bytes (its object representation, C11 6.2.6.1): 8 for pointers, `long` and `size_t`, 4 for `int`, 1 for `char` and `mbyte` (minim.h:31-36, "assumes 64-bits").
-/

namespace Minim.Lay

/-- a byte -/
abbrev Byte := BitVec 8

/-- a block; `none` is a byte that was never stored -/
abbrev Block := List (Option Byte)

/-- the blocks, by address; collecting garbage is the subject of `Gc` -/
abbrev Mem := List Block

/-- a pointer or a number as stored -/
abbrev Wd := List Byte

/-- what there are constructors for: the object types (minim.h:114-137), blocks of characters, cached stacks and thread contexts; the number is that of the elements -/
inductive Kind where
  | special | char | fixnum | symbol | string | pair
  | vector (n : Nat)
  | closure (n : Nat)
  | port
  | record (n : Nat)
  | box | hashtable | syntax
  | env (n : Nat)
  | topenv | continuation
  | code (n : Nat)
  | cache | tc
  | chars (n : Nat)
deriving DecidableEq, Repr

/-- the argument of `GC_alloc` or `GC_alloc_atomic` in the constructor; an overflow of `long` or `int` is undefined, `size_t` wraps around -/
def allocSize : Kind → Res Nat
  /- `sizeof(mbyte)` (global.c:81-99) -/
  | .special => .ok 1
  /- `sizeof(minim_char_size)` (char.c:8): the size of the `int` expression `8` (minim.h:38, 176) -/
  | .char => .ok 4
  | .fixnum => .ok 16
  | .symbol => .ok 16
  | .string => .ok 16
  | .pair => .ok 24
  /- `ptr_size * (2 + n)` for a `long` (minim.h:250, vector.c:8) -/
  | .vector n => if 8 * (2 + n) < 2 ^ 63 then .ok (8 * (2 + n)) else .ub
  /- `(5 + n) * ptr_size` for a `size_t` (minim.h:273, procedure.c:12) -/
  | .closure n => .ok ((5 + n) * 8 % 2 ^ 64)
  | .port => .ok 16
  /- `ptr_size * (2 + n)` for an `int` (minim.h:325, record.c:8) -/
  | .record n => if 8 * (2 + n) < 2 ^ 31 then .ok (8 * (2 + n)) else .ub
  | .box => .ok 16
  | .hashtable => .ok 32
  | .syntax => .ok 24
  /- `(1 + n) * ptr_size` for a `size_t` (minim.h:426, env.c:177) -/
  | .env n => .ok ((1 + n) * 8 % 2 ^ 64)
  | .topenv => .ok 32
  | .continuation => .ok 56
  /- four words of header, the instructions and one more word (minim.h:835-836, jit.c:10) -/
  | .code n => .ok ((4 * 8 + n * 8 + 8) % 2 ^ 64)
  /- minim.h:785, frame.c:18 -/
  | .cache => .ok 32
  /- minim.h:795, thread.c:8 -/
  | .tc => .ok (23 * 8)
  /- `(len + 1) * sizeof(char)` for a `long` (string.c:25-27; string.c:16, symbol.c:187 and symbol.c:201 have `size_t` and `int`, of the length of a string that is there already) -/
  | .chars n => if n + 1 < 2 ^ 63 then .ok (n + 1) else .ub

/-- the fields, each with the macro for it -/
inductive Fld where
  | type | chr | fix | sym | str | car | cdr | vlen
  | vref (i : Nat)
  | unbox | cenv | ccode | cname | ccount
  | cref (i : Nat)
  | pflags | pfp | stxE | stxLoc | rcount | rrtd
  | rref (i : Nat)
  | hbuckets | halloc | hcount
  | eref (i : Nat)
  | tbuckets | talloc | tcount | kprev | kpc | kenv | ksfp | kcp | kac | codeLen | codeArity | codeReloc
  | codeRef (i : Nat)
  | sbase | sprev | slen | sret
  | tcw (i : Nat)
  | byte (i : Nat)
deriving DecidableEq, Repr

/-- where the macros look: offset and number of bytes -/
def acc : Fld → Nat × Nat
  | .type => (0, 1)                       -- minim.h:141
  | .chr => (4, 1)                        -- minim.h:178
  | .fix => (8, 8)                        -- minim.h:199
  | .sym => (8, 8)                        -- minim.h:208
  | .str => (8, 8)                        -- minim.h:217
  | .car => (8, 8)                        -- minim.h:229
  | .cdr => (2 * 8, 8)                    -- minim.h:230
  | .vlen => (8, 8)                       -- minim.h:252
  | .vref i => (2 * 8 + 8 * i, 8)         -- minim.h:253
  | .unbox => (8, 8)                      -- minim.h:262
  | .cenv => (8, 8)                       -- minim.h:275
  | .ccode => (2 * 8, 8)
  | .cname => (3 * 8, 8)
  | .ccount => (4 * 8, 8)
  | .cref i => ((5 + i) * 8, 8)           -- minim.h:279
  | .pflags => (1, 1)                     -- minim.h:289
  | .pfp => (8, 8)
  | .stxE => (8, 8)                       -- minim.h:314
  | .stxLoc => (2 * 8, 8)
  | .rcount => (4, 4)                     -- minim.h:327
  | .rrtd => (8, 8)
  | .rref i => (2 * 8 + 8 * i, 8)         -- minim.h:329
  | .hbuckets => (8, 8)                   -- minim.h:414
  | .halloc => (2 * 8, 8)
  | .hcount => (3 * 8, 8)
  | .eref i => ((1 + i) * 8, 8)           -- minim.h:428
  | .tbuckets => (8, 8)                   -- minim.h:439
  | .talloc => (2 * 8, 8)
  | .tcount => (3 * 8, 8)
  | .kprev => (8, 8)                      -- minim.h:457
  | .kpc => (2 * 8, 8)
  | .kenv => (3 * 8, 8)
  | .ksfp => (4 * 8, 8)
  | .kcp => (5 * 8, 8)
  | .kac => (6 * 8, 8)
  | .codeLen => (8, 8)                    -- minim.h:838
  | .codeArity => (2 * 8, 8)
  | .codeReloc => (3 * 8, 8)
  | .codeRef i => (4 * 8 + 8 * i, 8)      -- minim.h:841-842
  | .sbase => (0, 8)                      -- minim.h:786
  | .sprev => (8, 8)
  | .slen => (2 * 8, 8)
  | .sret => (3 * 8, 8)
  | .tcw i => (i * 8, 8)                  -- minim.h:796-818
  | .byte i => (i, 1)

/-- the tag (minim.h:114-137) -/
def tag : Kind → Byte
  | .special => 0
  | .char => 1
  | .fixnum => 2
  | .symbol => 3
  | .string => 4
  | .pair => 5
  | .vector _ => 6
  | .closure _ => 7
  | .port => 8
  | .record _ => 9
  | .box => 10
  | .hashtable => 11
  | .syntax => 12
  | .env _ => 13
  | .topenv => 14
  | .continuation => 15
  | .code _ => 16
  | .cache => 0
  | .tc => 0
  | .chars _ => 0

/-- `GC_alloc` -/
def alloc (m : Mem) (n : Nat) : Mem × Nat := (m ++ [List.replicate n none], m.length)

/-- read bytes of a block -/
def load (m : Mem) (o : Nat) (a : Nat × Nat) : Res Block :=
  match m[o]? with
  | none => .ub
  | some b => if a.1 + a.2 ≤ b.length then .ok ((b.drop a.1).take a.2) else .ub

/-- store bytes in a block -/
def store (m : Mem) (o off : Nat) (v : List Byte) : Res Mem :=
  match m[o]? with
  | none => .ub
  | some b => if off + v.length ≤ b.length then .ok (m.set o (b.take off ++ v.map some ++ b.drop (off + v.length))) else .ub

/-- read a field -/
def get (m : Mem) (o : Nat) (f : Fld) : Res Block := load m o (acc f)

/-- store in a field -/
def set (m : Mem) (o : Nat) (f : Fld) (v : List Byte) : Res Mem := store m o (acc f).1 v

/-- the stores of a constructor, in order -/
def sets (o : Nat) : Mem → List (Fld × List Byte) → Res Mem
  | m, [] => .ok m
  | m, (f, v) :: fs => do
    let m ← set m o f v
    sets o m fs

/-- a call of a constructor -/
inductive New where
  | special
  | char (c : Byte)
  | fixnum (v : Wd)
  | symbol (s : Wd)
  | string (s : Wd)
  | cons (a d : Wd)
  | vector (n : Nat) (len : Wd) (init : Option Wd)
  | closure (n : Nat) (count env code nofalse : Wd)
  | inPort (fp : Wd)
  | outPort (fp : Wd)
  | record (n : Nat) (count : List Byte) (rtd : Wd)
  | box (x : Wd)
  | hashtable (buckets allocPtr count : Wd)
  | syntax (e loc : Wd)
  | env (n : Nat)
  | topenv (buckets allocPtr count : Wd)
  | continuation (prev pc env sfp cp ac : Wd)
  | code (n : Nat) (len : Wd)
  | cache (base prev len ret : Wd)
  | tc
  | chars (n : Nat)
  | fill (n : Nat) (c : Byte)
deriving DecidableEq, Repr

/-- what is made -/
def New.kind : New → Kind
  | .special => .special
  | .char _ => .char
  | .fixnum _ => .fixnum
  | .symbol _ => .symbol
  | .string _ => .string
  | .cons _ _ => .pair
  | .vector n _ _ => .vector n
  | .closure n _ _ _ _ => .closure n
  | .inPort _ => .port
  | .outPort _ => .port
  | .record n _ _ => .record n
  | .box _ => .box
  | .hashtable _ _ _ => .hashtable
  | .syntax _ _ => .syntax
  | .env n => .env n
  | .topenv _ _ _ => .topenv
  | .continuation _ _ _ _ _ _ => .continuation
  | .code n _ => .code n
  | .cache _ _ _ _ => .cache
  | .tc => .tc
  | .chars n => .chars n
  | .fill n _ => .chars n

/-- the stores of the constructors.  The numbers (`len`, `count`) are given as stored.  Simplified: the stores to the thread context (thread.c:11-32) and the copying of strings (`strncpy`, `snprintf`) are
not among them, the blocks are left as allocated. -/
def stores (c : New) : List (Fld × List Byte) :=
  match c with
  /- global.c:83-101 -/
  | .special => [(.type, [tag c.kind])]
  /- char.c:9-10 -/
  | .char x => [(.type, [tag c.kind]), (.chr, [x])]
  /- number.c:9-10 -/
  | .fixnum v => [(.type, [tag c.kind]), (.fix, v)]
  /- symbol.c:186-187, 200-201 -/
  | .symbol s => [(.type, [tag c.kind]), (.sym, s)]
  /- string.c:15-16, 23-27 -/
  | .string s => [(.type, [tag c.kind]), (.str, s)]
  /- list.c:9-11 -/
  | .cons a d => [(.type, [tag c.kind]), (.car, a), (.cdr, d)]
  /- vector.c:9-14 -/
  | .vector n len init =>
    [(.type, [tag c.kind]), (.vlen, len)] ++
      match init with
      | none => []
      | some x => (List.range n).map fun i => (.vref i, x)
  /- procedure.c:13-17 -/
  | .closure _ count env code nofalse => [(.type, [tag c.kind]), (.cenv, env), (.ccode, code), (.cname, nofalse), (.ccount, count)]
  /- io.c:22-24 -/
  | .inPort fp => [(.type, [tag c.kind]), (.pflags, [0x2#8]), (.pfp, fp)]
  /- io.c:31-33 -/
  | .outPort fp => [(.type, [tag c.kind]), (.pflags, [0x0#8]), (.pfp, fp)]
  /- record.c:9-11 -/
  | .record _ count rtd => [(.type, [tag c.kind]), (.rrtd, rtd), (.rcount, count)]
  /- box.c:9-10 -/
  | .box x => [(.type, [tag c.kind]), (.unbox, x)]
  /- hashtable.c:57-60, 68-71 -/
  | .hashtable b p n => [(.type, [tag c.kind]), (.halloc, p), (.hbuckets, b), (.hcount, n)]
  /- syntax.c:9-11 -/
  | .syntax e loc => [(.type, [tag c.kind]), (.stxE, e), (.stxLoc, loc)]
  /- env.c:178 -/
  | .env _ => [(.type, [tag c.kind])]
  /- env.c:23-26, 62-65, 80-83 -/
  | .topenv b p n => [(.type, [tag c.kind]), (.talloc, p), (.tbuckets, b), (.tcount, n)]
  /- frame.c:7-13 -/
  | .continuation prev pc env sfp cp ac => [(.type, [tag c.kind]), (.kprev, prev), (.kpc, pc), (.kenv, env), (.ksfp, sfp), (.kcp, cp), (.kac, ac)]
  /- jit.c:11-12 -/
  | .code _ len => [(.type, [tag c.kind]), (.codeLen, len)]
  /- frame.c:19-22 -/
  | .cache base prev len ret => [(.sbase, base), (.sprev, prev), (.slen, len), (.sret, ret)]
  | .tc => []
  | .chars _ => []
  /- string.c:28-32 -/
  | .fill n x => (List.range n).map (fun i => (.byte i, [x])) ++ [(.byte n, [0#8])]

/-- a constructor -/
def make (m : Mem) (c : New) : Res (Mem × Nat) := do
  let n ← allocSize c.kind
  let (m, o) := alloc m n
  let m ← sets o m (stores c)
  pure (m, o)

/-- what a program does with objects -/
inductive Op where
  | make (c : New)
  | set (o : Nat) (f : Fld) (v : List Byte)

/-- a program -/
def run : Mem → List Op → Res Mem
  | m, [] => .ok m
  | m, .make c :: ops => do
    let (m, _) ← make m c
    run m ops
  | m, .set o f v :: ops => do
    let m ← set m o f v
    run m ops

end Minim.Lay
