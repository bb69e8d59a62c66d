import Verif.Num

set_option autoImplicit false

/-!
# Strings, characters, vectors (string.c, char.c, vector.c; prelude.min:777-916, 1104-1163; library/private/string.min)

A string object owns a block of bytes; its text is what precedes the first NUL.  Any access outside the block is undefined
behaviour.  Simplification throughout: lengths of existing objects and counters bounded by them are natural numbers (no
object has 2^63 bytes).
-/

namespace Minim.Str

/-- a Scheme value: fixnum, character (one byte, minim.h:178), the address of a string or of a vector, something else -/
inductive Val where
  | num (w : Word)
  | char (b : Byte)
  | str (a : Nat)
  | vec (a : Nat)
  | other (n : Nat)
deriving DecidableEq, Repr

/-- an object: the block of a string (minim.h:217), the elements of a vector (minim.h:250-253) -/
inductive Obj where
  | buf (bs : List Byte)
  | vec (es : List Val)
deriving DecidableEq, Repr

/-- the objects, by address; objects are never moved or reused -/
abbrev Heap := List Obj

/-- `minim_string` (minim.h:217): the block of a string -/
def bufOf (h : Heap) (a : Nat) : Res (List Byte) :=
  match h[a]? with
  | some (.buf bs) => .ok bs
  | _ => .ub

/-- `strlen`: reading on behind the block is undefined -/
def strlen : List Byte → Res Nat
  | [] => .ub
  | b :: bs => if b = 0#8 then .ok 0 else do
    let n ← strlen bs
    pure (n + 1)

/-- `Mstring2` (string.c:21-34): `len + 1` must not overflow -/
def mstring2 (h : Heap) (len : Word) (c : Byte) : Res (Heap × Val) := do
  let _ ← Num.fx2Add len 1#64
  if len.slt 0#64 then .ub
  else pure (h ++ [.buf (List.replicate len.toNat c ++ [0#8])], .str h.length)

/-- `Mstring` (string.c:9-19) -/
def mstring (h : Heap) (s : List Byte) : Heap × Val := (h ++ [.buf (cstr s ++ [0#8])], .str h.length)

/-- `string_length` (string.c:49-52) -/
def stringLength (h : Heap) (a : Nat) : Res Nat := do
  let bs ← bufOf h a
  strlen bs

/-- `string_ref` (string.c:54-57) -/
def stringRef (h : Heap) (a : Nat) (i : Word) : Res Val := do
  let bs ← bufOf h a
  if i.slt 0#64 then .ub else
    match bs[i.toNat]? with
    | some b => pure (.char b)
    | none => .ub

/-- `string_set` (string.c:59-63) -/
def stringSet (h : Heap) (a : Nat) (i : Word) (c : Byte) : Res Heap := do
  let bs ← bufOf h a
  if i.slt 0#64 then .ub else
    if i.toNat < bs.length then pure (h.set a (.buf (bs.set i.toNat c))) else .ub

/-- the decimal digits of a natural number (printf; library function) -/
def natDigits (n : Nat) : List Byte :=
  if n < 10 then [BitVec.ofNat 8 (48 + n)] else natDigits (n / 10) ++ [BitVec.ofNat 8 (48 + n % 10)]

/-- the output of `%ld` (library function) -/
def decimal (z : Int) : List Byte := if z < 0 then 45#8 :: natDigits z.natAbs else natDigits z.natAbs

/-- `number_to_string` (string.c:65-70): a block of 25 zero bytes, written by `sprintf` -/
def numberToString (h : Heap) (w : Word) : Res (Heap × Val) :=
  let ds := decimal w.toInt
  if ds.length + 1 ≤ 25 then .ok (h ++ [.buf (ds ++ List.replicate (25 - ds.length) 0#8)], .str h.length) else .ub

/-- the characters `atoi` skips (`isspace`, library function) -/
def isSpace (b : Byte) : Bool := b == 32#8 || (9#8 ≤ b && b ≤ 13#8)

/-- the value of the leading digits (`atoi`, library function) -/
def digitsValue : Nat → List Byte → Nat
  | acc, [] => acc
  | acc, b :: bs => if 48#8 ≤ b && b ≤ 57#8 then digitsValue (acc * 10 + (b.toNat - 48)) bs else acc

/-- the sign and the digits (`atoi`, library function) -/
def signedValue : List Byte → Int
  | [] => 0
  | b :: bs => if b = 45#8 then - (digitsValue 0 bs : Int) else if b = 43#8 then digitsValue 0 bs else digitsValue 0 (b :: bs)

/-- `atoi`: a value outside the range of `int` is undefined (C11 7.22.1p1) -/
def atoi (s : List Byte) : Res Int :=
  let z := signedValue (s.dropWhile isSpace)
  if -2147483648 ≤ z ∧ z ≤ 2147483647 then .ok z else .ub

/-- `string_to_number` (string.c:72-75); the text ends at the first NUL, a block without one is undefined -/
def stringToNumber (h : Heap) (a : Nat) : Res Val := do
  let bs ← bufOf h a
  let _ ← strlen bs
  let z ← atoi (cstr bs)
  pure (.num (BitVec.ofInt 64 z))

/-- the block filled by `list_to_string` (string.c:94-99); an element that is not a character is undefined -/
def charBytes : List Val → Res (List Byte)
  | [] => .ok []
  | .char b :: vs => do
    let bs ← charBytes vs
    pure (b :: bs)
  | _ :: _ => .ub

/-- `list_to_string` (string.c:87-101) -/
def listToString (h : Heap) (vs : List Val) : Res (Heap × Val) := do
  let bs ← charBytes vs
  pure (h ++ [.buf (bs ++ [0#8])], .str h.length)

/-- `string_to_list` (string.c:103-109): from index `strlen` down to 0 -/
def stringToList (h : Heap) (a : Nat) : Res (List Val) := do
  let bs ← bufOf h a
  let n ← strlen bs
  pure ((bs.take (n + 1)).map .char)

/-- `char_to_integer` (char.c:22-24): `char` is signed (x86-64, gcc) -/
def charToInteger (b : Byte) : Word := b.signExtend 64

/-- `integer_to_char` (char.c:26-28): cut to one byte -/
def integerToChar (w : Word) : Byte := w.setWidth 8

/-! ### prelude -/

/-- a fixnum that is not negative (`non-negative-integer?`, prelude.min:563-564) -/
def nonNeg (w : Word) : Bool := (0#64).sle w

/-- `char->integer` (prelude.min:777-781) -/
def pCharToInteger : Val → Res Val
  | .char b => .ok (.num (charToInteger b))
  | _ => .err

/-- `integer->char` (prelude.min:783-787) -/
def pIntegerToChar : Val → Res Val
  | .num w => .ok (.char (integerToChar w))
  | _ => .err

/-- is it a character (charp_proc, char.c:18-20) -/
def Val.isChar : Val → Bool
  | .char _ => true
  | _ => false

/-- is it a string (stringp_proc, string.c:40-42) -/
def Val.isStr : Val → Bool
  | .str _ => true
  | _ => false

/-- `list->string` and `string` (prelude.min:792-806), for a proper list of arguments (otherwise `for-each` signals an error,
C27) -/
def pListToString (h : Heap) (vs : List Val) : Res (Heap × Val) := if vs.all Val.isChar then listToString h vs else .err

/-- `make-string` (prelude.min:808-822); the unbound variables in the error branches are errors as well -/
def pMakeString (h : Heap) : Val → Val → Res (Heap × Val)
  | .num w, .char c => if nonNeg w then mstring2 h w c else .err
  | _, _ => .err

/-- `string-length` (prelude.min:824-828) -/
def pStringLength (h : Heap) : Val → Res Nat
  | .str a => stringLength h a
  | _ => .err

/-- `string-ref` (prelude.min:830-838) -/
def pStringRef (h : Heap) : Val → Val → Res Val
  | .str a, .num i => if nonNeg i then (do
      let n ← stringLength h a
      if n ≤ i.toNat then .err else stringRef h a i)
    else .err
  | _, _ => .err

/-- `string-set!` (prelude.min:840-850) -/
def pStringSet (h : Heap) : Val → Val → Val → Res Heap
  | .str a, .num i, c => if nonNeg i then (do
      let n ← stringLength h a
      if n ≤ i.toNat then .err else
        match c with
        | .char b => stringSet h a i b
        | _ => .err)
    else .err
  | _, _, _ => .err

/-- `sum-lengths` (prelude.min:860-867) -/
def sumLengths (h : Heap) : List Nat → Res Nat
  | [] => .ok 0
  | a :: as => do
    let n ← stringLength h a
    let m ← sumLengths h as
    pure (n + m)

/-- the loop of `string-append` (prelude.min:877-885): `s` is the new string -/
def appendLoop (s : Nat) : Nat → Heap → List Nat → Nat → Nat → Res Heap
  | 0, _, _, _, _ => .oof
  | _ + 1, h, [], _, _ => .ok h
  | n + 1, h, a :: as, i, j => do
    let len ← stringLength h a
    if len ≤ j then appendLoop s n h as i 0 else do
      let c ← pStringRef h (.str a) (.num (BitVec.ofNat 64 j))
      let h' ← pStringSet h (.str s) (.num (BitVec.ofNat 64 i)) c
      appendLoop s n h' (a :: as) (i + 1) (j + 1)

/-- the addresses of the arguments if all are strings (`check-args!`, prelude.min:853-859) -/
def addresses : List Val → Option (List Nat)
  | [] => some []
  | .str a :: vs => (addresses vs).map (a :: ·)
  | _ :: _ => none

/-- `string-append` (prelude.min:852-886); `lit` is the address of the literal "" (prelude.min:869) -/
def pStringAppend (n lit : Nat) (h : Heap) (vs : List Val) : Res (Heap × Val) :=
  match addresses vs with
  | none => .err
  | some [] => .ok (h, .str lit)
  | some [a] => .ok (h, .str a)
  | some as => do
    let len ← sumLengths h as
    let r ← mstring2 h (BitVec.ofNat 64 len) 48#8
    let h' ← appendLoop h.length n r.1 as 0 0
    pure (h', .str h.length)

/-- the loop of `substring` (string.min:21-26) -/
def substringLoop (a s : Nat) (stop : Nat) : Nat → Heap → Nat → Nat → Res Heap
  | 0, _, _, _ => .oof
  | m + 1, h, i, n => if n = stop then .ok h else do
    let c ← pStringRef h (.str a) (.num (BitVec.ofNat 64 n))
    let h' ← pStringSet h (.str s) (.num (BitVec.ofNat 64 i)) c
    substringLoop a s stop m h' (i + 1) (n + 1)

/-- `substring` (string.min:8-26); the range error for `start` is called with too few arguments, which is an error as well -/
def pSubstring (m : Nat) (h : Heap) : Val → Val → Val → Res (Heap × Val)
  | .str a, .num start, .num stop => do
    let len ← stringLength h a
    if nonNeg start && nonNeg stop && decide (stop.toNat ≤ len) && decide (start.toNat ≤ stop.toNat) then do
      let r ← pMakeString h (.num (stop - start)) (.char 97#8)
      let h' ← substringLoop a h.length stop.toNat m r.1 0 start.toNat
      pure (h', .str h.length)
    else .err
  | .str a, _, _ => do
    let _ ← stringLength h a
    .err
  | _, _, _ => .err

/-- `number->string` (prelude.min:888-892) -/
def pNumberToString (h : Heap) : Val → Res (Heap × Val)
  | .num w => numberToString h w
  | _ => .err

/-- `string->number` (prelude.min:894-898) -/
def pStringToNumber (h : Heap) : Val → Res Val
  | .str a => stringToNumber h a
  | _ => .err

/-- `string->list` (prelude.min:912-916) -/
def pStringToList (h : Heap) : Val → Res (List Val)
  | .str a => stringToList h a
  | _ => .err

/-! ### vectors -/

/-- the elements of a vector (minim.h:250-253) -/
def vecOf (h : Heap) (a : Nat) : Res (List Val) :=
  match h[a]? with
  | some (.vec es) => .ok es
  | _ => .ub

/-- `Mvector` (vector.c:7-17) for a non-negative length -/
def mvector (h : Heap) (len : Word) (init : Val) : Res (Heap × Val) :=
  if len.slt 0#64 then .ub else .ok (h ++ [.vec (List.replicate len.toNat init)], .vec h.length)

/-- `vector_ref` (vector.c:38-41) -/
def vectorRef (h : Heap) (a : Nat) (i : Word) : Res Val := do
  let es ← vecOf h a
  if i.slt 0#64 then .ub else
    match es[i.toNat]? with
    | some e => pure e
    | none => .ub

/-- `vector_set` (vector.c:43-47) -/
def vectorSet (h : Heap) (a : Nat) (i : Word) (x : Val) : Res Heap := do
  let es ← vecOf h a
  if i.slt 0#64 then .ub else
    if i.toNat < es.length then pure (h.set a (.vec (es.set i.toNat x))) else .ub

/-- `make-vector` (prelude.min:1107-1119) -/
def pMakeVector (h : Heap) : Val → Val → Res (Heap × Val)
  | .num w, x => if nonNeg w then mvector h w x else .err
  | _, _ => .err

/-- `vector-length` (prelude.min:1121-1125) -/
def pVectorLength (h : Heap) : Val → Res Nat
  | .vec a => do
    let es ← vecOf h a
    pure es.length
  | _ => .err

/-- `vector-ref` (prelude.min:1127-1135) -/
def pVectorRef (h : Heap) : Val → Val → Res Val
  | .vec a, .num i => if nonNeg i then (do
      let es ← vecOf h a
      if es.length ≤ i.toNat then .err else vectorRef h a i)
    else .err
  | _, _ => .err

/-- `vector-set!` (prelude.min:1137-1145) -/
def pVectorSet (h : Heap) : Val → Val → Val → Res Heap
  | .vec a, .num i, x => if nonNeg i then (do
      let es ← vecOf h a
      if es.length ≤ i.toNat then .err else vectorSet h a i x)
    else .err
  | _, _, _ => .err

/-- `vector-fill!` (prelude.min:1147-1151, vector.c:49-54) -/
def pVectorFill (h : Heap) : Val → Val → Res Heap
  | .vec a, x => do
    let es ← vecOf h a
    pure (h.set a (.vec (es.map fun _ => x)))
  | _, _ => .err

/-! ### programs over strings and vectors -/

/-- one operation; arguments are given by their position among the values obtained so far (modelling device: an arbitrary
program over these procedures, prelude.min:777-916, 1104-1163, string.min) -/
inductive Op where
  | makeString (n c : Nat)
  | stringLength (s : Nat)
  | stringRef (s i : Nat)
  | stringSet (s i c : Nat)
  | stringAppend (ss : List Nat)
  | substring (s b e : Nat)
  | numberToString (n : Nat)
  | listToString (cs : List Nat)
  | stringToList (s : Nat)
  | charToInteger (c : Nat)
  | integerToChar (n : Nat)
  | makeVector (n x : Nat)
  | vectorLength (v : Nat)
  | vectorRef (v i : Nat)
  | vectorSet (v i x : Nat)
  | vectorFill (v x : Nat)
deriving Repr

/-- the value at a position (modelling device) -/
def get (rs : List Val) (i : Nat) : Res Val :=
  match rs[i]? with
  | some v => .ok v
  | none => .err

/-- the values at several positions (modelling device) -/
def getAll (rs : List Val) : List Nat → Res (List Val)
  | [] => .ok []
  | i :: is => do
    let v ← get rs i
    let vs ← getAll rs is
    pure (v :: vs)

/-- requests of 2^62 bytes or more are not followed: the allocator returns NULL for them (gc-impl.c:323-330) -/
def tooLarge : Val → Bool
  | .num w => nonNeg w && decide (2 ^ 62 ≤ w.toNat)
  | _ => false

/-- `string-append` in a program; the size of the result is limited as in `tooLarge` -/
def stepAppend (n lit : Nat) (h : Heap) (vs : List Val) : Res (Heap × Val) :=
  match addresses vs with
  | none => .err
  | some as => do
    let len ← sumLengths h as
    if 2 ^ 62 ≤ len then .oof else pStringAppend n lit h vs

/-- one step of a program: the new heap and the new values -/
def step (n lit : Nat) (h : Heap) (rs : List Val) : Op → Res (Heap × List Val)
  | .makeString i c => do
    let x ← get rs i
    let y ← get rs c
    if tooLarge x then .oof else do
      let r ← pMakeString h x y
      pure (r.1, [r.2])
  | .stringLength s => do
    let x ← get rs s
    let k ← pStringLength h x
    pure (h, [.num (BitVec.ofNat 64 k)])
  | .stringRef s i => do
    let x ← get rs s
    let y ← get rs i
    let r ← pStringRef h x y
    pure (h, [r])
  | .stringSet s i c => do
    let x ← get rs s
    let y ← get rs i
    let z ← get rs c
    let r ← pStringSet h x y z
    pure (r, [])
  | .stringAppend ss => do
    let vs ← getAll rs ss
    let r ← stepAppend n lit h vs
    pure (r.1, [r.2])
  | .substring s b e => do
    let x ← get rs s
    let y ← get rs b
    let z ← get rs e
    if tooLarge z then .oof else do
      let r ← pSubstring n h x y z
      pure (r.1, [r.2])
  | .numberToString i => do
    let x ← get rs i
    let r ← pNumberToString h x
    pure (r.1, [r.2])
  | .listToString cs => do
    let vs ← getAll rs cs
    let r ← pListToString h vs
    pure (r.1, [r.2])
  | .stringToList s => do
    let x ← get rs s
    let vs ← pStringToList h x
    pure (h, vs)
  | .charToInteger c => do
    let x ← get rs c
    let r ← pCharToInteger x
    pure (h, [r])
  | .integerToChar i => do
    let x ← get rs i
    let r ← pIntegerToChar x
    pure (h, [r])
  | .makeVector i x => do
    let k ← get rs i
    let y ← get rs x
    if tooLarge k then .oof else do
      let r ← pMakeVector h k y
      pure (r.1, [r.2])
  | .vectorLength v => do
    let x ← get rs v
    let k ← pVectorLength h x
    pure (h, [.num (BitVec.ofNat 64 k)])
  | .vectorRef v i => do
    let x ← get rs v
    let y ← get rs i
    let r ← pVectorRef h x y
    pure (h, [r])
  | .vectorSet v i x => do
    let a ← get rs v
    let b ← get rs i
    let c ← get rs x
    let r ← pVectorSet h a b c
    pure (r, [])
  | .vectorFill v x => do
    let a ← get rs v
    let b ← get rs x
    let r ← pVectorFill h a b
    pure (r, [])

/-- a program: the operations one after the other (modelling device) -/
def run (n lit : Nat) : Heap → List Val → List Op → Res (Heap × List Val)
  | h, rs, [] => .ok (h, rs)
  | h, rs, op :: ops => do
    let r ← step n lit h rs op
    run n lit r.1 (rs ++ r.2) ops

end Minim.Str
