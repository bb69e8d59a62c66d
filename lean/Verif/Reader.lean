import Verif.Str

set_option autoImplicit false

/-!
# The reader (read.c) and the two printers (print.c:5-89, prelude.min:2028-2146)

An input port is the list of bytes not yet read (`getc`/`ungetc` on a FILE; pushing back two bytes in a row, as read.c:210-228 does, is
assumed to work as it does in glibc).  `int c` holds a byte or EOF; `char c` is signed, so the byte 0xFF becomes EOF (-1) and the bytes
0x80-0xFE become negative numbers, for which `isspace`, `isdigit` and `isxdigit` are undefined (C11 7.4p1).  Not modelled: exhaustion of
the C stack by deeply nested data.
-/

namespace Minim.Rd

/-- What the reader can produce.  `vec l` is the vector with the elements of the proper list `l`
(read.c:250-254 makes it from such a list); `nul` is the C pointer NULL, which `read_object` returns at the end of input. -/
inductive Dat where
  | null
  | bool (b : Bool)
  | fix (z : Int)
  | char (b : Byte)
  | sym (s : List Byte)
  | str (s : List Byte)
  | cons (a d : Dat)
  | vec (l : Dat)
  | box (d : Dat)
  | nul
deriving DecidableEq, Repr

/-- a value of type `int` returned by `getc`: a byte, or EOF -/
abbrev Ci := Option Byte

/-- `getc` -/
def getc : List Byte → Ci × List Byte
  | [] => (none, [])
  | b :: r => (some b, r)

/-- `ungetc`: pushing back EOF does nothing -/
def ungetc : Ci → List Byte → List Byte
  | none, inp => inp
  | some b, inp => b :: inp

/-- `peek_char` (read.c:36-40) -/
def peek (inp : List Byte) : Ci := (getc inp).1

/-- conversion to `char`, seen as `int` again: 0xFF is -1, that is EOF -/
def chr : Ci → Ci
  | some 255#8 => none
  | c => c

/-- `isspace` of a byte in the C locale (library function) -/
def spaceB (b : Byte) : Bool := b == 32#8 || (9#8 ≤ b && b ≤ 13#8)

/-- `isdigit` of a byte (library function) -/
def digitB (b : Byte) : Bool := 48#8 ≤ b && b ≤ 57#8

/-- `isxdigit` of a byte (library function) -/
def xdigitB (b : Byte) : Bool := digitB b || (65#8 ≤ b && b ≤ 70#8) || (97#8 ≤ b && b ≤ 102#8)

/-- `is_delimeter` (read.c:5-11) of a byte -/
def delimB (b : Byte) : Bool :=
  spaceB b || b == 40#8 || b == 41#8 || b == 91#8 || b == 93#8 || b == 123#8 || b == 125#8 || b == 34#8 || b == 59#8

/-- a `<ctype.h>` test of a `char`: undefined for negative values other than EOF (C11 7.4p1); `e` is the answer for EOF -/
def ctype (p : Byte → Bool) (e : Bool) : Ci → Res Bool
  | none => .ok e
  | some b => if b.msb then .ub else .ok (p b)

/-- `is_delimeter` (read.c:5-11) of a `char` -/
def delimC : Ci → Res Bool := ctype delimB true

/-- `skip_whitespace` (read.c:56-73); the flag tells whether we are inside a line comment.  (Here a newline ending a comment is skipped
at once, read.c:65 pushes it back and skips it as white space.) -/
def skip : Bool → List Byte → List Byte
  | _, [] => []
  | false, b :: r => if spaceB b then skip false r else if b = 59#8 then skip true r else b :: r
  | true, b :: r => if b = 10#8 then skip false r else skip true r

/-- `assert_not_eof` (read.c:17-21): the argument is converted to `char` -/
def notEof (c : Ci) : Res Unit := if chr c = none then .err else .ok ()

/-- `peek_expected_delimeter` (read.c:42-45) -/
def expectDelim (inp : List Byte) : Res Unit := do
  let d ← delimC (chr (peek inp))
  if d then pure () else .err

/-- `read_named_char` (read.c:75-83) -/
def readNamed : List Byte → List Byte → Res (List Byte)
  | [], inp => .ok inp
  | s :: ss, inp => if (getc inp).1 = some s then readNamed ss (getc inp).2 else .err

/-- the names recognised by `read_char` (read.c:90-183): first letter, rest of the name, value; a name is chosen by its first two
letters -/
def charNames : List (Byte × List Byte × Byte) :=
  [(97#8, [108#8, 97#8, 114#8, 109#8], 7#8),
   (98#8, [97#8, 99#8, 107#8, 115#8, 112#8, 97#8, 99#8, 101#8], 8#8),
   (100#8, [101#8, 108#8, 101#8, 116#8, 101#8], 127#8),
   (101#8, [115#8, 99#8], 27#8),
   (108#8, [105#8, 110#8, 101#8, 102#8, 101#8, 101#8, 100#8], 10#8),
   (110#8, [101#8, 119#8, 108#8, 105#8, 110#8, 101#8], 10#8),
   (110#8, [117#8, 108#8], 0#8),
   (112#8, [97#8, 103#8, 101#8], 12#8),
   (114#8, [101#8, 116#8, 117#8, 114#8, 110#8], 13#8),
   (115#8, [112#8, 97#8, 99#8, 101#8], 32#8),
   (116#8, [97#8, 98#8], 9#8),
   (118#8, [116#8, 97#8, 98#8], 11#8)]

/-- the entry of `charNames` chosen by the first letter and the following character -/
def findName (c nc : Ci) : Option (List Byte × Byte) :=
  (charNames.find? fun e => c == some e.1 && nc == e.2.1.head?).map (·.2)

/-- `read_char` (read.c:85-187) -/
def readChar (inp : List Byte) : Res (Byte × List Byte) :=
  match inp with
  | [] => .err
  | b :: r => do
    let _ ← notEof (some b)
    match findName (some b) (peek r) with
    | some (s, v) => do
      let r' ← readNamed s r
      let _ ← expectDelim r'
      pure (v, r')
    | none => do
      let _ ← expectDelim r
      pure (b, r)

/-- the size of the token buffer (minim.h:43) -/
def maxLen : Nat := 4096

/-- the end of a token (read.c:452-456): the delimiter is pushed back, the buffer is terminated -/
def symEnd (buf : List Byte) (c : Ci) (inp : List Byte) : Res (Dat × List Byte) :=
  if buf.length < maxLen then .ok (.sym (cstr buf), ungetc c inp) else .ub

/-- one more character in the buffer, with a check (read.c:444-448) -/
def push (buf : List Byte) (b : Byte) : Res (List Byte) := if maxLen ≤ buf.length then .err else .ok (buf ++ [b])

/-- one more character in the buffer, without a check (read.c:345, 348, 353, 377, 380, 385) -/
def poke (buf : List Byte) (b : Byte) : Res (List Byte) := if maxLen ≤ buf.length then .ub else .ok (buf ++ [b])

/-- the loop reading a symbol (read.c:441-456); `c` has been read already -/
def symLoop (buf : List Byte) (c : Ci) : List Byte → Res (Dat × List Byte)
  | [] => do
    let d ← delimC c
    match d, c with
    | false, some b => do
      let buf' ← push buf b
      symEnd buf' none []
    | _, _ => symEnd buf c []
  | x :: r => do
    let d ← delimC c
    match d, c with
    | false, some b => do
      let buf' ← push buf b
      symLoop buf' (chr (some x)) r
    | _, _ => symEnd buf c (x :: r)

/-- the largest fixnum -/
def maxFix : Nat := 9223372036854775807

/-- the value of a hexadecimal digit (read.c:386-388) -/
def xval (b : Byte) : Nat :=
  if 65#8 ≤ b && b ≤ 70#8 then 10 + (b.toNat - 65) else if 97#8 ≤ b && b ≤ 102#8 then 10 + (b.toNat - 97) else b.toNat - 48

/-- the loops reading the digits (read.c:352-355, 384-389), with the base, the test and the value of a digit as parameters: the buffer, the
magnitude, the character that ends them, the rest.  Exceeding `long` is undefined (C11 6.5p5; the build has no -fwrapv). -/
def digLoop (base : Nat) (p : Byte → Bool) (val : Byte → Nat) : List Byte → Nat → List Byte → Res (List Byte × Nat × Ci × List Byte)
  | buf, num, [] => .ok (buf, num, none, [])
  | buf, num, x :: r => do
    let c := chr (some x)
    let d ← ctype p false c
    if d then do
      let buf' ← poke buf x
      if maxFix < num * base + val x then .ub else digLoop base p val buf' (num * base + val x) r
    else pure (buf, num, c, r)

/-- a token that may be a number (read.c:338-365, 370-399), `c` being its first character, already read -/
def readNum (base : Nat) (p : Byte → Bool) (val : Byte → Nat) (c : Ci) (inp : List Byte) : Res (Dat × List Byte) := do
  let start ← (if c = some 45#8 then poke [] 45#8 else if c = some 43#8 then .ok [] else poke [] (c.getD 255#8) : Res (List Byte))
  let inp' := if c = some 45#8 ∨ c = some 43#8 then inp else ungetc c inp
  let q ← digLoop base p val start 0 inp'
  let d ← delimC q.2.2.1
  if d then pure (.fix (if c = some 45#8 then -(q.2.1 : Int) else q.2.1), ungetc q.2.2.1 q.2.2.2)
  else symLoop q.1 q.2.2.1 q.2.2.2

/-- the characters behind a backslash (read.c:406-419) -/
def escape : Ci → Res Byte
  | some 110#8 => .ok 10#8
  | some 116#8 => .ok 9#8
  | some 92#8 => .ok 92#8
  | some 39#8 => .ok 39#8
  | some 34#8 => .ok 34#8
  | _ => .err

/-- the loop reading a string (read.c:402-430) -/
def strLoop (buf : List Byte) : List Byte → Res (Dat × List Byte)
  | [] => .err
  | x :: r =>
    if x = 34#8 then (if buf.length < maxLen then .ok (.str (cstr buf), r) else .ub)
    else do
      let _ ← notEof (some x)
      if x = 92#8 then
        match r with
        | [] => .err
        | y :: r' => do
          let b ← escape (chr (some y))
          let buf' ← push buf b
          strLoop buf' r'
      else do
        let buf' ← push buf x
        strLoop buf' r

/-- the loop skipping a block comment (read.c:311-329) -/
def blockLoop : Nat → List Byte → Res (List Byte)
  | 0, inp => .ok inp
  | _ + 1, [] => .err
  | l + 1, x :: r => do
    let _ ← notEof (some x)
    if x = 35#8 then
      match r with
      | [] => .err
      | y :: r' => do
        let _ ← notEof (some y)
        blockLoop (if y = 124#8 then l + 2 else l + 1) r'
    else if x = 124#8 then
      match r with
      | [] => .err
      | y :: r' => do
        let _ ← notEof (some y)
        blockLoop (if y = 35#8 then l else l + 1) r'
    else blockLoop (l + 1) r

/-- `assert_matching_paren` (read.c:29-35) -/
def matching (o c : Byte) : Bool := (o == 40#8 && c == 41#8) || (o == 91#8 && c == 93#8) || (o == 123#8 && c == 125#8)

/-- a closing parenthesis (read.c:197, 219) -/
def isClose (b : Byte) : Bool := b == 41#8 || b == 93#8 || b == 125#8

/-- an opening parenthesis (read.c:431) -/
def isOpen (b : Byte) : Bool := b == 40#8 || b == 91#8 || b == 123#8

/-- a proper list -/
def ofList : List Dat → Dat
  | [] => .null
  | d :: ds => .cons d (ofList ds)

/-- `quote` -/
def quoteSym : List Byte := [113#8, 117#8, 111#8, 116#8, 101#8]

/-- `quote-syntax` -/
def quoteSyntaxSym : List Byte :=
  [113#8, 117#8, 111#8, 116#8, 101#8, 45#8, 115#8, 121#8, 110#8, 116#8, 97#8, 120#8]

/-- a `<ctype.h>` test of the next character (`isdigit(peek_char(in))`, read.c:335; `isspace(c)`, read.c:53) -/
def peekIs (p : Byte → Bool) : List Byte → Bool
  | [] => false
  | b :: _ => p b

/-- `is_cons_dot` (read.c:47-54) -/
def isDot (c : Ci) (inp : List Byte) : Bool := c == some 46#8 && peekIs spaceB inp

/-- what follows neither `#` nor a parenthesis nor a quote (read.c:335-365, 400-430, 437-461) -/
def readAtom (c : Ci) (r : List Byte) : Res (Dat × List Byte) := do
  let dg ← ctype digitB false c
  if dg || ((c == some 45#8 || c == some 43#8) && peekIs digitB r) then
    readNum 10 digitB (fun b => b.toNat - 48) c r
  else if c = some 34#8 then strLoop [] r
  else do
    let d ← delimC c
    if !d then symLoop [] c r
    else if c = none then pure (.nul, r)
    else .err

/-- the end of a dotted list (read.c:215-225) -/
def readEnd (o : Byte) (d : Dat) : List Byte → Res (Dat × List Byte)
  | [] => .err
  | x :: r => do
    let _ ← notEof (some x)
    if isClose x then (if matching o x then .ok (d, r) else .err) else .err

mutual
/-- `read_object` (read.c:257-464), with fuel -/
def readObj : Nat → List Byte → Res (Dat × List Byte)
  | 0, _ => .oof
  | n + 1, inp =>
    match skip false inp with
    | [] => readAtom none []
    | x :: r =>
      if x = 35#8 then readHash n r
      else if isOpen x then readPair n x r
      else if x = 39#8 then do
        let q ← readObj n r
        pure (.cons (.sym quoteSym) (.cons q.1 .null), q.2)
      else readAtom (chr (some x)) r

/-- what follows `#` (read.c:270-334) -/
def readHash : Nat → List Byte → Res (Dat × List Byte)
  | 0, _ => .oof
  | _ + 1, [] => .err
  | n + 1, x :: r =>
    if x = 37#8 then symLoop [] (some 35#8) (x :: r)
    else if x = 116#8 then .ok (.bool true, r)
    else if x = 102#8 then .ok (.bool false, r)
    else if x = 92#8 then do
      let q ← readChar r
      pure (.char q.1, q.2)
    else if x = 39#8 then do
      let q ← readObj n r
      pure (.cons (.sym quoteSyntaxSym) (.cons q.1 .null), q.2)
    else if x = 40#8 then readVec n r []
    else if x = 38#8 then do
      let q ← readObj n r
      pure (.box q.1, q.2)
    else if x = 120#8 then readNum 16 xdigitB xval (chr (getc r).1) (getc r).2
    else if x = 59#8 then do
      let _ ← notEof (peek (skip false r))
      let q ← readObj n (skip false r)
      readObj n q.2
    else if x = 124#8 then do
      let r' ← blockLoop 1 r
      readObj n r'
    else .err

/-- `read_pair` (read.c:189-232) -/
def readPair : Nat → Byte → List Byte → Res (Dat × List Byte)
  | 0, _, _ => .oof
  | n + 1, o, inp =>
    match skip false inp with
    | [] => .err
    | x :: r => do
      let _ ← notEof (some x)
      if isClose x then (if matching o x then .ok (.null, r) else .err)
      else do
        let q ← readObj n (x :: r)
        readRest n o q.1 (skip false q.2)

/-- `read_pair` behind the first element (read.c:206-231) -/
def readRest : Nat → Byte → Dat → List Byte → Res (Dat × List Byte)
  | 0, _, _, _ => .oof
  | _ + 1, _, _, [] => .err
  | n + 1, o, car, y :: r => do
    let _ ← notEof (some y)
    if isDot (some y) r then do
      let _ ← expectDelim r
      let e ← readObj n r
      readEnd o (.cons car e.1) (skip false e.2)
    else do
      let e ← readPair n o (y :: r)
      pure (.cons car e.1, e.2)

/-- `read_vector` (read.c:234-255), `acc` being the elements read so far, last one first -/
def readVec : Nat → List Byte → List Dat → Res (Dat × List Byte)
  | 0, _, _ => .oof
  | n + 1, inp, acc =>
    if peek (skip false inp) = some 41#8 then do
      let q ← readChar (skip false inp)
      pure (.vec (ofList acc.reverse), q.2)
    else do
      let q ← readObj n (skip false inp)
      readVec n q.2 (q.1 :: acc)

end

/-- `read_object` repeated until it returns NULL (load_file, system.c:109; the caller's use of each datum is not modelled) -/
def readAll (fuel : Nat) : Nat → List Byte → Res (List Dat)
  | 0, _ => .oof
  | k + 1, inp => do
    let q ← readObj fuel inp
    if q.1 = .nul then pure [] else do
      let ds ← readAll fuel k q.2
      pure (q.1 :: ds)

/-! ### printers -/

/-- the names of characters (print.c:9-19, prelude.min:2055-2065) -/
def charName (b : Byte) : List Byte :=
  if b = 0#8 then [110#8, 117#8, 108#8]
  else if b = 7#8 then [97#8, 108#8, 97#8, 114#8, 109#8]
  else if b = 8#8 then [98#8, 97#8, 99#8, 107#8, 115#8, 112#8, 97#8, 99#8, 101#8]
  else if b = 9#8 then [116#8, 97#8, 98#8]
  else if b = 10#8 then [110#8, 101#8, 119#8, 108#8, 105#8, 110#8, 101#8]
  else if b = 11#8 then [118#8, 116#8, 97#8, 98#8]
  else if b = 12#8 then [112#8, 97#8, 103#8, 101#8]
  else if b = 13#8 then [114#8, 101#8, 116#8, 117#8, 114#8, 110#8]
  else if b = 27#8 then [101#8, 115#8, 99#8]
  else if b = 32#8 then [115#8, 112#8, 97#8, 99#8, 101#8]
  else if b = 127#8 then [100#8, 101#8, 108#8, 101#8, 116#8, 101#8]
  else [b]

/-- one character of a written string (prelude.min:2074-2083) -/
def wrStrChar (b : Byte) : List Byte :=
  if b = 7#8 then [92#8, 97#8]
  else if b = 8#8 then [92#8, 98#8]
  else if b = 10#8 then [92#8, 110#8]
  else if b = 12#8 then [92#8, 102#8]
  else if b = 13#8 then [92#8, 114#8]
  else if b = 9#8 then [92#8, 116#8]
  else if b = 11#8 then [92#8, 118#8]
  else if b = 34#8 then [92#8, 34#8]
  else if b = 92#8 then [92#8, 92#8]
  else [b]

/-- `#<garbage>` (prelude.min:2050) -/
def garbage : List Byte := [35#8, 60#8, 103#8, 97#8, 114#8, 98#8, 97#8, 103#8, 101#8, 62#8]

mutual
/-- the writer `wr` of the prelude (prelude.min:2031-2118), `d` for `display`; the printed bytes.  Simplification: only for the types in
`Dat`. -/
def wr (d : Bool) : Dat → List Byte
  | .null => [40#8, 41#8]
  | .bool b => if b then [35#8, 116#8] else [35#8, 102#8]
  | .fix z => Str.decimal z
  | .char b => if d then [b] else [35#8, 92#8] ++ charName b
  | .sym s => s
  | .str s => if d then s else [34#8] ++ (s.flatMap wrStrChar ++ [34#8])
  | .cons a e => [40#8] ++ (wr d a ++ (wrTail d e ++ [41#8]))
  | .vec l => [35#8] ++ (wrElems d true l ++ [41#8])
  | .box _ => garbage
  | .nul => garbage

/-- the loop of `wrpair` behind an element (prelude.min:2093-2101) -/
def wrTail (d : Bool) : Dat → List Byte
  | .null => []
  | .cons a e => [32#8] ++ (wr d a ++ wrTail d e)
  | .bool b => [32#8, 46#8, 32#8] ++ wr d (.bool b)
  | .fix z => [32#8, 46#8, 32#8] ++ wr d (.fix z)
  | .char b => [32#8, 46#8, 32#8] ++ wr d (.char b)
  | .sym s => [32#8, 46#8, 32#8] ++ wr d (.sym s)
  | .str s => [32#8, 46#8, 32#8] ++ wr d (.str s)
  | .vec l => [32#8, 46#8, 32#8] ++ ([35#8] ++ (wrElems d true l ++ [41#8]))
  | .box e => [32#8, 46#8, 32#8] ++ wr d (.box e)
  | .nul => [32#8, 46#8, 32#8] ++ wr d .nul

/-- the loop of `wrvector` (prelude.min:2109-2117): the separator is an opening parenthesis for the first element -/
def wrElems (d first : Bool) : Dat → List Byte
  | .cons a e => (if first then [40#8] else [32#8]) ++ (wr d a ++ wrElems d false e)
  | _ => []
end

mutual
/-- `write_object` (print.c:77-91) for the types in `Dat` -/
def cw : Dat → List Byte
  | .null => [40#8, 41#8]
  | .bool b => if b then [35#8, 116#8] else [35#8, 102#8]
  | .fix z => Str.decimal z
  | .char b => [35#8, 92#8] ++ charName b
  | .sym s => s
  | .str s => [34#8] ++ (s ++ [34#8])
  | .cons a e => [40#8] ++ (cw a ++ (cwTail e ++ [41#8]))
  | .vec l => [35#8, 40#8] ++ (cwElems true l ++ [41#8])
  | .box e => [35#8, 38#8] ++ cw e
  | .nul => garbage

/-- `write_pair` (print.c:23-39) behind an element -/
def cwTail : Dat → List Byte
  | .null => []
  | .cons a e => [32#8] ++ (cw a ++ cwTail e)
  | .bool b => [32#8, 46#8, 32#8] ++ cw (.bool b)
  | .fix z => [32#8, 46#8, 32#8] ++ cw (.fix z)
  | .char b => [32#8, 46#8, 32#8] ++ cw (.char b)
  | .sym s => [32#8, 46#8, 32#8] ++ cw (.sym s)
  | .str s => [32#8, 46#8, 32#8] ++ cw (.str s)
  | .vec l => [32#8, 46#8, 32#8] ++ ([35#8, 40#8] ++ (cwElems true l ++ [41#8]))
  | .box e => [32#8, 46#8, 32#8] ++ ([35#8, 38#8] ++ cw e)
  | .nul => [32#8, 46#8, 32#8] ++ garbage

/-- the elements in `write_vector` (print.c:41-53) -/
def cwElems (first : Bool) : Dat → List Byte
  | .cons a e => (if first then [] else [32#8]) ++ (cw a ++ cwElems false e)
  | _ => []
end

end Minim.Rd
