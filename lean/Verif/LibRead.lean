import Verif.Reader

set_option autoImplicit false

/-!
# The reader of the library (library/read.min), which module.min uses for module files and for the command line

An input port is the list of bytes not yet read; `peek-char` and `read-char` give the next byte as a character and the eof object at the
end of input, again and again (io.c:179-190; `mchar` is `int`, so every byte is a character).  `eq?` compares characters by value
(object.c:78-93).  The reader returns syntax objects; their location is always `#f` (syntax.c:74-88) and left out.  Not modelled: the
argument check of `read` (read.min:16-17), exhaustion of the stack by `apply string` and by deeply nested data.
-/

namespace Minim.LRd

open Minim.Rd (Dat digitB xdigitB maxFix matching isClose isOpen quoteSym)

/-- Objects met by the reader.  `vec l` is the vector with the elements of the proper list `l`; `eof` is the eof object, `stx e` a syntax
object. -/
inductive W where
  | null
  | bool (b : Bool)
  | fix (z : Int)
  | char (b : Byte)
  | sym (s : List Byte)
  | str (s : List Byte)
  | cons (a d : W)
  | vec (l : W)
  | box (d : W)
  | eof
  | stx (e : W)
deriving DecidableEq, Repr

mutual

/-- `datum->syntax` (syntax.c:74-88) -/
def toStx : W → W
  | .stx e => .stx e
  | .cons a d => .stx (.cons (toStx a) (tailStx d))
  | .vec l => .stx (.vec (elemsStx l))
  | .box d => .stx (.box (toStx d))
  | .null => .stx .null
  | .bool b => .stx (.bool b)
  | .fix z => .stx (.fix z)
  | .char b => .stx (.char b)
  | .sym s => .stx (.sym s)
  | .str s => .stx (.str s)
  | .eof => .stx .eof

/-- the cdrs of a list (syntax.c:16-31): null stays null, another tail is converted -/
def tailStx : W → W
  | .cons a d => .cons (toStx a) (tailStx d)
  | .null => .null
  | .stx e => .stx e
  | .vec l => .stx (.vec (elemsStx l))
  | .box d => .stx (.box (toStx d))
  | .bool b => .stx (.bool b)
  | .fix z => .stx (.fix z)
  | .char b => .stx (.char b)
  | .sym s => .stx (.sym s)
  | .str s => .stx (.str s)
  | .eof => .stx .eof

/-- the elements of a vector (syntax.c:34-39) -/
def elemsStx : W → W
  | .cons a d => .cons (toStx a) (elemsStx d)
  | d => d

end

/-- `syntax->datum` (syntax.c:91-106); the eof object is `nul` -/
def datum : W → Dat
  | .stx e => datum e
  | .cons a d => .cons (datum a) (datum d)
  | .vec l => .vec (datum l)
  | .box d => .box (datum d)
  | .null => .null
  | .bool b => .bool b
  | .fix z => .fix z
  | .char b => .char b
  | .sym s => .sym s
  | .str s => .str s
  | .eof => .nul

/-- `syntax?` -/
def W.isStx : W → Bool
  | .stx _ => true
  | _ => false

/-- `space?` (read.min:28-30) -/
def spaceL (b : Byte) : Bool := b == 32#8 || b == 10#8

/-- `delimeter?` (read.min:32-36) of a character -/
def delimL (b : Byte) : Bool :=
  spaceL b || b == 40#8 || b == 91#8 || b == 123#8 || b == 41#8 || b == 93#8 || b == 125#8 || b == 34#8 || b == 59#8

/-- `delimeter?` (read.min:32-36) of what `peek-char` gives -/
def delimP : List Byte → Bool
  | [] => true
  | b :: _ => delimL b

/-- `digit?` (read.min:41-45) of what `peek-char` gives: `char->integer` does not accept the eof object -/
def digitP : List Byte → Res Bool
  | [] => .err
  | b :: _ => .ok (digitB b)

/-- `skip-until-token!` and `skip-comment!` (read.min:79-86, 116-127); the flag tells whether we are inside a line comment.  (Here a newline
ending a comment is skipped at once, read.min:83 leaves it to be skipped as white space.) -/
def skipL : Bool → List Byte → List Byte
  | _, [] => []
  | false, b :: r => if spaceL b then skipL false r else if b = 59#8 then skipL true r else b :: r
  | true, b :: r => if b = 10#8 then skipL false r else skipL true r

/-- `skip-block-comment!` (read.min:88-114), with fuel: at the end of input `read-char` keeps returning the eof object and the loop goes
on -/
def blockL : Nat → Nat → List Byte → Res (List Byte)
  | 0, _, _ => .oof
  | _ + 1, 0, inp => .ok inp
  | n + 1, l + 1, [] => blockL n (l + 1) []
  | n + 1, l + 1, x :: r =>
    if x = 35#8 then
      match r with
      | [] => .err
      | y :: r' => if y = 124#8 then blockL n (l + 2) r' else blockL n (l + 1) (y :: r')
    else if x = 124#8 then
      match r with
      | [] => .err
      | y :: r' => if y = 35#8 then blockL n l r' else blockL n (l + 1) (y :: r')
    else blockL n (l + 1) r

/-- `check-expected-string!` (read.min:129-143) -/
def expectL : List Byte → List Byte → Res (List Byte)
  | [], inp => .ok inp
  | _ :: _, [] => .err
  | s :: ss, b :: r => if b = s then expectL ss r else .err

/-- the end of `read-character` for a character without a name (read.min:218-219, 227-228, 230-231) -/
def plainChar (b : Byte) (r : List Byte) : Res (Byte × List Byte) := if delimP r then .ok (b, r) else .err

/-- `read-character` (read.min:203-231) -/
def charL : List Byte → Res (Byte × List Byte)
  | [] => .err
  | b :: r =>
    if b = 115#8 then
      if r.head? = some 112#8 then do
        let r' ← expectL [112#8, 97#8, 99#8, 101#8] r
        pure (32#8, r')
      else plainChar b r
    else if b = 110#8 then
      if r.head? = some 101#8 then do
        let r' ← expectL [101#8, 119#8, 108#8, 105#8, 110#8, 101#8] r
        pure (10#8, r')
      else plainChar b r
    else plainChar b r

/-- `read-symbol` (read.min:337-345): `acc` holds the characters read so far, the last one first -/
def symL (acc : List Byte) : List Byte → W × List Byte
  | [] => (.sym (cstr acc.reverse), [])
  | b :: r => if delimL b then (.sym (cstr acc.reverse), b :: r) else symL (b :: acc) r

/-- `read-number` (read.min:234-255): `acc` is `chars`, `num` the magnitude.  Exceeding the largest fixnum is undefined (the fixnum
operations are those of C). -/
def numL (acc : List Byte) (num : Nat) : List Byte → Res (W × List Byte)
  | [] => .err
  | b :: r =>
    if digitB b then
      if maxFix < 10 * num + (b.toNat - 48) then .ub else numL (b :: acc) (10 * num + (b.toNat - 48)) r
    else if !delimL b then .ok (symL (b :: acc) r)
    else .ok (.fix num, b :: r)

/-- the value of a hexadecimal digit (read.min:289-296) -/
def hexL (b : Byte) : Nat :=
  if digitB b then b.toNat - 48 else if 97 ≤ b.toNat then 10 + (b.toNat - 97) else 10 + (b.toNat - 65)

/-- the loop of `read-hex-number` (read.min:283-303) -/
def hexLoop (sign : Int) (acc : List Byte) (num : Nat) : List Byte → Res (W × List Byte)
  | [] => .err
  | b :: r =>
    if xdigitB b then
      if maxFix < 16 * num + hexL b then .ub else hexLoop sign (b :: acc) (16 * num + hexL b) r
    else if !delimL b then .ok (symL (b :: acc) r)
    else .ok (.fix (num * sign), b :: r)

/-- `read-hex-number` (read.min:258-303) -/
def hexNum : List Byte → Res (W × List Byte)
  | [] => hexLoop 1 [] 0 []
  | b :: r =>
    if b = 45#8 then hexLoop (-1) [b] 0 r
    else if b = 43#8 then hexLoop 1 [b] 0 r
    else hexLoop 1 [] 0 (b :: r)

/-- `read-string` (read.min:306-334) -/
def strL (acc : List Byte) : List Byte → Res (List Byte × List Byte)
  | [] => .err
  | b :: r =>
    if b = 92#8 then
      match r with
      | [] => .err
      | c :: r' =>
        if c = 110#8 then strL (10#8 :: acc) r'
        else if c = 92#8 then strL (92#8 :: acc) r'
        else if c = 34#8 then strL (34#8 :: acc) r'
        else .err
    else if b = 34#8 then .ok (acc.reverse, r)
    else strL (b :: acc) r

/-- a list of two elements, as made by `list` (read.min:377, 436) -/
def two (a b : W) : W := .cons a (.cons b .null)

/-- a list -/
def listW : List W → W
  | [] => .null
  | w :: ws => .cons w (listW ws)

/-- `syntax` -/
def syntaxSym : List Byte := [115#8, 121#8, 110#8, 116#8, 97#8, 120#8]

/-- a number or symbol that starts with a sign (read.min:407-419); `-` does not accept a symbol -/
def signL (s : Byte) (r : List Byte) : Res (W × List Byte) := do
  let d ← digitP r
  if d then do
    let q ← numL [] 0 r
    if s = 45#8 then
      match q.1 with
      | .fix z => pure (toStx (.fix (-z)), q.2)
      | _ => .err
    else pure (toStx q.1, q.2)
  else pure (toStx (symL [s] r).1, (symL [s] r).2)

/-- a string (read.min:423-428) -/
def stringL (r : List Byte) : Res (W × List Byte) := do
  let q ← strL [] r
  if delimP q.2 then pure (toStx (.str (cstr q.1)), q.2) else .err

/-- the end of a dotted list (read.min:172-182) -/
def closeL (o : Byte) (w : W) : List Byte → Res (W × List Byte)
  | [] => .err
  | x :: r => if isClose x then (if matching o x then .ok (w, r) else .err) else .err

mutual

/-- `read-loop` (read.min:349-441), with fuel -/
def rd : Nat → List Byte → Res (W × List Byte)
  | 0, _ => .oof
  | n + 1, inp =>
    match skipL false inp with
    | [] => .ok (.eof, [])
    | x :: r =>
      if x = 35#8 then rdHash n r
      else if x = 43#8 ∨ x = 45#8 then signL x r
      else if digitB x then do
        let q ← numL [] 0 (x :: r)
        pure (toStx q.1, q.2)
      else if x = 34#8 then stringL r
      else if isOpen x then do
        let q ← rdPair n x r
        pure (toStx q.1, q.2)
      else if x = 39#8 then do
        let q ← rd n r
        pure (toStx (two (.sym quoteSym) q.1), q.2)
      else if !delimL x then .ok (toStx (symL [] (x :: r)).1, (symL [] (x :: r)).2)
      else .err

/-- what follows `#` (read.min:360-406) -/
def rdHash : Nat → List Byte → Res (W × List Byte)
  | 0, _ => .oof
  | _ + 1, [] => .err
  | n + 1, x :: r =>
    if x = 116#8 then .ok (toStx (.bool true), r)
    else if x = 102#8 then .ok (toStx (.bool false), r)
    else if x = 92#8 then do
      let q ← charL r
      pure (toStx (.char q.1), q.2)
    else if x = 39#8 then do
      let q ← rd n r
      pure (toStx (two (.sym syntaxSym) q.1), q.2)
    else if x = 40#8 then do
      let q ← rdVec n r []
      pure (toStx q.1, q.2)
    else if x = 38#8 then do
      let q ← rd n r
      pure (toStx (.box q.1), q.2)
    else if x = 120#8 then do
      let q ← hexNum r
      pure (toStx q.1, q.2)
    else if x = 59#8 then
      match skipL false r with
      | [] => .err
      | y :: r' => do
        let q ← rd n (y :: r')
        rd n q.2
    else if x = 124#8 then do
      let r' ← blockL n 1 r
      let q ← rd n r'
      pure (toStx q.1, q.2)
    else .err

/-- `read-pair` (read.min:146-188) -/
def rdPair : Nat → Byte → List Byte → Res (W × List Byte)
  | 0, _, _ => .oof
  | n + 1, o, inp =>
    match skipL false inp with
    | [] => .err
    | x :: r =>
      if isClose x then (if matching o x then .ok (.null, r) else .err)
      else do
        let q ← rd n (x :: r)
        rdRest n o q.1 q.2

/-- the loop of `read-pair` behind an element (read.min:159-188) -/
def rdRest : Nat → Byte → W → List Byte → Res (W × List Byte)
  | 0, _, _, _ => .oof
  | n + 1, o, car, inp =>
    match skipL false inp with
    | [] => .err
    | x :: r =>
      if x = 46#8 then do
        let q ← rd n (x :: r)
        match q.1 with
        | .stx e =>
          if e = .sym [46#8] then do
            let c ← rd n q.2
            closeL o (.cons car c.1) (skipL false c.2)
          else do
            let t ← rdRest n o q.1 q.2
            pure (.cons car t.1, t.2)
        | _ => .err
      else do
        let t ← rdPair n o (x :: r)
        pure (.cons car t.1, t.2)

/-- `read-vector` (read.min:191-200) -/
def rdVec : Nat → List Byte → List W → Res (W × List Byte)
  | 0, _, _ => .oof
  | n + 1, inp, acc =>
    if (skipL false inp).head? = some 41#8 then .ok (.vec (listW acc.reverse), (skipL false inp).tail)
    else do
      let q ← rd n (skipL false inp)
      rdVec n q.2 (q.1 :: acc)

end

/-- `$read` (module.min:35-45), the data of a file; `n` bounds each call of `read` and the number of data -/
def rdFile (n : Nat) : Nat → List Byte → List W → Res (List W)
  | 0, _, _ => .oof
  | k + 1, inp, acc => do
    let q ← rd n inp
    if q.1 = .eof then pure acc.reverse else rdFile n k q.2 (q.1 :: acc)

end Minim.LRd
