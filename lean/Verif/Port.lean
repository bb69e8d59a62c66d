import Verif.Str

set_option autoImplicit false

/-!
# Ports over strings (io.c; prelude.min:1195-1217, 1939-2026, 2160-2167)

A port owns a C stream.  The stream of a string port is a temporary file: its bytes, the position, and the direction of the last transfer.  A closed stream, and a change of direction
without repositioning, are undefined behaviour (C11 7.21.3p4, 7.21.5.3p7).

Simplifications: `tmpfile` succeeds; ports on files and on the standard streams are not opened here (the same functions work on them); input and output errors of the operating system do not happen.
-/

namespace Minim.Port

open Minim.Str (Heap Val)

/-- the direction of the last transfer on an update stream (C11 7.21.5.3p7, library) -/
inductive Dir where
  | none
  | rd
  | wr
deriving DecidableEq, Repr

/-- a C stream on a temporary file (library) -/
structure Stream where
  bytes : List Byte
  pos : Nat
  last : Dir
deriving DecidableEq, Repr

/-- a port object (minim.h:280-289): the three flags and the stream, which is gone once it has been closed -/
structure Port where
  open_ : Bool
  read : Bool
  str : Bool
  fp : Option Stream
deriving DecidableEq, Repr

/-- values: those of `Str`, ports, the end-of-file object, void, booleans -/
inductive PV where
  | val (v : Val)
  | port (n : Nat)
  | eof
  | void
  | bool (b : Bool)
deriving DecidableEq, Repr

/-- the state: strings and ports, both by address -/
structure World where
  heap : Heap
  ports : List Port
deriving DecidableEq, Repr

/-! ### the C library -/

/-- `tmpfile` (library): opened for update, empty -/
def tmpfile : Stream := ⟨[], 0, .none⟩

/-- `putc` (library) -/
def putc (s : Stream) (b : Byte) : Res Stream :=
  if s.last = .rd then .ub else
  if s.pos < s.bytes.length then .ok ⟨s.bytes.set s.pos b, s.pos + 1, .wr⟩
  else .ok ⟨s.bytes ++ List.replicate (s.pos - s.bytes.length) 0#8 ++ [b], s.pos + 1, .wr⟩

/-- several bytes: `fputs` and loops over `putc` (library) -/
def puts (s : Stream) : List Byte → Res Stream
  | [] => .ok s
  | b :: bs => do
    let s ← putc s b
    puts s bs

/-- `getc` (library); `none` is EOF -/
def getc (s : Stream) : Res (Stream × Option Byte) :=
  if s.last = .wr then .ub else
  match s.bytes[s.pos]? with
  | some b => .ok (⟨s.bytes, s.pos + 1, .rd⟩, some b)
  | none => .ok (⟨s.bytes, s.pos, .none⟩, none)

/-- `ungetc` (library) of what `getc` has just returned; pushing back EOF does nothing (C11 7.21.7.10p4) -/
def ungetc (s : Stream) : Option Byte → Stream
  | some _ => ⟨s.bytes, s.pos - 1, s.last⟩
  | none => s

/-- `fseek (f, 0, SEEK_SET)` and `rewind` (library) -/
def rewind (s : Stream) : Stream := ⟨s.bytes, 0, .none⟩

/-- `fread` of one block of `len` bytes (library); `none`: not that many bytes -/
def fread (s : Stream) (len : Nat) : Res (Stream × Option (List Byte)) :=
  if s.last = .wr then .ub else
  if s.pos + len ≤ s.bytes.length then .ok (⟨s.bytes, s.pos + len, .rd⟩, some ((s.bytes.drop s.pos).take len))
  else .ok (⟨s.bytes, s.bytes.length, .none⟩, none)

/-- `fflush` (library): undefined if the last transfer was input (C11 7.21.5.2p2) -/
def fflush (s : Stream) : Res Stream := if s.last = .rd then .ub else .ok ⟨s.bytes, s.pos, .none⟩

/-! ### io.c -/

/-- the port at an address (minim.h:288-289) -/
def portAt (w : World) (n : Nat) : Res Port :=
  match w.ports[n]? with
  | some p => .ok p
  | none => .ub

/-- the stream of a port; using the stream after `fclose` is undefined (C11 7.21.3p4) -/
def streamOf (w : World) (n : Nat) : Res Stream := do
  let p ← portAt w n
  match p.fp with
  | some s => .ok s
  | none => .ub

/-- the port with another stream (effect of the library functions on the `FILE`) -/
def setStream (w : World) (n : Nat) (s : Stream) : World :=
  match w.ports[n]? with
  | some p => ⟨w.heap, w.ports.set n { p with fp := some s }⟩
  | none => w

/-- `open_input_string` (io.c:102-118); `Minput_port` (io.c:20-27) sets the READ flag -/
def openInputString (w : World) (a : Nat) : Res (World × PV) := do
  let bs ← Str.bufOf w.heap a
  let n ← Str.strlen bs
  let s ← puts tmpfile (bs.take n)
  pure (⟨w.heap, w.ports ++ [⟨true, true, true, some (rewind s)⟩]⟩, .port w.ports.length)

/-- `open_output_string` (io.c:120-135); `Moutput_port` (io.c:29-36) sets no flag -/
def openOutputString (w : World) : World × PV :=
  (⟨w.heap, w.ports ++ [⟨true, false, true, some tmpfile⟩]⟩, .port w.ports.length)

/-- `close_input_port` and `close_output_port` (io.c:137-149) -/
def closePort (w : World) (n : Nat) : Res World := do
  let p ← portAt w n
  match p.fp with
  | some _ => pure ⟨w.heap, w.ports.set n { p with open_ := false, fp := none }⟩
  | none => .ub

/-- `get_output_string` (io.c:151-173) -/
def getOutputString (w : World) (n : Nat) : Res (World × PV) := do
  let s ← streamOf w n
  let len := s.pos
  if len ≠ 0 then do
    let (h, v) ← Str.mstring2 w.heap (BitVec.ofNat 64 len) 0#8
    let (s, r) ← fread (rewind s) len
    match r, v with
    | some bs, .str a => pure (setStream ⟨h.set a (.buf (bs ++ [0#8])), w.ports⟩ n (rewind s), .val v)
    | _, _ => .err
  else
    let (h, v) := Str.mstring w.heap []
    pure (⟨h, w.ports⟩, .val v)

/-- `read_char_proc` (io.c:180-184) -/
def readChar (w : World) (n : Nat) : Res (World × PV) := do
  let s ← streamOf w n
  let (s, c) ← getc s
  match c with
  | some b => pure (setStream w n s, .val (.char b))
  | none => pure (setStream w n s, .eof)

/-- `peek_char_proc` (io.c:186-191) -/
def peekChar (w : World) (n : Nat) : Res (World × PV) := do
  let s ← streamOf w n
  let (s, c) ← getc s
  let s := ungetc s c
  match c with
  | some b => pure (setStream w n s, .val (.char b))
  | none => pure (setStream w n s, .eof)

/-- `char_readyp_proc` (io.c:193-198) -/
def charReady (w : World) (n : Nat) : Res (World × PV) := do
  let s ← streamOf w n
  let (s, c) ← getc s
  let s := ungetc s c
  match c with
  | some _ => pure (setStream w n s, .bool true)
  | none => pure (setStream w n s, .bool false)

/-- `put_char_proc` (io.c:200-204) -/
def putChar (w : World) (n : Nat) (b : Byte) : Res World := do
  let s ← streamOf w n
  let s ← putc s b
  pure (setStream w n s)

/-- `flush_output_proc` (io.c:206-210) -/
def flushOutput (w : World) (n : Nat) : Res World := do
  let s ← streamOf w n
  let s ← fflush s
  pure (setStream w n s)

/-- the loop of `put_string_proc` (io.c:216-218): `k` more bytes from index `i` on -/
def putLoop (bs : List Byte) (n : Nat) : Nat → World → Nat → Res World
  | 0, w, _ => .ok w
  | k + 1, w, i => do
    match bs[i]? with
    | some b => do
      let w ← putChar w n b
      putLoop bs n k w (i + 1)
    | none => .ub

/-- `put_string_proc` (io.c:212-221); `start` is not negative in all calls -/
def putString (w : World) (n a : Nat) (start len : Word) : Res World := do
  let bs ← Str.bufOf w.heap a
  let e ← Num.fx2Add start len
  if start.slt 0#64 then .ub else
  if e.slt start then pure w else putLoop bs n (e - start).toNat w start.toNat

/-- `newline_proc` (io.c:223-227) -/
def newlineC (w : World) (n : Nat) : Res World := putChar w n 10#8

/-! ### prelude -/

/-- `input-port?` (io.c:42-45, minim.h:298) -/
def isInput (w : World) : PV → Res Bool
  | .port n => do
    let p ← portAt w n
    pure p.read
  | _ => .ok false

/-- `output-port?` (io.c:47-50, minim.h:299) -/
def isOutput (w : World) : PV → Res Bool
  | .port n => do
    let p ← portAt w n
    pure (!p.read)
  | _ => .ok false

/-- `string-port?` (io.c:52-55, minim.h:300) -/
def isString (w : World) : PV → Res Bool
  | .port n => do
    let p ← portAt w n
    pure p.str
  | _ => .ok false

/-- the address of a port that has passed a predicate (modelling device) -/
def portNo : PV → Res Nat
  | .port n => .ok n
  | _ => .ub

/-- `open-input-string` (prelude.min:1195-1199); the unbound variable in the error branch is an error as well -/
def pOpenInputString (w : World) : PV → Res (World × PV)
  | .val (.str a) => openInputString w a
  | _ => .err

/-- `close-input-port` (prelude.min:1201-1205) -/
def pCloseInput (w : World) (p : PV) : Res World := do
  if (← isInput w p) then do
    let n ← portNo p
    closePort w n
  else .err

/-- `close-output-port` (prelude.min:1207-1211) -/
def pCloseOutput (w : World) (p : PV) : Res World := do
  if (← isOutput w p) then do
    let n ← portNo p
    closePort w n
  else .err

/-- `get-output-string` (prelude.min:1213-1217) -/
def pGetOutputString (w : World) (p : PV) : Res (World × PV) := do
  if (← isOutput w p) then do
    if (← isString w p) then do
      let n ← portNo p
      getOutputString w n
    else .err
  else .err

/-- `read-char`, `peek-char`, `char-ready?` with one argument (prelude.min:1939-1952) -/
def pInput (f : World → Nat → Res (World × PV)) (w : World) (p : PV) : Res (World × PV) := do
  if (← isInput w p) then do
    let n ← portNo p
    f w n
  else .err

/-- `put-char` (prelude.min:1957-1963) -/
def pPutChar (w : World) (p c : PV) : Res World := do
  if (← isOutput w p) then do
    match c with
    | .val (.char b) => do
      let n ← portNo p
      putChar w n b
    | _ => .err
  else .err

/-- `flush-output-port` (prelude.min:2009-2013) -/
def pFlush (w : World) (p : PV) : Res World := do
  if (← isOutput w p) then do
    let n ← portNo p
    flushOutput w n
  else .err

/-- `newline` with one argument (prelude.min:2160-2167) -/
def pNewline (w : World) (p : PV) : Res World := do
  if (← isOutput w p) then do
    let n ← portNo p
    newlineC w n
  else .err

/-- `1/put-string` (prelude.min:1975-1982); the unbound variable in the error branches is an error as well -/
def putString1 (w : World) (n a : Nat) (start k : Word) : Res World := do
  let len ← Str.stringLength w.heap a
  if Num.fx2Le start (BitVec.ofNat 64 len) then do
    let e ← Num.fx2Add start k
    if Num.fx2Le e (BitVec.ofNat 64 len) then putString w n a start k else .err
  else .err

/-- `put-string` with two arguments (prelude.min:1984-1989) -/
def pPutString2 (w : World) (p s : PV) : Res World := do
  if (← isOutput w p) then do
    match s with
    | .val (.str a) => do
      let n ← portNo p
      let len ← Str.stringLength w.heap a
      putString w n a 0#64 (BitVec.ofNat 64 len)
    | _ => .err
  else .err

/-- `put-string` with three arguments (prelude.min:1990-1997) -/
def pPutString3 (w : World) (p s i : PV) : Res World := do
  if (← isOutput w p) then do
    match s, i with
    | .val (.str a), .val (.num i) =>
      if Str.nonNeg i then do
        let n ← portNo p
        let len ← Str.stringLength w.heap a
        let k ← Num.fx2Sub (BitVec.ofNat 64 len) i
        putString1 w n a i k
      else .err
    | _, _ => .err
  else .err

/-- `put-string` with four arguments (prelude.min:1998-2007) -/
def pPutString4 (w : World) (p s i k : PV) : Res World := do
  if (← isOutput w p) then do
    match s, i, k with
    | .val (.str a), .val (.num i), .val (.num k) =>
      if Str.nonNeg i && Str.nonNeg k then do
        let n ← portNo p
        putString1 w n a i k
      else .err
    | _, _, _ => .err
  else .err

/-- `write-char` with two arguments (prelude.min:2015-2025): `$write-char` is bound neither as a primitive (prim.c:180-215) nor in the prelude, so the call signals an unbound variable -/
def pWriteChar (w : World) (c p : PV) : Res World :=
  match c with
  | .val (.char _) => do
    let o ← isOutput w p
    if o then .err else .err
  | _ => .err

/-! ### programs over ports -/

/-- one operation; arguments are positions among the values obtained so far (modelling device: an arbitrary program over the procedures above) -/
inductive Op where
  | text (t : List Byte)
  | num (w : Word)
  | char (b : Byte)
  | openOut
  | openIn (s : Nat)
  | putChar (p c : Nat)
  | putString (p s : Nat)
  | putFrom (p s i : Nat)
  | putRange (p s i k : Nat)
  | newline (p : Nat)
  | flush (p : Nat)
  | getString (p : Nat)
  | readChar (p : Nat)
  | peekChar (p : Nat)
  | charReady (p : Nat)
  | closeIn (p : Nat)
  | closeOut (p : Nat)
  | isInput (p : Nat)
  | isOutput (p : Nat)
  | isString (p : Nat)
deriving Repr

/-- the value at a position (modelling device) -/
def get (rs : List PV) (i : Nat) : Res PV :=
  match rs[i]? with
  | some v => .ok v
  | none => .err

/-- a procedure that returns void (minim_void) -/
def void (r : Res World) : Res (World × PV) := do
  let w ← r
  pure (w, .void)

/-- one operation (modelling device) -/
def step (w : World) (rs : List PV) : Op → Res (World × PV)
  | .text t => .ok (⟨(Str.mstring w.heap t).1, w.ports⟩, .val (Str.mstring w.heap t).2)
  | .num n => .ok (w, .val (.num n))
  | .char b => .ok (w, .val (.char b))
  | .openOut => .ok (openOutputString w)
  | .openIn s => do pOpenInputString w (← get rs s)
  | .putChar p c => do
    let p ← get rs p
    let c ← get rs c
    void (pPutChar w p c)
  | .putString p s => do
    let p ← get rs p
    let s ← get rs s
    void (pPutString2 w p s)
  | .putFrom p s i => do
    let p ← get rs p
    let s ← get rs s
    let i ← get rs i
    void (pPutString3 w p s i)
  | .putRange p s i k => do
    let p ← get rs p
    let s ← get rs s
    let i ← get rs i
    let k ← get rs k
    void (pPutString4 w p s i k)
  | .newline p => do void (pNewline w (← get rs p))
  | .flush p => do void (pFlush w (← get rs p))
  | .getString p => do pGetOutputString w (← get rs p)
  | .readChar p => do pInput readChar w (← get rs p)
  | .peekChar p => do pInput peekChar w (← get rs p)
  | .charReady p => do pInput charReady w (← get rs p)
  | .closeIn p => do void (pCloseInput w (← get rs p))
  | .closeOut p => do void (pCloseOutput w (← get rs p))
  | .isInput p => do
    let b ← isInput w (← get rs p)
    pure (w, .bool b)
  | .isOutput p => do
    let b ← isOutput w (← get rs p)
    pure (w, .bool b)
  | .isString p => do
    let b ← isString w (← get rs p)
    pure (w, .bool b)

/-- a program: the final state and all values (modelling device) -/
def run (w : World) (rs : List PV) : List Op → Res (World × List PV)
  | [] => .ok (w, rs)
  | o :: os => do
    let (w, v) ← step w rs o
    run w (rs ++ [v]) os

end Minim.Port
