import Verif.Basic

/-!
# FASL serialisation (src/core/c/fasl.c)

A stream is the list of bytes not yet read.  Writers return the bytes they emit.
-/

namespace Minim.Fasl

/-- `(mbyte) fgetc(ip)` (fasl.c:75-76).  At end of file `fgetc` returns -1, which the cast turns into 255;
the stream stays at its end. -/
def fgetc : List Byte → Byte × List Byte
  | [] => (255#8, [])
  | b :: s => (b, s)

/-- `read_fasl_uptr` (fasl.c:80-97), the `do … while (c)` loop with `u` and `offset` as accumulators.
`((muptr) b) << offset` is undefined for `offset ≥ 64`. -/
def readUptrLoop (u : Word) (offset : Nat) (s : List Byte) : Res (Word × List Byte) :=
  if _h : 64 ≤ offset then .ub
  else
    let b0 := (fgetc s).1
    let s' := (fgetc s).2
    let c := b0 &&& 1#8
    let b := b0 >>> 1
    let u' := u ||| ((b.setWidth 64 : Word) <<< offset)
    if c ≠ 0#8 then readUptrLoop u' (offset + 7) s' else .ok (u', s')
termination_by 64 - offset

/-- `read_fasl_uptr` (fasl.c:80-97). -/
def readUptr (s : List Byte) : Res (Word × List Byte) := readUptrLoop 0#64 0 s

/-- `write_fasl_uptr` (fasl.c:232-247). -/
def writeUptr (u : Word) : List Byte :=
  let b : Byte := (u &&& 0x7F#64).setWidth 8
  let u' := u >>> 7
  let b := b <<< 1
  let b := b ||| (if u' ≠ 0#64 then 1#8 else 0#8)
  if _h : u' ≠ 0#64 then b :: writeUptr u' else [b]
termination_by u.toNat
decreasing_by
  have h1 : u >>> 7 ≠ 0#64 := _h
  have h2 : (u >>> 7).toNat ≠ 0 := fun h => h1 (by apply BitVec.eq_of_toNat_eq; simpa using h)
  simp only [BitVec.toNat_ushiftRight, Nat.shiftRight_eq_div_pow] at h2 ⊢
  omega

/-- The objects FASL distinguishes (type tests of fasl.c:294-340).  Simplifications: the identity of symbols
(interned or not) is left out here and treated in `Verif.FaslIdent`; sharing and cycles are left out (a cyclic
object makes `write_fasl` run forever).  `emptyVec` is the distinguished object `minim_empty_vec`, `vec []` is a
zero-length vector made by `make-vector` (vector.c:7-18), which is a different object.  `other` stands for
everything `write_fasl` rejects (boxes, procedures, ports, hashtables, environments, syntax, ...). -/
inductive Datum where
  | null | tru | fls | eof | void | emptyVec | baseRtd
  | sym (name : List Byte)
  | str (chars : List Byte)
  | fix (v : Word)
  | chr (c : Byte)
  | pair (a d : Datum)
  | vec (elts : List Datum)
  | record (rtd : Datum) (fields : List Datum)
  | other (tag : Nat)
deriving Repr

/-- The type bytes (`fasl_type`, src/core/minim.h, in declaration order). -/
def tNULL : Byte := 0#8
/-- see `tNULL` -/ def tTRUE : Byte := 1#8
/-- see `tNULL` -/ def tFALSE : Byte := 2#8
/-- see `tNULL` -/ def tEOF : Byte := 3#8
/-- see `tNULL` -/ def tVOID : Byte := 4#8
/-- see `tNULL` -/ def tSYMBOL : Byte := 5#8
/-- see `tNULL` -/ def tSTRING : Byte := 6#8
/-- see `tNULL` -/ def tFIXNUM : Byte := 7#8
/-- see `tNULL` -/ def tCHAR : Byte := 8#8
/-- see `tNULL` -/ def tPAIR : Byte := 9#8
/-- see `tNULL` -/ def tEMPTYVEC : Byte := 10#8
/-- see `tNULL` -/ def tVECTOR : Byte := 11#8
/-- see `tNULL` -/ def tBASERTD : Byte := 12#8
/-- see `tNULL` -/ def tRECORD : Byte := 13#8

/-- `list_length` (list.c:47-51): number of pairs along the cdr chain. -/
def listLength : Datum → Nat
  | .pair _ d => listLength d + 1
  | _ => 0

/-- A C `long`/`size_t` count written through `write_fasl_uptr` (implicit conversion to `muptr`). -/
def writeLen (n : Nat) : List Byte := writeUptr (BitVec.ofNat 64 n)

mutual
/-- `write_fasl` (fasl.c:294-340) with `write_fasl_symbol/string/pair/vector/record` (fasl.c:250-292) inlined.
`inTail` says that the object is reached as the cdr inside the loop of `write_fasl_pair` (fasl.c:270-273): a pair in
that position continues the loop instead of starting a new object. -/
def writeFaslAux (inTail : Bool) : Datum → Res (List Byte)
  | .null => .ok [tNULL]
  | .tru => .ok [tTRUE]
  | .fls => .ok [tFALSE]
  | .eof => .ok [tEOF]
  | .void => .ok [tVOID]
  | .sym s => .ok (tSYMBOL :: (writeLen (cstr s).length ++ cstr s))
  | .str s => .ok (tSTRING :: (writeLen (cstr s).length ++ cstr s))
  | .fix v => .ok (tFIXNUM :: writeUptr v)
  | .chr c => .ok [tCHAR, c]
  | .pair a d => do
      let ea ← writeFaslAux false a
      let ed ← writeFaslAux true d
      let hdr := if inTail then [] else tPAIR :: writeLen (listLength (.pair a d))
      pure (hdr ++ (ea ++ ed))
  | .emptyVec => .ok [tEMPTYVEC]
  | .vec es => do
      let ee ← writeFaslList es
      pure (tVECTOR :: (writeLen es.length ++ ee))
  | .baseRtd => .ok [tBASERTD]
  | .record rtd fs => do
      let er ← writeFaslAux false rtd
      let ef ← writeFaslList fs
      pure (tRECORD :: (writeLen fs.length ++ (er ++ ef)))
  | .other _ => .err
/-- The element loops of `write_fasl_vector`/`write_fasl_record` (fasl.c:282-283, 290-291). -/
def writeFaslList : List Datum → Res (List Byte)
  | [] => .ok []
  | d :: ds => do
      let e ← writeFaslAux false d
      let es ← writeFaslList ds
      pure (e ++ es)
end

/-- `write_fasl` (fasl.c:294-340).  Simplification: bytes already emitted when an unserialisable part is met are
dropped (the process exits there). -/
def writeFasl (d : Datum) : Res (List Byte) := writeFaslAux false d

/-- The byte loops of `read_fasl_symbol`/`read_fasl_string` (fasl.c:106-107, 119-120). -/
def readBytes : Nat → List Byte → List Byte × List Byte
  | 0, s => ([], s)
  | n + 1, s =>
    let r := readBytes n (fgetc s).2
    ((fgetc s).1 :: r.1, r.2)

/-- `len = read_fasl_uptr(in)` stored into a `long`, as used for allocation sizes (fasl.c:104-105, 117-118, 160-161,
172-174): a value with the top bit set is a negative length, the allocation has no meaning. -/
def readLen (s : List Byte) : Res (Nat × List Byte) := do
  let (w, s) ← readUptr s
  if 2 ^ 63 ≤ w.toNat then .ub else pure (w.toNat, s)

/-- Number of elements `read_fasl_pair` reads for a length field `w` (fasl.c:140-148): the first element is read
before the loop `for (i = 1; i < len; ++i)` over a signed `len`. -/
def pairCount (w : Word) : Nat := if 2 ^ 63 ≤ w.toNat then 1 else max 1 w.toNat

/-- The `switch` of `read_fasl` (fasl.c:185-220) on a type byte `t`, with the readers of fasl.c:100-179 inlined;
`rd` and `rdN` are the recursive calls. -/
def readBody (rd : List Byte → Res (Datum × List Byte)) (rdN : Nat → List Byte → Res (List Datum × List Byte))
    (t : Byte) (s : List Byte) : Res (Datum × List Byte) :=
  if t = tNULL then .ok (.null, s)
  else if t = tTRUE then .ok (.tru, s)
  else if t = tFALSE then .ok (.fls, s)
  else if t = tEOF then .ok (.eof, s)
  else if t = tVOID then .ok (.void, s)
  else if t = tSYMBOL then do
    let (n, s) ← readLen s
    let r := readBytes n s
    pure (.sym (cstr r.1), r.2)
  else if t = tSTRING then do
    let (n, s) ← readLen s
    let r := readBytes n s
    pure (.str (cstr r.1), r.2)
  else if t = tFIXNUM then do
    let (w, s) ← readUptr s
    pure (.fix w, s)
  else if t = tCHAR then .ok (.chr (fgetc s).1, (fgetc s).2)
  else if t = tPAIR then do
    let (w, s) ← readUptr s
    let (es, s) ← rdN (pairCount w) s
    let (tl, s) ← rd s
    pure (es.foldr Datum.pair tl, s)
  else if t = tEMPTYVEC then .ok (.emptyVec, s)
  else if t = tVECTOR then do
    let (n, s) ← readLen s
    let (es, s) ← rdN n s
    pure (.vec es, s)
  else if t = tBASERTD then .ok (.baseRtd, s)
  else if t = tRECORD then do
    let (n, s) ← readLen s
    let (rtd, s) ← rd s
    let (fs, s) ← rdN n s
    pure (.record rtd fs, s)
  else .err

mutual
/-- `read_fasl` (fasl.c:181-221). Fuel bounds the recursion; `readFasl` below gives enough. -/
def readFaslAux : Nat → List Byte → Res (Datum × List Byte)
  | 0, _ => .oof
  | fuel + 1, s => readBody (readFaslAux fuel) (readFaslN fuel) (fgetc s).1 (fgetc s).2
/-- `n` successive calls of `read_fasl` (the loops at fasl.c:145-148, 162-163, 175-176). -/
def readFaslN : Nat → Nat → List Byte → Res (List Datum × List Byte)
  | 0, _, _ => .oof
  | _ + 1, 0, s => .ok ([], s)
  | fuel + 1, n + 1, s => do
    let (d, s) ← readFaslAux fuel s
    let (ds, s) ← readFaslN fuel n s
    pure (d :: ds, s)
end

/-- `read_fasl` (fasl.c:181-221). The fuel suffices for every input: `readFasl_ne_oof` in `Verif.FaslProps`. -/
def readFasl (s : List Byte) : Res (Datum × List Byte) := readFaslAux (2 * s.length + 3) s

end Minim.Fasl
