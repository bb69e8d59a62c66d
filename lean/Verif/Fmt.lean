import Verif.Port
import Verif.Reader

set_option autoImplicit false

/-!
# The formatter (prelude.min:2172-2259)

On the ports and strings of `Port`.  Simplifications: the arguments are data that the writer model (`Reader.lean`, `wr`) covers, given as trees; an error raised by the formatter is the outcome `err`
(the text of its message is not built).
-/

namespace Minim.Fmt

open Minim.Str (Heap Val)
open Minim.Port (World PV)
open Minim.Rd (Dat wr)

/-- `(string-ref fmt n)` for an index that the loops have compared with the length -/
def charAt (h : Heap) (fmt : Val) (n : Nat) : Res Byte := do
  match ← Str.pStringRef h fmt (.num (BitVec.ofNat 64 n)) with
  | .char b => .ok b
  | _ => .err

/-- the inner `loop` of `fmt-args` (prelude.min:2176-2195); of the list of predicates, which are all `#f`, only the length is kept.  The call for `~~` (prelude.min:2193) passes the unbound variable `xs`. -/
def fmtArgs (h : Heap) (fmt : Val) (len : Nat) : Nat → Nat → Nat → Res Nat
  | 0, _, _ => .oof
  | k + 1, n, args =>
    if len ≤ n then .ok args else do
      let c ← charAt h fmt n
      if c = 126#8 then
        if len ≤ n + 1 then .err else do
          let nc ← charAt h fmt (n + 1)
          if nc = 97#8 ∨ nc = 65#8 then fmtArgs h fmt len k (n + 2) (args + 1)
          else if nc = 115#8 ∨ nc = 83#8 then fmtArgs h fmt len k (n + 2) (args + 1)
          else if nc = 37#8 then fmtArgs h fmt len k (n + 2) args
          else if nc = 126#8 then .err
          else .err
      else fmtArgs h fmt len k (n + 1) args

/-- `check-format!` (prelude.min:2198-2208) -/
def checkFormat (k : Nat) (h : Heap) (fmt : Val) (args : List Dat) : Res Unit := do
  let len ← Str.pStringLength h fmt
  let n ← fmtArgs h fmt len k 0 0
  if n = args.length then .ok () else .err

/-- write bytes to a port, one after the other: the effect of `display` and `write` (prelude.min:2028-2158) -/
def emit (n : Nat) : List Byte → World → Res World
  | [], w => .ok w
  | b :: bs, w => do
    let w ← Port.putChar w n b
    emit n bs w

/-- `car` and `cdr` of the rest of the arguments -/
def uncons : List Dat → Res (Dat × List Dat)
  | x :: xs => .ok (x, xs)
  | [] => .err

/-- the inner `loop` of `do-format` (prelude.min:2212-2237) -/
def doFormat (p : Nat) (fmt : Val) (len : Nat) : Nat → World → Nat → List Dat → Res World
  | 0, _, _, _ => .oof
  | k + 1, w, n, xs =>
    if len ≤ n then .ok w else do
      let c ← charAt w.heap fmt n
      if c = 126#8 then do
        let nc ← charAt w.heap fmt (n + 1)
        if nc = 97#8 ∨ nc = 65#8 then do
          let (x, ys) ← uncons xs
          let w ← emit p (wr true x) w
          doFormat p fmt len k w (n + 2) ys
        else if nc = 115#8 ∨ nc = 83#8 then do
          let (x, ys) ← uncons xs
          let w ← emit p (wr false x) w
          doFormat p fmt len k w (n + 2) ys
        else if nc = 37#8 then do
          let w ← Port.newlineC w p
          doFormat p fmt len k w (n + 2) xs
        else do
          let w ← Port.putChar w p 126#8
          doFormat p fmt len k w (n + 2) xs
      else do
        let w ← Port.putChar w p c
        doFormat p fmt len k w (n + 1) xs

/-- `fprintf` (prelude.min:2240-2245) -/
def fprintf (k : Nat) (w : World) (p : PV) (fmt : Val) (args : List Dat) : Res World := do
  if (← Port.isOutput w p) then do
    let _ ← checkFormat k w.heap fmt args
    let len ← Str.pStringLength w.heap fmt
    let n ← Port.portNo p
    doFormat n fmt len k w 0 args
  else .err

/-- `format` (prelude.min:2254-2259) -/
def format (k : Nat) (w : World) (fmt : Val) (args : List Dat) : Res (World × PV) := do
  let _ ← checkFormat k w.heap fmt args
  let (w, p) := Port.openOutputString w
  let len ← Str.pStringLength w.heap fmt
  let n ← Port.portNo p
  let w ← doFormat n fmt len k w 0 args
  Port.pGetOutputString w p

end Minim.Fmt
