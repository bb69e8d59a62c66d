import Verif.Str

set_option autoImplicit false

/-!
# Paths (src/library/private/path.min)

On the strings of `Str`.  `lit` is the address of the literal `""` (of path.min:54, or of prelude.min:869 where `string-append` is called), `slash` that of the literal `"/"` (path.min:27 in `build-path`, path.min:59 in
`path->list`); they are different objects.  Lists of strings are Lean lists; the arguments `n`, `m`, `k` bound the loops.
-/

namespace Minim.Path

open Minim.Str (Heap Val)

/-- `is-absolute-path?` (path.min:12-14) -/
def isAbsolute (h : Heap) (v : Val) : Res Bool := do
  let len ← Str.pStringLength h v
  if len = 0 then pure false else do
    let c ← Str.pStringRef h v (.num 0#64)
    pure (c == .char 47#8)

/-- the inner test for a terminating separator (path.min:18-20) -/
def slashEnd (h : Heap) (v : Val) : Res Bool := do
  let len ← Str.pStringLength h v
  let c ← Str.pStringRef h v (.num (BitVec.ofNat 64 len - 1#64))
  pure (c == .char 47#8)

/-- the loop of `build-path` (path.min:22-27) -/
def buildLoop (slash : Nat) (h : Heap) : List Val → List Val → Res (List Val)
  | [], acc => .ok acc.reverse
  | p :: ps, acc => do
    let len ← Str.pStringLength h p
    if len = 0 then buildLoop slash h ps acc else
      match acc with
      | [] => .err
      | a :: as => do
        let e ← slashEnd h a
        if e then buildLoop slash h ps (p :: a :: as) else buildLoop slash h ps (p :: .str slash :: a :: as)

/-- `build-path` (path.min:17-28) -/
def buildPath (n lit slash : Nat) (h : Heap) (base : Val) (subs : List Val) : Res (Heap × Val) := do
  let ps ← buildLoop slash h subs [base]
  Str.pStringAppend n lit h ps

/-- `loop2` in `path->list` (path.min:51-65): the index of the first separator -/
def scan (h : Heap) (v : Val) (len : Nat) : Nat → Nat → Res (Option Nat)
  | 0, _ => .oof
  | m + 1, i => if i = len then .ok none else do
    let c ← Str.pStringRef h v (.num (BitVec.ofNat 64 i))
    if c == .char 47#8 then .ok (some i) else scan h v len m (i + 1)

/-- `loop` in `path->list` (path.min:45-65) -/
def listLoop (m lit slash : Nat) : Nat → Heap → Val → List Val → Res (Heap × List Val)
  | 0, _, _, _ => .oof
  | k + 1, h, v, acc => do
    let len ← Str.pStringLength h v
    if len = 0 then pure (h, acc.reverse) else do
      match ← scan h v len m 0 with
      | none => listLoop m lit slash k h (.str lit) (v :: acc)
      | some 0 => do
        let (h, r) ← Str.pSubstring m h v (.num 1#64) (.num (BitVec.ofNat 64 len))
        listLoop m lit slash k h r (.str slash :: acc)
      | some (i + 1) => do
        let (h, e) ← Str.pSubstring m h v (.num 0#64) (.num (BitVec.ofNat 64 (i + 1)))
        let (h, r) ← Str.pSubstring m h v (.num (BitVec.ofNat 64 (i + 2))) (.num (BitVec.ofNat 64 len))
        listLoop m lit slash k h r (e :: acc)

/-- `path->list` (path.min:42-65) -/
def pathToList (m lit slash k : Nat) (h : Heap) (v : Val) : Res (Heap × List Val) := if v.isStr then listLoop m lit slash k h v [] else .err

/-- `split-path` (path.min:30-40); `none` is `#f` -/
def splitPath (n m lit slash lit' slash' k : Nat) (h : Heap) (v : Val) : Res (Heap × Option Val × Val) :=
  if v.isStr then do
    let (h, ps) ← pathToList m lit slash k h v
    match ps.reverse with
    | [] => .err
    | [e] => pure (h, none, e)
    | e :: rest =>
      match rest.reverse with
      | [] => .err
      | b :: bs => do
        let (h, d) ← buildPath n lit' slash' h b bs
        pure (h, some d, e)
  else .err

end Minim.Path
