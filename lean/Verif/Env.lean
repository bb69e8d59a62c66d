import Verif.Hash

set_option autoImplicit false

/-!
# Top-level environments (src/core/c/env.c, the `tl-` operations of src/core/c/eval.c, prelude.min:2330-2379)

An environment is a bucket vector of cells `((key . value) . (hash . mutable?))`.  Keys are symbols compared by address;
the hash function is a parameter (`eq_hash` of an address, hashtable.c:39-41).  Cells live in a heap shared by all
environments, because compiled code keeps pointers to them.
-/

namespace Minim.Env

open Minim.Hash

/-- What a cell holds besides the key (env.c:10).  `val = none` is the object `minim_unbound` (global.c:99-101). -/
structure EVal (V : Type) where
  val : Option V
  hash : Word
  mutable : Bool
deriving DecidableEq, Repr

/-- cells and environment objects (an environment is the index of its store) -/
structure EW (K V : Type) where
  heap : Heap K (EVal V)
  envs : List Store

section
variable {K V : Type} [DecidableEq K] (hash : K → Word)

/-- `Mtop_env` (env.c:15-28).  Simplification: `4 * size_hint` does not wrap. -/
def mkEnv (hint : Nat) : Res Store := do
  let n ← findSize (4 * hint)
  pure { alloc := n, buckets := List.replicate n [], count := 0 }

/-- the inner loop of `top_env_copy` (env.c:37-57): fresh cells, same order, given mutability -/
def copyBucketE (mutablep : Bool) (h : Heap K (EVal V)) : List Nat → Heap K (EVal V) × List Nat
  | [] => (h, [])
  | c :: b =>
    let r := h.alloc (h.key c) { h.val c with mutable := mutablep }
    let r' := copyBucketE mutablep r.1 b
    (r'.1, r.2 :: r'.2)

/-- the outer loop of `top_env_copy` (env.c:36-58) -/
def copyBucketsE (mutablep : Bool) (h : Heap K (EVal V)) : List (List Nat) → Heap K (EVal V) × List (List Nat)
  | [] => (h, [])
  | b :: bs =>
    let r := copyBucketE mutablep h b
    let r' := copyBucketsE mutablep r.1 bs
    (r'.1, r.2 :: r'.2)

/-- `top_env_copy` (env.c:30-67); `make-base-environment` (env.c:201-203) is this on the base environment with #f. -/
def copyEnv (mutablep : Bool) (h : Heap K (EVal V)) (s : Store) : Heap K (EVal V) × Store :=
  let r := copyBucketsE mutablep h s.buckets
  (r.1, { alloc := s.alloc, buckets := r.2, count := s.count })

/-- `top_env_find` (env.c:142-154). -/
def envFind (h : Heap K (EVal V)) (s : Store) (k : K) : Option Nat :=
  (s.bucket (hash k)).find? (fun c => h.key c == k)

/-- the loop of `top_env_copy2` (env.c:85-98); the bucket is chosen by the hash stored in the cell -/
def copySymsLoop (mutablep : Bool) (s : Store) : List K → Heap K (EVal V) → Store → Heap K (EVal V) × Store
  | [], h, s2 => (h, s2)
  | k :: ks, h, s2 =>
    match envFind hash h s k with
    | none => copySymsLoop mutablep s ks h s2
    | some c =>
      let hv := (h.val c).hash
      let r := h.alloc (h.key c) { h.val c with mutable := mutablep }
      let s2 := s2.setBucket hv (r.2 :: s2.bucket hv)
      copySymsLoop mutablep s ks r.1 { s2 with count := s2.count + 1 }

/-- `top_env_copy2` (env.c:71-102). -/
def copySyms (mutablep : Bool) (h : Heap K (EVal V)) (s : Store) (syms : List K) : Res (Heap K (EVal V) × Store) := do
  let s2 ← mkEnv syms.length
  pure (copySymsLoop hash mutablep s syms h s2)

/-- putting a cell at the front of the bucket its stored hash selects (env.c:116-117) -/
def pushE (h : Heap K (EVal V)) (n : Nat) (nb : List (List Nat)) (c : Nat) : List (List Nat) :=
  let j := (h.val c).hash.toNat % n
  nb.set j (c :: nb.getD j [])

/-- `top_env_resize` (env.c:104-123). -/
def envResize (h : Heap K (EVal V)) (s : Store) : Res Store := do
  let n ← findSize (4 * s.count)
  pure { alloc := n, buckets := s.flat.foldl (pushE h n) (List.replicate n []), count := s.count }

/-- the growth check of `top_env_insert` (env.c:129-130) -/
def envGrow (h : Heap K (EVal V)) (s : Store) : Res Store :=
  if s.alloc < s.count then envResize h s else .ok s

/-- `top_env_insert` (env.c:125-140): no check for an existing binding. -/
def envInsert (h : Heap K (EVal V)) (s : Store) (k : K) (v : Option V) : Res (Heap K (EVal V) × Store × Nat) := do
  let s ← envGrow h s
  let r := h.alloc k { val := v, hash := hash k, mutable := true }
  let s := s.setBucket (hash k) (r.2 :: s.bucket (hash k))
  pure (r.1, { s with count := s.count + 1 }, r.2)

/-- assigning the value of a cell: `minim_cdar(cell) = v` -/
def setCell (h : Heap K (EVal V)) (c : Nat) (v : Option V) : Heap K (EVal V) := h.setVal c { h.val c with val := v }

/-- `environment_variable_set` (env.c:242-253) and the definition of one identifier by `tl_env_bind_values`
(eval.c:282-287, 298-303).  The mutability of the cell is not looked at. -/
def envSet (h : Heap K (EVal V)) (s : Store) (k : K) (v : V) : Res (Heap K (EVal V) × Store) :=
  match envFind hash h s k with
  | some c => .ok (setCell h c (some v), s)
  | none => do
    let r ← envInsert hash h s k (some v)
    pure (r.1, r.2.1)

/-- `tl_env_lookup_cell` (eval.c:320-327): executed when a closure captures a top-level variable. -/
def envCell (h : Heap K (EVal V)) (s : Store) (k : K) : Res (Heap K (EVal V) × Store × Nat) :=
  match envFind hash h s k with
  | some c => .ok (h, s, c)
  | none => envInsert hash h s k none

/-- `tl_env_rebind` (eval.c:329-332), `set!` of a top-level variable: if there is no binding the cell is `minim_false`
and `minim_cdar` of it is undefined. -/
def envRebind (h : Heap K (EVal V)) (s : Store) (k : K) (v : V) : Res (Heap K (EVal V)) :=
  match envFind hash h s k with
  | some c => .ok (setCell h c (some v))
  | none => .ub

/-- `environment_variable_ref` (env.c:236-240): `none` stands for returning the `fail` argument,
`some none` for returning the unbound object. -/
def envRef (h : Heap K (EVal V)) (s : Store) (k : K) : Option (Option V) :=
  (envFind hash h s k).map (fun c => (h.val c).val)

/-- `tl_env_lookup_value` (eval.c:307-318), a reference to a top-level variable: the error "cannot use before
initialization" if there is no cell or it holds the unbound object. -/
def envLookup (h : Heap K (EVal V)) (s : Store) (k : K) : Res V :=
  match envFind hash h s k with
  | some c => match (h.val c).val with
    | some v => .ok v
    | none => .err
  | none => .err

/-- `top_env_symbols` (env.c:156-169). -/
def envSymbols (h : Heap K (EVal V)) (s : Store) : List K :=
  s.buckets.foldl (fun acc b => b.foldl (fun acc c => h.key c :: acc) acc) []

end

/-- what `environment-ref` does: return an object (`none` is the unbound object) or call the failure procedure -/
inductive RefOut (V : Type) where
  | value (v : Option V)
  | callFail
deriving DecidableEq, Repr

/-- `1/environment-ref` (prelude.min:2355-2364) applied to an environment and a symbol. -/
def schemeRef {K V : Type} [DecidableEq K] [DecidableEq V] (hash : K → Word) (isProc : V → Bool)
    (h : Heap K (EVal V)) (s : Store) (k : K) (fail : V) : RefOut V :=
  let v := (envRef hash h s k).getD (some fail)
  if v = some fail then (if isProc fail then .callFail else .value (some fail)) else .value v

/-- Operations of a history: create, copy all bindings, copy listed bindings, set or define, capture by a closure, `set!`. -/
inductive EOp (K V : Type) where
  | new
  | copyAll (e : Nat) (mutablep : Bool)
  | copySyms (e : Nat) (mutablep : Bool) (syms : List K)
  | set (e : Nat) (k : K) (v : V)
  | cell (e : Nat) (k : K)
  | rebind (e : Nat) (k : K) (v : V)

section
variable {K V : Type} [DecidableEq K] (hash : K → Word)

/-- one operation of a history; operations on an environment that does not exist do nothing -/
def EW.step (w : EW K V) : EOp K V → Res (EW K V)
  | .new => do
    let s ← mkEnv 0
    pure { w with envs := w.envs ++ [s] }
  | .copyAll e m => match w.envs[e]? with
    | none => .ok w
    | some s =>
      let r := copyEnv m w.heap s
      .ok ⟨r.1, w.envs ++ [r.2]⟩
  | .copySyms e m syms => match w.envs[e]? with
    | none => .ok w
    | some s => do
      let r ← Minim.Env.copySyms hash m w.heap s syms
      pure ⟨r.1, w.envs ++ [r.2]⟩
  | .set e k v => match w.envs[e]? with
    | none => .ok w
    | some s => do
      let r ← envSet hash w.heap s k v
      pure ⟨r.1, w.envs.set e r.2⟩
  | .cell e k => match w.envs[e]? with
    | none => .ok w
    | some s => do
      let r ← envCell hash w.heap s k
      pure ⟨r.1, w.envs.set e r.2.1⟩
  | .rebind e k v => match w.envs[e]? with
    | none => .ok w
    | some s => do
      let h ← envRebind hash w.heap s k v
      pure { w with heap := h }

/-- a history -/
def EW.run (w : EW K V) : List (EOp K V) → Res (EW K V)
  | [] => .ok w
  | op :: ops => do
    let w ← w.step hash op
    w.run ops

/-- `$environment-ref` on environment `e` -/
def EW.ref (w : EW K V) (e : Nat) (k : K) : Option (Option V) :=
  match w.envs[e]? with
  | none => none
  | some s => envRef hash w.heap s k

/-- a variable reference in environment `e` -/
def EW.lookup (w : EW K V) (e : Nat) (k : K) : Res V :=
  match w.envs[e]? with
  | none => .err
  | some s => envLookup hash w.heap s k

/-- `$environment-symbols` of environment `e` (env.c:231-234) -/
def EW.symbols (w : EW K V) (e : Nat) : List K :=
  match w.envs[e]? with
  | none => []
  | some s => envSymbols w.heap s

end

end Minim.Env
