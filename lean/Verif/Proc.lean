import Verif.Basic

set_option autoImplicit false

/-!
# Procedure objects (procedure.c; prelude.min:754-775)

A procedure is the address of a closure object.  Simplification: code and environment are opaque.
-/

namespace Minim.Proc

/-- a closure object (minim.h: minim_closure_env, minim_closure_code, minim_closure_name, minim_closure_ref); the name is `#f` or a symbol -/
structure Clo where
  env : Nat
  code : Nat
  name : Option Nat
  free : List Nat
deriving DecidableEq, Repr

/-- values: procedures, symbols, other things -/
inductive V where
  | proc (a : Nat)
  | sym (s : Nat)
  | other (n : Nat)
deriving DecidableEq, Repr

/-- the closure objects by address -/
abbrev Heap := List Clo

/-- `Mclosure` (procedure.c:11-20) and the loop that copies the free variables (procedure.c:51-53) -/
def mclosure (h : Heap) (env code : Nat) (free : List Nat) : Heap × Nat := (h ++ [⟨env, code, none, free⟩], h.length)

/-- `procedure_rename_proc` (procedure.c:39-57): a copy is made, but the name of the original is set and the original returned -/
def procedureRename (h : Heap) (a id : Nat) : Res (Heap × Nat) :=
  match h[a]? with
  | none => .ub
  | some c =>
    let (h, _) := mclosure h c.env c.code c.free
    .ok (h.set a { c with name := some id }, a)

/-- `procedure-rename` (prelude.min:766-772) -/
def pRename (h : Heap) : V → V → Res (Heap × V)
  | .proc a, .sym id => do
    let (h, b) ← procedureRename h a id
    pure (h, .proc b)
  | _, _ => .err

/-- `procedure-name` (prelude.min:760-764, procedure.c:34-37): `none` is `#f` -/
def pName (h : Heap) : V → Res (Option Nat)
  | .proc a => match h[a]? with
    | some c => .ok c.name
    | none => .ub
  | _ => .err

end Minim.Proc
