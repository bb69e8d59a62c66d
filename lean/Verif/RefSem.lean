import Verif.Machine
import Mathlib.Data.List.Forall2

set_option autoImplicit false

/-!
# Reference semantics of the intermediate language

A specification: what expressions mean, independent of compiler and machine.  A big-step evaluator with environments that map identifiers to cells.  An expression
returns a list of values.  `oof` means that the fuel did not suffice.
-/

namespace Minim.Jit

open Minim.Sx Minim.Core

/-- Specification: environments of local variables. -/
abbrev REnv := Sym → Option Nat

/-- Specification: procedures: closures, C functions of `n` arguments, and the procedures `values`, `apply` and `call-with-values`. -/
inductive RC where
  | clo (ρ : REnv) (cs : List Cl)
  | prim (p n : Nat)
  | values
  | apply
  | cwv

/-- Specification: values. -/
abbrev RV := V RC

/-- Specification: the store: local variables, top-level variables. -/
structure RS where
  cells : List RV
  globs : Sym → Option RV

/-- Specification: relatedness of objects, given relatedness of procedures.  The words that are no objects are related to nothing. -/
inductive VRel {C C' : Type} (R : C → C' → Prop) : V C → V C' → Prop where
  | null : VRel R .null .null
  | sym (s : Sym) : VRel R (.sym s) (.sym s)
  | lit (l : Lit) : VRel R (.lit l) (.lit l)
  | other (n : Nat) : VRel R (.other n) (.other n)
  | stx (d : X) : VRel R (.stx d) (.stx d)
  | void : VRel R .void .void
  | unbound : VRel R .unbound .unbound
  | tenv (n : Nat) : VRel R (.tenv n) (.tenv n)
  | cons {a d : V C} {a' d' : V C'} : VRel R a a' → VRel R d d' → VRel R (.cons a d) (.cons a' d')
  | clo {c : C} {c' : C'} : R c c' → VRel R (.clo c) (.clo c')

/-- Specification: relatedness of optional values. -/
def ORel {α β : Type} (R : α → β → Prop) : Option α → Option β → Prop
  | none, none => True
  | some a, some b => R a b
  | _, _ => False

/-- Specification: C functions as far as the semantics covers them: they neither inspect nor call procedures (they map related arguments to related results for
every relation between procedure representations), and have no effect. -/
structure Prims where
  f : (C : Type) → Nat → List (V C) → Option (V C)
  param : ∀ {C C' : Type} (R : C → C' → Prop) (p : Nat) (as : List (V C)) (bs : List (V C')),
    List.Forall₂ (VRel R) as bs → ORel (VRel R) (f C p as) (f C' p bs)

/-- Specification: exactly one value. -/
def single {α : Type} : List α → Res α
  | [v] => .ok v
  | _ => .err

/-- Specification: extend an environment. -/
def REnv.set (ρ : REnv) (x : Sym) (c : Nat) : REnv := fun y => if y = x then some c else ρ y

/-- Specification: bind identifiers to values in new cells, one after the other. -/
def bindVals (ρ : REnv) (σ : RS) : List Sym → List RV → REnv × RS
  | x :: xs, v :: vs => bindVals (ρ.set x σ.cells.length) { σ with cells := σ.cells ++ [v] } xs vs
  | _, _ => (ρ, σ)

/-- Specification: set a top-level variable. -/
def RS.setGlob (σ : RS) (x : Sym) (v : RV) : RS := { σ with globs := fun y => if y = x then some v else σ.globs y }

/-- Specification: set several top-level variables. -/
def RS.setGlobs (σ : RS) : List Sym → List RV → RS
  | x :: xs, v :: vs => (σ.setGlob x v).setGlobs xs vs
  | _, _ => σ

/-- Specification: does a clause accept so many arguments? -/
def acceptsN (f : Formals) (n : Nat) : Bool := if f.rest.isSome then decide (f.req.length ≤ n) else decide (f.req.length = n)

/-- Specification: the first clause that accepts the number of arguments. -/
def select : List Cl → Nat → Option (Formals × List E)
  | [], _ => none
  | .mk f body :: cs, n => if acceptsN f n then some (f, body) else select cs n

/-- Specification: the values of the parameters: required ones in order, the others as a list. -/
def params {C : Type} (f : Formals) (vs : List (V C)) : List (V C) :=
  if f.rest.isSome then vs.take f.req.length ++ [listV (vs.drop f.req.length)] else vs

/-- Specification: the arguments `apply` passes on: all but the last, then the elements of the last. -/
def spread {C : Type} : List (V C) → Option (List (V C))
  | [] => none
  | [l] => unlist l
  | v :: w :: vs => (spread (w :: vs)).map (v :: ·)

/-- Specification: the value of a variable; using an unbound variable is an error. -/
def lookupR (ρ : REnv) (σ : RS) (x : Sym) : Res RV :=
  match (match ρ x with | some c => σ.cells[c]? | none => σ.globs x) with
  | none => .err
  | some .unbound => .err
  | some v => .ok v

/-- Specification: assignment; the variable must exist. -/
def assignR (ρ : REnv) (σ : RS) (x : Sym) (v : RV) : Res RS :=
  match ρ x with
  | some c => if c < σ.cells.length then .ok { σ with cells := σ.cells.set c v } else .err
  | none =>
    match σ.globs x with
    | none => .err
    | some _ => .ok (σ.setGlob x v)

/-- Specification: assign several variables. -/
def assignsR (ρ : REnv) (σ : RS) : List Sym → List RV → Res RS
  | x :: xs, v :: vs => do
    let σ ← assignR ρ σ x v
    assignsR ρ σ xs vs
  | _, _ => .ok σ

/-- Specification: none of the values is the marker of uninitialised variables. -/
def bound {C : Type} : List (V C) → Bool
  | [] => true
  | .unbound :: _ => false
  | _ :: vs => bound vs

/-- Specification: all identifiers of bindings. -/
def bdsIds : List Bd → List Sym
  | [] => []
  | b :: bs => b.ids ++ bdsIds bs

mutual

/-- Specification: the values of an expression. -/
def ev (P : Prims) : Nat → REnv → E → RS → Res (List RV × RS)
  | 0, _, _, _ => .oof
  | _ + 1, ρ, .var x, σ => do let v ← lookupR ρ σ x; .ok ([v], σ)
  | _ + 1, _, .lit l, σ => .ok ([.lit l], σ)
  | _ + 1, _, .quote d, σ => .ok ([ofX d], σ)
  | _ + 1, _, .quoteSyntax d, σ => .ok ([.stx d], σ)
  | _ + 1, _, .unbound, σ => .ok ([.unbound], σ)
  | n + 1, ρ, .define xs e, σ => do
    let (vs, σ) ← ev P n ρ e σ
    if vs.length = xs.length then .ok ([.void], σ.setGlobs xs vs) else .err
  | n + 1, ρ, .set x e, σ => do
    let (vs, σ) ← ev P n ρ e σ
    let v ← single vs
    let σ ← assignR ρ σ x v
    .ok ([.void], σ)
  | n + 1, ρ, .ite c a b, σ => do
    let (vs, σ) ← ev P n ρ c σ
    let v ← single vs
    if isFalse v then ev P n ρ b σ else ev P n ρ a σ
  | n + 1, ρ, .letv bs body, σ => do
    let (vs, σ) ← evBds P n ρ bs σ
    let (ρ, σ) := bindVals ρ σ (bdsIds bs) vs
    evBody P n ρ body σ
  | n + 1, ρ, .letrecv bs body, σ => do
    let (ρ, σ) := bindVals ρ σ (bdsIds bs) (List.replicate (bdsIds bs).length .unbound)
    let σ ← evRec P n ρ bs σ
    evBody P n ρ body σ
  | _ + 1, ρ, .lam f body, σ => .ok ([.clo (.clo ρ [.mk f body])], σ)
  | _ + 1, ρ, .clam cs, σ => .ok ([.clo (.clo ρ cs)], σ)
  | n + 1, ρ, .begin es, σ => evBody P n ρ es σ
  | n + 1, ρ, .app f args, σ => do
    let (vs, σ) ← ev P n ρ f σ
    let f ← single vs
    let (as, σ) ← evArgs P n ρ args σ
    applyR P n f as σ
  | n + 1, ρ, .mvcall e c, σ => do
    let (as, σ) ← ev P n ρ e σ
    let (vs, σ) ← ev P n ρ c σ
    let f ← single vs
    applyR P n f as σ
  | n + 1, ρ, .mvlet e xs body, σ => do
    let (vs, σ) ← ev P n ρ e σ
    if vs.length = xs.length then
      let (ρ, σ) := bindVals ρ σ xs vs
      ev P n ρ body σ
    else .err
  | n + 1, ρ, .mvvals es, σ => evArgs P n ρ es σ

/-- Specification: a sequence of expressions; the values of the last one. -/
def evBody (P : Prims) : Nat → REnv → List E → RS → Res (List RV × RS)
  | 0, _, _, _ => .oof
  | _ + 1, _, [], σ => .ok ([.void], σ)
  | n + 1, ρ, [e], σ => ev P n ρ e σ
  | n + 1, ρ, e :: e' :: es, σ => do
    let (_, σ) ← ev P n ρ e σ
    evBody P n ρ (e' :: es) σ

/-- Specification: arguments, from left to right; each has one value. -/
def evArgs (P : Prims) : Nat → REnv → List E → RS → Res (List RV × RS)
  | 0, _, _, _ => .oof
  | _ + 1, _, [], σ => .ok ([], σ)
  | n + 1, ρ, e :: es, σ => do
    let (vs, σ) ← ev P n ρ e σ
    let v ← single vs
    let (ws, σ) ← evArgs P n ρ es σ
    .ok (v :: ws, σ)

/-- Specification: the values of the right-hand sides of bindings, from left to right; each has as many values as identifiers.  The marker of uninitialised
variables is not a value a program can bind. -/
def evBds (P : Prims) : Nat → REnv → List Bd → RS → Res (List RV × RS)
  | 0, _, _, _ => .oof
  | _ + 1, _, [], σ => .ok ([], σ)
  | n + 1, ρ, .mk xs e :: bs, σ => do
    let (vs, σ) ← ev P n ρ e σ
    if vs.length = xs.length ∧ bound vs then
      let (ws, σ) ← evBds P n ρ bs σ
      .ok (vs ++ ws, σ)
    else .err

/-- Specification: recursive bindings: each right-hand side is evaluated and its values are assigned, from left to right. -/
def evRec (P : Prims) : Nat → REnv → List Bd → RS → Res RS
  | 0, _, _, _ => .oof
  | _ + 1, _, [], σ => .ok σ
  | n + 1, ρ, .mk xs e :: bs, σ => do
    let (vs, σ) ← ev P n ρ e σ
    if vs.length = xs.length ∧ bound vs then
      let σ ← assignsR ρ σ xs vs
      evRec P n ρ bs σ
    else .err

/-- Specification: application. -/
def applyR (P : Prims) : Nat → RV → List RV → RS → Res (List RV × RS)
  | 0, _, _, _ => .oof
  | n + 1, .clo (.clo ρ cs), vs, σ =>
    match select cs vs.length with
    | none => .err
    | some (f, body) =>
      let (ρ, σ) := bindVals ρ σ f.ids (params f vs)
      evBody P n ρ body σ
  | _ + 1, .clo (.prim p k), vs, σ =>
    if vs.length = k ∧ k ≤ 6 then
      match P.f RC p vs with
      | none => .err
      | some v => .ok ([v], σ)
    else .err
  | _ + 1, .clo .values, vs, σ => .ok (vs, σ)
  | n + 1, .clo .apply, vs, σ =>
    match vs with
    | f :: v :: ws =>
      match spread (v :: ws) with
      | none => .err
      | some as => applyR P n f as σ
    | _ => .err
  | n + 1, .clo .cwv, vs, σ =>
    match vs with
    | [p, c] => do
      let (as, σ) ← applyR P n p [] σ
      applyR P n c as σ
    | _ => .err
  | _ + 1, _, _, _ => .err

end

mutual

/-- Specification: the expressions covered.  `busy`: the frame holds arguments of an application under way; there multiple values must not be made
(the machine would take the waiting arguments too).  `loc`: the local variables, `none` inside a procedure.  At top level only local variables are assigned
(the value of the assignment would be the new value instead of void), inside procedures nothing is defined. -/
def okE : Bool → Option (List Sym) → E → Bool
  | _, _, .var _ | _, _, .lit _ | _, _, .quote _ | _, _, .quoteSyntax _ | _, _, .unbound => true
  | b, loc, .define _ e => loc.isSome && okE b loc e
  | b, loc, .set x e => loc.all (fun l => decide (x ∈ l)) && okE b loc e
  | b, loc, .ite c t e => okE b loc c && okE b loc t && okE b loc e
  | _, _, .letv _ _ => false
  | _, _, .letrecv _ _ => false
  | _, _, .lam _ body => okL false none body
  | _, _, .clam cs => okC cs
  | b, loc, .begin es => okL b loc es
  | _, loc, .app f args => okE false loc f && okL true loc args
  | _, loc, .mvcall e c => okE false loc e && okE true loc c
  | b, loc, .mvlet e xs body => okE b loc e && okE b (loc.map (scopeBind · xs)) body
  | b, loc, .mvvals es => !b && okV loc es

/-- Specification: the same for the expressions of a body or arguments. -/
def okL : Bool → Option (List Sym) → List E → Bool
  | _, _, [] => true
  | b, loc, e :: es => okE b loc e && okL b loc es

/-- Specification: the same for the expressions of multiple values: the first is evaluated in an empty frame. -/
def okV : Option (List Sym) → List E → Bool
  | _, [] => true
  | loc, e :: es => okE false loc e && okL true loc es

/-- Specification: the same for clauses. -/
def okC : List Cl → Bool
  | [] => true
  | .mk _ body :: cs => okL false none body && okC cs

end

end Minim.Jit
