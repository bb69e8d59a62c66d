import Verif.SxCase
import Mathlib.Data.List.Forall2

set_option autoImplicit false

/-!
# What a pattern of `syntax-case` means

A specification of matching that does not mention the matcher: patterns as trees, what it means for a datum to match a pattern under an assignment of the pattern variables, and the data the
variables stand for below ellipses.
-/

namespace Minim.Sc

/-- Patterns.  `cons p q` is a list pattern `(p . q)`, `ell p q` is `(p ... . q)`. -/
inductive Pat where
  | wild
  | var (x : Nm)
  /-- a literal identifier or any other datum that is no list and no vector -/
  | atom (a : V)
  | nil
  | cons (p q : Pat)
  | ell (p q : Pat)
  | vec (p : Pat)
deriving DecidableEq, Repr

namespace Pat

/-- How a pattern is written. -/
def dat : Pat → V
  | wild => .sym .under
  | var x => .sym x
  | atom a => a
  | nil => .null
  | cons p q => .cons p.dat q.dat
  | ell p q => .cons p.dat (.cons (.sym .dots) q.dat)
  | vec p => .vec p.dat

/-- The variables of a pattern from left to right with their depths, `k` of which come from outside. -/
def vars : Pat → Nat → List (Nm × Nat)
  | var x, k => [(x, k)]
  | cons p q, k => p.vars k ++ q.vars k
  | ell p q, k => p.vars (k + 1) ++ q.vars k
  | vec p, k => p.vars k
  | wild, _ => []
  | atom _, _ => []
  | nil, _ => []

/-- Names of the variables. -/
def names (p : Pat) : List Nm := (p.vars 0).map Prod.fst

/-- The number of elements of a list pattern without ellipsis, not counting its tail. -/
def len : Pat → Nat
  | cons _ q => q.len + 1
  | _ => 0

/-- Is the pattern a list pattern that ends in `()`? -/
def proper : Pat → Bool
  | nil => true
  | cons _ q => q.proper
  | ell _ q => q.proper
  | _ => false

/-- Is there an ellipsis among the elements of a list pattern? -/
def hasEll : Pat → Bool
  | cons _ q => q.hasEll
  | ell _ _ => true
  | _ => false

/-- Is an ellipsis, if there is one, at the end of the list pattern? -/
def endEll : Pat → Bool
  | cons _ q => q.endEll
  | ell _ q => q = nil
  | _ => true

/-- Is the pattern a vector pattern? -/
def isVec : Pat → Bool
  | vec _ => true
  | _ => false

/-- Size, for induction and as a bound of the fuel. -/
def size : Pat → Nat
  | wild => 2
  | var _ => 2
  | atom _ => 2
  | nil => 1
  | cons p q => p.size + q.size + 1
  | ell p q => p.size + q.size + 2
  | vec p => p.size + 2

end Pat

/-- Data that are neither lists nor vectors. -/
def isAtom : V → Bool
  | .tru => true
  | .fls => true
  | .num _ => true
  | .sym _ => true
  | .other _ => true
  | _ => false

/-- Patterns that mean something: identifiers are used as what they are (`_`, `...`, literal, variable), there is at most one ellipsis in a list, an ellipsis in a vector comes last, and no vector
pattern stands behind a dot. -/
def WF (lits : List Nm) : Pat → Prop
  | .wild => True
  | .nil => True
  | .var x => x ∉ lits ∧ x ≠ .under ∧ x ≠ .dots
  | .atom a => isAtom a = true ∧ ∀ s, a = .sym s → s ∈ lits ∧ s ≠ .under ∧ s ≠ .dots
  | .cons p q => WF lits p ∧ WF lits q ∧ q.isVec = false
  | .ell p q => WF lits p ∧ WF lits q ∧ q.isVec = false ∧ q.hasEll = false
  | .vec p => WF lits p ∧ p.proper = true ∧ p.endEll = true

/-- Plain data: no syntax objects inside; the elements of a vector are a proper list. -/
def Pure : V → Prop
  | .cons a d => Pure a ∧ Pure d
  | .vec es => Pure es ∧ isList es = true
  | .stx _ => False
  | _ => True

/-- What a pattern variable stands for: a datum, or below an ellipsis a sequence. -/
inductive BV where
  | leaf (d : V)
  | many (bs : List BV)

/-- The list `l` in front of `r`. -/
def appV (l : List V) (r : V) : V := l.foldr .cons r

/-- The number of pairs along the cdrs. -/
def spine : V → Nat
  | .cons _ d => spine d + 1
  | _ => 0

/-- The elements along the cdrs. -/
def elems : V → List V
  | .cons a d => a :: elems d
  | _ => []

/-- `M p d σ`: the datum `d` matches the pattern `p` when its variables stand for what `σ` says (R7RS 4.3.2).  The list before the rest `q` of an ellipsis is as long as possible. -/
def M : Pat → V → (Nm → BV) → Prop
  | .wild, _, _ => True
  | .var x, d, σ => σ x = .leaf d
  | .atom a, d, _ => d = a
  | .nil, d, _ => d = .null
  | .cons p q, d, σ => ∃ a b, d = .cons a b ∧ M p a σ ∧ M q b σ
  | .ell p q, d, σ => ∃ l r, d = appV l r ∧ spine r = q.len ∧ M q r σ ∧
      ∃ τs : List (Nm → BV), List.Forall₂ (M p) l τs ∧ ∀ x ∈ p.names, σ x = .many (τs.map (· x))
  | .vec p, d, σ => ∃ es, d = .vec es ∧ M p es σ

/-- What a value computed by a matcher stands for at depth `k`: a syntax object for its datum, a list for a sequence. -/
def bv : Nat → V → BV
  | 0, v => .leaf (strip v)
  | k + 1, v => .many (((rawList v).getD []).map (bv k))

/-- A value for a variable of depth `k` is a list of lists ... `k` levels deep, of objects that become the same syntax object as their datum (no list inside has a tail that is a syntax object). -/
def Shape : Nat → V → Prop
  | 0, v => toSyntax v = toSyntax (strip v)
  | k + 1, v => ∃ l, v = listV l ∧ ∀ a ∈ l, Shape k a

/-- The values `vs` for the variables `xs` have the right shapes. -/
def Shaped (xs : List (Nm × Nat)) (vs : List V) : Prop := List.Forall₂ (fun xk v => Shape xk.2 v) xs vs

/-- The values `vs` of the variables `xs` are what `σ` says. -/
def Bind (xs : List (Nm × Nat)) (vs : List V) (σ : Nm → BV) : Prop :=
  List.Forall₂ (fun xk v => σ xk.1 = bv xk.2 v) xs vs

/-- The result `v` decides the condition `P` on assignments: `#f` if no assignment satisfies it, else a list of values of the right shapes for the variables `xs` such that exactly the assignments with these values do. -/
def Fit (P : (Nm → BV) → Prop) (xs : List (Nm × Nat)) (v : V) : Prop :=
  (v = .fls ∧ ∀ σ, ¬ P σ) ∨ (∃ vs, v = listV vs ∧ Shaped xs vs ∧ ∀ σ, P σ ↔ Bind xs vs σ)

/-- Where a pattern stands. -/
inductive Mode where
  | head
  | tail
  | elem
deriving DecidableEq

mutual

/-- `Calm m p d`: nothing in the datum `d` makes the matcher for `p` raise an exception.  Two things could: an element `_` of a list pattern that meets a tail that is neither a pair nor empty, and a
literal behind a dot that meets a list. -/
def Calm : Mode → Pat → V → Prop
  | _, .wild, _ => True
  | _, .var _, _ => True
  | _, .nil, _ => True
  | m, .atom _, d => m = .tail → d ≠ .null ∧ ∀ a b, d ≠ .cons a b
  | .elem, .cons p q, d => ∀ a b, d = .cons a b → Calm .head p a ∧ Calm .elem q b
  | _, .cons p q, d => (p = .wild → d = .null ∨ ∃ a b, d = .cons a b) ∧
      (∀ a b, d = .cons a b → Calm .head p a ∧ Calm .tail q b) ∧ CalmAfter q d
  | _, .ell p q, d => (∀ a ∈ elems d, Calm .head p a) ∧
      ∀ l r, d = appV l r → (spine r = q.len ∨ (q.proper = true ∧ isList d = false ∧ spine r = q.len + 1)) → Calm .tail q r
  | _, .vec p, d => ∀ es, d = .vec es → Calm .elem p es

/-- The same for the part of a list pattern behind an ellipsis, which is tried on the last elements of the list. -/
def CalmAfter : Pat → V → Prop
  | .cons _ q, d => CalmAfter q d
  | .ell _ q, d => ∀ l r, d = appV l r →
      (spine r = q.len ∨ (q.proper = true ∧ isList d = false ∧ spine r = q.len + 1)) → Calm .tail q r
  | _, _ => True

end

end Minim.Sc
