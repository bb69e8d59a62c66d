import Verif.SxTmpl
import Verif.SxSpec

set_option autoImplicit false

/-!
# What a template of `syntax` means

Templates as trees and what it means for a datum to be the instance of a template under an assignment of the pattern variables, without reference to the template engine.
-/

namespace Minim.Sc

/-- Templates.  `cons t u` is `(t . u)`, `ell t u` is `(t ... . u)`. -/
inductive Tm where
  | var (x : Nm)
  | const (a : V)
  | nil
  | cons (t u : Tm)
  | ell (t u : Tm)
  | vec (t : Tm)
deriving DecidableEq, Repr

namespace Tm

/-- How a template is written. -/
def dat : Tm → V
  | var x => .sym x
  | const a => a
  | nil => .null
  | cons t u => .cons t.dat u.dat
  | ell t u => .cons t.dat (.cons (.sym .dots) u.dat)
  | vec t => .vec t.dat

/-- The pattern variables of a template. -/
def names : Tm → List Nm
  | var x => [x]
  | const _ => []
  | nil => []
  | cons t u => t.names ++ u.names
  | ell t u => t.names ++ u.names
  | vec t => t.names

/-- Is the template a list that ends in `()`? -/
def proper : Tm → Bool
  | nil => true
  | cons _ u => u.proper
  | ell _ u => u.proper
  | _ => false

/-- What stands at the end of a list. -/
def last : Tm → Tm
  | cons _ u => u.last
  | ell _ u => u.last
  | t => t

/-- Size, for induction and as a bound of the fuel. -/
def size : Tm → Nat
  | cons t u => t.size + u.size + 1
  | ell t u => t.size + u.size + 1
  | vec t => t.size + 1
  | _ => 1

end Tm

/-- `I t σ d`: the datum `d` is the instance of the template `t` when the variables stand for what `σ` says (R6RS 12.4).  The instance of `t ...` is a sequence of instances of `t`, for each of which the
variables that stand for sequences stand for the corresponding element; they must have the same length, and there must be one. -/
def I : Tm → (Nm → BV) → V → Prop
  | .var x, σ, d => σ x = .leaf d
  | .const a, _, d => d = a
  | .nil, _, d => d = .null
  | .cons t u, σ, d => ∃ a b, d = .cons a b ∧ I t σ a ∧ I u σ b
  | .ell t u, σ, d => ∃ l r, d = appV l r ∧ I u σ r ∧ ∃ τs : List (Nm → BV), List.Forall₂ (I t) τs l ∧
      (∀ x ∈ t.names, σ x = .many (τs.map (· x)) ∨ ∃ b, σ x = .leaf b ∧ ∀ τ ∈ τs, τ x = .leaf b) ∧
      ∃ x ∈ t.names, ∃ bs, σ x = .many bs
  | .vec t, σ, d => ∃ es, d = .vec es ∧ I t σ es

/-- Templates that mean something where the pattern variables have the depths `dp`, at a place below `k` ellipses: variables are below enough ellipses, every ellipsis has something to repeat, a list
with an ellipsis ends in `()` or in a variable, and constants are neither lists, vectors, pattern variables nor `...`. -/
def TWF (dp : Nm → Option Nat) : Nat → Tm → Prop
  | k, .var x => x ≠ .dots ∧ ∃ n, dp x = some n ∧ n ≤ k
  | _, .const a => isAtom a = true ∧ ∀ s, a = .sym s → s ≠ .dots ∧ dp s = none
  | _, .nil => True
  | k, .cons t u => TWF dp k t ∧ TWF dp k u
  | k, .ell t u => TWF dp (k + 1) t ∧ TWF dp k u ∧ (u.last = .nil ∨ ∃ x, u.last = .var x) ∧ ∃ x ∈ t.names, ∃ n, dp x = some n ∧ k < n
  | k, .vec t => TWF dp k t ∧ t.proper = true

mutual

/-- The variables that stand behind a dot in a template. -/
def Tm.dotted : Tm → List Nm
  | .cons t u => t.dotted ++ u.dottedTail
  | .ell t u => t.dotted ++ u.dottedTail
  | .vec t => t.dotted
  | _ => []

/-- The same for a template that is itself behind a dot. -/
def Tm.dottedTail : Tm → List Nm
  | .var x => [x]
  | .cons t u => t.dotted ++ u.dottedTail
  | .ell t u => t.dotted ++ u.dottedTail
  | .vec t => t.dotted
  | _ => []

end

/-- The variables that stand behind a dot at the end of a list with an ellipsis. -/
def Tm.ends : Tm → List Nm
  | .cons t u => t.ends ++ u.ends
  | .ell t u => t.ends ++ u.ends ++ (match u.last with | .var x => [x] | _ => [])
  | .vec t => t.ends
  | _ => []

/-- A value for a variable of depth `k` all whose leaves satisfy `Q`. -/
def ShapeQ (Q : V → Prop) : Nat → V → Prop
  | 0, v => Q v
  | k + 1, v => ∃ l, v = listV l ∧ ∀ a ∈ l, ShapeQ Q k a

/-- An object that becomes the same syntax object as its datum: no list inside it has a tail that is wrapped in a syntax object of its own. -/
def Flat (v : V) : Prop := toSyntax v = toSyntax (strip v)

/-- The same for an object in the place of a tail. -/
def FlatT (v : V) : Prop := pairTail v = pairTail (strip v)

end Minim.Sc
