import Verif.Basic

set_option autoImplicit false

/-!
# Core expressions as S-expressions

The data on which the syntax checker (check.c), the optimiser (jitopt.c), the analyses (jitanalyze.c) and the compiler (jitcompile.c)
work.  Expressions are finite trees; cyclic data, on which the C code does not return, are not represented.
-/

namespace Minim.Sx

/-- Symbols: the ones the compiler tests for by address (symbol.c:30-97), those of the program (`user`), and generated ones (`Mgensym`,
symbol.c:196-202), which are different from every interned symbol. -/
inductive Sym where
  | defineValues | letValues | letrecValues | quote | quoteSyntax | setb | ifS | lambda | caseLambda | begin
  | values | callWithValues | mvCall | mvLet | mvValues | makeUnbound
  | user (n : Nat)
  | gen (n : Nat)
deriving DecidableEq, Repr

/-- Self-evaluating data (`#t`, `#f`, fixnums, characters, strings, boxes, vectors; check.c:233-239, jitcompile.c:486-491), given by their identity. -/
inductive Lit where
  | fls | tru | const (n : Nat)
deriving DecidableEq, Repr

/-- Objects as far as the checker and compiler distinguish them (`minim_type`, minim.h:114-137): `other` is every object that is no
expression by itself (void, eof, procedures, ports, syntax objects, records, ...). -/
inductive X where
  | null
  | sym (s : Sym)
  | lit (l : Lit)
  | other (n : Nat)
  | cons (a d : X)
deriving DecidableEq, Repr

/-- A proper list (`Mlist1` .. `Mlist6`, minim.h:237-242). -/
def ofList : List X → X
  | [] => .null
  | x :: xs => .cons x (ofList xs)

/-- `minim_listp` (list.c:16-19). -/
def isList : X → Bool
  | .cons _ d => isList d
  | .null => true
  | _ => false

/-- The loops over identifier lists (check.c:68-75, 100-107). -/
def isIds : X → Bool
  | .cons (.sym _) d => isIds d
  | .null => true
  | _ => false

/-- The loops over formals (check.c:136-142, 151-155): identifiers, the tail null or an identifier. -/
def isFormals : X → Bool
  | .cons (.sym _) d => isFormals d
  | .null => true
  | .sym _ => true
  | _ => false

/-- A proper list of identifiers as an object (modelling device). -/
def ids (xs : List Sym) : X := ofList (xs.map .sym)

/-- Formals as an object: required parameters and possibly a rest parameter (modelling device). -/
def formals : List Sym → Option Sym → X
  | [], none => .null
  | [], some r => .sym r
  | x :: xs, r => .cons (.sym x) (formals xs r)

theorem isList_iff (x : X) : isList x = true ↔ ∃ xs, x = ofList xs := by
  constructor
  · induction x with
    | null => intro _; exact ⟨[], rfl⟩
    | cons a d _ ih =>
      intro h
      obtain ⟨xs, rfl⟩ := ih (by simpa [isList] using h)
      exact ⟨a :: xs, rfl⟩
    | _ => intro h; simp [isList] at h
  · rintro ⟨xs, rfl⟩
    induction xs with
    | nil => rfl
    | cons x xs ih => simpa [isList, ofList] using ih

theorem isIds_iff (x : X) : isIds x = true ↔ ∃ xs, x = ids xs := by
  constructor
  · induction x with
    | null => intro _; exact ⟨[], rfl⟩
    | cons a d _ ih =>
      intro h
      cases a with
      | sym s =>
        obtain ⟨xs, rfl⟩ := ih (by simpa [isIds] using h)
        exact ⟨s :: xs, rfl⟩
      | _ => simp [isIds] at h
    | _ => intro h; simp [isIds] at h
  · rintro ⟨xs, rfl⟩
    induction xs with
    | nil => rfl
    | cons x xs ih => simpa [isIds, ids, ofList] using ih

theorem isFormals_iff (x : X) : isFormals x = true ↔ ∃ xs r, x = formals xs r := by
  constructor
  · induction x with
    | null => intro _; exact ⟨[], none, rfl⟩
    | sym s => intro _; exact ⟨[], some s, rfl⟩
    | cons a d _ ih =>
      intro h
      cases a with
      | sym s =>
        obtain ⟨xs, r, rfl⟩ := ih (by simpa [isFormals] using h)
        exact ⟨s :: xs, r, rfl⟩
      | _ => simp [isFormals] at h
    | _ => intro h; simp [isFormals] at h
  · rintro ⟨xs, r, rfl⟩
    induction xs with
    | nil => cases r <;> rfl
    | cons x xs ih => simpa [isFormals, formals] using ih

theorem ofList_inj : ∀ {xs ys : List X}, ofList xs = ofList ys → xs = ys
  | [], [], _ => rfl
  | [], _ :: _, h => by cases h
  | _ :: _, [], h => by cases h
  | _ :: _, _ :: _, h => by
    simp only [ofList, X.cons.injEq] at h
    rw [h.1, ofList_inj h.2]

end Minim.Sx
