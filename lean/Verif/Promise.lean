import Verif.Basic

set_option autoImplicit false

/-!
# Promises (src/library/private/promise.min)

The body of a promise is any program that reads and changes a state of type `S`, makes promises, forces promises and may fail (modelling device `Body`).  Simplifications: no continuations are captured; the record
operations (`promise-cache`, `promise-forced?`, ...) are field accesses.
-/

namespace Minim.Promise

/-- values: promises by address, and anything else -/
inductive V where
  | data (n : Nat)
  | promise (i : Nat)
deriving DecidableEq, Repr

/-- programs (modelling device): what may be the body of a promise -/
inductive Body (S : Type) where
  | ret (v : V)
  | fail
  | eff (f : S → S) (k : S → Body S)
  | delay (b : Body S) (k : V → Body S)
  | force (p : V) (k : V → Body S)

/-- a promise record (promise.min:17-24) -/
structure Pr (S : Type) where
  producer : Body S
  cache : V
  forced : Bool

/-- the state; `starts` records which bodies have been entered (ghost, for the statements only) -/
structure World (S : Type) where
  user : S
  prs : List (Pr S)
  starts : List Nat

/-- `#f` -/
def fls : V := .data 0

/-- `make-promise` by its protocol (promise.min:21-24), called by `delay` (promise.min:35-39) -/
def makePromise {S : Type} (w : World S) (b : Body S) : World S × V := ({ w with prs := w.prs ++ [⟨b, fls, false⟩] }, .promise w.prs.length)

/-- `promise-cache-set!` and `promise-forced?-set!` (promise.min:68-69, 55-56) -/
def setForced {S : Type} (w : World S) (i : Nat) (v : V) : World S :=
  match w.prs[i]? with
  | some p => { w with prs := w.prs.set i { p with cache := v, forced := true } }
  | none => w

mutual
/-- running a program (modelling device) -/
def run {S : Type} : Nat → World S → Body S → Res (World S × V)
  | 0, _, _ => .oof
  | _ + 1, w, .ret v => .ok (w, v)
  | _ + 1, _, .fail => .err
  | n + 1, w, .eff f k => run n { w with user := f w.user } (k (f w.user))
  | n + 1, w, .delay b k => run n (makePromise w b).1 (k (makePromise w b).2)
  | n + 1, w, .force p k => do
    let (w, v) ← force n w p
    run n w (k v)

/-- `force` (promise.min:60-70) -/
def force {S : Type} : Nat → World S → V → Res (World S × V)
  | 0, _, _ => .oof
  | _ + 1, _, .data _ => .err
  | n + 1, w, .promise i =>
    match w.prs[i]? with
    | none => .ub
    | some p =>
      if p.forced then .ok (w, p.cache) else do
        let (w, v) ← run n { w with starts := i :: w.starts } p.producer
        pure (setForced w i v, v)
end

/-- `lazy` (promise.min:45-58): the loop; one turn is what `force` does -/
def lazy {S : Type} (m : Nat) : Nat → World S → V → Res (World S × V)
  | 0, _, _ => .oof
  | n + 1, w, p => do
    let (w, v) ← force m w p
    match v with
    | .promise j => lazy m n w (.promise j)
    | .data x => pure (w, .data x)

end Minim.Promise
