import Verif.LibEval
import Verif.ScopeRun

set_option autoImplicit false

/-!
# The library as a context (C108)

What a program meets after prelude.min and boot.min are loaded: which closures the variables of the library hold.  That loading them leads there is proved in LibLoad.lean; what the closures compute, in LibCode.lean.
-/

namespace Minim.Fix

open Minim.Sx Minim.Core Minim.Jit Minim.Lib

/-- The number of a name. -/
def code : Sym → Nat
  | .user n => n
  | _ => 0

/-- The clauses of a procedure. -/
def lamCls : E → List Cl
  | .lam f b => [.mk f b]
  | .clam cs => cs
  | _ => []

/-- The clauses of the procedure a definition makes. -/
def clsOf : E → List Cl
  | .define _ e => lamCls e
  | _ => []

/-- The procedure a definition makes. -/
def fn (e : E) : RV := .clo (.clo (fun _ => none) (clsOf e))

/-- The name a definition of a procedure defines. -/
def plain : E → Option Sym
  | .define [x] (.lam _ _) => some x
  | .define [x] (.clam _) => some x
  | _ => none

/-- The name a definition of a procedure with one local procedure defines, and the name of this. -/
def let1 : E → Option (Sym × Sym)
  | .define [x] (.letv [.mk [o] (.lam _ _)] [.lam _ _]) => some (x, o)
  | .define [x] (.letv [.mk [o] (.lam _ _)] [.clam _]) => some (x, o)
  | _ => none

/-- The clauses of the `i`-th local procedure of a definition. -/
def recCls : E → Nat → List Cl
  | .define _ (.letrecv bs _), i => match bs[i]? with
    | some (.mk _ e) => lamCls e
    | none => []
  | .define _ (.letv bs _), i => match bs[i]? with
    | some (.mk _ e) => lamCls e
    | none => []
  | _, _ => []

/-- The expression whose values a definition defines, when it is the body of a binding construct. -/
def inner : E → E
  | .define _ (.letrecv _ [e]) => e
  | .define _ (.letv _ [e]) => e
  | e => e

/-- The clauses of the `i`-th value of such a definition. -/
def valCls (e : E) (i : Nat) : List Cl :=
  match inner e with
  | .app _ args => match args[i]? with
    | some e => lamCls e
    | none => []
  | e => lamCls e

/-- Names whose values change while the library is loaded: it assigns them or defines them twice. -/
def unstable : List Nat := nums [S.error, S.errorf, S.«raise-argument-error», S.«raise-arity-error», S.«raise-range-error», S.«raise-missing-error», S.load, S.read, S.«record?», S.«$expander-pattern-vars»]

/-- Specification: the names of the library that programs must not define or assign. -/
def Prot : Sym → Prop
  | .user n => n < globals ∧ n ∉ unstable
  | .values => True
  | _ => False

instance : DecidablePred Prot := fun x => by
  cases x <;> unfold Prot <;> infer_instance

/-- The clauses that compare numbers: those of the procedure that `go` returns (prelude.min:530-553). -/
def cmpCls : List Cl :=
  match recCls prelude_42 1 with
  | [.mk _ [e]] => lamCls e
  | _ => []

/-- Specification: in the store the variables of the library have the values that loading it gives them. -/
structure Ctx (Q : Sym → Prop) (σ : RS) : Prop where
  prim : ∀ x k, start.globs x = some (.clo (.prim (code x) k)) → Prot x → Gl Q σ x (.clo (.prim (code x) k))
  plain : ∀ (i : Nat) e x, (prelude ++ boot)[i]? = some e → Fix.plain e = some x → Prot x → Gl Q σ x (fn e)
  apply : Gl Q σ S.apply (.clo .apply)
  number : Gl Q σ S.«number?» (.clo (.prim (code S.«fixnum?») 1)) ∧ Gl Q σ S.«integer?» (.clo (.prim (code S.«fixnum?») 1))
  let1 : ∀ (i : Nat) e x o, (prelude ++ boot)[i]? = some e → Fix.let1 e = some (x, o) → Prot x → ∃ g1 g, Gl Q σ x g ∧ IsClo σ [(o, g1)] (valCls e 0) g
  arith : ∃ g1 g2 h0 h1 h2 h3, Gl Q σ S.«+» h0 ∧ Gl Q σ S.«-» h1 ∧ Gl Q σ S.«*» h2 ∧ Gl Q σ S.«/» h3 ∧
    IsClo σ [(S.«divide-0-error», g2), (S.«non-number-error», g1)] (valCls prelude_50 0) h0 ∧
    IsClo σ [(S.«divide-0-error», g2), (S.«non-number-error», g1)] (valCls prelude_50 1) h1 ∧
    IsClo σ [(S.«divide-0-error», g2), (S.«non-number-error», g1)] (valCls prelude_50 2) h2 ∧
    IsClo σ [(S.«divide-0-error», g2), (S.«non-number-error», g1)] (valCls prelude_50 3) h3
  cmp : ∃ g1 g2, ∀ x p, (x, p) ∈ [(S.«=», S.«$fx2=»), (S.«>», S.«$fx2>»), (S.«<», S.«$fx2<»), (S.«>=», S.«$fx2>=»), (S.«<=», S.«$fx2<=»)] →
    ∃ h, Gl Q σ x h ∧ IsClo σ [(S.who, .sym x), (S.cmp, .clo (.prim (code p) 2)), (S.go, g2), (S.«non-number-error», g1)] cmpCls h
  maps : ∃ g1 g2 g3 g4 g5 h0 h1 h2 h3, Gl Q σ S.«for-each» h0 ∧ Gl Q σ S.map h1 ∧ Gl Q σ S.andmap h2 ∧ Gl Q σ S.ormap h3 ∧
    (∀ i g, (i, g) ∈ [(0, g1), (1, g2), (2, g3), (3, g4), (4, g5)] →
      IsClo σ [(S.«check-args!», g5), (S.ormap1, g4), (S.andmap1, g3), (S.map1, g2), (S.«for-each1», g1)] (recCls prelude_78 i) g) ∧
    (∀ i h, (i, h) ∈ [(0, h0), (1, h1), (2, h2), (3, h3)] →
      IsClo σ [(S.«check-args!», g5), (S.ormap1, g4), (S.andmap1, g3), (S.map1, g2), (S.«for-each1», g1)] (valCls prelude_78 i) h)

/-- Specification: true or false. -/
def ask (b : Bool) : RV := .lit (if b then .tru else .fls)

/-- Specification: is the value a pair? -/
def isPair {C : Type} : V C → Bool
  | .cons _ _ => true
  | _ => false

/-- Specification: is the value the empty list? -/
def isNull {C : Type} : V C → Bool
  | .null => true
  | _ => false

/-- Specification: is the value a procedure? -/
def isProc {C : Type} : V C → Bool
  | .clo _ => true
  | _ => false

/-- Specification: the range of fixnums. -/
def fits (n : Int) : Prop := -2 ^ 63 ≤ n ∧ n < 2 ^ 63

instance : DecidablePred fits := fun n => by unfold fits; infer_instance

/-- Specification: a number, where `nm` numbers the literals. -/
def N (nm : Int → Nat) (n : Int) : RV := .lit (.const (nm n))

/-- Specification: what the C functions compute. -/
structure Laws (P : Prims) (nm : Int → Nat) : Prop where
  pair : ∀ v, P.f RC (code S.«pair?») [v] = some (ask (isPair v))
  null : ∀ v, P.f RC (code S.«null?») [v] = some (ask (isNull v))
  list : ∀ v, P.f RC (code S.«list?») [v] = some (ask (unlist v).isSome)
  proc : ∀ v, P.f RC (code S.«procedure?») [v] = some (ask (isProc v))
  not : ∀ v, P.f RC (code S.«not») [v] = some (ask (isFalse v))
  fix : ∀ n, fits n → P.f RC (code S.«fixnum?») [N nm n] = some (ask true)
  car : ∀ a d, P.f RC (code S.«$car») [.cons a d] = some a
  cdr : ∀ a d, P.f RC (code S.«$cdr») [.cons a d] = some d
  cons : ∀ a d, P.f RC (code S.«cons») [a, d] = some (.cons a d)
  rev : ∀ vs, P.f RC (code S.«$reverse») [listV vs] = some (listV vs.reverse)
  app2 : ∀ vs ws, P.f RC (code S.«$append2») [listV vs, listV ws] = some (listV (vs ++ ws))
  length : ∀ vs : List RV, P.f RC (code S.«$length») [listV vs] = some (N nm vs.length)
  void : P.f RC (code S.«void») [] = some .void
  add : ∀ a b, fits a → fits b → fits (a + b) → P.f RC (code S.«$fx2+») [N nm a, N nm b] = some (N nm (a + b))
  sub : ∀ a b, fits a → fits b → fits (a - b) → P.f RC (code S.«$fx2-») [N nm a, N nm b] = some (N nm (a - b))
  mul : ∀ a b, fits a → fits b → fits (a * b) → P.f RC (code S.«$fx2*») [N nm a, N nm b] = some (N nm (a * b))
  eq : ∀ a b, fits a → fits b → P.f RC (code S.«$fx2=») [N nm a, N nm b] = some (ask (decide (a = b)))
  gt : ∀ a b, fits a → fits b → P.f RC (code S.«$fx2>») [N nm a, N nm b] = some (ask (decide (a > b)))
  lt : ∀ a b, fits a → fits b → P.f RC (code S.«$fx2<») [N nm a, N nm b] = some (ask (decide (a < b)))
  ge : ∀ a b, fits a → fits b → P.f RC (code S.«$fx2>=») [N nm a, N nm b] = some (ask (decide (a ≥ b)))
  le : ∀ a b, fits a → fits b → P.f RC (code S.«$fx2<=») [N nm a, N nm b] = some (ask (decide (a ≤ b)))
  nm0 : nm 0 = 19
  nm1 : nm 1 = 21
  nm2 : nm 2 = 33
  nm3 : nm 3 = 134
  nm4 : nm 4 = 55
  nm5 : nm 5 = 164
  nm6 : nm 6 = 165
  nm7 : nm 7 = 166
  nm8 : nm 8 = 167
  nm9 : nm 9 = 168
  nm10 : nm 10 = 169

end Minim.Fix
