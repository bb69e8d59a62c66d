import Verif.Passes
import Verif.PassSem
import Verif.SimBase

set_option autoImplicit false

/-!
# One rewriting step of the passes

`Tr e e'`: some subexpressions of `e` are rewritten by one rule of one pass, all at once.  The temporaries of the
first pass are in `F`.  Nothing here concerns meaning.
-/

namespace Minim.Jit

open Minim.Sx Minim.Core

/-- A body as one expression. -/
def asExpr : List E → E
  | [e] => e
  | es => .begin es

/-- Specification: what is known about variables: `fix` are never bound, assigned or defined, `con` are never assigned or defined once they have a value. -/
structure Kn where
  fix : Sym → Prop
  con : Sym → Prop

instance : CoeFun Kn (fun _ => Sym → Prop) := ⟨Kn.fix⟩

/-- Specification: `values` and `call-with-values` are never rebound, and they are no temporaries. -/
structure Names (K : Kn) (F : Sym → Prop) : Prop where
  values : K .values
  cwv : K .callWithValues
  sub : ∀ x, K x → K.con x
  disj : ∀ x, K x → ¬ F x

/-- Expressions that have the same value before and after another evaluation, and no effect. -/
def Stable (K : Kn) : E → Prop
  | .lam _ _ | .clam _ | .quote _ | .quoteSyntax _ | .lit _ => True
  | .var x => K.con x
  | _ => False

/-- Expressions the second pass knows to have exactly one value. -/
def Atom : E → Prop
  | .lam _ _ | .quote _ | .quoteSyntax _ | .var _ | .lit _ => True
  | _ => False

mutual

/-- One rewriting step. -/
inductive Tr (K : Kn) (F : Sym → Prop) : E → E → Prop where
  | var (x : Sym) : Tr K F (.var x) (.var x)
  | lit (l : Lit) : Tr K F (.lit l) (.lit l)
  | quote (d : X) : Tr K F (.quote d) (.quote d)
  | quoteSyntax (d : X) : Tr K F (.quoteSyntax d) (.quoteSyntax d)
  | unbound : Tr K F .unbound .unbound
  | define {xs : List Sym} {e e' : E} : Tr K F e e' → Tr K F (.define xs e) (.define xs e')
  | set {x : Sym} {e e' : E} : Tr K F e e' → Tr K F (.set x e) (.set x e')
  | ite {c t f c' t' f' : E} : Tr K F c c' → Tr K F t t' → Tr K F f f' → Tr K F (.ite c t f) (.ite c' t' f')
  | letv {bs bs' : List Bd} {es es' : List E} : TrB K F bs bs' → TrL K F es es' → Tr K F (.letv bs es) (.letv bs' es')
  | letrecv {bs bs' : List Bd} {es es' : List E} : TrB K F bs bs' → TrL K F es es' → Tr K F (.letrecv bs es) (.letrecv bs' es')
  | lam {f : Formals} {es es' : List E} : TrL K F es es' → Tr K F (.lam f es) (.lam f es')
  | clam {cs cs' : List Cl} : TrC K F cs cs' → Tr K F (.clam cs) (.clam cs')
  | begin {es es' : List E} : TrL K F es es' → Tr K F (.begin es) (.begin es')
  | app {f f' : E} {es es' : List E} : Tr K F f f' → TrL K F es es' → Tr K F (.app f es) (.app f' es')
  | mvcall {e c e' c' : E} : Tr K F e e' → Tr K F c c' → Tr K F (.mvcall e c) (.mvcall e' c')
  | mvlet {e b e' b' : E} {xs : List Sym} : Tr K F e e' → Tr K F b b' → Tr K F (.mvlet e xs b) (.mvlet e' xs b')
  | mvvals {es es' : List E} : TrL K F es es' → Tr K F (.mvvals es) (.mvvals es')
  -- first pass
  | let0 {es es' : List E} : TrL K F es es' → Tr K F (.letv [] es) (.begin es')
  | let1 {xs : List Sym} {e e' : E} {es es' : List E} : (∀ j, F (.gen j)) → Tr K F e e' → TrL K F es es' →
    Tr K F (.letv [.mk xs e] es) (.app (.var .callWithValues) [.lam (fixed []) [e'], .lam (fixed xs) es'])
  | let2 {bs bs' : List Bd} {es es' : List E} (k : Nat) : (∀ j, F (.gen j)) → TrB K F bs bs' → TrL K F es es' → Tr K F (.letv bs es) (let2 k bs' [] [] es')
  | letrec0 {es es' : List E} : TrL K F es es' → Tr K F (.letrecv [] es) (.begin es')
  | letrec1 {bs bs' : List Bd} {es es' : List E} (k : Nat) : (∀ j, F (.gen j)) → TrB K F bs bs' → TrL K F es es' → es ≠ [] →
    Tr K F (.letrecv bs es) (.app (.var .callWithValues)
      [.lam (fixed []) [.app (.var .values) (List.replicate (bdsIds bs).length .unbound)], .lam (fixed (bdsIds bs)) (setExprs k bs' ++ es')])
  | clam1 {f : Formals} {es es' : List E} : TrL K F es es' → Tr K F (.clam [.mk f es]) (.lam f es')
  -- second pass
  | values1 {e e' : E} : Tr K F e e' → Tr K F (.app (.var .values) [e]) e'
  | values {es es' : List E} : TrL K F es es' → Tr K F (.app (.var .values) es) (.mvvals es')
  | cwv {p p' c c' : E} : Tr K F p p' → Tr K F c c' → Stable K c → Tr K F (.app (.var .callWithValues) [p, c]) (.mvcall (.app p' []) c')
  | cwvMore {p p' c c' x : E} {es : List E} : Tr K F p p' → Tr K F c c' → Tr K F (.app (.var .callWithValues) (p :: c :: x :: es)) (.mvcall (.app p' []) c')
  | mvThunk {es es' args : List E} {c c' : E} : TrL K F es es' → Tr K F c c' → Tr K F (.mvcall (.app (.lam (fixed []) es) args) c) (.mvcall (asExpr es') c')
  | mvVals {es es' : List E} {c c' : E} : TrL K F es es' → Tr K F c c' → Stable K c → Tr K F (.mvcall (.mvvals es) c) (.app c' es')
  | mvBegin {es es' : List E} {e e' c c' : E} : TrL K F es es' → Tr K F e e' → Tr K F c c' →
    Tr K F (.mvcall (.begin (es ++ [e])) c) (.begin (es' ++ [.mvcall e' c']))
  | mvIf {a t f a' t' f' c c' : E} : Tr K F a a' → Tr K F t t' → Tr K F f f' → Tr K F c c' →
    Tr K F (.mvcall (.ite a t f) c) (.ite a' (.mvcall t' c') (.mvcall f' c'))
  | mvAtom {e e' c c' : E} : Tr K F e e' → Tr K F c c' → Stable K c → Atom e → Tr K F (.mvcall e c) (.app c' [e'])
  | mvLam {e e' : E} {xs : List Sym} {es es' : List E} : Tr K F e e' → TrL K F es es' → Tr K F (.mvcall e (.lam (fixed xs) es)) (.mvlet e' xs (asExpr es'))
  -- third pass
  | app0 {xs : List Sym} {es es' : List E} : TrL K F es es' → Tr K F (.app (.lam (fixed xs) es) []) (asExpr es')
  | app1 {xs : List Sym} {es es' : List E} {a a' : E} : Tr K F a a' → TrL K F es es' → Tr K F (.app (.lam (fixed xs) es) [a]) (.mvlet a' xs (asExpr es'))
  | app2 {xs : List Sym} {es es' args args' : List E} : TrL K F args args' → TrL K F es es' →
    Tr K F (.app (.lam (fixed xs) es) args) (.mvlet (.app (.var .values) args') xs (asExpr es'))

/-- The same for lists of expressions. -/
inductive TrL (K : Kn) (F : Sym → Prop) : List E → List E → Prop where
  | nil : TrL K F [] []
  | cons {e e' : E} {es es' : List E} : Tr K F e e' → TrL K F es es' → TrL K F (e :: es) (e' :: es')

/-- The same for bindings. -/
inductive TrB (K : Kn) (F : Sym → Prop) : List Bd → List Bd → Prop where
  | nil : TrB K F [] []
  | cons {xs : List Sym} {e e' : E} {bs bs' : List Bd} : Tr K F e e' → TrB K F bs bs' → TrB K F (.mk xs e :: bs) (.mk xs e' :: bs')

/-- The same for clauses. -/
inductive TrC (K : Kn) (F : Sym → Prop) : List Cl → List Cl → Prop where
  | nil : TrC K F [] []
  | cons {f : Formals} {es es' : List E} {cs cs' : List Cl} : TrL K F es es' → TrC K F cs cs' → TrC K F (.mk f es :: cs) (.mk f es' :: cs')

end

mutual

/-- Specification: the expressions for which the passes are claimed to be correct: the variables are used as `K` says, the ones in `F`
do not occur, `let-values` binds distinct identifiers, and the body of `letrec-values` is not empty. -/
def Wf (K : Kn) (F : Sym → Prop) : E → Prop
  | .var x => ¬ F x
  | .lit _ | .quote _ | .quoteSyntax _ | .unbound => True
  | .define xs e => (∀ x ∈ xs, ¬ K.con x ∧ ¬ F x) ∧ Wf K F e
  | .set x e => ¬ K.con x ∧ ¬ F x ∧ Wf K F e
  | .ite c t e => Wf K F c ∧ Wf K F t ∧ Wf K F e
  | .letv bs es => (∀ x ∈ bdsIds bs, ¬ K x ∧ ¬ F x) ∧ (bdsIds bs).Nodup ∧ WfB K F bs ∧ WfL K F es
  | .letrecv bs es => (∀ x ∈ bdsIds bs, ¬ K.con x ∧ ¬ F x) ∧ es ≠ [] ∧ WfB K F bs ∧ WfL K F es
  | .lam f es => (∀ x ∈ f.ids, ¬ K x ∧ ¬ F x) ∧ WfL K F es
  | .clam cs => WfC K F cs
  | .begin es => WfL K F es
  | .app f es => Wf K F f ∧ WfL K F es
  | .mvcall e c => Wf K F e ∧ Wf K F c
  | .mvlet e xs b => (∀ x ∈ xs, ¬ K x ∧ ¬ F x) ∧ Wf K F e ∧ Wf K F b
  | .mvvals es => WfL K F es

/-- Specification: the same for lists. -/
def WfL (K : Kn) (F : Sym → Prop) : List E → Prop
  | [] => True
  | e :: es => Wf K F e ∧ WfL K F es

/-- Specification: the same for bindings. -/
def WfB (K : Kn) (F : Sym → Prop) : List Bd → Prop
  | [] => True
  | .mk _ e :: bs => Wf K F e ∧ WfB K F bs

/-- Specification: the same for clauses. -/
def WfC (K : Kn) (F : Sym → Prop) : List Cl → Prop
  | [] => True
  | .mk f es :: cs => (∀ x ∈ f.ids, ¬ K x ∧ ¬ F x) ∧ WfL K F es ∧ WfC K F cs

end

mutual

theorem Tr.refl (K : Kn) (F : Sym → Prop) : ∀ e : E, Tr K F e e
  | .var _ => .var _
  | .lit _ => .lit _
  | .quote _ => .quote _
  | .quoteSyntax _ => .quoteSyntax _
  | .unbound => .unbound
  | .define _ e => .define (Tr.refl K F e)
  | .set _ e => .set (Tr.refl K F e)
  | .ite c t e => .ite (Tr.refl K F c) (Tr.refl K F t) (Tr.refl K F e)
  | .letv bs es => .letv (TrB.refl K F bs) (TrL.refl K F es)
  | .letrecv bs es => .letrecv (TrB.refl K F bs) (TrL.refl K F es)
  | .lam _ es => .lam (TrL.refl K F es)
  | .clam cs => .clam (TrC.refl K F cs)
  | .begin es => .begin (TrL.refl K F es)
  | .app f es => .app (Tr.refl K F f) (TrL.refl K F es)
  | .mvcall e c => .mvcall (Tr.refl K F e) (Tr.refl K F c)
  | .mvlet e _ b => .mvlet (Tr.refl K F e) (Tr.refl K F b)
  | .mvvals es => .mvvals (TrL.refl K F es)

theorem TrL.refl (K : Kn) (F : Sym → Prop) : ∀ es : List E, TrL K F es es
  | [] => .nil
  | e :: es => .cons (Tr.refl K F e) (TrL.refl K F es)

theorem TrB.refl (K : Kn) (F : Sym → Prop) : ∀ bs : List Bd, TrB K F bs bs
  | [] => .nil
  | .mk _ e :: bs => .cons (Tr.refl K F e) (TrB.refl K F bs)

theorem TrC.refl (K : Kn) (F : Sym → Prop) : ∀ cs : List Cl, TrC K F cs cs
  | [] => .nil
  | .mk _ es :: cs => .cons (TrL.refl K F es) (TrC.refl K F cs)

end

theorem TrB.ids {K : Kn} {F : Sym → Prop} : ∀ {bs bs' : List Bd}, TrB K F bs bs' → bdsIds bs' = bdsIds bs
  | _, _, .nil => rfl
  | _, _, .cons _ h => by simp [bdsIds, Bd.ids, h.ids]

theorem TrL.length {K : Kn} {F : Sym → Prop} : ∀ {es es' : List E}, TrL K F es es' → es'.length = es.length
  | _, _, .nil => rfl
  | _, _, .cons _ h => by simp [h.length]

theorem TrC.select {K : Kn} {F : Sym → Prop} {n : Nat} : ∀ {cs cs' : List Cl}, TrC K F cs cs' → ∀ {f : Formals} {es : List E}, Minim.Jit.select cs n = some (f, es) →
    ∃ es', Minim.Jit.select cs' n = some (f, es') ∧ TrL K F es es'
  | _, _, .nil => fun h => by simp [Minim.Jit.select] at h
  | _, _, .cons h1 h2 => fun h => by
    simp only [Minim.Jit.select] at h ⊢
    split at h
    next hh => rw [if_pos hh]; cases h; exact ⟨_, rfl, h1⟩
    next hh => rw [if_neg hh]; exact h2.select h

theorem WfC.select {K : Kn} {F : Sym → Prop} {n : Nat} : ∀ {cs : List Cl}, WfC K F cs → ∀ {f : Formals} {es : List E}, Minim.Jit.select cs n = some (f, es) →
    (∀ x ∈ f.ids, ¬ K x ∧ ¬ F x) ∧ WfL K F es
  | [], _ => fun h => by simp [Minim.Jit.select] at h
  | .mk _ _ :: _, hw => fun h => by
    simp only [Minim.Jit.select] at h
    rw [WfC] at hw
    split at h
    · cases h; exact ⟨hw.1, hw.2.1⟩
    · exact hw.2.2.select h

end Minim.Jit
