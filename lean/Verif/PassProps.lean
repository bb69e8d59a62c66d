import Verif.PassProg

set_option autoImplicit false

/-!
# Properties of the optimisation passes (C46, C47, C48)

Programs are sequences of top-level forms.  `Preserved P es es'`: whenever the program `es` ends without error, `es'` does so too, its forms have the same values
and the top-level variables have the same values in the end.
-/

namespace Minim.Jit

open Minim.Sx Minim.Core

/-- Specification: `values` and `call-with-values` are not bound, assigned or defined; the variables in `con` are not assigned, defined or bound by `letrec-values`. -/
def stdK (con : Sym → Prop) : Kn := ⟨fun x => x = .values ∨ x = .callWithValues, fun x => x = .values ∨ x = .callWithValues ∨ con x⟩

/-- Specification: generated symbols; no program that was read contains them. -/
def IsGen (x : Sym) : Prop := ∃ j, x = .gen j

theorem stdK_names (con : Sym → Prop) : Names (stdK con) IsGen := by
  refine ⟨.inl rfl, .inr rfl, fun x h => h.imp id .inl, ?_⟩
  rintro x (rfl | rfl) ⟨j, h⟩ <;> cases h

theorem stdK_names' (con : Sym → Prop) : Names (stdK con) NoF := ⟨.inl rfl, .inr rfl, fun x h => h.imp id .inl, fun _ _ => id⟩

/-! ## C46: `let-values`, `letrec-values`, `case-lambda` -/

/-- C46 (partial).  The first pass preserves the meaning of programs that do not bind `values` and `call-with-values`, whose `let-values` expressions bind distinct
identifiers and whose `letrec-values` expressions have a body.

Missing: programs that bind or assign `values` or `call-with-values` (false, `C46_negated`) or the same identifier twice in a `let-values` (false,
`C46_negated_twice`); errors and divergence (a program that ends with an error in the reference semantics). -/
theorem C46_partial (P : Prims) (k : Nat) (es : List E) (hw : WfL (stdK fun _ => False) IsGen es) : Preserved P es (L0s k es).1 :=
  step_preserved (stdK_names _) (L0s_tr (fun j => ⟨j, rfl⟩) es k hw) hw

/-! ## C47: multiple values -/

/-- C47 (partial).  The second pass preserves the meaning of programs that do not bind `values` and `call-with-values`, and call `call-with-values` only directly
and with a consumer that is an abstraction, a constant or a variable that is never assigned.

Missing: programs that bind or assign `values` (false, `C47_negated_shadow`), consumers that an evaluation can change (false, `C47_negated_order`); consumers with a rest parameter, and calls
of `call-with-values` with fewer than two arguments (undefined behaviour of the pass, `C47_negated_rest`, `C47_negated_missing`); errors (false, `C47_negated_arity`) and divergence. -/
theorem C47_partial (P : Prims) (con : Sym → Prop) (n : Nat) (es es' : List E) (h : mapR (L1 n) es = .ok es') (hw : WfL (stdK con) NoF es) (hs : SCL (stdK con) es) :
    Preserved P es es' :=
  steps_preserved (stdK_names' _) (mapR_steps (L1_steps n) h hs) hw

/-! ## C48: direct application -/

/-- C48 (partial).  The third pass preserves the meaning of programs that do not bind `values` and `call-with-values`.

Missing: programs that bind or assign `values` (false, `C48_negated_shadow`); errors (false, `C48_negated_arity`, `C48_negated_spread`) and divergence. -/
theorem C48_partial (P : Prims) (es es' : List E) (h : L2s es = .ok es') (hw : WfL (stdK fun _ => False) NoF es) : Preserved P es es' :=
  step_preserved (stdK_names' _) (L2s_tr es h) hw

/-! ## C82: the whole optimiser -/

/-- The three passes over the forms of a program (jit.c:160-162 for each form; only the first pass generates symbols, so that its counter is threaded through). -/
def optimise (n k : Nat) (es : List E) : Res (List E) := do
  let es ← mapR (L1 n) (L0s k es).1
  L2s es

/-- C82 (partial).  The optimiser preserves the meaning of programs that do not bind `values` and `call-with-values`, whose `let-values` expressions bind distinct
identifiers, whose `letrec-values` expressions have a body and that call `call-with-values` only directly and with a consumer that is an abstraction, a constant or a variable that is
never assigned.

Missing: as for the passes. -/
theorem C82_optimise_partial (P : Prims) (con : Sym → Prop) (n k : Nat) (es es' : List E) (h : optimise n k es = .ok es') (hw : WfL (stdK con) IsGen es) (hs : SCL (stdK con) es) :
    Preserved P es es' := by
  simp only [optimise, Res.bind_eq_ok] at h
  obtain ⟨es1, h1, h2⟩ := h
  have t0 : TrL (stdK con) IsGen es (L0s k es).1 := L0s_tr (fun j => ⟨j, rfl⟩) es k hw
  have p0 : Preserved P es (L0s k es).1 := step_preserved (stdK_names _) t0 hw
  have w0 := t0.wf (stdK_names _) hw
  have t1 := mapR_steps (L1_steps n) h1 (t0.sc hs)
  have p1 : Preserved P (L0s k es).1 es1 := steps_preserved (stdK_names' _) t1 w0
  have w1 : WfL (stdK con) NoF es1 := by
    clear h1 h2 p1
    induction t1 with
    | refl => exact w0
    | tail _ h ih => exact h.wf (stdK_names' _) ih
  have p2 : Preserved P es1 es' := step_preserved (stdK_names' _) (L2s_tr es1 h2) w1
  exact (p0.trans p1).trans p2

/-! ## Examples -/

/-- Example: top-level variables: 100 = `cons`, 101 = `car`, 102 = `null?`, `values`, `call-with-values`. -/
def passGlobs : Sym → Option RV
  | .user 100 => some (.clo (.prim 0 2))
  | .user 101 => some (.clo (.prim 1 1))
  | .user 102 => some (.clo (.prim 2 1))
  | .values => some (.clo .values)
  | .callWithValues => some (.clo .cwv)
  | _ => none

def passStore : RS := ⟨[], passGlobs⟩

theorem passStore_initial : Initial passStore := by
  refine ⟨rfl, ?_, rfl, rfl⟩
  intro x v h
  simp only [passStore, passGlobs] at h
  split at h <;> cases h <;> first | exact .clo (.prim _ _) | exact .clo .values | exact .clo .cwv

/-- `(define-values (swap) (case-lambda [(a b) (values b a)]))`,
`(let-values ([(x) 1] [(y z) (swap 2 3)]) (letrec-values ([(f) (lambda (l k) (if (null? l) (call-with-values (lambda () (swap x y)) k) (f '() k)))] [(g) (lambda (p q) (cons q p))]) (f '(1) g)))`. -/
def passDemo : List E :=
  [.define [.user 50] (.clam [.mk ⟨[.user 1, .user 2], none⟩ [.app (.var .values) [.var (.user 2), .var (.user 1)]]]),
   .letv [.mk [.user 1] (.lit (.const 1)), .mk [.user 2, .user 3] (.app (.var (.user 50)) [.lit (.const 2), .lit (.const 3)])]
     [.letrecv [.mk [.user 4] (.lam ⟨[.user 5, .user 6], none⟩ [.ite (.app (.var (.user 102)) [.var (.user 5)])
           (.app (.var .callWithValues) [.lam ⟨[], none⟩ [.app (.var (.user 50)) [.var (.user 1), .var (.user 2)]], .var (.user 6)])
           (.app (.var (.user 4)) [.quote .null, .var (.user 6)])]),
         .mk [.user 7] (.lam ⟨[.user 8, .user 9], none⟩ [.app (.var (.user 100)) [.var (.user 9), .var (.user 8)]])]
       [.app (.var (.user 4)) [.quote (.cons (.lit (.const 1)) .null), .var (.user 7)]]]]

theorem passDemo_wf : WfL (stdK fun x => x = .user 6) IsGen passDemo := by
  simp [passDemo, WfL, Wf, WfB, WfC, stdK, IsGen, bdsIds, Bd.ids, Formals.ids]

theorem passDemo_wf0 : WfL (stdK fun _ => False) IsGen passDemo := by
  simp [passDemo, WfL, Wf, WfB, WfC, stdK, IsGen, bdsIds, Bd.ids, Formals.ids]

theorem passDemo_sc : SCL (stdK fun x => x = .user 6) passDemo := by
  simp [passDemo, SCL, SC, SCB, SCC, stdK, Stable]

/-- The hypotheses of C46 and C82 hold for this program, and it ends without error: the second form has the value `(1 . 3)`. -/
example : WfL (stdK fun _ => False) IsGen passDemo ∧ WfL (stdK fun x => x = .user 6) IsGen passDemo ∧ SCL (stdK fun x => x = .user 6) passDemo ∧ Initial passStore ∧
    (∃ es', optimise 40 0 passDemo = .ok es') ∧
    ∃ σ1, runs demoPrims 40 passDemo passStore = .ok ([[.void], [ofX (.cons (.lit (.const 1)) (.lit (.const 3)))]], σ1) :=
  ⟨passDemo_wf0, passDemo_wf, passDemo_sc, passStore_initial, ⟨_, rfl⟩, _, rfl⟩

/-- The hypotheses of C47 hold for what the first pass makes of this program. -/
example : WfL (stdK fun x => x = .user 6) NoF (L0s 0 passDemo).1 ∧ SCL (stdK fun x => x = .user 6) (L0s 0 passDemo).1 ∧ ∃ es1, mapR (L1 40) (L0s 0 passDemo).1 = .ok es1 := by
  have t := L0s_tr (K := stdK fun x => x = .user 6) (F := IsGen) (fun j => ⟨j, rfl⟩) passDemo 0 passDemo_wf
  exact ⟨t.wf (stdK_names _) passDemo_wf, t.sc passDemo_sc, _, rfl⟩

/-- `(define-values (f) (lambda (x) ((lambda (a b) (begin (set! a (cons b a)) a)) x (car '(2)))))`, `((lambda (g) (g 1)) f)`. -/
def passDemo2 : List E :=
  [.define [.user 50] (.lam ⟨[.user 1], none⟩ [.app (.lam ⟨[.user 2, .user 3], none⟩
     [.begin [.set (.user 2) (.app (.var (.user 100)) [.var (.user 3), .var (.user 2)]), .var (.user 2)]])
     [.var (.user 1), .app (.var (.user 101)) [.quote (.cons (.lit (.const 2)) .null)]]]),
   .app (.lam ⟨[.user 4], none⟩ [.app (.var (.user 4)) [.lit (.const 1)]]) [.var (.user 50)]]

/-- The hypotheses of C48 hold for this program; the second form has the value `(2 . 1)`. -/
example : WfL (stdK fun _ => False) NoF passDemo2 ∧ (∃ es', L2s passDemo2 = .ok es' ∧ es' ≠ passDemo2) ∧ Initial passStore ∧
    ∃ σ1, runs demoPrims 40 passDemo2 passStore = .ok ([[.void], [ofX (.cons (.lit (.const 2)) (.lit (.const 1)))]], σ1) := by
  refine ⟨?_, ⟨_, rfl, by simp [passDemo2]⟩, passStore_initial, _, rfl⟩
  simp [passDemo2, WfL, Wf, stdK, Formals.ids]

/-! ## Where the passes go wrong -/

/-- `(let-values ([(call-with-values) 5]) (let-values ([(x) 1]) x))`. -/
def shadowCwv : E := .letv [.mk [.callWithValues] (.lit (.const 5))] [.letv [.mk [.user 1] (.lit (.const 1))] [.var (.user 1)]]

/-- C46 fails: inside a binding of `call-with-values` the expressions the first pass makes call the local variable: the program has the value 1, the rewritten one is
an error. -/
theorem C46_negated : (∃ σ1, runs demoPrims 10 [shadowCwv] passStore = .ok ([[.lit (.const 1)]], σ1)) ∧ runs demoPrims 20 (L0s 0 [shadowCwv]).1 passStore = .err :=
  ⟨⟨_, rfl⟩, rfl⟩

/-- `(let-values ([(a) 1] [(a) 2]) a)`. -/
def twice : E := .letv [.mk [.user 1] (.lit (.const 1)), .mk [.user 1] (.lit (.const 2))] [.var (.user 1)]

/-- C46 fails: of two bindings of the same identifier the last one counts, after the pass the first one. -/
theorem C46_negated_twice : (∃ σ1, runs demoPrims 10 [twice] passStore = .ok ([[.lit (.const 2)]], σ1)) ∧
    ∃ σ1, runs demoPrims 20 (L0s 0 [twice]).1 passStore = .ok ([[.lit (.const 1)]], σ1) :=
  ⟨⟨_, rfl⟩, _, rfl⟩

/-- `((lambda (values) (values 1 2)) cons)`. -/
def shadowValues : E := .app (.lam ⟨[.values], none⟩ [.app (.var .values) [.lit (.const 1), .lit (.const 2)]]) [.var (.user 100)]

/-- C47 fails: a call of a local variable named `values` becomes multiple values. -/
theorem C47_negated_shadow : ∃ e' σ1 σ2, L1 10 shadowValues = .ok e' ∧
    runs demoPrims 10 [shadowValues] passStore = .ok ([[ofX (.cons (.lit (.const 1)) (.lit (.const 2)))]], σ1) ∧
    runs demoPrims 10 [e'] passStore = .ok ([[.lit (.const 1), .lit (.const 2)]], σ2) :=
  ⟨_, _, _, rfl, rfl, rfl⟩

/-- `(define-values (f) (lambda (x) 10))`, `(call-with-values (lambda () (begin (set! f (lambda (x) 20)) 1)) f)`. -/
def reorder : List E :=
  [.define [.user 1] (.lam ⟨[.user 2], none⟩ [.lit (.const 10)]),
   .app (.var .callWithValues) [.lam ⟨[], none⟩ [.begin [.set (.user 1) (.lam ⟨[.user 2], none⟩ [.lit (.const 20)]), .lit (.const 1)]], .var (.user 1)]]

/-- C47 fails: the consumer is evaluated after the producer was called. -/
theorem C47_negated_order : ∃ es' σ1 σ2, mapR (L1 10) reorder = .ok es' ∧ runs demoPrims 10 reorder passStore = .ok ([[.void], [.lit (.const 10)]], σ1) ∧
    runs demoPrims 10 es' passStore = .ok ([[.void], [.lit (.const 20)]], σ2) :=
  ⟨_, _, _, rfl, rfl, rfl⟩

/-- `(call-with-values (lambda () (f 1)) (lambda (a . r) a))`, where `f` is any variable. -/
def restConsumer : E := .app (.var .callWithValues) [.lam ⟨[], none⟩ [.app (.var (.user 102)) [.lit (.const 1)]], .lam ⟨[.user 1], some (.user 2)⟩ [.var (.user 1)]]

/-- C47 fails: a consumer with required and rest parameters: the program has a value, the pass makes an `mv-let` with an improper list of identifiers, which later passes walk off. -/
theorem C47_negated_rest : (∃ σ1, runs demoPrims 10 [restConsumer] passStore = .ok ([[.lit .fls]], σ1)) ∧ ∀ n, L1 (n + 4) restConsumer = .ub :=
  ⟨⟨_, rfl⟩, fun _ => rfl⟩

/-- C47 fails: a call of `call-with-values` without a consumer is an error, but the pass takes the car of the empty list. -/
theorem C47_negated_missing : runs demoPrims 10 [.app (.var .callWithValues) [.lam ⟨[], none⟩ []]] passStore = .err ∧
    ∀ n, L1 (n + 1) (.app (.var .callWithValues) [.lam ⟨[], none⟩ []]) = .ub :=
  ⟨rfl, fun _ => rfl⟩

/-- `(values (values 1 2))`. -/
def nestedValues : E := .app (.var .values) [.app (.var .values) [.lit (.const 1), .lit (.const 2)]]

/-- C47 fails for arity errors: an argument with two values is an error, but not after the pass. -/
theorem C47_negated_arity : ∃ e' σ2, L1 10 nestedValues = .ok e' ∧ runs demoPrims 10 [nestedValues] passStore = .err ∧
    runs demoPrims 10 [e'] passStore = .ok ([[.lit (.const 1), .lit (.const 2)]], σ2) :=
  ⟨_, _, rfl, rfl, rfl⟩

/-- `((lambda (x) 1))`. -/
def tooFew : E := .app (.lam ⟨[.user 1], none⟩ [.lit (.const 1)]) []

/-- C48 fails for arity errors: a call without arguments of an abstraction with a parameter becomes its body. -/
theorem C48_negated_arity : ∃ e' σ2, L2 tooFew = .ok e' ∧ runs demoPrims 10 [tooFew] passStore = .err ∧ runs demoPrims 10 [e'] passStore = .ok ([[.lit (.const 1)]], σ2) :=
  ⟨_, _, rfl, rfl, rfl⟩

/-- `((lambda (a b) a) (values 1 2))`. -/
def spreadArg : E := .app (.lam ⟨[.user 1, .user 2], none⟩ [.var (.user 1)]) [.app (.var .values) [.lit (.const 1), .lit (.const 2)]]

/-- C48 fails for arity errors: one argument with two values is taken for two arguments. -/
theorem C48_negated_spread : ∃ e' σ2, L2 spreadArg = .ok e' ∧ runs demoPrims 10 [spreadArg] passStore = .err ∧ runs demoPrims 10 [e'] passStore = .ok ([[.lit (.const 1)]], σ2) :=
  ⟨_, _, rfl, rfl, rfl⟩

/-- `((lambda (values) ((lambda (a b) a) 1 2)) 5)`. -/
def shadowArgs : E := .app (.lam ⟨[.values], none⟩ [.app (.lam ⟨[.user 1, .user 2], none⟩ [.var (.user 1)]) [.lit (.const 1), .lit (.const 2)]]) [.lit (.const 5)]

/-- C48 fails: the arguments are passed through `values`, which may be a local variable. -/
theorem C48_negated_shadow : ∃ e' σ1, L2 shadowArgs = .ok e' ∧ runs demoPrims 10 [shadowArgs] passStore = .ok ([[.lit (.const 1)]], σ1) ∧ runs demoPrims 10 [e'] passStore = .err :=
  ⟨_, _, rfl, rfl, rfl⟩

/-- C82 fails: the whole optimiser turns an arity error into a value. -/
theorem C82_negated : ∃ es' σ2, optimise 10 0 [tooFew] = .ok es' ∧ runs demoPrims 10 [tooFew] passStore = .err ∧ runs demoPrims 10 es' passStore = .ok ([[.lit (.const 1)]], σ2) :=
  ⟨_, _, rfl, rfl, rfl⟩

end Minim.Jit
