import Mathlib.Data.List.Basic

set_option autoImplicit false

/-!
# C97: which pattern variables a template sees

The expander keeps the pattern variables for templates in a global variable, `$expander-pattern-vars`, that `expand/expr` sets when it is entered (expander.min:262, 276-287, 506-509) and that nobody
sets back.  Model of the order in which `expand/expr`, its loop and `expand/body` are entered (expander.min:429-505, 506-635).

Simplifications: expressions are reduced to what matters here, i.e. the places of `syntax` forms, of macro uses and of binding forms; what an expression is otherwise is left out.  Only names of pattern
variables are kept, innermost first.  Macros that are bound by `let-syntaxes` bring the transformers of their own scope along (`merge-xforms`); this is left out.
-/

namespace Minim.PatScope

/-- Expressions. -/
inductive E where
  /-- the `syntax` form with number `n` -/
  | tmpl (n : Nat)
  /-- quotations, constants, variables -/
  | leaf
  /-- applications, `if`, `set!`: the parts are expanded by the loop (expander.min:595-599, 612-617, 630-632) -/
  | app (es : List E)
  /-- `lambda` and `let-values` that bind the variables `xs` (expander.min:557-582) -/
  | lets (xs : List Nat) (es : List E)
  /-- `let-syntaxes` that binds the pattern variables `xs`, as in the clauses of `syntax-case` (expander.min:523-556) -/
  | bind (xs : List Nat) (es : List E)
  /-- the use of a macro that expands to `e` (expander.min:623-629) -/
  | mac (e : E)

/-- The templates with the pattern variables they saw. -/
abbrev Trace := List (Nat × List Nat)

mutual

/-- The loop in `expand/expr`: `sc` are the pattern variables among the transformers in scope, `st` is the global variable.  A `syntax` form is expanded by its transformer, which reads the variable,
before `expand/expr` is entered for the result (expander.min:626-629). -/
def loop : E → List Nat → List Nat → Trace × List Nat
  | .tmpl n, sc, st => ([(n, st)], sc)
  | .leaf, _, st => ([], st)
  | .app es, sc, st => loops es sc st
  | .lets _ es, sc, st => body es sc st
  | .bind xs es, sc, st => body es (xs ++ sc) st
  | .mac e, sc, _ => loop e sc sc

/-- `(map loop es)` -/
def loops : List E → List Nat → List Nat → Trace × List Nat
  | [], _, st => ([], st)
  | e :: es, sc, st =>
    let (t, st1) := loop e sc st
    let (t', st2) := loops es sc st1
    (t ++ t', st2)

/-- `expand/body`: `expand/expr` is entered for every expression (expander.min:431). -/
def body : List E → List Nat → List Nat → Trace × List Nat
  | [], _, st => ([], st)
  | e :: es, sc, _ =>
    let (t, st1) := loop e sc sc
    let (t', st2) := body es sc st1
    (t ++ t', st2)

end

/-- `expand/expr` -/
def expandExpr (e : E) (sc st : List Nat) : Trace × List Nat := let _ := st; loop e sc sc

mutual

/-- What templates should see: the pattern variables in scope, without those shadowed by variables (R6RS 12.4). -/
def sees : E → List Nat → Trace
  | .tmpl n, sc => [(n, sc)]
  | .leaf, _ => []
  | .app es, sc => seesL es sc
  | .lets xs es, sc => seesL es (sc.filter fun x => x ∉ xs)
  | .bind xs es, sc => seesL es (xs ++ sc)
  | .mac e, sc => sees e sc

/-- the same for lists -/
def seesL : List E → List Nat → Trace
  | [], _ => []
  | e :: es, sc => sees e sc ++ seesL es sc

end

mutual

/-- Is there a form that binds pattern variables? -/
def hasBind : E → Bool
  | .tmpl _ => false
  | .leaf => false
  | .app es => hasBindL es
  | .lets _ es => hasBindL es
  | .bind _ _ => true
  | .mac e => hasBind e

/-- the same for lists -/
def hasBindL : List E → Bool
  | [] => false
  | e :: es => hasBind e || hasBindL es

end

mutual

/-- Is there a `syntax` form that is expanded by the loop it belongs to, i.e. not below a binding form or a macro use? -/
def exposed : E → Bool
  | .tmpl _ => true
  | .leaf => false
  | .app es => exposedL es
  | .lets _ _ => false
  | .bind _ _ => false
  | .mac _ => false

/-- the same for lists -/
def exposedL : List E → Bool
  | [] => false
  | e :: es => exposed e || exposedL es

end

mutual

/-- In applications nothing that binds pattern variables comes before an exposed `syntax` form, and variables do not shadow pattern variables. -/
def Tidy : E → List Nat → Prop
  | .tmpl _, _ => True
  | .leaf, _ => True
  | .app es, sc => TidyA es sc
  | .lets xs es, sc => (∀ x ∈ xs, x ∉ sc) ∧ TidyB es sc
  | .bind xs es, sc => TidyB es (xs ++ sc)
  | .mac e, sc => Tidy e sc

/-- the parts of an application -/
def TidyA : List E → List Nat → Prop
  | [], _ => True
  | e :: es, sc => Tidy e sc ∧ TidyA es sc ∧ (hasBind e = true → exposedL es = false)

/-- bodies -/
def TidyB : List E → List Nat → Prop
  | [], _ => True
  | e :: es, sc => Tidy e sc ∧ TidyB es sc

end

mutual

/-- what the loop leaves in the variable where nothing binds pattern variables -/
theorem loop_state : ∀ (e : E) (sc st : List Nat), hasBind e = false → ((loop e sc st).2 = sc ∨ (loop e sc st).2 = st)
  | .tmpl _, _, _, _ => .inl rfl
  | .leaf, _, _, _ => .inr rfl
  | .app es, sc, st, h => loops_state es sc st h
  | .lets _ es, sc, st, h => body_state es sc st h
  | .bind _ _, _, _, h => by simp [hasBind] at h
  | .mac e, sc, st, h => by
    rcases loop_state e sc sc h with h | h <;> exact .inl h

theorem loops_state : ∀ (es : List E) (sc st : List Nat), hasBindL es = false → ((loops es sc st).2 = sc ∨ (loops es sc st).2 = st)
  | [], _, _, _ => .inr rfl
  | e :: es, sc, st, h => by
    simp only [hasBindL, Bool.or_eq_false_iff] at h
    simp only [loops]
    rcases loop_state e sc st h.1 with h1 | h1 <;> rw [h1]
    · rcases loops_state es sc sc h.2 with h2 | h2 <;> exact .inl h2
    · exact loops_state es sc st h.2

theorem body_state : ∀ (es : List E) (sc st : List Nat), hasBindL es = false → ((body es sc st).2 = sc ∨ (body es sc st).2 = st)
  | [], _, _, _ => .inr rfl
  | e :: es, sc, st, h => by
    simp only [hasBindL, Bool.or_eq_false_iff] at h
    simp only [body]
    rcases loop_state e sc sc h.1 with h1 | h1 <;> rw [h1] <;> (rcases body_state es sc sc h.2 with h2 | h2 <;> exact .inl h2)

end

mutual

/-- the loop is right if the variable is right or no template is exposed -/
theorem loop_sees : ∀ (e : E) (sc st : List Nat), Tidy e sc → (st = sc ∨ exposed e = false) → (loop e sc st).1 = sees e sc
  | .tmpl _, _, _, _, h => by
    rcases h with rfl | h
    · rfl
    · simp [exposed] at h
  | .leaf, _, _, _, _ => rfl
  | .app es, sc, st, ht, h => loops_sees es sc st ht h
  | .lets xs es, sc, st, ht, _ => by
    have e : (sc.filter fun x => x ∉ xs) = sc := by
      rw [List.filter_eq_self]
      intro x hx
      simpa using fun hm => ht.1 x hm hx
    simp only [loop, sees, e]
    exact body_sees es sc st ht.2
  | .bind xs es, sc, st, ht, _ => body_sees es (xs ++ sc) st ht
  | .mac e, sc, _, ht, _ => loop_sees e sc sc ht (.inl rfl)

theorem loops_sees : ∀ (es : List E) (sc st : List Nat), TidyA es sc → (st = sc ∨ exposedL es = false) → (loops es sc st).1 = seesL es sc
  | [], _, _, _, _ => rfl
  | e :: es, sc, st, ht, h => by
    obtain ⟨h1, h2, h3⟩ := ht
    have he : st = sc ∨ exposed e = false := h.imp id fun h => by simp only [exposedL, Bool.or_eq_false_iff] at h; exact h.1
    have hes : (loop e sc st).2 = sc ∨ exposedL es = false := by
      cases hb : hasBind e with
      | true => exact .inr (h3 hb)
      | false =>
        rcases loop_state e sc st hb with h4 | h4
        · exact .inl h4
        · rw [h4]
          exact h.imp id fun h => by simp only [exposedL, Bool.or_eq_false_iff] at h; exact h.2
    simp only [loops, seesL, loop_sees e sc st h1 he, loops_sees es sc _ h2 hes]

theorem body_sees : ∀ (es : List E) (sc st : List Nat), TidyB es sc → (body es sc st).1 = seesL es sc
  | [], _, _, _ => rfl
  | e :: es, sc, _, ht => by
    simp only [body, seesL, loop_sees e sc sc ht.1 (.inl rfl), body_sees es sc _ ht.2]

end

/-- **C97**: templates see the pattern variables in scope and no others, whatever was expanded before.  Missing: expressions in which a form that binds pattern variables precedes a template in an
application, and in which a variable shadows a pattern variable (`Tidy`). -/
theorem C97_templates_see_scope_partial (e : E) (sc st : List Nat) (h : Tidy e sc) : (expandExpr e sc st).1 = sees e sc := loop_sees e sc sc h (.inl rfl)

/-- The same for the expressions of a body, in any order. -/
theorem C97_bodies_partial (es : List E) (sc st : List Nat) (h : TidyB es sc) : (body es sc st).1 = seesL es sc := body_sees es sc st h

/-- A template in a clause sees the variables of the clause. -/
example : Tidy (.bind [1, 2] [.mac (.app [.leaf, .tmpl 0, .tmpl 1]), .lets [5] [.tmpl 2]]) [3] ∧
    (expandExpr (.bind [1, 2] [.mac (.app [.leaf, .tmpl 0, .tmpl 1]), .lets [5] [.tmpl 2]]) [3] []).1 = [(0, [1, 2, 3]), (1, [1, 2, 3]), (2, [1, 2, 3])] := by
  constructor
  · simp [Tidy, TidyA, TidyB, hasBind, exposedL, exposed]
  · rfl

/-- Pattern variables leak: in `(list (syntax-case y () [b #'b]) #'(a b))` the second template takes `b` for a pattern variable. -/
theorem C97_negated_leak : ∃ (e : E) (sc : List Nat), (expandExpr e sc []).1 ≠ sees e sc ∧ ∃ es, e = .app es :=
  ⟨.app [.leaf, .mac (.bind [2] [.tmpl 0]), .tmpl 1], [1], by decide, _, rfl⟩

/-- A variable does not shadow a pattern variable: in `(syntax-case x () [a (let ([a 1]) #'a)])` the template takes `a` for the pattern variable. -/
theorem C97_negated_shadow : ∃ (e : E) (sc : List Nat), hasBind e = false ∧ (expandExpr e sc []).1 ≠ sees e sc :=
  ⟨.lets [1] [.tmpl 0], [1], rfl, by decide⟩

/-- What leaks is a variable whose value is not bound in the place: the same expression with the parts exchanged is right. -/
theorem C97_order_matters : (expandExpr (.app [.tmpl 1, .mac (.bind [2] [.tmpl 0])]) [1] []).1 = sees (.app [.tmpl 1, .mac (.bind [2] [.tmpl 0])]) [1] ∧
    (expandExpr (.app [.mac (.bind [2] [.tmpl 0]), .tmpl 1]) [1] []).1 ≠ sees (.app [.mac (.bind [2] [.tmpl 0]), .tmpl 1]) [1] := by decide

end Minim.PatScope
