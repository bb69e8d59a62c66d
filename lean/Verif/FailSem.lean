import Verif.PassSem

set_option autoImplicit false

/-!
# Reference semantics: errors and divergence

A specification of evaluations that give no value.  `Into` says which part has to be evaluated next; an evaluation ends in an error if it gets to a part with an
error of its own (`Bad`), and diverges if it gets from part to part for ever.  The evaluator of `RefSem.lean` agrees with this (`errs_of_err`, `diverges_of_oof`).
-/

namespace Minim.Jit

open Minim.Sx Minim.Core

/-- Specification: what there is to evaluate: an expression, a body, arguments, bindings, recursive bindings, an application. -/
inductive Task where
  | e (ρ : REnv) (e : E)
  | b (ρ : REnv) (es : List E)
  | a (ρ : REnv) (es : List E)
  | d (ρ : REnv) (bs : List Bd)
  | r (ρ : REnv) (bs : List Bd)
  | p (f : RV) (vs : List RV)

/-- Specification: bindings evaluate to the values `vs`. -/
def EvDs (P : Prims) (ρ : REnv) (bs : List Bd) (σ : RS) (vs : List RV) (σ' : RS) : Prop := ∃ n, evBds P n ρ bs σ = .ok (vs, σ')

/-- Specification: recursive bindings can be evaluated. -/
def EvRs (P : Prims) (ρ : REnv) (bs : List Bd) (σ σ' : RS) : Prop := ∃ n, evRec P n ρ bs σ = .ok σ'

/-- Specification: to evaluate the first, one has to evaluate the second. -/
inductive Into (P : Prims) : Task → RS → Task → RS → Prop where
  | define {ρ : REnv} {σ : RS} (xs : List Sym) (e : E) : Into P (.e ρ (.define xs e)) σ (.e ρ e) σ
  | set {ρ : REnv} {σ : RS} (x : Sym) (e : E) : Into P (.e ρ (.set x e)) σ (.e ρ e) σ
  | iteC {ρ : REnv} {σ : RS} (c a b : E) : Into P (.e ρ (.ite c a b)) σ (.e ρ c) σ
  | iteT {ρ : REnv} {σ σ1 : RS} {c a b : E} {v : RV} : Evs P ρ c σ [v] σ1 → isFalse v = false → Into P (.e ρ (.ite c a b)) σ (.e ρ a) σ1
  | iteE {ρ : REnv} {σ σ1 : RS} {c a b : E} {v : RV} : Evs P ρ c σ [v] σ1 → isFalse v = true → Into P (.e ρ (.ite c a b)) σ (.e ρ b) σ1
  | letvB {ρ : REnv} {σ : RS} (bs : List Bd) (body : List E) : Into P (.e ρ (.letv bs body)) σ (.d ρ bs) σ
  | letv {ρ : REnv} {σ σ1 : RS} {bs : List Bd} {body : List E} {vs : List RV} : EvDs P ρ bs σ vs σ1 →
      Into P (.e ρ (.letv bs body)) σ (.b (bindVals ρ σ1 (bdsIds bs) vs).1 body) (bindVals ρ σ1 (bdsIds bs) vs).2
  | letrecvB {ρ : REnv} {σ : RS} (bs : List Bd) (body : List E) :
      Into P (.e ρ (.letrecv bs body)) σ (.r (bindVals ρ σ (bdsIds bs) (List.replicate (bdsIds bs).length .unbound)).1 bs)
        (bindVals ρ σ (bdsIds bs) (List.replicate (bdsIds bs).length .unbound)).2
  | letrecv {ρ : REnv} {σ σ1 : RS} {bs : List Bd} {body : List E} :
      EvRs P (bindVals ρ σ (bdsIds bs) (List.replicate (bdsIds bs).length .unbound)).1 bs
        (bindVals ρ σ (bdsIds bs) (List.replicate (bdsIds bs).length .unbound)).2 σ1 →
      Into P (.e ρ (.letrecv bs body)) σ (.b (bindVals ρ σ (bdsIds bs) (List.replicate (bdsIds bs).length .unbound)).1 body) σ1
  | begin {ρ : REnv} {σ : RS} (es : List E) : Into P (.e ρ (.begin es)) σ (.b ρ es) σ
  | appF {ρ : REnv} {σ : RS} (f : E) (args : List E) : Into P (.e ρ (.app f args)) σ (.e ρ f) σ
  | appA {ρ : REnv} {σ σ1 : RS} {f : E} {args : List E} {g : RV} : Evs P ρ f σ [g] σ1 → Into P (.e ρ (.app f args)) σ (.a ρ args) σ1
  | app {ρ : REnv} {σ σ1 σ2 : RS} {f : E} {args : List E} {g : RV} {vs : List RV} : Evs P ρ f σ [g] σ1 → EvA P ρ args σ1 vs σ2 →
      Into P (.e ρ (.app f args)) σ (.p g vs) σ2
  | mvcallP {ρ : REnv} {σ : RS} (e c : E) : Into P (.e ρ (.mvcall e c)) σ (.e ρ e) σ
  | mvcallC {ρ : REnv} {σ σ1 : RS} {e c : E} {vs : List RV} : Evs P ρ e σ vs σ1 → Into P (.e ρ (.mvcall e c)) σ (.e ρ c) σ1
  | mvcall {ρ : REnv} {σ σ1 σ2 : RS} {e c : E} {g : RV} {vs : List RV} : Evs P ρ e σ vs σ1 → Evs P ρ c σ1 [g] σ2 → Into P (.e ρ (.mvcall e c)) σ (.p g vs) σ2
  | mvletP {ρ : REnv} {σ : RS} (e : E) (xs : List Sym) (body : E) : Into P (.e ρ (.mvlet e xs body)) σ (.e ρ e) σ
  | mvlet {ρ : REnv} {σ σ1 : RS} {e : E} {xs : List Sym} {body : E} {vs : List RV} : Evs P ρ e σ vs σ1 → vs.length = xs.length →
      Into P (.e ρ (.mvlet e xs body)) σ (.e (bindVals ρ σ1 xs vs).1 body) (bindVals ρ σ1 xs vs).2
  | mvvals {ρ : REnv} {σ : RS} (es : List E) : Into P (.e ρ (.mvvals es)) σ (.a ρ es) σ
  | last {ρ : REnv} {σ : RS} (e : E) : Into P (.b ρ [e]) σ (.e ρ e) σ
  | first {ρ : REnv} {σ : RS} (e e' : E) (es : List E) : Into P (.b ρ (e :: e' :: es)) σ (.e ρ e) σ
  | rest {ρ : REnv} {σ σ1 : RS} {e e' : E} {es : List E} {vs : List RV} : Evs P ρ e σ vs σ1 → Into P (.b ρ (e :: e' :: es)) σ (.b ρ (e' :: es)) σ1
  | arg {ρ : REnv} {σ : RS} (e : E) (es : List E) : Into P (.a ρ (e :: es)) σ (.e ρ e) σ
  | args {ρ : REnv} {σ σ1 : RS} {e : E} {es : List E} {v : RV} : Evs P ρ e σ [v] σ1 → Into P (.a ρ (e :: es)) σ (.a ρ es) σ1
  | bd {ρ : REnv} {σ : RS} (xs : List Sym) (e : E) (bs : List Bd) : Into P (.d ρ (.mk xs e :: bs)) σ (.e ρ e) σ
  | bds {ρ : REnv} {σ σ1 : RS} {xs : List Sym} {e : E} {bs : List Bd} {vs : List RV} : Evs P ρ e σ vs σ1 → vs.length = xs.length → bound vs = true →
      Into P (.d ρ (.mk xs e :: bs)) σ (.d ρ bs) σ1
  | rd {ρ : REnv} {σ : RS} (xs : List Sym) (e : E) (bs : List Bd) : Into P (.r ρ (.mk xs e :: bs)) σ (.e ρ e) σ
  | rds {ρ : REnv} {σ σ1 σ2 : RS} {xs : List Sym} {e : E} {bs : List Bd} {vs : List RV} : Evs P ρ e σ vs σ1 → vs.length = xs.length → bound vs = true →
      assignsR ρ σ1 xs vs = .ok σ2 → Into P (.r ρ (.mk xs e :: bs)) σ (.r ρ bs) σ2
  | clo {ρ : REnv} {σ : RS} {cs : List Cl} {vs : List RV} {f : Formals} {body : List E} : select cs vs.length = some (f, body) →
      Into P (.p (.clo (.clo ρ cs)) vs) σ (.b (bindVals ρ σ f.ids (params f vs)).1 body) (bindVals ρ σ f.ids (params f vs)).2
  | apply {σ : RS} {f v : RV} {ws as : List RV} : spread (v :: ws) = some as → Into P (.p (.clo .apply) (f :: v :: ws)) σ (.p f as) σ
  | cwvP {σ : RS} (p c : RV) : Into P (.p (.clo .cwv) [p, c]) σ (.p p []) σ
  | cwv {σ σ1 : RS} {p c : RV} {as : List RV} : EvP P p [] σ as σ1 → Into P (.p (.clo .cwv) [p, c]) σ (.p c as) σ1

/-- Specification: the variable has no value. -/
def Unset (ρ : REnv) (σ : RS) (x : Sym) : Prop :=
  match ρ x with
  | some c => σ.cells[c]? = some .unbound
  | none => σ.globs x = none ∨ σ.globs x = some .unbound

/-- Specification: errors that have to be reported: a variable without value, the wrong number of values, the wrong number of arguments, application of what is no
procedure, an error of a C function. -/
inductive Bad (P : Prims) : Task → RS → Prop where
  | var {ρ : REnv} {σ : RS} {x : Sym} : Unset ρ σ x → Bad P (.e ρ (.var x)) σ
  | define {ρ : REnv} {σ σ1 : RS} {xs : List Sym} {e : E} {vs : List RV} : Evs P ρ e σ vs σ1 → vs.length ≠ xs.length → Bad P (.e ρ (.define xs e)) σ
  | operator {ρ : REnv} {σ σ1 : RS} {f : E} {args : List E} {vs : List RV} : Evs P ρ f σ vs σ1 → vs.length ≠ 1 → Bad P (.e ρ (.app f args)) σ
  | consumer {ρ : REnv} {σ σ1 σ2 : RS} {e c : E} {as vs : List RV} : Evs P ρ e σ as σ1 → Evs P ρ c σ1 vs σ2 → vs.length ≠ 1 → Bad P (.e ρ (.mvcall e c)) σ
  | mvlet {ρ : REnv} {σ σ1 : RS} {e : E} {xs : List Sym} {body : E} {vs : List RV} : Evs P ρ e σ vs σ1 → vs.length ≠ xs.length → Bad P (.e ρ (.mvlet e xs body)) σ
  | arg {ρ : REnv} {σ σ1 : RS} {e : E} {es : List E} {vs : List RV} : Evs P ρ e σ vs σ1 → vs.length ≠ 1 → Bad P (.a ρ (e :: es)) σ
  | bd {ρ : REnv} {σ σ1 : RS} {xs : List Sym} {e : E} {bs : List Bd} {vs : List RV} : Evs P ρ e σ vs σ1 → ¬ (vs.length = xs.length ∧ bound vs = true) →
      Bad P (.d ρ (.mk xs e :: bs)) σ
  | rd {ρ : REnv} {σ σ1 : RS} {xs : List Sym} {e : E} {bs : List Bd} {vs : List RV} : Evs P ρ e σ vs σ1 → ¬ (vs.length = xs.length ∧ bound vs = true) →
      Bad P (.r ρ (.mk xs e :: bs)) σ
  | proc {σ : RS} {f : RV} {vs : List RV} : (∀ c, f ≠ .clo c) → Bad P (.p f vs) σ
  | clo {ρ : REnv} {σ : RS} {cs : List Cl} {vs : List RV} : select cs vs.length = none → Bad P (.p (.clo (.clo ρ cs)) vs) σ
  | primArity {σ : RS} {p k : Nat} {vs : List RV} : ¬ (vs.length = k ∧ k ≤ 6) → Bad P (.p (.clo (.prim p k)) vs) σ
  | prim {σ : RS} {p k : Nat} {vs : List RV} : vs.length = k ∧ k ≤ 6 → P.f RC p vs = none → Bad P (.p (.clo (.prim p k)) vs) σ
  | applyArity {σ : RS} {vs : List RV} : vs.length < 2 → Bad P (.p (.clo .apply) vs) σ
  | apply {σ : RS} {f v : RV} {ws : List RV} : spread (v :: ws) = none → Bad P (.p (.clo .apply) (f :: v :: ws)) σ
  | cwv {σ : RS} {vs : List RV} : vs.length ≠ 2 → Bad P (.p (.clo .cwv) vs) σ

/-- Specification: errors nobody has to report: several values as a test or in an assignment, assignment of a variable that does not exist. -/
inductive Loose (P : Prims) : Task → RS → Prop where
  | var {ρ : REnv} {σ : RS} {x : Sym} {c : Nat} : ρ x = some c → σ.cells[c]? = none → Loose P (.e ρ (.var x)) σ
  | ite {ρ : REnv} {σ σ1 : RS} {c a b : E} {vs : List RV} : Evs P ρ c σ vs σ1 → vs.length ≠ 1 → Loose P (.e ρ (.ite c a b)) σ
  | set {ρ : REnv} {σ σ1 : RS} {x : Sym} {e : E} {vs : List RV} : Evs P ρ e σ vs σ1 → vs.length ≠ 1 → Loose P (.e ρ (.set x e)) σ
  | assign {ρ : REnv} {σ σ1 : RS} {x : Sym} {e : E} {v : RV} : Evs P ρ e σ [v] σ1 → assignR ρ σ1 x v = .err → Loose P (.e ρ (.set x e)) σ
  | rd {ρ : REnv} {σ σ1 : RS} {xs : List Sym} {e : E} {bs : List Bd} {vs : List RV} : Evs P ρ e σ vs σ1 → assignsR ρ σ1 xs vs = .err →
      Loose P (.r ρ (.mk xs e :: bs)) σ

/-- Specification: any number of steps into parts. -/
inductive Intos (P : Prims) : Task → RS → Task → RS → Prop where
  | refl (t : Task) (σ : RS) : Intos P t σ t σ
  | step {t t' t'' : Task} {σ σ' σ'' : RS} : Into P t σ t' σ' → Intos P t' σ' t'' σ'' → Intos P t σ t'' σ''

/-- Specification: the evaluation comes to an error that has to be reported. -/
def Errs (P : Prims) (t : Task) (σ : RS) : Prop := ∃ t' σ', Intos P t σ t' σ' ∧ Bad P t' σ'

/-- Specification: the evaluation comes to an error nobody has to report. -/
def Slips (P : Prims) (t : Task) (σ : RS) : Prop := ∃ t' σ', Intos P t σ t' σ' ∧ Loose P t' σ'

/-- Specification: the evaluation goes from part to part for ever. -/
def Diverges (P : Prims) (t : Task) (σ : RS) : Prop := ∃ f : Nat → Task × RS, f 0 = (t, σ) ∧ ∀ i, Into P (f i).1 (f i).2 (f (i + 1)).1 (f (i + 1)).2

/-! ## The evaluator -/

/-- Forget the value. -/
def Res.forget {α : Type} : Res α → Res Unit
  | .ok _ => .ok ()
  | .err => .err
  | .ub => .ub
  | .oof => .oof

/-- The outcome of the evaluator, without values. -/
def out (P : Prims) (n : Nat) : Task → RS → Res Unit
  | .e ρ e, σ => Res.forget (ev P n ρ e σ)
  | .b ρ es, σ => Res.forget (evBody P n ρ es σ)
  | .a ρ es, σ => Res.forget (evArgs P n ρ es σ)
  | .d ρ bs, σ => Res.forget (evBds P n ρ bs σ)
  | .r ρ bs, σ => Res.forget (evRec P n ρ bs σ)
  | .p f vs, σ => Res.forget (applyR P n f vs σ)

theorem forget_err {α : Type} {x : Res α} : Res.forget x = .err ↔ x = .err := by cases x <;> simp [Res.forget]
theorem forget_oof {α : Type} {x : Res α} : Res.forget x = .oof ↔ x = .oof := by cases x <;> simp [Res.forget]

theorem single_err {α : Type} {vs : List α} : single vs = .err ↔ vs.length ≠ 1 := by
  match vs with
  | [] => simp [single]
  | [_] => simp [single]
  | _ :: _ :: _ => simp [single]

theorem single_len {α : Type} {vs : List α} (h : vs.length = 1) : ∃ v, vs = [v] ∧ single vs = .ok v := by
  match vs, h with
  | [v], _ => exact ⟨v, rfl, rfl⟩

/-- More fuel, the same outcome, also of errors. -/
structure MonoLe (P : Prims) (n : Nat) : Prop where
  e : ∀ ρ e σ, Res.Le (ev P n ρ e σ) (ev P (n + 1) ρ e σ)
  b : ∀ ρ es σ, Res.Le (evBody P n ρ es σ) (evBody P (n + 1) ρ es σ)
  a : ∀ ρ es σ, Res.Le (evArgs P n ρ es σ) (evArgs P (n + 1) ρ es σ)
  d : ∀ ρ bs σ, Res.Le (evBds P n ρ bs σ) (evBds P (n + 1) ρ bs σ)
  r : ∀ ρ bs σ, Res.Le (evRec P n ρ bs σ) (evRec P (n + 1) ρ bs σ)
  p : ∀ f vs σ, Res.Le (applyR P n f vs σ) (applyR P (n + 1) f vs σ)

theorem monoLe (P : Prims) : ∀ n, MonoLe P n
  | 0 => ⟨fun _ _ _ => .inl (by rw [ev]), fun _ _ _ => .inl (by rw [evBody]), fun _ _ _ => .inl (by rw [evArgs]), fun _ _ _ => .inl (by rw [evBds]),
      fun _ _ _ => .inl (by rw [evRec]), fun _ _ _ => .inl (by rw [applyR])⟩
  | n + 1 => by
    have ih := monoLe P n
    refine ⟨?_, ?_, ?_, ?_, ?_, ?_⟩
    · intro ρ e σ
      cases e with
      | var => rw [ev, ev]; exact .refl _
      | lit => rw [ev, ev]; exact .refl _
      | quote => rw [ev, ev]; exact .refl _
      | quoteSyntax => rw [ev, ev]; exact .refl _
      | unbound => rw [ev, ev]; exact .refl _
      | lam => rw [ev, ev]; exact .refl _
      | clam => rw [ev, ev]; exact .refl _
      | define xs e => rw [ev, ev]; exact .bind (ih.e _ _ _) (fun _ => .refl _)
      | set x e => rw [ev, ev]; exact .bind (ih.e _ _ _) (fun _ => .refl _)
      | ite c a b => rw [ev, ev]; exact .bind (ih.e _ _ _) (fun _ => .bind (.refl _) (fun _ => .ite (ih.e _ _ _) (ih.e _ _ _)))
      | letv bs body => rw [ev, ev]; exact .bind (ih.d _ _ _) (fun _ => ih.b _ _ _)
      | letrecv bs body => rw [ev, ev]; exact .bind (ih.r _ _ _) (fun _ => ih.b _ _ _)
      | begin es => rw [ev, ev]; exact ih.b _ _ _
      | app f args => rw [ev, ev]; exact .bind (ih.e _ _ _) (fun _ => .bind (.refl _) (fun _ => .bind (ih.a _ _ _) (fun _ => ih.p _ _ _)))
      | mvcall e c => rw [ev, ev]; exact .bind (ih.e _ _ _) (fun _ => .bind (ih.e _ _ _) (fun _ => .bind (.refl _) (fun _ => ih.p _ _ _)))
      | mvlet e xs body => rw [ev, ev]; exact .bind (ih.e _ _ _) (fun _ => .ite (ih.e _ _ _) (.refl _))
      | mvvals es => rw [ev, ev]; exact ih.a _ _ _
    · intro ρ es σ
      match es with
      | [] => rw [evBody, evBody]; exact .refl _
      | [e] => rw [evBody, evBody]; exact ih.e _ _ _
      | e :: e' :: es => rw [evBody, evBody]; exact .bind (ih.e _ _ _) (fun _ => ih.b _ _ _)
    · intro ρ es σ
      cases es with
      | nil => rw [evArgs, evArgs]; exact .refl _
      | cons e es => rw [evArgs, evArgs]; exact .bind (ih.e _ _ _) (fun _ => .bind (.refl _) (fun _ => .bind (ih.a _ _ _) (fun _ => .refl _)))
    · intro ρ bs σ
      match bs with
      | [] => rw [evBds, evBds]; exact .refl _
      | .mk xs e :: bs => rw [evBds, evBds]; exact .bind (ih.e _ _ _) (fun _ => .ite (.bind (ih.d _ _ _) (fun _ => .refl _)) (.refl _))
    · intro ρ bs σ
      match bs with
      | [] => rw [evRec, evRec]; exact .refl _
      | .mk xs e :: bs => rw [evRec, evRec]; exact .bind (ih.e _ _ _) (fun _ => .ite (.bind (.refl _) (fun _ => ih.r _ _ _)) (.refl _))
    · intro f vs σ
      cases f with
      | clo c =>
        cases c with
        | clo ρ cs =>
          rw [applyR, applyR]
          cases select cs vs.length with
          | none => exact .refl _
          | some x => exact ih.b _ _ _
        | prim p k => rw [applyR, applyR]; exact .refl _
        | values => rw [applyR, applyR]; exact .refl _
        | apply =>
          match vs with
          | [] => simp only [applyR]; exact .refl _
          | [_] => simp only [applyR]; exact .refl _
          | f :: v :: ws =>
            simp only [applyR]
            cases spread (v :: ws) with
            | none => exact .refl _
            | some as => exact ih.p _ _ _
        | cwv =>
          match vs with
          | [] => simp only [applyR]; exact .refl _
          | [_] => simp only [applyR]; exact .refl _
          | [p, c] => simp only [applyR]; exact .bind (ih.p _ _ _) (fun _ => ih.p _ _ _)
          | _ :: _ :: _ :: _ => simp only [applyR]; exact .refl _
      | _ => simp only [applyR]; exact .refl _

section
variable {P : Prims} {m n : Nat}

theorem ev_mono (h : m ≤ n) {ρ : REnv} {e : E} {σ : RS} (hn : ev P m ρ e σ ≠ .oof) : ev P n ρ e σ = ev P m ρ e σ := by
  induction h with
  | refl => rfl
  | step _ ih => rw [← ih]; exact ((monoLe P _).e ρ e σ).resolve_left (by rw [ih]; exact hn)

theorem evBody_mono (h : m ≤ n) {ρ : REnv} {es : List E} {σ : RS} (hn : evBody P m ρ es σ ≠ .oof) : evBody P n ρ es σ = evBody P m ρ es σ := by
  induction h with
  | refl => rfl
  | step _ ih => rw [← ih]; exact ((monoLe P _).b ρ es σ).resolve_left (by rw [ih]; exact hn)

theorem evArgs_mono (h : m ≤ n) {ρ : REnv} {es : List E} {σ : RS} (hn : evArgs P m ρ es σ ≠ .oof) : evArgs P n ρ es σ = evArgs P m ρ es σ := by
  induction h with
  | refl => rfl
  | step _ ih => rw [← ih]; exact ((monoLe P _).a ρ es σ).resolve_left (by rw [ih]; exact hn)

theorem evBds_mono (h : m ≤ n) {ρ : REnv} {bs : List Bd} {σ : RS} (hn : evBds P m ρ bs σ ≠ .oof) : evBds P n ρ bs σ = evBds P m ρ bs σ := by
  induction h with
  | refl => rfl
  | step _ ih => rw [← ih]; exact ((monoLe P _).d ρ bs σ).resolve_left (by rw [ih]; exact hn)

theorem evRec_mono (h : m ≤ n) {ρ : REnv} {bs : List Bd} {σ : RS} (hn : evRec P m ρ bs σ ≠ .oof) : evRec P n ρ bs σ = evRec P m ρ bs σ := by
  induction h with
  | refl => rfl
  | step _ ih => rw [← ih]; exact ((monoLe P _).r ρ bs σ).resolve_left (by rw [ih]; exact hn)

theorem applyR_mono (h : m ≤ n) {f : RV} {vs : List RV} {σ : RS} (hn : applyR P m f vs σ ≠ .oof) : applyR P n f vs σ = applyR P m f vs σ := by
  induction h with
  | refl => rfl
  | step _ ih => rw [← ih]; exact ((monoLe P _).p f vs σ).resolve_left (by rw [ih]; exact hn)

end

/-! ## Errors -/

theorem lookup_err {ρ : REnv} {σ : RS} {x : Sym} (h : lookupR ρ σ x = .err) : Unset ρ σ x ∨ ∃ c, ρ x = some c ∧ σ.cells[c]? = none := by
  rw [lookupR] at h
  rw [Unset]
  cases hρ : ρ x with
  | some c =>
    simp only [hρ] at h ⊢
    cases hc : σ.cells[c]? with
    | none => exact .inr ⟨c, rfl, hc⟩
    | some v =>
      left
      rw [hc] at h
      cases v <;> simp_all
  | none =>
    simp only [hρ] at h ⊢
    cases hc : σ.globs x with
    | none => exact .inl (.inl rfl)
    | some v =>
      left
      rw [hc] at h
      cases v <;> simp_all

/-- An error comes from a part or is one of this task. -/
theorem err_into {P : Prims} {n : Nat} : ∀ (t : Task) (σ : RS), out P (n + 1) t σ = .err →
    Bad P t σ ∨ Loose P t σ ∨ ∃ t' σ', Into P t σ t' σ' ∧ out P n t' σ' = .err := by
  intro t σ h
  cases t with
  | e ρ e =>
    rw [out, forget_err] at h
    cases e with
    | var x =>
      rw [ev, Res.bind_eq_err] at h
      rcases h with h | ⟨_, _, h⟩
      · rcases lookup_err h with h | ⟨c, h1, h2⟩
        · exact .inl (.var h)
        · exact .inr (.inl (.var h1 h2))
      · cases h
    | lit => rw [ev] at h; cases h
    | quote => rw [ev] at h; cases h
    | quoteSyntax => rw [ev] at h; cases h
    | unbound => rw [ev] at h; cases h
    | lam => rw [ev] at h; cases h
    | clam => rw [ev] at h; cases h
    | define xs e =>
      rw [ev, Res.bind_eq_err] at h
      rcases h with h | ⟨⟨vs, σ1⟩, h1, h⟩
      · exact .inr (.inr ⟨_, _, .define _ _, by rw [out, h]; rfl⟩)
      · simp only at h
        split at h
        · cases h
        next hl => exact .inl (.define ⟨n, h1⟩ hl)
    | set x e =>
      rw [ev, Res.bind_eq_err] at h
      rcases h with h | ⟨⟨vs, σ1⟩, h1, h⟩
      · exact .inr (.inr ⟨_, _, .set _ _, by rw [out, h]; rfl⟩)
      · simp only [Res.bind_eq_err] at h
        rcases h with h | ⟨v, h2, h⟩
        · exact .inr (.inl (.set ⟨n, h1⟩ (single_err.1 h)))
        · have hv : vs = [v] := by
            match vs, h2 with
            | [_], h2 => cases h2; rfl
          subst hv
          rcases h with h | ⟨_, _, h⟩
          · exact .inr (.inl (.assign ⟨n, h1⟩ h))
          · cases h
    | ite c a b =>
      rw [ev, Res.bind_eq_err] at h
      rcases h with h | ⟨⟨vs, σ1⟩, h1, h⟩
      · exact .inr (.inr ⟨_, _, .iteC _ _ _, by rw [out, h]; rfl⟩)
      · simp only [Res.bind_eq_err] at h
        rcases h with h | ⟨v, h2, h⟩
        · exact .inr (.inl (.ite ⟨n, h1⟩ (single_err.1 h)))
        · have hv : vs = [v] := by
            match vs, h2 with
            | [_], h2 => cases h2; rfl
          subst hv
          split at h
          next hf => exact .inr (.inr ⟨_, _, .iteE ⟨n, h1⟩ hf, by rw [out, h]; rfl⟩)
          next hf => exact .inr (.inr ⟨_, _, .iteT ⟨n, h1⟩ (by simpa using hf), by rw [out, h]; rfl⟩)
    | letv bs body =>
      rw [ev, Res.bind_eq_err] at h
      rcases h with h | ⟨⟨vs, σ1⟩, h1, h⟩
      · exact .inr (.inr ⟨_, _, .letvB _ _, by rw [out, h]; rfl⟩)
      · exact .inr (.inr ⟨_, _, .letv ⟨n, h1⟩, by rw [out, forget_err]; exact h⟩)
    | letrecv bs body =>
      rw [ev] at h
      simp only [Res.bind_eq_err] at h
      rcases h with h | ⟨σ1, h1, h⟩
      · exact .inr (.inr ⟨_, _, .letrecvB _ _, by rw [out, h]; rfl⟩)
      · exact .inr (.inr ⟨_, _, .letrecv ⟨n, h1⟩, by rw [out, forget_err]; exact h⟩)
    | begin es => rw [ev] at h; exact .inr (.inr ⟨_, _, .begin _, by rw [out, h]; rfl⟩)
    | app f args =>
      rw [ev, Res.bind_eq_err] at h
      rcases h with h | ⟨⟨vs, σ1⟩, h1, h⟩
      · exact .inr (.inr ⟨_, _, .appF _ _, by rw [out, h]; rfl⟩)
      · simp only [Res.bind_eq_err] at h
        rcases h with h | ⟨v, h2, h⟩
        · exact .inl (.operator ⟨n, h1⟩ (single_err.1 h))
        · have hv : vs = [v] := by
            match vs, h2 with
            | [_], h2 => cases h2; rfl
          subst hv
          rcases h with h | ⟨⟨as, σ2⟩, h3, h⟩
          · exact .inr (.inr ⟨_, _, .appA ⟨n, h1⟩, by rw [out, h]; rfl⟩)
          · exact .inr (.inr ⟨_, _, .app ⟨n, h1⟩ ⟨n, h3⟩, by rw [out, forget_err]; exact h⟩)
    | mvcall e c =>
      rw [ev, Res.bind_eq_err] at h
      rcases h with h | ⟨⟨as, σ1⟩, h1, h⟩
      · exact .inr (.inr ⟨_, _, .mvcallP _ _, by rw [out, h]; rfl⟩)
      · simp only [Res.bind_eq_err] at h
        rcases h with h | ⟨⟨vs, σ2⟩, h2, h⟩
        · exact .inr (.inr ⟨_, _, .mvcallC ⟨n, h1⟩, by rw [out, h]; rfl⟩)
        · simp only at h
          rcases h with h | ⟨v, h3, h⟩
          · exact .inl (.consumer ⟨n, h1⟩ ⟨n, h2⟩ (single_err.1 h))
          · have hv : vs = [v] := by
              match vs, h3 with
              | [_], h3 => cases h3; rfl
            subst hv
            exact .inr (.inr ⟨_, _, .mvcall ⟨n, h1⟩ ⟨n, h2⟩, by rw [out, forget_err]; exact h⟩)
    | mvlet e xs body =>
      rw [ev, Res.bind_eq_err] at h
      rcases h with h | ⟨⟨vs, σ1⟩, h1, h⟩
      · exact .inr (.inr ⟨_, _, .mvletP _ _ _, by rw [out, h]; rfl⟩)
      · simp only at h
        split at h
        next hl => exact .inr (.inr ⟨_, _, .mvlet ⟨n, h1⟩ hl, by rw [out, forget_err]; exact h⟩)
        next hl => exact .inl (.mvlet ⟨n, h1⟩ hl)
    | mvvals es => rw [ev] at h; exact .inr (.inr ⟨_, _, .mvvals _, by rw [out, h]; rfl⟩)
  | b ρ es =>
    rw [out, forget_err] at h
    match es with
    | [] => rw [evBody] at h; cases h
    | [e] => rw [evBody] at h; exact .inr (.inr ⟨_, _, .last _, by rw [out, h]; rfl⟩)
    | e :: e' :: es =>
      rw [evBody, Res.bind_eq_err] at h
      rcases h with h | ⟨⟨vs, σ1⟩, h1, h⟩
      · exact .inr (.inr ⟨_, _, .first _ _ _, by rw [out, h]; rfl⟩)
      · exact .inr (.inr ⟨_, _, .rest ⟨n, h1⟩, by rw [out, forget_err]; exact h⟩)
  | a ρ es =>
    rw [out, forget_err] at h
    cases es with
    | nil => rw [evArgs] at h; cases h
    | cons e es =>
      rw [evArgs, Res.bind_eq_err] at h
      rcases h with h | ⟨⟨vs, σ1⟩, h1, h⟩
      · exact .inr (.inr ⟨_, _, .arg _ _, by rw [out, h]; rfl⟩)
      · simp only [Res.bind_eq_err] at h
        rcases h with h | ⟨v, h2, h⟩
        · exact .inl (.arg ⟨n, h1⟩ (single_err.1 h))
        · have hv : vs = [v] := by
            match vs, h2 with
            | [_], h2 => cases h2; rfl
          subst hv
          rcases h with h | ⟨_, _, h⟩
          · exact .inr (.inr ⟨_, _, .args ⟨n, h1⟩, by rw [out, h]; rfl⟩)
          · cases h
  | d ρ bs =>
    rw [out, forget_err] at h
    match bs with
    | [] => rw [evBds] at h; cases h
    | .mk xs e :: bs =>
      rw [evBds, Res.bind_eq_err] at h
      rcases h with h | ⟨⟨vs, σ1⟩, h1, h⟩
      · exact .inr (.inr ⟨_, _, .bd _ _ _, by rw [out, h]; rfl⟩)
      · simp only at h
        split at h
        next hl =>
          rw [Res.bind_eq_err] at h
          rcases h with h | ⟨_, _, h⟩
          · exact .inr (.inr ⟨_, _, .bds ⟨n, h1⟩ hl.1 hl.2, by rw [out, h]; rfl⟩)
          · cases h
        next hl => exact .inl (.bd ⟨n, h1⟩ hl)
  | r ρ bs =>
    rw [out, forget_err] at h
    match bs with
    | [] => rw [evRec] at h; cases h
    | .mk xs e :: bs =>
      rw [evRec, Res.bind_eq_err] at h
      rcases h with h | ⟨⟨vs, σ1⟩, h1, h⟩
      · exact .inr (.inr ⟨_, _, .rd _ _ _, by rw [out, h]; rfl⟩)
      · simp only at h
        split at h
        next hl =>
          rw [Res.bind_eq_err] at h
          rcases h with h | ⟨_, h2, h⟩
          · exact .inr (.inl (.rd ⟨n, h1⟩ h))
          · exact .inr (.inr ⟨_, _, .rds ⟨n, h1⟩ hl.1 hl.2 h2, by rw [out, h]; rfl⟩)
        next hl => exact .inl (.rd ⟨n, h1⟩ hl)
  | p f vs =>
    rw [out, forget_err] at h
    cases f with
    | clo c =>
      cases c with
      | clo ρ cs =>
        rw [applyR] at h
        split at h
        next hs => exact .inl (.clo hs)
        next hs => exact .inr (.inr ⟨_, _, .clo hs, by rw [out, forget_err]; exact h⟩)
      | prim p k =>
        rw [applyR] at h
        split at h
        next hl =>
          split at h
          next hp => exact .inl (.prim hl hp)
          · cases h
        next hl => exact .inl (.primArity hl)
      | values => rw [applyR] at h; cases h
      | apply =>
        match vs with
        | [] => exact .inl (.applyArity (by simp))
        | [_] => exact .inl (.applyArity (by simp))
        | f :: v :: ws =>
          simp only [applyR] at h
          split at h
          next hs => exact .inl (.apply hs)
          next hs => exact .inr (.inr ⟨_, _, .apply hs, by rw [out, forget_err]; exact h⟩)
      | cwv =>
        match vs with
        | [] => exact .inl (.cwv (by simp))
        | [_] => exact .inl (.cwv (by simp))
        | [p, c] =>
          simp only [applyR, Res.bind_eq_err] at h
          rcases h with h | ⟨⟨as, σ1⟩, h1, h⟩
          · exact .inr (.inr ⟨_, _, .cwvP _ _, by rw [out, h]; rfl⟩)
          · exact .inr (.inr ⟨_, _, .cwv ⟨n, h1⟩, by rw [out, forget_err]; exact h⟩)
        | _ :: _ :: _ :: _ => exact .inl (.cwv (by simp))
    | _ => exact .inl (.proc (by simp))

/-- If the evaluator ends with an error, the evaluation comes to an error. -/
theorem errs_of_err {P : Prims} : ∀ (n : Nat) (t : Task) (σ : RS), out P n t σ = .err → Errs P t σ ∨ Slips P t σ
  | 0, t, σ, h => by cases t <;> simp [out, ev, evBody, evArgs, evBds, evRec, applyR, Res.forget] at h
  | n + 1, t, σ, h => by
    rcases err_into t σ h with h | h | ⟨t', σ', h1, h2⟩
    · exact .inl ⟨t, σ, .refl _ _, h⟩
    · exact .inr ⟨t, σ, .refl _ _, h⟩
    · rcases errs_of_err n t' σ' h2 with ⟨u, τ, h3, h4⟩ | ⟨u, τ, h3, h4⟩
      · exact .inl ⟨u, τ, .step h1 h3, h4⟩
      · exact .inr ⟨u, τ, .step h1 h3, h4⟩

/-! ## Divergence -/

/-- The evaluator comes to an end. -/
def Halts (P : Prims) (t : Task) (σ : RS) : Prop := ∃ n, out P n t σ ≠ .oof

section
variable {P : Prims}

/-- What an end of the evaluation of an expression is. -/
theorem Halts.e {ρ : REnv} {e : E} {σ : RS} (h : Halts P (.e ρ e) σ) :
    (∃ n, (ev P n ρ e σ = .err ∨ ev P n ρ e σ = .ub)) ∨ ∃ n vs σ1, ev P n ρ e σ = .ok (vs, σ1) := by
  obtain ⟨n, h⟩ := h
  rw [out, Ne, forget_oof] at h
  cases hx : ev P n ρ e σ with
  | ok x => exact .inr ⟨n, x.1, x.2, hx⟩
  | err => exact .inl ⟨n, .inl hx⟩
  | ub => exact .inl ⟨n, .inr hx⟩
  | oof => exact absurd hx h

theorem Halts.of_e {ρ : REnv} {e : E} {σ : RS} {n : Nat} (h : ev P n ρ e σ ≠ .oof) : Halts P (.e ρ e) σ := ⟨n, by rw [out, Ne, forget_oof]; exact h⟩

theorem Halts.b {ρ : REnv} {es : List E} {σ : RS} (h : Halts P (.b ρ es) σ) : ∃ n, evBody P n ρ es σ ≠ .oof := by
  obtain ⟨n, h⟩ := h
  exact ⟨n, by rw [out, Ne, forget_oof] at h; exact h⟩

theorem Halts.a {ρ : REnv} {es : List E} {σ : RS} (h : Halts P (.a ρ es) σ) : ∃ n, evArgs P n ρ es σ ≠ .oof := by
  obtain ⟨n, h⟩ := h
  exact ⟨n, by rw [out, Ne, forget_oof] at h; exact h⟩

theorem Halts.d {ρ : REnv} {bs : List Bd} {σ : RS} (h : Halts P (.d ρ bs) σ) : ∃ n, evBds P n ρ bs σ ≠ .oof := by
  obtain ⟨n, h⟩ := h
  exact ⟨n, by rw [out, Ne, forget_oof] at h; exact h⟩

theorem Halts.r {ρ : REnv} {bs : List Bd} {σ : RS} (h : Halts P (.r ρ bs) σ) : ∃ n, evRec P n ρ bs σ ≠ .oof := by
  obtain ⟨n, h⟩ := h
  exact ⟨n, by rw [out, Ne, forget_oof] at h; exact h⟩

theorem Halts.p {f : RV} {vs : List RV} {σ : RS} (h : Halts P (.p f vs) σ) : ∃ n, applyR P n f vs σ ≠ .oof := by
  obtain ⟨n, h⟩ := h
  exact ⟨n, by rw [out, Ne, forget_oof] at h; exact h⟩

theorem Halts.ee {ρ : REnv} {e : E} {σ : RS} (h : Halts P (.e ρ e) σ) : ∃ n, ev P n ρ e σ ≠ .oof := by
  obtain ⟨n, h⟩ := h
  exact ⟨n, by rw [out, Ne, forget_oof] at h; exact h⟩

theorem single_cases {α : Type} (vs : List α) : single vs = .err ∨ ∃ v, vs = [v] ∧ single vs = .ok v := by
  match vs with
  | [] => exact .inl rfl
  | [v] => exact .inr ⟨v, rfl, rfl⟩
  | _ :: _ :: _ => exact .inl rfl

theorem assign_ne_oof (ρ : REnv) (σ : RS) (x : Sym) (v : RV) : assignR ρ σ x v ≠ .oof := by
  rw [assignR]
  split
  · split <;> simp
  · split <;> simp

theorem assigns_ne_oof (ρ : REnv) : ∀ (σ : RS) (xs : List Sym) (vs : List RV), assignsR ρ σ xs vs ≠ .oof
  | σ, x :: xs, v :: vs => by
    rw [assignsR]
    exact Res.bind_ne_oof (assign_ne_oof _ _ _ _) (fun σ1 _ => assigns_ne_oof ρ σ1 xs vs)
  | _, [], _ => by simp [assignsR]
  | _, _ :: _, [] => by simp [assignsR]

/-- If the evaluation of all parts comes to an end, so does the evaluation. -/
theorem halts_of_into (t : Task) (σ : RS) (h : ∀ t' σ', Into P t σ t' σ' → Halts P t' σ') : Halts P t σ := by
  cases t with
  | e ρ e =>
    cases e with
    | var x =>
      refine .of_e (n := 1) ?_
      rw [ev, lookupR]
      split <;> simp
    | lit => exact .of_e (n := 1) (by simp [ev])
    | quote => exact .of_e (n := 1) (by simp [ev])
    | quoteSyntax => exact .of_e (n := 1) (by simp [ev])
    | unbound => exact .of_e (n := 1) (by simp [ev])
    | lam => exact .of_e (n := 1) (by simp [ev])
    | clam => exact .of_e (n := 1) (by simp [ev])
    | define xs e =>
      rcases (h _ _ (.define xs e)).e with ⟨n, h1 | h1⟩ | ⟨n, vs, σ1, h1⟩
      · exact .of_e (n := n + 1) (by simp [ev, h1])
      · exact .of_e (n := n + 1) (by simp [ev, h1])
      · refine .of_e (n := n + 1) ?_
        simp only [ev, h1, Res.ok_bind]
        split <;> simp
    | set x e =>
      rcases (h _ _ (.set x e)).e with ⟨n, h1 | h1⟩ | ⟨n, vs, σ1, h1⟩
      · exact .of_e (n := n + 1) (by simp [ev, h1])
      · exact .of_e (n := n + 1) (by simp [ev, h1])
      · refine .of_e (n := n + 1) ?_
        simp only [ev, h1, Res.ok_bind]
        rcases single_cases vs with h2 | ⟨v, rfl, h2⟩
        · simp [h2]
        · simp only [h2, Res.ok_bind, assignR]
          split
          · split <;> simp
          · split <;> simp
    | ite c a b =>
      rcases (h _ _ (.iteC c a b)).e with ⟨n, h1 | h1⟩ | ⟨n, vs, σ1, h1⟩
      · exact .of_e (n := n + 1) (by simp [ev, h1])
      · exact .of_e (n := n + 1) (by simp [ev, h1])
      · rcases single_cases vs with h2 | ⟨v, rfl, h2⟩
        · exact .of_e (n := n + 1) (by simp [ev, h1, h2])
        · by_cases hf : isFalse v = true
          · obtain ⟨m, h3⟩ := (h _ _ (.iteE ⟨n, h1⟩ hf)).ee
            refine .of_e (n := n + m + 1) ?_
            rw [ev, ev_mono (n := n + m) (m := n) (by omega) (by rw [h1]; simp), h1]
            simp only [Res.ok_bind, h2, hf, if_true]
            rw [ev_mono (by omega) h3]; exact h3
          · obtain ⟨m, h3⟩ := (h _ _ (.iteT ⟨n, h1⟩ (by simpa using hf))).ee
            refine .of_e (n := n + m + 1) ?_
            rw [ev, ev_mono (n := n + m) (m := n) (by omega) (by rw [h1]; simp), h1]
            simp only [Res.ok_bind, h2, hf]
            rw [if_neg (by simp), ev_mono (by omega) h3]; exact h3
    | letv bs body =>
      obtain ⟨n, h1⟩ := (h _ _ (.letvB bs body)).d
      cases hx : evBds P n ρ bs σ with
      | ok x =>
        obtain ⟨m, h3⟩ := (h _ _ (.letv ⟨n, hx⟩)).b
        refine .of_e (n := n + m + 1) ?_
        rw [ev, evBds_mono (n := n + m) (by omega) h1, hx]
        simp only [Res.ok_bind]
        rw [evBody_mono (by omega) h3]; exact h3
      | err => exact .of_e (n := n + 1) (by simp [ev, hx])
      | ub => exact .of_e (n := n + 1) (by simp [ev, hx])
      | oof => exact absurd hx h1
    | letrecv bs body =>
      obtain ⟨n, h1⟩ := (h _ _ (.letrecvB bs body)).r
      cases hx : evRec P n (bindVals ρ σ (bdsIds bs) (List.replicate (bdsIds bs).length .unbound)).1 bs
          (bindVals ρ σ (bdsIds bs) (List.replicate (bdsIds bs).length .unbound)).2 with
      | ok x =>
        obtain ⟨m, h3⟩ := (h _ _ (.letrecv ⟨n, hx⟩)).b
        refine .of_e (n := n + m + 1) ?_
        rw [ev]
        simp only
        rw [evRec_mono (n := n + m) (by omega) h1, hx]
        simp only [Res.ok_bind]
        rw [evBody_mono (by omega) h3]; exact h3
      | err => exact .of_e (n := n + 1) (by simp [ev, hx])
      | ub => exact .of_e (n := n + 1) (by simp [ev, hx])
      | oof => exact absurd hx h1
    | begin es =>
      obtain ⟨n, h1⟩ := (h _ _ (.begin es)).b
      exact .of_e (n := n + 1) (by rw [ev]; exact h1)
    | mvvals es =>
      obtain ⟨n, h1⟩ := (h _ _ (.mvvals es)).a
      exact .of_e (n := n + 1) (by rw [ev]; exact h1)
    | app f args =>
      rcases (h _ _ (.appF f args)).e with ⟨n, h1 | h1⟩ | ⟨n, vs, σ1, h1⟩
      · exact .of_e (n := n + 1) (by simp [ev, h1])
      · exact .of_e (n := n + 1) (by simp [ev, h1])
      · rcases single_cases vs with h2 | ⟨v, rfl, h2⟩
        · exact .of_e (n := n + 1) (by simp [ev, h1, h2])
        · obtain ⟨m, h3⟩ := (h _ _ (.appA ⟨n, h1⟩)).a
          have e1 : ev P (n + m) ρ f σ = .ok ([v], σ1) := by rw [ev_mono (m := n) (by omega) (by rw [h1]; simp), h1]
          have e2 := evArgs_mono (n := n + m) (by omega) h3
          cases hx : evArgs P m ρ args σ1 with
          | ok x =>
            obtain ⟨k, h4⟩ := (h _ _ (.app ⟨n, h1⟩ ⟨m, hx⟩)).p
            refine .of_e (n := n + m + k + 1) ?_
            rw [ev, ev_mono (n := n + m + k) (m := n + m) (by omega) (by rw [e1]; simp), e1]
            simp only [Res.ok_bind, single]
            rw [evArgs_mono (n := n + m + k) (by omega) h3, hx]
            simp only [Res.ok_bind]
            rw [applyR_mono (by omega) h4]; exact h4
          | err => exact .of_e (n := n + m + 1) (by rw [ev, e1]; simp only [Res.ok_bind, single]; rw [e2, hx]; simp)
          | ub => exact .of_e (n := n + m + 1) (by rw [ev, e1]; simp only [Res.ok_bind, single]; rw [e2, hx]; simp)
          | oof => exact absurd hx h3
    | mvcall e c =>
      rcases (h _ _ (.mvcallP e c)).e with ⟨n, h1 | h1⟩ | ⟨n, as, σ1, h1⟩
      · exact .of_e (n := n + 1) (by simp [ev, h1])
      · exact .of_e (n := n + 1) (by simp [ev, h1])
      · obtain ⟨m, h3⟩ := (h _ _ (.mvcallC ⟨n, h1⟩)).ee
        have e1 : ev P (n + m) ρ e σ = .ok (as, σ1) := by rw [ev_mono (m := n) (by omega) (by rw [h1]; simp), h1]
        have e2 := ev_mono (n := n + m) (by omega) h3
        cases hx : ev P m ρ c σ1 with
        | ok x =>
          obtain ⟨vs, σ2⟩ := x
          rcases single_cases vs with h2 | ⟨v, rfl, h2⟩
          · exact .of_e (n := n + m + 1) (by rw [ev, e1]; simp only [Res.ok_bind]; rw [e2, hx]; simp [h2])
          · obtain ⟨k, h4⟩ := (h _ _ (.mvcall ⟨n, h1⟩ ⟨m, hx⟩)).p
            refine .of_e (n := n + m + k + 1) ?_
            rw [ev, ev_mono (n := n + m + k) (m := n + m) (by omega) (by rw [e1]; simp), e1]
            simp only [Res.ok_bind]
            rw [ev_mono (n := n + m + k) (by omega) h3, hx]
            simp only [Res.ok_bind, single]
            rw [applyR_mono (by omega) h4]; exact h4
        | err => exact .of_e (n := n + m + 1) (by rw [ev, e1]; simp only [Res.ok_bind]; rw [e2, hx]; simp)
        | ub => exact .of_e (n := n + m + 1) (by rw [ev, e1]; simp only [Res.ok_bind]; rw [e2, hx]; simp)
        | oof => exact absurd hx h3
    | mvlet e xs body =>
      rcases (h _ _ (.mvletP e xs body)).e with ⟨n, h1 | h1⟩ | ⟨n, vs, σ1, h1⟩
      · exact .of_e (n := n + 1) (by simp [ev, h1])
      · exact .of_e (n := n + 1) (by simp [ev, h1])
      · by_cases hl : vs.length = xs.length
        · obtain ⟨m, h3⟩ := (h _ _ (.mvlet ⟨n, h1⟩ hl)).ee
          refine .of_e (n := n + m + 1) ?_
          rw [ev, ev_mono (n := n + m) (m := n) (by omega) (by rw [h1]; simp), h1]
          simp only [Res.ok_bind, hl, if_true]
          rw [ev_mono (by omega) h3]; exact h3
        · exact .of_e (n := n + 1) (by simp [ev, h1, hl])
  | b ρ es =>
    match es with
    | [] => exact ⟨1, by simp [out, evBody, Res.forget]⟩
    | [e] =>
      obtain ⟨n, h1⟩ := (h _ _ (.last e)).ee
      exact ⟨n + 1, by rw [out, Ne, forget_oof, evBody]; exact h1⟩
    | e :: e' :: es =>
      rcases (h _ _ (.first e e' es)).e with ⟨n, h1 | h1⟩ | ⟨n, vs, σ1, h1⟩
      · exact ⟨n + 1, by simp [out, evBody, h1, Res.forget]⟩
      · exact ⟨n + 1, by simp [out, evBody, h1, Res.forget]⟩
      · obtain ⟨m, h3⟩ := (h _ _ (.rest ⟨n, h1⟩)).b
        refine ⟨n + m + 1, ?_⟩
        rw [out, Ne, forget_oof, evBody, ev_mono (n := n + m) (m := n) (by omega) (by rw [h1]; simp), h1]
        simp only [Res.ok_bind]
        rw [evBody_mono (by omega) h3]; exact h3
  | a ρ es =>
    cases es with
    | nil => exact ⟨1, by simp [out, evArgs, Res.forget]⟩
    | cons e es =>
      rcases (h _ _ (.arg e es)).e with ⟨n, h1 | h1⟩ | ⟨n, vs, σ1, h1⟩
      · exact ⟨n + 1, by simp [out, evArgs, h1, Res.forget]⟩
      · exact ⟨n + 1, by simp [out, evArgs, h1, Res.forget]⟩
      · rcases single_cases vs with h2 | ⟨v, rfl, h2⟩
        · exact ⟨n + 1, by simp [out, evArgs, h1, h2, Res.forget]⟩
        · obtain ⟨m, h3⟩ := (h _ _ (.args ⟨n, h1⟩)).a
          refine ⟨n + m + 1, ?_⟩
          rw [out, Ne, forget_oof, evArgs, ev_mono (n := n + m) (m := n) (by omega) (by rw [h1]; simp), h1]
          simp only [Res.ok_bind, single]
          rw [evArgs_mono (by omega) h3]
          cases hx : evArgs P m ρ es σ1 with
          | oof => exact absurd hx h3
          | _ => simp
  | d ρ bs =>
    match bs with
    | [] => exact ⟨1, by simp [out, evBds, Res.forget]⟩
    | .mk xs e :: bs =>
      rcases (h _ _ (.bd xs e bs)).e with ⟨n, h1 | h1⟩ | ⟨n, vs, σ1, h1⟩
      · exact ⟨n + 1, by simp [out, evBds, h1, Res.forget]⟩
      · exact ⟨n + 1, by simp [out, evBds, h1, Res.forget]⟩
      · by_cases hl : vs.length = xs.length ∧ bound vs = true
        · obtain ⟨m, h3⟩ := (h _ _ (.bds ⟨n, h1⟩ hl.1 hl.2)).d
          refine ⟨n + m + 1, ?_⟩
          rw [out, Ne, forget_oof, evBds, ev_mono (n := n + m) (m := n) (by omega) (by rw [h1]; simp), h1]
          simp only [Res.ok_bind]
          rw [if_pos hl, evBds_mono (by omega) h3]
          cases hx : evBds P m ρ bs σ1 with
          | oof => exact absurd hx h3
          | _ => simp
        · refine ⟨n + 1, ?_⟩
          rw [out, Ne, forget_oof, evBds, h1]
          simp only [Res.ok_bind]
          rw [if_neg hl]; simp
  | r ρ bs =>
    match bs with
    | [] => exact ⟨1, by simp [out, evRec, Res.forget]⟩
    | .mk xs e :: bs =>
      rcases (h _ _ (.rd xs e bs)).e with ⟨n, h1 | h1⟩ | ⟨n, vs, σ1, h1⟩
      · exact ⟨n + 1, by simp [out, evRec, h1, Res.forget]⟩
      · exact ⟨n + 1, by simp [out, evRec, h1, Res.forget]⟩
      · by_cases hl : vs.length = xs.length ∧ bound vs = true
        · cases hx : assignsR ρ σ1 xs vs with
          | ok σ2 =>
            obtain ⟨m, h3⟩ := (h _ _ (.rds ⟨n, h1⟩ hl.1 hl.2 hx)).r
            refine ⟨n + m + 1, ?_⟩
            rw [out, Ne, forget_oof, evRec, ev_mono (n := n + m) (m := n) (by omega) (by rw [h1]; simp), h1]
            simp only [Res.ok_bind]
            rw [if_pos hl, hx]
            simp only [Res.ok_bind]
            rw [evRec_mono (by omega) h3]; exact h3
          | err =>
            refine ⟨n + 1, ?_⟩
            rw [out, Ne, forget_oof, evRec, h1]
            simp only [Res.ok_bind]
            rw [if_pos hl, hx]; simp
          | ub =>
            refine ⟨n + 1, ?_⟩
            rw [out, Ne, forget_oof, evRec, h1]
            simp only [Res.ok_bind]
            rw [if_pos hl, hx]; simp
          | oof => exact absurd hx (assigns_ne_oof _ _ _ _)
        · refine ⟨n + 1, ?_⟩
          rw [out, Ne, forget_oof, evRec, h1]
          simp only [Res.ok_bind]
          rw [if_neg hl]; simp
  | p f vs =>
    cases f with
    | clo c =>
      cases c with
      | clo ρ cs =>
        cases hs : select cs vs.length with
        | none => exact ⟨1, by simp [out, applyR, hs, Res.forget]⟩
        | some x =>
          obtain ⟨n, h1⟩ := (h _ _ (.clo hs)).b
          exact ⟨n + 1, by rw [out, Ne, forget_oof, applyR, hs]; exact h1⟩
      | prim p k =>
        refine ⟨1, ?_⟩
        rw [out, Ne, forget_oof, applyR]
        split
        · split <;> simp
        · simp
      | values => exact ⟨1, by simp [out, applyR, Res.forget]⟩
      | apply =>
        match vs with
        | [] => exact ⟨1, by simp [out, applyR, Res.forget]⟩
        | [_] => exact ⟨1, by simp [out, applyR, Res.forget]⟩
        | f :: v :: ws =>
          cases hs : spread (v :: ws) with
          | none => exact ⟨1, by simp [out, applyR, hs, Res.forget]⟩
          | some as =>
            obtain ⟨n, h1⟩ := (h _ _ (.apply hs)).p
            exact ⟨n + 1, by rw [out, Ne, forget_oof, applyR]; simp only [hs]; exact h1⟩
      | cwv =>
        match vs with
        | [] => exact ⟨1, by simp [out, applyR, Res.forget]⟩
        | [_] => exact ⟨1, by simp [out, applyR, Res.forget]⟩
        | [p, c] =>
          obtain ⟨n, h1⟩ := (h _ _ (.cwvP p c)).p
          cases hx : applyR P n p [] σ with
          | ok x =>
            obtain ⟨m, h3⟩ := (h _ _ (.cwv ⟨n, hx⟩)).p
            refine ⟨n + m + 1, ?_⟩
            rw [out, Ne, forget_oof, applyR]
            simp only
            rw [applyR_mono (n := n + m) (by omega) h1, hx]
            simp only [Res.ok_bind]
            rw [applyR_mono (by omega) h3]; exact h3
          | err => exact ⟨n + 1, by simp [out, applyR, hx, Res.forget]⟩
          | ub => exact ⟨n + 1, by simp [out, applyR, hx, Res.forget]⟩
          | oof => exact absurd hx h1
        | _ :: _ :: _ :: _ => exact ⟨1, by simp [out, applyR, Res.forget]⟩
    | _ => exact ⟨1, by simp [out, applyR, Res.forget]⟩

/-- If the evaluator never comes to an end, the evaluation goes from part to part for ever. -/
theorem diverges_of_oof {t : Task} {σ : RS} (h : ∀ n, out P n t σ = .oof) : Diverges P t σ := by
  have hn : ¬ Halts P t σ := fun ⟨n, hn⟩ => hn (h n)
  have key : ∀ x : { x : Task × RS // ¬ Halts P x.1 x.2 }, ∃ y : { x : Task × RS // ¬ Halts P x.1 x.2 }, Into P x.1.1 x.1.2 y.1.1 y.1.2 := by
    rintro ⟨⟨t, σ⟩, hx⟩
    apply Classical.byContradiction
    intro hc
    refine hx (halts_of_into t σ (fun t' σ' hi => ?_))
    apply Classical.byContradiction
    intro hh
    exact hc ⟨⟨(t', σ'), hh⟩, hi⟩
  refine ⟨fun i => (Nat.rec (motive := fun _ => { x : Task × RS // ¬ Halts P x.1 x.2 }) ⟨(t, σ), hn⟩ (fun _ x => Classical.choose (key x)) i).1, rfl, fun i => ?_⟩
  exact Classical.choose_spec (key _)

end

/-! ## Conversely -/

section
variable {P : Prims}

theorem forget_bind {α β : Type} {x : Res α} {f : α → Res β} (h : Res.forget x ≠ .ok ()) : Res.forget (x >>= f) = Res.forget x := by
  cases x with
  | ok _ => exact absurd rfl h
  | _ => rfl

theorem oof_ne_ok : (Res.oof : Res Unit) ≠ .ok () := by simp

/-- With enough fuel the evaluator finds the values, with less it finds nothing. -/
theorem Evs.all {ρ : REnv} {e : E} {σ σ1 : RS} {vs : List RV} (h : Evs P ρ e σ vs σ1) :
    ∃ N, (∀ n, N ≤ n → ev P n ρ e σ = .ok (vs, σ1)) ∧ ∀ n, ev P n ρ e σ = .oof ∨ ev P n ρ e σ = .ok (vs, σ1) := by
  obtain ⟨N, h⟩ := h
  refine ⟨N, fun n hn => ev_le hn h, fun n => ?_⟩
  by_cases ho : ev P n ρ e σ = .oof
  · exact .inl ho
  · right
    rcases Nat.le_total N n with hn | hn
    · exact ev_le hn h
    · rw [← ev_mono hn ho]; exact h

theorem EvA.all {ρ : REnv} {es : List E} {σ σ1 : RS} {vs : List RV} (h : EvA P ρ es σ vs σ1) :
    ∃ N, (∀ n, N ≤ n → evArgs P n ρ es σ = .ok (vs, σ1)) ∧ ∀ n, evArgs P n ρ es σ = .oof ∨ evArgs P n ρ es σ = .ok (vs, σ1) := by
  obtain ⟨N, h⟩ := h
  refine ⟨N, fun n hn => evArgs_le hn h, fun n => ?_⟩
  by_cases ho : evArgs P n ρ es σ = .oof
  · exact .inl ho
  · right
    rcases Nat.le_total N n with hn | hn
    · exact evArgs_le hn h
    · rw [← evArgs_mono hn ho]; exact h

theorem EvDs.all {ρ : REnv} {bs : List Bd} {σ σ1 : RS} {vs : List RV} (h : EvDs P ρ bs σ vs σ1) :
    ∃ N, (∀ n, N ≤ n → evBds P n ρ bs σ = .ok (vs, σ1)) ∧ ∀ n, evBds P n ρ bs σ = .oof ∨ evBds P n ρ bs σ = .ok (vs, σ1) := by
  obtain ⟨N, h⟩ := h
  have hN : evBds P N ρ bs σ ≠ .oof := by rw [h]; simp
  refine ⟨N, fun n hn => by rw [evBds_mono hn hN, h], fun n => ?_⟩
  by_cases ho : evBds P n ρ bs σ = .oof
  · exact .inl ho
  · right
    rcases Nat.le_total N n with hn | hn
    · rw [evBds_mono hn hN, h]
    · rw [← evBds_mono hn ho]; exact h

theorem EvRs.all {ρ : REnv} {bs : List Bd} {σ σ1 : RS} (h : EvRs P ρ bs σ σ1) :
    ∃ N, (∀ n, N ≤ n → evRec P n ρ bs σ = .ok σ1) ∧ ∀ n, evRec P n ρ bs σ = .oof ∨ evRec P n ρ bs σ = .ok σ1 := by
  obtain ⟨N, h⟩ := h
  have hN : evRec P N ρ bs σ ≠ .oof := by rw [h]; simp
  refine ⟨N, fun n hn => by rw [evRec_mono hn hN, h], fun n => ?_⟩
  by_cases ho : evRec P n ρ bs σ = .oof
  · exact .inl ho
  · right
    rcases Nat.le_total N n with hn | hn
    · rw [evRec_mono hn hN, h]
    · rw [← evRec_mono hn ho]; exact h

theorem EvP.all {f : RV} {as : List RV} {σ σ1 : RS} {vs : List RV} (h : EvP P f as σ vs σ1) :
    ∃ N, (∀ n, N ≤ n → applyR P n f as σ = .ok (vs, σ1)) ∧ ∀ n, applyR P n f as σ = .oof ∨ applyR P n f as σ = .ok (vs, σ1) := by
  obtain ⟨N, h⟩ := h
  refine ⟨N, fun n hn => applyR_le hn h, fun n => ?_⟩
  by_cases ho : applyR P n f as σ = .oof
  · exact .inl ho
  · right
    rcases Nat.le_total N n with hn | hn
    · exact applyR_le hn h
    · rw [← applyR_mono hn ho]; exact h

/-- The outcome of a part without value is the outcome of the whole, if there is enough fuel for the parts before; otherwise the whole has no outcome. -/
def Passes (P : Prims) (t : Task) (σ : RS) (t' : Task) (σ' : RS) : Prop :=
  ∃ N, ∀ n, (N ≤ n → out P n t' σ' ≠ .ok () → out P (n + 1) t σ = out P n t' σ') ∧ (out P n t' σ' = .oof → out P (n + 1) t σ = .oof)

theorem Passes.of {t t' : Task} {σ σ' : RS} (h : ∀ n, out P n t' σ' ≠ .ok () → out P (n + 1) t σ = out P n t' σ') : Passes P t σ t' σ' :=
  ⟨0, fun n => ⟨fun _ => h n, fun ho => by rw [h n (by rw [ho]; exact oof_ne_ok), ho]⟩⟩

/-- The same if one part comes before. -/
theorem Passes.of_two {t t' : Task} {σ σ' : RS} {α : Type} (x : Nat → Res α) (a : α) (hx : ∃ N, (∀ n, N ≤ n → x n = .ok a) ∧ ∀ n, x n = .oof ∨ x n = .ok a)
    (h0 : ∀ n, x n = .oof → out P (n + 1) t σ = .oof) (h : ∀ n, x n = .ok a → out P n t' σ' ≠ .ok () → out P (n + 1) t σ = out P n t' σ') :
    Passes P t σ t' σ' := by
  obtain ⟨N, h1, h2⟩ := hx
  refine ⟨N, fun n => ⟨fun hn hne => h n (h1 n hn) hne, fun ho => ?_⟩⟩
  rcases h2 n with h' | h'
  · exact h0 n h'
  · rw [h n h' (by rw [ho]; exact oof_ne_ok), ho]

theorem Into.passes {t t' : Task} {σ σ' : RS} (h : Into P t σ t' σ') : Passes P t σ t' σ' := by
  cases h with
  | define => exact .of fun n h => by simp only [out, ev] at h ⊢; exact forget_bind h
  | set => exact .of fun n h => by simp only [out, ev] at h ⊢; exact forget_bind h
  | iteC => exact .of fun n h => by simp only [out, ev] at h ⊢; exact forget_bind h
  | iteT h1 hf => exact .of_two _ _ h1.all (fun n h => by simp [out, ev, h, Res.forget]) (fun n h _ => by simp [out, ev, h, single, hf])
  | iteE h1 hf => exact .of_two _ _ h1.all (fun n h => by simp [out, ev, h, Res.forget]) (fun n h _ => by simp [out, ev, h, single, hf])
  | letvB => exact .of fun n h => by simp only [out, ev] at h ⊢; exact forget_bind h
  | letv h1 => exact .of_two _ _ h1.all (fun n h => by simp [out, ev, h, Res.forget]) (fun n h _ => by simp [out, ev, h])
  | letrecvB => exact .of fun n h => by simp only [out, ev] at h ⊢; exact forget_bind h
  | letrecv h1 => exact .of_two _ _ h1.all (fun n h => by simp [out, ev, h, Res.forget]) (fun n h _ => by simp [out, ev, h])
  | begin => exact .of fun n h => by simp only [out, ev]
  | appF => exact .of fun n h => by simp only [out, ev] at h ⊢; exact forget_bind h
  | appA h1 =>
    exact .of_two _ _ h1.all (fun n h => by simp [out, ev, h, Res.forget])
      (fun n h hn => by simp only [out, ev, h, single, Res.ok_bind] at hn ⊢; exact forget_bind hn)
  | app h1 h2 =>
    obtain ⟨N, a1, a2⟩ := h1.all
    obtain ⟨M, b1, b2⟩ := h2.all
    refine ⟨N + M, fun n => ⟨fun hn _ => by simp [out, ev, a1 n (by omega), b1 n (by omega), single], fun ho => ?_⟩⟩
    rcases a2 n with a | a
    · simp [out, ev, a, Res.forget]
    · rcases b2 n with b | b
      · simp [out, ev, a, b, single, Res.forget]
      · rw [out] at ho
        simp [out, ev, a, b, single, ho]
  | mvcallP => exact .of fun n h => by simp only [out, ev] at h ⊢; exact forget_bind h
  | mvcallC h1 =>
    exact .of_two _ _ h1.all (fun n h => by simp [out, ev, h, Res.forget])
      (fun n h hn => by simp only [out, ev, h, Res.ok_bind] at hn ⊢; exact forget_bind hn)
  | mvcall h1 h2 =>
    obtain ⟨N, a1, a2⟩ := h1.all
    obtain ⟨M, b1, b2⟩ := h2.all
    refine ⟨N + M, fun n => ⟨fun hn _ => by simp [out, ev, a1 n (by omega), b1 n (by omega), single], fun ho => ?_⟩⟩
    rcases a2 n with a | a
    · simp [out, ev, a, Res.forget]
    · rcases b2 n with b | b
      · simp [out, ev, a, b, Res.forget]
      · rw [out] at ho
        simp [out, ev, a, b, single, ho]
  | mvletP => exact .of fun n h => by simp only [out, ev] at h ⊢; exact forget_bind h
  | mvlet h1 hl => exact .of_two _ _ h1.all (fun n h => by simp [out, ev, h, Res.forget]) (fun n h _ => by simp [out, ev, h, hl])
  | mvvals => exact .of fun n h => by simp only [out, ev]
  | last => exact .of fun n h => by simp only [out, evBody]
  | first => exact .of fun n h => by simp only [out, evBody] at h ⊢; exact forget_bind h
  | rest h1 => exact .of_two _ _ h1.all (fun n h => by simp [out, evBody, h, Res.forget]) (fun n h _ => by simp [out, evBody, h])
  | arg => exact .of fun n h => by simp only [out, evArgs] at h ⊢; exact forget_bind h
  | args h1 =>
    exact .of_two _ _ h1.all (fun n h => by simp [out, evArgs, h, Res.forget])
      (fun n h hn => by simp only [out, evArgs, h, single, Res.ok_bind] at hn ⊢; exact forget_bind hn)
  | bd => exact .of fun n h => by simp only [out, evBds] at h ⊢; exact forget_bind h
  | bds h1 h2 h3 =>
    exact .of_two _ _ h1.all (fun n h => by simp [out, evBds, h, Res.forget])
      (fun n h hn => by simp only [out, evBds, h, Res.ok_bind] at hn ⊢; rw [if_pos ⟨h2, h3⟩]; exact forget_bind hn)
  | rd => exact .of fun n h => by simp only [out, evRec] at h ⊢; exact forget_bind h
  | rds h1 h2 h3 h4 =>
    exact .of_two _ _ h1.all (fun n h => by simp [out, evRec, h, Res.forget])
      (fun n h _ => by simp only [out, evRec, h, Res.ok_bind]; rw [if_pos ⟨h2, h3⟩, h4]; rfl)
  | clo hs => exact .of fun n _ => by simp only [out, applyR, hs]
  | apply hs => exact .of fun n _ => by simp only [out, applyR, hs]
  | cwvP => exact .of fun n h => by simp only [out, applyR] at h ⊢; exact forget_bind h
  | cwv h1 => exact .of_two _ _ h1.all (fun n h => by simp [out, applyR, h, Res.forget]) (fun n h _ => by simp [out, applyR, h])

theorem out_mono {t : Task} {σ : RS} {m n : Nat} (h : m ≤ n) (hn : out P m t σ ≠ .oof) : out P n t σ = out P m t σ := by
  cases t <;> simp only [out, Ne, forget_oof] at hn ⊢
  · rw [ev_mono h hn]
  · rw [evBody_mono h hn]
  · rw [evArgs_mono h hn]
  · rw [evBds_mono h hn]
  · rw [evRec_mono h hn]
  · rw [applyR_mono h hn]

theorem unset_lookup {ρ : REnv} {σ : RS} {x : Sym} (h : Unset ρ σ x) : lookupR ρ σ x = .err := by
  rw [Unset] at h
  rw [lookupR]
  cases hρ : ρ x with
  | some c => rw [hρ] at h; simp only at h ⊢; rw [h]
  | none =>
    rw [hρ] at h
    simp only at h ⊢
    rcases h with h | h <;> rw [h]

theorem Bad.err {t : Task} {σ : RS} (h : Bad P t σ) : ∃ n, out P n t σ = .err := by
  cases h with
  | var h => exact ⟨1, by simp [out, ev, unset_lookup h, Res.forget]⟩
  | define h hl => obtain ⟨n, h⟩ := h; exact ⟨n + 1, by simp [out, ev, h, hl, Res.forget]⟩
  | operator h hl => obtain ⟨n, h⟩ := h; exact ⟨n + 1, by simp [out, ev, h, single_err.2 hl, Res.forget]⟩
  | consumer h1 h2 hl =>
    obtain ⟨n, a, _⟩ := h1.all
    obtain ⟨m, b, _⟩ := h2.all
    exact ⟨n + m + 1, by simp [out, ev, a (n + m) (by omega), b (n + m) (by omega), single_err.2 hl, Res.forget]⟩
  | mvlet h hl => obtain ⟨n, h⟩ := h; exact ⟨n + 1, by simp [out, ev, h, hl, Res.forget]⟩
  | arg h hl => obtain ⟨n, h⟩ := h; exact ⟨n + 1, by simp [out, evArgs, h, single_err.2 hl, Res.forget]⟩
  | bd h hl => obtain ⟨n, h⟩ := h; exact ⟨n + 1, by simp only [out, evBds, h, Res.ok_bind]; rw [if_neg hl]; rfl⟩
  | rd h hl => obtain ⟨n, h⟩ := h; exact ⟨n + 1, by simp only [out, evRec, h, Res.ok_bind]; rw [if_neg hl]; rfl⟩
  | @proc σ f vs h =>
    refine ⟨1, ?_⟩
    cases f with
    | clo c => exact absurd rfl (h c)
    | _ => simp [out, applyR, Res.forget]
  | clo h => exact ⟨1, by simp [out, applyR, h, Res.forget]⟩
  | primArity h => exact ⟨1, by simp only [out, applyR]; rw [if_neg h]; rfl⟩
  | prim h hp => exact ⟨1, by simp only [out, applyR]; rw [if_pos h, hp]; rfl⟩
  | @applyArity σ vs h =>
    refine ⟨1, ?_⟩
    match vs, h with
    | [], _ => simp [out, applyR, Res.forget]
    | [_], _ => simp [out, applyR, Res.forget]
    | _ :: _ :: _, h => exact absurd h (by simp)
  | apply h => exact ⟨1, by simp [out, applyR, h, Res.forget]⟩
  | @cwv σ vs h =>
    refine ⟨1, ?_⟩
    match vs, h with
    | [], _ => simp [out, applyR, Res.forget]
    | [_], _ => simp [out, applyR, Res.forget]
    | [_, _], h => exact absurd rfl h
    | _ :: _ :: _ :: _, _ => simp [out, applyR, Res.forget]

theorem Loose.err {t : Task} {σ : RS} (h : Loose P t σ) : ∃ n, out P n t σ = .err := by
  cases h with
  | var h1 h2 => exact ⟨1, by simp [out, ev, lookupR, h1, h2, Res.forget]⟩
  | ite h hl => obtain ⟨n, h⟩ := h; exact ⟨n + 1, by simp [out, ev, h, single_err.2 hl, Res.forget]⟩
  | set h hl => obtain ⟨n, h⟩ := h; exact ⟨n + 1, by simp [out, ev, h, single_err.2 hl, Res.forget]⟩
  | assign h ha => obtain ⟨n, h⟩ := h; exact ⟨n + 1, by simp [out, ev, h, single, ha, Res.forget]⟩
  | @rd ρ σ σ1 xs e bs vs h ha =>
    obtain ⟨n, h⟩ := h
    refine ⟨n + 1, ?_⟩
    simp only [out, evRec, h, Res.ok_bind]
    split
    · rw [ha]; rfl
    · rfl

/-- An error of a part is an error of the whole. -/
theorem err_of_intos {t t' : Task} {σ σ' : RS} (h : Intos P t σ t' σ') (he : ∃ n, out P n t' σ' = .err) : ∃ n, out P n t σ = .err := by
  induction h with
  | refl => exact he
  | @step t t1 t2 σ σ1 σ2 h1 _ ih =>
    obtain ⟨n, h2⟩ := ih he
    obtain ⟨N, h3⟩ := h1.passes
    have hm : out P (N + n) t1 σ1 = .err := by rw [out_mono (m := n) (by omega) (by rw [h2]; simp), h2]
    exact ⟨N + n + 1, by rw [(h3 (N + n)).1 (by omega) (by rw [hm]; simp), hm]⟩

/-- The evaluator ends with an error exactly if the evaluation comes to one. -/
theorem err_iff {t : Task} {σ : RS} : (∃ n, out P n t σ = .err) ↔ Errs P t σ ∨ Slips P t σ := by
  constructor
  · rintro ⟨n, h⟩
    exact errs_of_err n t σ h
  · rintro (⟨t', σ', h1, h2⟩ | ⟨t', σ', h1, h2⟩)
    · exact err_of_intos h1 h2.err
    · exact err_of_intos h1 h2.err

/-- The evaluator never comes to an end exactly if the evaluation goes from part to part for ever. -/
theorem oof_iff {t : Task} {σ : RS} : (∀ n, out P n t σ = .oof) ↔ Diverges P t σ := by
  refine ⟨diverges_of_oof, ?_⟩
  rintro ⟨f, h0, hf⟩
  have key : ∀ n i, out P n (f i).1 (f i).2 = .oof := by
    intro n
    induction n with
    | zero => intro i; cases (f i).1 <;> simp [out, ev, evBody, evArgs, evBds, evRec, applyR, Res.forget]
    | succ n ih =>
      intro i
      obtain ⟨N, h⟩ := (hf i).passes
      exact (h n).2 (ih (i + 1))
  intro n
  have := key n 0
  rw [h0] at this
  exact this

end

end Minim.Jit
