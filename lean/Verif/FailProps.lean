import Verif.SimFail

set_option autoImplicit false

/-!
# Properties of compiled code on the virtual machine: errors and divergence (C52)
-/

namespace Minim.Jit

open Minim.Sx Minim.Core

/-- At the start of the code of a toplevel expression. -/
theorem entry_at {host : Host} {e : E} {code : Code} (hcl : hasClauses e = true) (hok : okE false (some []) e = true) (hcomp : compileExpr e = .ok code) {σ : RS}
    {s : St} {e0 : Nat} (hs : SRel e0 σ s) (hcode : s.code = code.ins) (hpc : s.pc = 0) (hargs : s.args = []) :
    ∃ s', Steps host s s' ∧ At host e0 (.e REnv.empty e) σ s' := by
  obtain ⟨is, m, tm, h1, hh⟩ := compileExpr_here hcl hcomp
  by_cases hb : (boundVars e []).1 = []
  · rw [if_pos hb] at hh
    have hpre : Pre e0 (some []) [] REnv.empty (fun x => Free x e) σ false (boundVars e []).1.length s :=
      ⟨⟨rfl, fun _ _ => rfl⟩, by rw [hb]; exact Nat.zero_le _, fun x i hx => by simp [scopeRef] at hx, hs, fun _ => hargs⟩
    exact ⟨s, .refl _, .e [] true false 0 [] is m tm (some []) _ tm h1 hcl hok (by simp) (by rw [hcode, hpc]; simpa using hh) ⟨[], rfl⟩ hpre⟩
  · rw [if_neg hb] at hh
    have hh0 : Here ([.ins (.pushEnv (boundVars e []).1.length)] ++ is) tm s.code s.pc (.ins (.pushEnv (boundVars e []).1.length) :: is) := by
      rw [hcode, hpc]; exact hh
    have hst := hh0.step host
    simp only [mapI, St.exec] at hst
    generalize hs1 : St.adv { s with env := s.envs.length, envs := s.envs ++ [List.replicate (boundVars e []).1.length none] } = s1 at hst
    have e1 : s1.envs = s.envs ++ [List.replicate (boundVars e []).1.length none] := by rw [← hs1]; rfl
    have e2 : s1.env = s.envs.length := by rw [← hs1]; rfl
    have hpre : Pre e0 (some []) [] REnv.empty (fun x => Free x e) σ false (boundVars e []).1.length s1 := by
      refine ⟨⟨rfl, fun _ _ => rfl⟩, ?_, fun x i hx => by simp [scopeRef] at hx, hs.congr (by rw [← hs1]; rfl) (by rw [← hs1]; rfl) (by rw [← hs1]; rfl),
        fun _ => by rw [← hs1]; exact hargs⟩
      rw [St.slots, e1, e2]
      simp
    exact ⟨s1, .one hst, .e [] true false 0 [] is m tm (some []) _ tm h1 hcl hok (by simp) (by rw [← hs1]; exact hh0.next) ⟨[], rfl⟩ hpre⟩

/-- C52 (partial; missing as in `C52_value_partial`).  If the evaluation of an expression comes to an error that has to be reported (a variable without value, the wrong number
of values or arguments, application of what is no procedure, an error of a C function), so does the run of its bytecode. -/
theorem C52_error_partial (P : Prims) (host : Host) (hP : host.prim = P.f MC) (e : E) (code : Code) (hcl : hasClauses e = true)
    (hok : okE false (some []) e = true) (hcomp : compileExpr e = .ok code) (σ : RS) (hev : Errs P (.e REnv.empty e) σ) (s : St) (e0 : Nat) (hs : SRel e0 σ s)
    (hcode : s.code = code.ins) (hpc : s.pc = 0) (hargs : s.args = []) : Fails host s := by
  obtain ⟨s', h1, h2⟩ := entry_at (host := host) hcl hok hcomp hs hcode hpc hargs
  obtain ⟨t', σ', h3, h4⟩ := hev
  obtain ⟨s'', h5, h6⟩ := h2.intos hP h3
  exact .of_steps (h1.trans h5) (h6.bad hP h4)

/-- C52 (partial; missing as in `C52_value_partial`).  If an expression has no value because its evaluation does not end, the run of its bytecode does not end either: the
machine neither stops, nor signals an error, nor gets into undefined behaviour. -/
theorem C52_diverge_partial (P : Prims) (host : Host) (hP : host.prim = P.f MC) (e : E) (code : Code) (hcl : hasClauses e = true)
    (hok : okE false (some []) e = true) (hcomp : compileExpr e = .ok code) (σ : RS) (hev : ∀ n, ev P n REnv.empty e σ = .oof) (s : St) (e0 : Nat) (hs : SRel e0 σ s)
    (hcode : s.code = code.ins) (hpc : s.pc = 0) (hargs : s.args = []) : Forever host s := by
  obtain ⟨s', h1, h2⟩ := entry_at (host := host) hcl hok hcomp hs hcode hpc hargs
  have hd : Diverges P (.e REnv.empty e) σ := diverges_of_oof (fun n => by rw [out, hev n]; rfl)
  have h3 := h2.diverges hP hd
  -- the states before `s'`
  have back : ∀ {a b : St}, Steps host a b → Forever host b → Forever host a := by
    intro a b hab
    induction hab with
    | refl => exact id
    | step c1 _ ih =>
      intro hb u hu
      cases hu with
      | refl => exact ⟨_, c1⟩
      | step d1 d2 =>
        rw [c1] at d1
        cases d1
        exact ih hb u d2
  exact back h1 h3

theorem bind_ne_ub {α β : Type} {x : Res α} {f : α → Res β} (h1 : x ≠ .ub) (h2 : ∀ a, f a ≠ .ub) : (x >>= f) ≠ .ub := by
  cases x with
  | ok a => exact h2 a
  | ub => exact absurd rfl h1
  | _ => simp

theorem single_ne_ub {α : Type} (vs : List α) : single vs ≠ .ub := by
  rcases single_cases vs with h | ⟨v, _, h⟩ <;> rw [h] <;> simp

theorem lookup_ne_ub (ρ : REnv) (σ : RS) (x : Sym) : lookupR ρ σ x ≠ .ub := by
  rw [lookupR]
  split <;> simp

theorem assign_ne_ub (ρ : REnv) (σ : RS) (x : Sym) (v : RV) : assignR ρ σ x v ≠ .ub := by
  rw [assignR]
  split
  · split <;> simp
  · split <;> simp

theorem assigns_ne_ub (ρ : REnv) : ∀ (xs : List Sym) (vs : List RV) (σ : RS), assignsR ρ σ xs vs ≠ .ub
  | [], _, σ => by simp [assignsR]
  | _ :: _, [], σ => by simp [assignsR]
  | x :: xs, v :: vs, σ => by
    rw [assignsR]
    exact bind_ne_ub (assign_ne_ub ρ σ x v) (fun σ => assigns_ne_ub ρ xs vs σ)

/-- The reference semantics has no undefined behaviour. -/
theorem ref_ne_ub (P : Prims) : ∀ (n : Nat), (∀ ρ e σ, ev P n ρ e σ ≠ .ub) ∧ (∀ ρ es σ, evBody P n ρ es σ ≠ .ub) ∧ (∀ ρ es σ, evArgs P n ρ es σ ≠ .ub) ∧
    (∀ ρ bs σ, evBds P n ρ bs σ ≠ .ub) ∧ (∀ ρ bs σ, evRec P n ρ bs σ ≠ .ub) ∧ (∀ f vs σ, applyR P n f vs σ ≠ .ub)
  | 0 => by simp [ev, evBody, evArgs, evBds, evRec, applyR]
  | n + 1 => by
    obtain ⟨hE, hB, hA, hD, hR, hP⟩ := ref_ne_ub P n
    refine ⟨?_, ?_, ?_, ?_, ?_, ?_⟩
    · intro ρ e σ
      cases e <;> rw [ev]
      case var x => exact bind_ne_ub (lookup_ne_ub _ _ _) (by simp)
      case define xs e => exact bind_ne_ub (hE _ _ _) (fun a => by dsimp only; split <;> simp)
      case set x e => exact bind_ne_ub (hE _ _ _) (fun a => bind_ne_ub (single_ne_ub _) (fun _ => bind_ne_ub (assign_ne_ub _ _ _ _) (by simp)))
      case ite c a b => exact bind_ne_ub (hE _ _ _) (fun a => bind_ne_ub (single_ne_ub _) (fun _ => by split <;> exact hE _ _ _))
      case letv bs body => exact bind_ne_ub (hD _ _ _) (fun _ => hB _ _ _)
      case letrecv bs body => exact bind_ne_ub (hR _ _ _) (fun _ => hB _ _ _)
      case begin es => exact hB _ _ _
      case app f args => exact bind_ne_ub (hE _ _ _) (fun a => bind_ne_ub (single_ne_ub _) (fun _ => bind_ne_ub (hA _ _ _) (fun _ => hP _ _ _)))
      case mvcall e c => exact bind_ne_ub (hE _ _ _) (fun a => bind_ne_ub (hE _ _ _) (fun _ => bind_ne_ub (single_ne_ub _) (fun _ => hP _ _ _)))
      case mvlet e xs body =>
        refine bind_ne_ub (hE _ _ _) (fun a => ?_)
        dsimp only
        split
        · exact hE _ _ _
        · simp
      case mvvals es => exact hA _ _ _
      all_goals simp
    · intro ρ es σ
      match es with
      | [] => simp [evBody]
      | [e] => rw [evBody]; exact hE _ _ _
      | e :: e' :: es => rw [evBody]; exact bind_ne_ub (hE _ _ _) (fun _ => hB _ _ _)
    · intro ρ es σ
      match es with
      | [] => simp [evArgs]
      | e :: es => rw [evArgs]; exact bind_ne_ub (hE _ _ _) (fun _ => bind_ne_ub (single_ne_ub _) (fun _ => bind_ne_ub (hA _ _ _) (by simp)))
    · intro ρ bs σ
      match bs with
      | [] => simp [evBds]
      | .mk xs e :: bs =>
        rw [evBds]
        refine bind_ne_ub (hE _ _ _) (fun a => ?_)
        dsimp only
        split
        · exact bind_ne_ub (hD _ _ _) (by simp)
        · simp
    · intro ρ bs σ
      match bs with
      | [] => simp [evRec]
      | .mk xs e :: bs =>
        rw [evRec]
        refine bind_ne_ub (hE _ _ _) (fun a => ?_)
        dsimp only
        split
        · exact bind_ne_ub (assigns_ne_ub _ _ _ _) (fun _ => hR _ _ _)
        · simp
    · intro f vs σ
      cases f with
      | clo c =>
        cases c with
        | clo ρ cs =>
          rw [applyR]
          split
          · simp
          · exact hB _ _ _
        | prim p k =>
          rw [applyR]
          split
          · split <;> simp
          · simp
        | values => simp [applyR]
        | apply =>
          match vs with
          | [] | [_] => simp [applyR]
          | _ :: _ :: _ =>
            rw [applyR]
            split
            · simp
            · exact hP _ _ _
        | cwv =>
          match vs with
          | [] | [_] | _ :: _ :: _ :: _ => simp [applyR]
          | [_, _] =>
            rw [applyR]
            exact bind_ne_ub (hP _ _ _) (fun _ => hP _ _ _)
      | _ => simp [applyR]

/-- C52 (partial; missing as in `C52_value_partial`, and the errors of `Loose`).  The outcome of a run on an idle machine is that of the evaluation: the run returns if and only
if the expression has values, it ends with an error if and only if the evaluation does, it goes on for ever if and only if the evaluation does, and it never gets into undefined
behaviour. -/
theorem C52_outcome_partial (P : Prims) (host : Host) (hP : host.prim = P.f MC) (e : E) (code : Code) (hcl : hasClauses e = true)
    (hok : okE false (some []) e = true) (hcomp : compileExpr e = .ok code) (σ : RS) (hl : ¬ Slips P (.e REnv.empty e) σ) (s : St) (e0 : Nat) (hs : SRel e0 σ s)
    (hcode : s.code = code.ins) (hpc : s.pc = 0) (hargs : s.args = []) (hcont : s.cont = []) :
    ((∃ n vs σ', ev P n REnv.empty e σ = .ok (vs, σ')) ↔ ∃ v, Returns host s v) ∧
    ((∃ n, ev P n REnv.empty e σ = .err) ↔ Fails host s) ∧
    ((∀ n, ev P n REnv.empty e σ = .oof) ↔ Forever host s) ∧ ¬ Undef host s := by
  have r1 : (∃ n vs σ', ev P n REnv.empty e σ = .ok (vs, σ')) → ∃ v, Returns host s v := by
    rintro ⟨n, vs, σ', hev⟩
    obtain ⟨s', h1, _, _, _, _, h3⟩ := C52_value_partial P host hP e code hcl hok hcomp n σ σ' vs hev s e0 hs hcode hpc hargs
    rw [Resumes, hcont] at h3
    exact ⟨_, s', s', h1, h3⟩
  have r2 : (∃ n, ev P n REnv.empty e σ = .err) → Fails host s := by
    rintro ⟨n, hev⟩
    rcases errs_of_err n (.e REnv.empty e) σ (by rw [out, hev]; rfl) with h | h
    · exact C52_error_partial P host hP e code hcl hok hcomp σ h s e0 hs hcode hpc hargs
    · exact absurd h hl
  have r3 : (∀ n, ev P n REnv.empty e σ = .oof) → Forever host s :=
    fun hev => C52_diverge_partial P host hP e code hcl hok hcomp σ hev s e0 hs hcode hpc hargs
  -- the evaluation has one of the outcomes
  have tri : (∃ n vs σ', ev P n REnv.empty e σ = .ok (vs, σ')) ∨ (∃ n, ev P n REnv.empty e σ = .err) ∨ ∀ n, ev P n REnv.empty e σ = .oof := by
    by_cases h : ∀ n, ev P n REnv.empty e σ = .oof
    · exact .inr (.inr h)
    · obtain ⟨n, hn⟩ := Classical.not_forall.1 h
      cases hev : ev P n REnv.empty e σ with
      | ok a => exact .inl ⟨n, a.1, a.2, hev⟩
      | err => exact .inr (.inl ⟨n, hev⟩)
      | ub => exact absurd hev ((ref_ne_ub P n).1 _ _ _)
      | oof => exact absurd hev hn
  -- the run has only one of them
  have x1 : ∀ {v}, Returns host s v → ¬ Fails host s := by
    rintro v ⟨a, b, h1, h2⟩ ⟨c, h3, h4⟩
    have := steps_unique h1 h3 (by rw [h2]; simp) (by rw [h4]; simp)
    rw [this, h4] at h2; cases h2
  have x2 : ∀ {v}, Returns host s v → ¬ Forever host s := by
    rintro v ⟨a, b, h1, h2⟩ h
    obtain ⟨_, h3⟩ := h a h1
    rw [h2] at h3; cases h3
  have x3 : Fails host s → ¬ Forever host s := by
    rintro ⟨a, h1, h2⟩ h
    obtain ⟨_, h3⟩ := h a h1
    rw [h2] at h3; cases h3
  have u1 : ∀ {v}, Returns host s v → ¬ Undef host s := by
    rintro v ⟨a, b, h1, h2⟩ ⟨c, h3, h4⟩
    have := steps_unique h1 h3 (by rw [h2]; simp) (by rw [h4]; simp)
    rw [this, h4] at h2; cases h2
  have u2 : Fails host s → ¬ Undef host s := by
    rintro ⟨a, h1, h2⟩ ⟨c, h3, h4⟩
    have := steps_unique h1 h3 (by rw [h2]; simp) (by rw [h4]; simp)
    rw [this, h4] at h2; cases h2
  have u3 : Forever host s → ¬ Undef host s := by
    rintro h ⟨a, h1, h2⟩
    obtain ⟨_, h3⟩ := h a h1
    rw [h2] at h3; cases h3
  rcases tri with h | h | h
  · obtain ⟨v, hv⟩ := r1 h
    exact ⟨⟨r1, fun _ => h⟩, ⟨r2, fun h' => absurd h' (x1 hv)⟩, ⟨r3, fun h' => absurd h' (x2 hv)⟩, u1 hv⟩
  · have hf := r2 h
    exact ⟨⟨r1, fun ⟨v, hv⟩ => absurd hf (x1 hv)⟩, ⟨r2, fun _ => h⟩, ⟨r3, fun h' => absurd h' (x3 hf)⟩, u2 hf⟩
  · have hf := r3 h
    exact ⟨⟨r1, fun ⟨v, hv⟩ => absurd hf (x2 hv)⟩, ⟨r2, fun h' => absurd hf (x3 h')⟩, ⟨r3, fun _ => h⟩, u3 hf⟩

/-! ### Examples -/

/-- `(lambda (x) (x x))` -/
def selfApp : E := .lam ⟨[.user 1], none⟩ [.app (.var (.user 1)) [.var (.user 1)]]

/-- `((lambda (x) (x x)) (lambda (x) (x x)))` -/
def omega : E := .app selfApp [selfApp]

/-- The value of `selfApp`. -/
def selfClo : RV := .clo (.clo REnv.empty [.mk ⟨[.user 1], none⟩ [.app (.var (.user 1)) [.var (.user 1)]]])

theorem selfClo_oof : ∀ (n : Nat) (σ : RS), applyR demoPrims n selfClo [selfClo] σ = .oof
  | 0, _ => rfl
  | 1, _ => rfl
  | 2, _ => rfl
  | 3, _ => rfl
  | n + 4, σ => by
    have hl : lookupR (REnv.empty.set (.user 1) σ.cells.length) { σ with cells := σ.cells ++ [selfClo] } (.user 1) = .ok selfClo := by
      simp [lookupR, REnv.set, selfClo]
    have h : applyR demoPrims (n + 4) selfClo [selfClo] σ =
      ev demoPrims (n + 2) (REnv.empty.set (.user 1) σ.cells.length) (.app (.var (.user 1)) [.var (.user 1)]) { σ with cells := σ.cells ++ [selfClo] } := rfl
    rw [h, ev, ev, hl]
    cases n with
    | zero => rfl
    | succ n =>
      have ih := selfClo_oof (n + 2) { σ with cells := σ.cells ++ [selfClo] }
      simp [single, evArgs, ev, hl]
      exact ih

/-- The evaluation of this expression does not end. -/
theorem omega_oof : ∀ n, ev demoPrims n REnv.empty omega ⟨[], demoGlobs⟩ = .oof
  | 0 => rfl
  | 1 => rfl
  | 2 => rfl
  | 3 => rfl
  | n + 4 => selfClo_oof (n + 3) _

/-- The hypotheses hold for it. -/
example : ∃ code, hasClauses omega = true ∧ okE false (some []) omega = true ∧ compileExpr omega = .ok code ∧ (∀ n, ev demoPrims n REnv.empty omega ⟨[], demoGlobs⟩ = .oof) ∧
    ¬ Slips demoPrims (.e REnv.empty omega) ⟨[], demoGlobs⟩ ∧ SRel 0 ⟨[], demoGlobs⟩ (start code demoMGlobs) := by
  refine ⟨_, rfl, rfl, rfl, omega_oof, fun h => ?_, demo_rel _⟩
  obtain ⟨n, hn⟩ := err_iff.2 (Or.inr h)
  rw [out, omega_oof] at hn
  cases hn

/-- They hold for `(car '())`, an error of a C function, for `(car)`, the wrong number of arguments, for `(7)`, application of a number, and for an unbound variable. -/
example : ∀ e ∈ [E.app (.var (.user 101)) [.quote .null], .app (.var (.user 101)) [], .app (.var (.user 104)) [], .app (.var (.user 101)) [.var (.user 200)]],
    hasClauses e = true ∧ okE false (some []) e = true ∧ (∃ code, compileExpr e = .ok code) ∧ Errs demoPrims (.e REnv.empty e) ⟨[], demoGlobs⟩ := by
  intro e he
  simp only [List.mem_cons, List.not_mem_nil, or_false] at he
  rcases he with rfl | rfl | rfl | rfl
  · exact ⟨rfl, rfl, ⟨_, rfl⟩, _, _, .step (.app ⟨1, rfl⟩ ⟨2, rfl⟩) (.refl _ _), .prim ⟨rfl, by simp⟩ rfl⟩
  · exact ⟨rfl, rfl, ⟨_, rfl⟩, _, _, .step (.app ⟨1, rfl⟩ ⟨2, rfl⟩) (.refl _ _), .primArity (by simp)⟩
  · exact ⟨rfl, rfl, ⟨_, rfl⟩, _, _, .step (.app ⟨1, rfl⟩ ⟨2, rfl⟩) (.refl _ _), .proc (by simp)⟩
  · exact ⟨rfl, rfl, ⟨_, rfl⟩, _, _, .step (.appA ⟨1, rfl⟩) (.step (.arg _ _) (.refl _ _)), .var (.inl rfl)⟩

end Minim.Jit
