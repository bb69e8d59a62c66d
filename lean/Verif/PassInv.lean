import Verif.PassWorld
import Verif.SimApply

set_option autoImplicit false

/-!
# Evaluations taken apart, and evaluations of the code the passes generate
-/

namespace Minim.Jit

open Minim.Sx Minim.Core

variable {P : Prims} {K F : Sym → Prop}

section
variable {n : Nat} {ρ : REnv} {σ σ' : RS} {vs : List RV}

theorem single_inv {α : Type} {l : List α} {v : α} (h : single l = .ok v) : l = [v] := by
  match l, h with
  | [_], h => cases h; rfl

theorem ev_app_inv {f : E} {args : List E} (h : ev P (n + 1) ρ (.app f args) σ = .ok (vs, σ')) :
    ∃ g σ1 as σ2, ev P n ρ f σ = .ok ([g], σ1) ∧ evArgs P n ρ args σ1 = .ok (as, σ2) ∧ applyR P n g as σ2 = .ok (vs, σ') := by
  rw [ev, Res.bind_eq_ok] at h
  obtain ⟨⟨vs1, σ1⟩, h1, h2⟩ := h
  simp only [Res.bind_eq_ok] at h2
  obtain ⟨g, h2, ⟨as, σ2⟩, h3, h4⟩ := h2
  cases single_inv h2
  exact ⟨g, σ1, as, σ2, h1, h3, h4⟩

theorem ev_mvcall_inv {e c : E} (h : ev P (n + 1) ρ (.mvcall e c) σ = .ok (vs, σ')) :
    ∃ as σ1 g σ2, ev P n ρ e σ = .ok (as, σ1) ∧ ev P n ρ c σ1 = .ok ([g], σ2) ∧ applyR P n g as σ2 = .ok (vs, σ') := by
  rw [ev, Res.bind_eq_ok] at h
  obtain ⟨⟨as, σ1⟩, h1, h2⟩ := h
  simp only [Res.bind_eq_ok] at h2
  obtain ⟨⟨vs2, σ2⟩, h2, g, h3, h4⟩ := h2
  cases single_inv h3
  exact ⟨as, σ1, g, σ2, h1, h2, h4⟩

theorem ev_mvlet_inv {e b : E} {xs : List Sym} (h : ev P (n + 1) ρ (.mvlet e xs b) σ = .ok (vs, σ')) :
    ∃ as σ1, ev P n ρ e σ = .ok (as, σ1) ∧ as.length = xs.length ∧ ev P n (bindVals ρ σ1 xs as).1 b (bindVals ρ σ1 xs as).2 = .ok (vs, σ') := by
  rw [ev, Res.bind_eq_ok] at h
  obtain ⟨⟨as, σ1⟩, h1, h2⟩ := h
  simp only at h2
  split at h2
  next hh => exact ⟨as, σ1, h1, hh, h2⟩
  · cases h2

theorem ev_ite_inv {c t f : E} (h : ev P (n + 1) ρ (.ite c t f) σ = .ok (vs, σ')) :
    ∃ v σ1, ev P n ρ c σ = .ok ([v], σ1) ∧ ((isFalse v = true ∧ ev P n ρ f σ1 = .ok (vs, σ')) ∨ (isFalse v = false ∧ ev P n ρ t σ1 = .ok (vs, σ'))) := by
  rw [ev, Res.bind_eq_ok] at h
  obtain ⟨⟨vs1, σ1⟩, h1, h2⟩ := h
  simp only [Res.bind_eq_ok] at h2
  obtain ⟨v, h2, h3⟩ := h2
  cases single_inv h2
  refine ⟨v, σ1, h1, ?_⟩
  split at h3
  next hh => exact .inl ⟨hh, h3⟩
  next hh => exact .inr ⟨by simpa using hh, h3⟩

theorem evArgs_cons_inv {e : E} {es : List E} (h : evArgs P (n + 1) ρ (e :: es) σ = .ok (vs, σ')) :
    ∃ v σ1 ws, ev P n ρ e σ = .ok ([v], σ1) ∧ evArgs P n ρ es σ1 = .ok (ws, σ') ∧ vs = v :: ws := by
  rw [evArgs, Res.bind_eq_ok] at h
  obtain ⟨⟨vs1, σ1⟩, h1, h2⟩ := h
  simp only [Res.bind_eq_ok] at h2
  obtain ⟨v, h2, ⟨ws, σ2⟩, h3, h4⟩ := h2
  cases single_inv h2
  cases h4
  exact ⟨v, σ1, ws, h1, h3, rfl⟩

theorem evArgs_nil_inv (h : evArgs P n ρ [] σ = .ok (vs, σ')) : vs = [] ∧ σ' = σ := by
  cases n with
  | zero => simp [evArgs] at h
  | succ n => rw [evArgs] at h; cases h; exact ⟨rfl, rfl⟩

theorem evArgs_length : ∀ {es : List E} {n : Nat} {σ σ' : RS} {vs : List RV}, evArgs P n ρ es σ = .ok (vs, σ') → vs.length = es.length
  | [], _, _, _, _, h => by rw [(evArgs_nil_inv h).1]; rfl
  | _ :: es, 0, _, _, _, h => by simp [evArgs] at h
  | _ :: es, n + 1, _, _, _, h => by
    obtain ⟨v, σ1, ws, _, h2, rfl⟩ := evArgs_cons_inv h
    simp [evArgs_length h2]

theorem applyR_clo_inv {cs : List Cl} {as : List RV} (h : applyR P (n + 1) (.clo (.clo ρ cs)) as σ = .ok (vs, σ')) :
    ∃ f es, select cs as.length = some (f, es) ∧ evBody P n (bindVals ρ σ f.ids (params f as)).1 es (bindVals ρ σ f.ids (params f as)).2 = .ok (vs, σ') := by
  rw [applyR] at h
  split at h
  · cases h
  next f es hs => exact ⟨f, es, hs, h⟩

/-- A call of a procedure with a fixed number of parameters. -/
theorem apply_fixed_inv {xs : List Sym} {es : List E} {as : List RV} (h : applyR P n (.clo (.clo ρ [.mk (fixed xs) es])) as σ = .ok (vs, σ')) :
    as.length = xs.length ∧ evBody P n (bindVals ρ σ xs as).1 es (bindVals ρ σ xs as).2 = .ok (vs, σ') := by
  cases n with
  | zero => simp [applyR] at h
  | succ n =>
    obtain ⟨f, es', hs, hb⟩ := applyR_clo_inv h
    simp only [select] at hs
    split at hs
    next ha =>
      cases hs
      refine ⟨?_, evBody_le (Nat.le_succ n) ?_⟩
      · simp [acceptsN] at ha; exact ha.symm
      · simpa [Formals.ids, params] using hb
    · cases hs

theorem ev_lam_inv {f : Formals} {es : List E} (h : ev P n ρ (.lam f es) σ = .ok (vs, σ')) : vs = [.clo (.clo ρ [.mk f es])] ∧ σ' = σ := by
  cases n with
  | zero => simp [ev] at h
  | succ n => rw [ev] at h; cases h; exact ⟨rfl, rfl⟩

theorem ev_begin_inv {es : List E} (h : ev P n ρ (.begin es) σ = .ok (vs, σ')) : evBody P n ρ es σ = .ok (vs, σ') := by
  cases n with
  | zero => simp [ev] at h
  | succ n => rw [ev] at h; exact evBody_le (Nat.le_succ n) h

theorem ev_mvvals_inv {es : List E} (h : ev P n ρ (.mvvals es) σ = .ok (vs, σ')) : evArgs P n ρ es σ = .ok (vs, σ') := by
  cases n with
  | zero => simp [ev] at h
  | succ n => rw [ev] at h; exact evArgs_le (Nat.le_succ n) h

theorem ev_var_inv {x : Sym} (h : ev P n ρ (.var x) σ = .ok (vs, σ')) : ∃ v, lookupR ρ σ x = .ok v ∧ vs = [v] ∧ σ' = σ := by
  cases n with
  | zero => simp [ev] at h
  | succ n =>
    rw [ev, Res.bind_eq_ok] at h
    obtain ⟨v, h1, h2⟩ := h
    cases h2
    exact ⟨v, h1, rfl, rfl⟩

theorem ev_app_inv' {f : E} {args : List E} (h : ev P n ρ (.app f args) σ = .ok (vs, σ')) :
    ∃ g σ1 as σ2, ev P n ρ f σ = .ok ([g], σ1) ∧ evArgs P n ρ args σ1 = .ok (as, σ2) ∧ applyR P n g as σ2 = .ok (vs, σ') := by
  cases n with
  | zero => simp [ev] at h
  | succ n =>
    obtain ⟨g, σ1, as, σ2, h1, h2, h3⟩ := ev_app_inv h
    exact ⟨g, σ1, as, σ2, ev_le (Nat.le_succ n) h1, evArgs_le (Nat.le_succ n) h2, applyR_le (Nat.le_succ n) h3⟩

theorem ev_ite_inv' {c t f : E} (h : ev P n ρ (.ite c t f) σ = .ok (vs, σ')) :
    ∃ v σ1, ev P n ρ c σ = .ok ([v], σ1) ∧ ((isFalse v = true ∧ ev P n ρ f σ1 = .ok (vs, σ')) ∨ (isFalse v = false ∧ ev P n ρ t σ1 = .ok (vs, σ'))) := by
  cases n with
  | zero => simp [ev] at h
  | succ n =>
    obtain ⟨v, σ1, h1, h2⟩ := ev_ite_inv h
    refine ⟨v, σ1, ev_le (Nat.le_succ n) h1, ?_⟩
    rcases h2 with ⟨a, b⟩ | ⟨a, b⟩
    · exact .inl ⟨a, ev_le (Nat.le_succ n) b⟩
    · exact .inr ⟨a, ev_le (Nat.le_succ n) b⟩

theorem evArgs_cons_inv' {e : E} {es : List E} (h : evArgs P n ρ (e :: es) σ = .ok (vs, σ')) :
    ∃ v σ1 ws, ev P n ρ e σ = .ok ([v], σ1) ∧ evArgs P n ρ es σ1 = .ok (ws, σ') ∧ vs = v :: ws := by
  cases n with
  | zero => simp [evArgs] at h
  | succ n =>
    obtain ⟨v, σ1, ws, h1, h2, h3⟩ := evArgs_cons_inv h
    exact ⟨v, σ1, ws, ev_le (Nat.le_succ n) h1, evArgs_le (Nat.le_succ n) h2, h3⟩

theorem evBody_cons_inv' {e e' : E} {es : List E} (h : evBody P n ρ (e :: e' :: es) σ = .ok (vs, σ')) :
    ∃ ws σ1, ev P n ρ e σ = .ok (ws, σ1) ∧ evBody P n ρ (e' :: es) σ1 = .ok (vs, σ') := by
  cases n with
  | zero => simp [evBody] at h
  | succ n =>
    rw [evBody, Res.bind_eq_ok] at h
    obtain ⟨⟨ws, σ1⟩, h1, h2⟩ := h
    exact ⟨ws, σ1, ev_le (Nat.le_succ n) h1, evBody_le (Nat.le_succ n) h2⟩

theorem evBody_one_inv' {e : E} (h : evBody P n ρ [e] σ = .ok (vs, σ')) : ev P n ρ e σ = .ok (vs, σ') := by
  cases n with
  | zero => simp [evBody] at h
  | succ n => rw [evBody] at h; exact ev_le (Nat.le_succ n) h

theorem evBds_cons_inv' {xs : List Sym} {e : E} {bs : List Bd} (h : evBds P n ρ (.mk xs e :: bs) σ = .ok (vs, σ')) :
    ∃ us σ1 ws, ev P n ρ e σ = .ok (us, σ1) ∧ us.length = xs.length ∧ bound us = true ∧ evBds P n ρ bs σ1 = .ok (ws, σ') ∧ vs = us ++ ws := by
  cases n with
  | zero => simp [evBds] at h
  | succ n =>
    rw [evBds, Res.bind_eq_ok] at h
    obtain ⟨⟨us, σ1⟩, h1, h2⟩ := h
    simp only at h2
    split at h2
    next hh =>
      rw [Res.bind_eq_ok] at h2
      obtain ⟨⟨ws, σ2⟩, h3, h4⟩ := h2
      cases h4
      refine ⟨us, σ1, ws, ev_le (Nat.le_succ n) h1, hh.1, hh.2, ?_, rfl⟩
      exact (mono_all P n).d h3
    · cases h2

theorem evBds_nil_inv (h : evBds P n ρ [] σ = .ok (vs, σ')) : vs = [] ∧ σ' = σ := by
  cases n with
  | zero => simp [evBds] at h
  | succ n => rw [evBds] at h; cases h; exact ⟨rfl, rfl⟩

theorem evRec_cons_inv' {xs : List Sym} {e : E} {bs : List Bd} (h : evRec P n ρ (.mk xs e :: bs) σ = .ok σ') :
    ∃ us σ1 σ2, ev P n ρ e σ = .ok (us, σ1) ∧ us.length = xs.length ∧ bound us = true ∧ assignsR ρ σ1 xs us = .ok σ2 ∧ evRec P n ρ bs σ2 = .ok σ' := by
  cases n with
  | zero => simp [evRec] at h
  | succ n =>
    rw [evRec, Res.bind_eq_ok] at h
    obtain ⟨⟨us, σ1⟩, h1, h2⟩ := h
    simp only at h2
    split at h2
    next hh =>
      rw [Res.bind_eq_ok] at h2
      obtain ⟨σ2, h3, h4⟩ := h2
      exact ⟨us, σ1, σ2, ev_le (Nat.le_succ n) h1, hh.1, hh.2, h3, (mono_all P n).r h4⟩
    · cases h2

theorem evRec_nil_inv (h : evRec P n ρ [] σ = .ok σ') : σ' = σ := by
  cases n with
  | zero => simp [evRec] at h
  | succ n => rw [evRec] at h; cases h; rfl

theorem atom_single {e : E} (ha : Atom e) (h : ev P n ρ e σ = .ok (vs, σ')) : ∃ v, vs = [v] := by
  cases n with
  | zero => simp [ev] at h
  | succ n =>
    cases e with
    | var x => obtain ⟨v, _, h, _⟩ := ev_var_inv h; exact ⟨v, h⟩
    | lit => rw [ev] at h; cases h; exact ⟨_, rfl⟩
    | quote => rw [ev] at h; cases h; exact ⟨_, rfl⟩
    | quoteSyntax => rw [ev] at h; cases h; exact ⟨_, rfl⟩
    | lam => rw [ev] at h; cases h; exact ⟨_, rfl⟩
    | _ => exact ha.elim

end

/-! ### Generated code -/

section
variable {ρ : REnv} {σ σ1 σ2 : RS} {vs : List RV}

theorem EvB.asExpr {es : List E} (h : EvB P ρ es σ vs σ1) : Evs P ρ (asExpr es) σ vs σ1 := by
  match es, h with
  | [], h => exact .begin h
  | [e], ⟨n, h⟩ => exact ⟨n, evBody_one_inv' h⟩
  | _ :: _ :: _, h => exact .begin h

theorem EvP.call {xs : List Sym} {es : List E} {as : List RV} (hl : as.length = xs.length)
    (h : EvB P (bindVals ρ σ xs as).1 es (bindVals ρ σ xs as).2 vs σ1) : EvP P (.clo (.clo ρ [.mk (fixed xs) es])) as σ vs σ1 := by
  refine .clo (f := Minim.Jit.fixed xs) (body := es) ?_ ?_
  · simp [select, acceptsN, hl]
  · simpa [Formals.ids, params] using h

theorem EvP.thunk {e : E} (h : Evs P ρ e σ vs σ1) : EvP P (.clo (.clo ρ [.mk (fixed []) [e]])) [] σ vs σ1 := EvP.call rfl (.one h)

theorem Evs.global {x : Sym} {c : RC} (hr : ρ x = none) (hg : σ.globs x = some (.clo c)) : Evs P ρ (.var x) σ [.clo c] σ :=
  .var (by simp [lookupR, hr, hg])

/-- `(call-with-values (lambda () e) (lambda (x ...) body ...))`. -/
theorem Evs.cwvLam {e : E} {xs : List Sym} {es : List E} {as : List RV} (hr : ρ .callWithValues = none) (hg : σ.globs .callWithValues = some (.clo .cwv))
    (h1 : Evs P ρ e σ as σ1) (hl : as.length = xs.length) (h2 : EvB P (bindVals ρ σ1 xs as).1 es (bindVals ρ σ1 xs as).2 vs σ2) :
    Evs P ρ (.app (.var .callWithValues) [.lam (fixed []) [e], .lam (fixed xs) es]) σ vs σ2 :=
  .app (.global hr hg) (.cons .lam (.cons .lam .nil)) (.cwv (.thunk h1) (.call hl h2))

theorem Evs.valuesCall {es : List E} {as : List RV} (hr : ρ .values = none) (hg : σ.globs .values = some (.clo .values)) (h1 : EvA P ρ es σ as σ1) :
    Evs P ρ (.app (.var .values) es) σ as σ1 := .app (.global hr hg) h1 .values

theorem EvA.unbounds : ∀ m : Nat, EvA P ρ (List.replicate m .unbound) σ (List.replicate m .unbound) σ
  | 0 => .nil
  | m + 1 => .cons .unbound (EvA.unbounds m)

theorem EvA.vars : ∀ {ts : List Sym} {us : List RV}, List.Forall₂ (fun t u => lookupR ρ σ t = .ok u) ts us → EvA P ρ (ts.map .var) σ us σ
  | _, _, .nil => .nil
  | _, _, .cons h hs => .cons (.var h) (EvA.vars hs)

end

end Minim.Jit
