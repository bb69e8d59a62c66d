import Verif.PassL1
import Verif.MachineProps

set_option autoImplicit false

/-!
# Programs: sequences of top-level forms
-/

namespace Minim.Jit

open Minim.Sx Minim.Core Relation

/-- Specification: the values of the forms of a program, evaluated one after the other at top level. -/
def runs (P : Prims) (n : Nat) : List E → RS → Res (List (List RV) × RS)
  | [], σ => .ok ([], σ)
  | e :: es, σ => do
    let (vs, σ) ← ev P n REnv.empty e σ
    let (vss, σ) ← runs P n es σ
    .ok (vs :: vss, σ)

/-- Specification: procedures an observer does not tell apart without calling them: of the same kind, and accepting the same numbers of arguments
(`call-with-values` may be a C function or a closure). -/
inductive SameC : RC → RC → Prop where
  | clo {ρ ρ' : REnv} {cs cs' : List Cl} : (∀ n, (select cs n).isSome = (select cs' n).isSome) → SameC (.clo ρ cs) (.clo ρ' cs')
  | prim (p n : Nat) : SameC (.prim p n) (.prim p n)
  | values : SameC .values .values
  | apply : SameC .apply .apply
  | cwv : SameC .cwv .cwv
  | cwvClo {ρ : REnv} {cs : List Cl} : (∀ n, (select cs n).isSome = decide (n = 2)) → SameC .cwv (.clo ρ cs)

/-- Specification: the same values, up to the code of procedures in them. -/
abbrev SameV : RV → RV → Prop := VRel SameC

/-- Specification: procedures that are no closures. -/
inductive Builtin : RC → RC → Prop where
  | prim (p n : Nat) : Builtin (.prim p n) (.prim p n)
  | values : Builtin .values .values
  | apply : Builtin .apply .apply
  | cwv : Builtin .cwv .cwv

/-- Specification: a store before any form is evaluated: no local variables; no closures among the values of the top-level variables; `values` and
`call-with-values` have their usual values. -/
structure Initial (σ : RS) : Prop where
  cells : σ.cells = []
  globs : ∀ x v, σ.globs x = some v → VRel Builtin v v
  values : σ.globs .values = some (.clo .values)
  cwv : σ.globs .callWithValues = some (.clo .cwv)

/-- Specification: the program `es'` does what `es` does whenever this ends without error: the forms have the same values, and so have the top-level variables
in the end. -/
def Preserved (P : Prims) (es es' : List E) : Prop :=
  ∀ σ n vss σ1, Initial σ → runs P n es σ = .ok (vss, σ1) →
    ∃ m vss' σ1', runs P m es' σ = .ok (vss', σ1') ∧ List.Forall₂ (List.Forall₂ SameV) vss vss' ∧ ∀ x, ORel SameV (σ1.globs x) (σ1'.globs x)

section
variable {P : Prims} {K : Kn} {F : Sym → Prop}

theorem runs_le {n m : Nat} (hnm : n ≤ m) : ∀ {es : List E} {σ : RS} {r : List (List RV) × RS}, runs P n es σ = .ok r → runs P m es σ = .ok r
  | [], _, _, h => h
  | e :: es, σ, r, h => by
    rw [runs] at h ⊢
    simp only [Res.bind_eq_ok] at h
    obtain ⟨⟨vs, σ1⟩, h1, ⟨vss, σ2⟩, h2, h⟩ := h
    simp only [ev_le hnm h1, Res.ok_bind, runs_le hnm h2]
    exact h

theorem EnvRel.emp (w : W) : EnvRel K F w REnv.empty REnv.empty := ⟨fun _ _ => trivial, fun _ _ => rfl, fun _ _ => rfl⟩

theorem prog_step (hN : Names K F) {n : Nat} : ∀ {es es' : List E} {σ σ1 σ' : RS} {vss : List (List RV)} {w : W}, runs P n es σ = .ok (vss, σ1) → TrL K F es es' → WfL K F es →
    SR K F w σ σ' → ∃ m vss' σ1' w1, runs P m es' σ' = .ok (vss', σ1') ∧ Post K F w σ σ' w1 σ1 σ1' ∧ List.Forall₂ (List.Forall₂ (PV K F w1)) vss vss'
  | _, _, σ, σ1, σ', vss, w, h, .nil, _, hs => by
    cases h
    exact ⟨0, [], σ', w, rfl, Post.refl hs, .nil⟩
  | e :: es, e' :: es', σ, σ1, σ', vss, w, h, .cons h1 h2, hw, hs => by
    rw [WfL] at hw
    rw [runs] at h
    simp only [Res.bind_eq_ok] at h
    obtain ⟨⟨vs, σa⟩, ha, ⟨wss, σb⟩, hb, h⟩ := h
    cases h
    obtain ⟨vs', σa', w1, ⟨m1, r1⟩, p1, v1⟩ := (sims P hN n).e ha hw.1 h1 (EnvRel.emp w) hs
    obtain ⟨m2, wss', σb', w2, r2, p2, v2⟩ := prog_step hN hb h2 hw.2 p1.sr
    refine ⟨m1 + m2, vs' :: wss', σb', w2, ?_, p1.trans p2, .cons (p2.pvs v1) v2⟩
    rw [runs, ev_le (n := m1 + m2) (by omega) r1]
    simp only [Res.ok_bind, runs_le (m := m1 + m2) (by omega) r2]

theorem TrC.arity {n : Nat} : ∀ {cs cs' : List Cl}, TrC K F cs cs' → (Minim.Jit.select cs n).isSome = (Minim.Jit.select cs' n).isSome
  | _, _, .nil => rfl
  | _, _, .cons _ h => by
    simp only [Minim.Jit.select]
    split
    · rfl
    · exact h.arity

theorem CR.same {w : W} {c c' : RC} (h : CR K F w c c') : SameC c c' := by
  cases h with
  | clo _ _ h => exact .clo fun n => h.arity
  | prim => exact .prim _ _
  | values => exact .values
  | apply => exact .apply
  | cwv => exact .cwv
  | cwvClo =>
    refine .cwvClo fun n => ?_
    simp only [select, acceptsN]
    by_cases h : n = 2
    · subst h; rfl
    · simp [h, Ne.symm h]

theorem SameC.trans {a b c : RC} (h : SameC a b) (h' : SameC b c) : SameC a c := by
  cases h with
  | clo h => cases h' with | clo h' => exact .clo fun n => (h n).trans (h' n)
  | prim => exact h'
  | values => exact h'
  | apply => exact h'
  | cwv => exact h'
  | cwvClo h => cases h' with | clo h' => exact .cwvClo fun n => (h' n).symm.trans (h n)

theorem SameC.refl (c : RC) : SameC c c := by
  cases c with
  | clo => exact .clo fun _ => rfl
  | prim => exact .prim _ _
  | values => exact .values
  | apply => exact .apply
  | cwv => exact .cwv

theorem VRel.trans {C C' C'' : Type} {R : C → C' → Prop} {S : C' → C'' → Prop} {T : C → C'' → Prop} (h : ∀ a b c, R a b → S b c → T a c) {v : V C} {v' : V C'} {v'' : V C''}
    (h1 : VRel R v v') (h2 : VRel S v' v'') : VRel T v v'' := by
  induction h1 generalizing v'' with
  | null => cases h2; exact .null
  | sym => cases h2; exact .sym _
  | lit => cases h2; exact .lit _
  | other => cases h2; exact .other _
  | stx => cases h2; exact .stx _
  | void => cases h2; exact .void
  | unbound => cases h2; exact .unbound
  | tenv => cases h2; exact .tenv _
  | cons _ _ i1 i2 => cases h2 with | cons a b => exact .cons (i1 a) (i2 b)
  | clo hc => cases h2 with | clo hd => exact .clo (h _ _ _ hc hd)

theorem SameV.trans {a b c : RV} (h : SameV a b) (h' : SameV b c) : SameV a c := VRel.trans (R := SameC) (S := SameC) (T := SameC) (fun _ _ _ a b => SameC.trans a b) h h'

theorem ORel.trans {α : Type} {R : α → α → Prop} (ht : ∀ a b c, R a b → R b c → R a c) : ∀ {a b c : Option α}, ORel R a b → ORel R b c → ORel R a c
  | none, none, none, _, _ => trivial
  | some _, some _, some _, h, h' => ht _ _ _ h h'

theorem Forall₂.trans {α : Type} {R : α → α → Prop} (ht : ∀ a b c, R a b → R b c → R a c) : ∀ {a b c : List α}, List.Forall₂ R a b → List.Forall₂ R b c → List.Forall₂ R a c
  | _, _, _, .nil, .nil => .nil
  | _, _, _, .cons h t, .cons h' t' => .cons (ht _ _ _ h h') (Forall₂.trans ht t t')

theorem Preserved.trans {es es' es'' : List E} (h : Preserved P es es') (h' : Preserved P es' es'') : Preserved P es es'' := by
  intro σ n vss σ1 hi hr
  obtain ⟨m, vss', σ1', r1, v1, g1⟩ := h σ n vss σ1 hi hr
  obtain ⟨m', vss'', σ1'', r2, v2, g2⟩ := h' σ m vss' σ1' hi r1
  exact ⟨m', vss'', σ1'', r2, Forall₂.trans (R := List.Forall₂ SameV) (fun _ _ _ h h' => Forall₂.trans (R := SameV) (fun _ _ _ a b => SameV.trans a b) h h') v1 v2,
    fun x => ORel.trans (R := SameV) (fun _ _ _ a b => SameV.trans a b) (g1 x) (g2 x)⟩

theorem Builtin.cr {w : W} {c c' : RC} (h : Builtin c c') : CR K F w c c' := by
  cases h with
  | prim => exact .prim _ _
  | values => exact .values
  | apply => exact .apply
  | cwv => exact .cwv

theorem Initial.sr {σ : RS} (h : Initial σ) : SR K F [] σ σ := by
  refine ⟨by rw [h.cells]; rfl, by simp, by simp, by simp, ?_, h.values, h.cwv⟩
  intro x
  cases hx : σ.globs x with
  | none => trivial
  | some v => exact VRel.mono (fun _ _ => Builtin.cr) (h.globs x v hx)

theorem step_preserved (hN : Names K F) {es es' : List E} (ht : TrL K F es es') (hw : WfL K F es) : Preserved P es es' := by
  intro σ n vss σ1 hi hr
  obtain ⟨m, vss', σ1', w1, r, p, v⟩ := prog_step hN hr ht hw hi.sr
  exact ⟨m, vss', σ1', r, v.imp fun _ _ h => h.imp fun _ _ => VRel.mono fun _ _ => CR.same, fun x => (p.sr.glob x).mono fun _ _ => VRel.mono fun _ _ => CR.same⟩

theorem steps_preserved (hN : Names K NoF) {es es' : List E} (ht : RewL K es es') (hw : WfL K NoF es) : Preserved P es es' := by
  have key : WfL K NoF es' ∧ Preserved P es es' := by
    induction ht with
    | refl => exact ⟨hw, step_preserved hN (TrL.refl K NoF es) hw⟩
    | tail _ h ih => exact ⟨h.wf hN ih.1, ih.2.trans (step_preserved hN h ih.1)⟩
  exact key.2

end

end Minim.Jit
