import Verif.FailSem

set_option autoImplicit false

/-!
# Programs whose variables are all defined (C104)

A specification of the variables an expression uses without binding them, and the invariants of evaluation it gives.
-/

namespace Minim.Jit

open Minim.Sx Minim.Core

mutual

/-- Specification: the variables the expression uses and does not bind.  `define-values` does not use the variables it defines. -/
def outer : E → List Sym
  | .var x => [x]
  | .lit _ | .quote _ | .quoteSyntax _ | .unbound => []
  | .define _ e => outer e
  | .set x e => x :: outer e
  | .ite c a b => outer c ++ (outer a ++ outer b)
  | .letv bs body => outerD bs ++ (outers body).filter (fun x => decide (x ∉ bdsIds bs))
  | .letrecv bs body => (outerD bs ++ outers body).filter (fun x => decide (x ∉ bdsIds bs))
  | .lam f body => (outers body).filter (fun x => decide (x ∉ f.ids))
  | .clam cs => outerC cs
  | .begin es => outers es
  | .app f args => outer f ++ outers args
  | .mvcall e c => outer e ++ outer c
  | .mvlet e xs body => outer e ++ (outer body).filter (fun x => decide (x ∉ xs))
  | .mvvals es => outers es

/-- Specification: the same for lists of expressions. -/
def outers : List E → List Sym
  | [] => []
  | e :: es => outer e ++ outers es

/-- Specification: the same for right-hand sides of bindings. -/
def outerD : List Bd → List Sym
  | [] => []
  | .mk _ e :: bs => outer e ++ outerD bs

/-- Specification: the same for clauses. -/
def outerC : List Cl → List Sym
  | [] => []
  | .mk f body :: cs => (outers body).filter (fun x => decide (x ∉ f.ids)) ++ outerC cs

end

/-- Specification: every one of the variables is local or known at top level. -/
def Known (G : Sym → Prop) (ρ : REnv) (xs : List Sym) : Prop := ∀ x ∈ xs, ρ x ≠ none ∨ G x

/-- Specification: the values made by programs that use no unknown variables; a closure knows the variables of its clauses. -/
def VS (G : Sym → Prop) : RV → Prop
  | .clo (.clo ρ cs) => Known G ρ (outerC cs)
  | .clo _ => True
  | .cons a d => VS G a ∧ VS G d
  | .values | .num _ | .cell _ | .undef => False
  | _ => True

/-- Specification: a store with such values. -/
def GoodV (G : Sym → Prop) (σ : RS) : Prop := (∀ v ∈ σ.cells, VS G v) ∧ ∀ x v, σ.globs x = some v → VS G v

/-- Specification: the second store has the top-level variables of the first, and maybe more. -/
def Grows (σ σ' : RS) : Prop := ∀ x, σ.globs x ≠ none → σ'.globs x ≠ none

/-- Specification: a part of an evaluation that uses no unknown variables. -/
def TaskS (G : Sym → Prop) : Task → Prop
  | .e ρ e => Known G ρ (outer e)
  | .b ρ es => Known G ρ (outers es)
  | .a ρ es => Known G ρ (outers es)
  | .d ρ bs => Known G ρ (outerD bs)
  | .r ρ bs => Known G ρ (outerD bs)
  | .p f vs => VS G f ∧ ∀ v ∈ vs, VS G v

/-- Specification: here the variable `x` is used or assigned, and does not exist. -/
def Unknown (x : Sym) (t : Task) (σ : RS) : Prop := ∃ ρ : REnv, ρ x = none ∧ σ.globs x = none ∧ (t = .e ρ (.var x) ∨ ∃ e, t = .e ρ (.set x e))

/-- Specification: the expressions of a file are evaluated one after the other at top level. -/
inductive Loads (P : Prims) : List E → RS → RS → Prop where
  | nil (σ : RS) : Loads P [] σ σ
  | cons {e : E} {es : List E} {σ σ1 σ2 : RS} {vs : List RV} : Evs P (fun _ => none) e σ vs σ1 → Loads P es σ1 σ2 → Loads P (e :: es) σ σ2

/-- Specification: the names a file defines. -/
def defines : List E → List Sym
  | [] => []
  | .define xs _ :: es => xs ++ defines es
  | _ :: es => defines es

/-! ### Lemmas -/

variable {G : Sym → Prop}

theorem Grows.refl (σ : RS) : Grows σ σ := fun _ h => h

theorem Grows.trans {a b c : RS} (h : Grows a b) (h' : Grows b c) : Grows a c := fun x hx => h' x (h x hx)

theorem Known.append {ρ : REnv} {xs ys : List Sym} : Known G ρ (xs ++ ys) ↔ Known G ρ xs ∧ Known G ρ ys := by
  simp only [Known, List.mem_append]
  exact ⟨fun h => ⟨fun x hx => h x (.inl hx), fun x hx => h x (.inr hx)⟩, fun h x hx => hx.elim (h.1 x) (h.2 x)⟩

theorem Known.cons {ρ : REnv} {x : Sym} {xs : List Sym} : Known G ρ (x :: xs) ↔ (ρ x ≠ none ∨ G x) ∧ Known G ρ xs := by
  simp [Known]

theorem known_nil {ρ : REnv} : Known G ρ [] := by simp [Known]

/-- The relation of values to themselves for which C functions are parametric. -/
def RSc (G : Sym → Prop) (c c' : RC) : Prop := c = c' ∧ VS G (.clo c)

theorem vs_iff : ∀ {v : RV}, VS G v ↔ VRel (RSc G) v v
  | .null => ⟨fun _ => .null, fun _ => trivial⟩
  | .sym s => ⟨fun _ => .sym s, fun _ => trivial⟩
  | .lit l => ⟨fun _ => .lit l, fun _ => trivial⟩
  | .other n => ⟨fun _ => .other n, fun _ => trivial⟩
  | .stx d => ⟨fun _ => .stx d, fun _ => trivial⟩
  | .void => ⟨fun _ => .void, fun _ => trivial⟩
  | .unbound => ⟨fun _ => .unbound, fun _ => trivial⟩
  | .tenv n => ⟨fun _ => .tenv n, fun _ => trivial⟩
  | .values => ⟨fun h => h.elim, fun h => by cases h⟩
  | .num _ => ⟨fun h => h.elim, fun h => by cases h⟩
  | .cell _ => ⟨fun h => h.elim, fun h => by cases h⟩
  | .undef => ⟨fun h => h.elim, fun h => by cases h⟩
  | .cons a d => by
    have ha := @vs_iff a
    have hd := @vs_iff d
    constructor
    · intro h
      rw [VS] at h
      exact .cons (ha.1 h.1) (hd.1 h.2)
    · intro h
      cases h with
      | cons h1 h2 => rw [VS]; exact ⟨ha.2 h1, hd.2 h2⟩
  | .clo c => by
    constructor
    · intro h; exact .clo ⟨rfl, h⟩
    · intro h
      cases h with
      | clo h => exact h.2

theorem vs_list {vs : List RV} (h : ∀ v ∈ vs, VS G v) : List.Forall₂ (VRel (RSc G)) vs vs := by
  induction vs with
  | nil => exact .nil
  | cons v vs ih => exact .cons (vs_iff.1 (h v (by simp))) (ih (fun w hw => h w (by simp [hw])))

theorem vs_prim {P : Prims} {p : Nat} {vs : List RV} {v : RV} (h : ∀ v ∈ vs, VS G v) (hp : P.f RC p vs = some v) : VS G v := by
  have := P.param (RSc G) p vs vs (vs_list h)
  rw [hp] at this
  exact vs_iff.2 this

theorem vs_ofX : ∀ (d : X), VS G (ofX d)
  | .null => trivial
  | .sym _ => trivial
  | .lit _ => trivial
  | .other _ => trivial
  | .cons a d => by rw [ofX, VS]; exact ⟨vs_ofX a, vs_ofX d⟩

theorem vs_listV : ∀ {vs : List RV}, (∀ v ∈ vs, VS G v) → VS G (listV vs)
  | [], _ => trivial
  | v :: vs, h => by rw [listV, VS]; exact ⟨h v (by simp), vs_listV (fun w hw => h w (by simp [hw]))⟩

theorem vs_unlist : ∀ {v : RV} {vs : List RV}, VS G v → unlist v = some vs → ∀ w ∈ vs, VS G w := by
  intro v
  induction v with
  | null => intro vs _ h w hw; simp only [unlist, Option.some.injEq] at h; subst h; simp at hw
  | cons a d _ ih =>
    intro vs hv h w hw
    rw [VS] at hv
    simp only [unlist, Option.map_eq_some_iff] at h
    obtain ⟨l, h1, rfl⟩ := h
    rcases List.mem_cons.1 hw with rfl | hw
    · exact hv.1
    · exact ih hv.2 h1 w hw
  | _ => intro vs _ h; simp [unlist] at h

theorem vs_spread : ∀ {vs as : List RV}, (∀ v ∈ vs, VS G v) → spread vs = some as → ∀ w ∈ as, VS G w
  | [], _, _, h => by simp [spread] at h
  | [l], as, hv, h => vs_unlist (hv l (by simp)) h
  | v :: w :: vs, as, hv, h => by
    simp only [spread, Option.map_eq_some_iff] at h
    obtain ⟨l, h1, rfl⟩ := h
    intro u hu
    rcases List.mem_cons.1 hu with rfl | hu
    · exact hv _ (by simp)
    · exact vs_spread (fun x hx => hv x (by simp at hx ⊢; tauto)) h1 u hu

theorem vs_params {f : Formals} {vs : List RV} (h : ∀ v ∈ vs, VS G v) : ∀ v ∈ params f vs, VS G v := by
  rw [params]
  split
  · intro v hv
    rcases List.mem_append.1 hv with hv | hv
    · exact h v (List.mem_of_mem_take hv)
    · rw [List.mem_singleton.1 hv]
      exact vs_listV (fun w hw => h w (List.mem_of_mem_drop hw))
  · exact h

theorem goodV_bind : ∀ {xs : List Sym} {vs : List RV} {ρ : REnv} {σ : RS}, GoodV G σ → (∀ v ∈ vs, VS G v) → GoodV G (bindVals ρ σ xs vs).2
  | [], vs, ρ, σ, h, _ => by cases vs <;> exact h
  | _ :: _, [], ρ, σ, h, _ => h
  | x :: xs, v :: vs, ρ, σ, h, hv => by
    rw [bindVals]
    refine goodV_bind ⟨fun w hw => ?_, h.2⟩ (fun w hw => hv w (by simp [hw]))
    rcases List.mem_append.1 hw with hw | hw
    · exact h.1 w hw
    · rw [List.mem_singleton.1 hw]; exact hv v (by simp)

theorem grows_bind : ∀ {xs : List Sym} {vs : List RV} {ρ : REnv} {σ : RS}, (bindVals ρ σ xs vs).2.globs = σ.globs
  | [], vs, ρ, σ => by cases vs <;> rfl
  | _ :: _, [], ρ, σ => rfl
  | x :: xs, v :: vs, ρ, σ => by rw [bindVals, grows_bind]

theorem bind_keeps : ∀ {xs : List Sym} {vs : List RV} {ρ : REnv} {σ : RS} {x : Sym}, ρ x ≠ none → (bindVals ρ σ xs vs).1 x ≠ none
  | [], vs, ρ, σ, x, h => by cases vs <;> exact h
  | _ :: _, [], ρ, σ, x, h => h
  | y :: xs, v :: vs, ρ, σ, x, h => by
    rw [bindVals]
    refine bind_keeps ?_
    rw [REnv.set]
    split
    · simp
    · exact h

theorem bind_binds : ∀ {xs : List Sym} {vs : List RV} {ρ : REnv} {σ : RS} {x : Sym}, vs.length = xs.length → x ∈ xs → (bindVals ρ σ xs vs).1 x ≠ none
  | [], _, _, _, _, _, h => by simp at h
  | y :: xs, [], _, _, _, h, _ => by simp at h
  | y :: xs, v :: vs, ρ, σ, x, h, hx => by
    rw [bindVals]
    by_cases hy : x ∈ xs
    · exact bind_binds (by simpa using h) hy
    · have : x = y := by rcases List.mem_cons.1 hx with h | h; exact h; exact absurd h hy
      refine bind_keeps ?_
      rw [REnv.set, if_pos this]
      simp

/-- The body of a binding construct. -/
theorem Known.bind {xs ys : List Sym} {vs : List RV} {ρ : REnv} {σ : RS} (hl : vs.length = xs.length)
    (h : Known G ρ (ys.filter (fun x => decide (x ∉ xs)))) : Known G (bindVals ρ σ xs vs).1 ys := by
  intro x hx
  by_cases hxs : x ∈ xs
  · exact .inl (bind_binds hl hxs)
  · rcases h x (by simp [hx, hxs]) with h | h
    · exact .inl (bind_keeps h)
    · exact .inr h

theorem goodV_setGlob {σ : RS} {x : Sym} {v : RV} (h : GoodV G σ) (hv : VS G v) : GoodV G (σ.setGlob x v) := by
  refine ⟨h.1, fun y w hw => ?_⟩
  simp only [RS.setGlob] at hw
  split at hw
  · cases hw; exact hv
  · exact h.2 y w hw

theorem grows_setGlob (σ : RS) (x : Sym) (v : RV) : Grows σ (σ.setGlob x v) := by
  intro y hy
  simp only [RS.setGlob]
  split
  · simp
  · exact hy

theorem goodV_setGlobs : ∀ {xs : List Sym} {vs : List RV} {σ : RS}, GoodV G σ → (∀ v ∈ vs, VS G v) → GoodV G (σ.setGlobs xs vs)
  | [], vs, σ, h, _ => by cases vs <;> exact h
  | _ :: _, [], σ, h, _ => h
  | x :: xs, v :: vs, σ, h, hv => by
    rw [RS.setGlobs]
    exact goodV_setGlobs (goodV_setGlob h (hv v (by simp))) (fun w hw => hv w (by simp [hw]))

theorem grows_setGlobs : ∀ {xs : List Sym} {vs : List RV} {σ : RS}, Grows σ (σ.setGlobs xs vs)
  | [], vs, σ => by cases vs <;> exact .refl _
  | _ :: _, [], σ => .refl _
  | x :: xs, v :: vs, σ => by
    rw [RS.setGlobs]
    exact (grows_setGlob σ x v).trans grows_setGlobs

theorem setGlobs_sets : ∀ {xs : List Sym} {vs : List RV} {σ : RS} {x : Sym}, vs.length = xs.length → x ∈ xs → (σ.setGlobs xs vs).globs x ≠ none
  | [], _, _, _, _, h => by simp at h
  | y :: xs, [], _, _, h, _ => by simp at h
  | y :: xs, v :: vs, σ, x, h, hx => by
    rw [RS.setGlobs]
    rcases List.mem_cons.1 hx with rfl | hx
    · refine grows_setGlobs x ?_
      simp [RS.setGlob]
    · exact setGlobs_sets (by simpa using h) hx

theorem assign_good {ρ : REnv} {σ σ' : RS} {x : Sym} {v : RV} (h : assignR ρ σ x v = .ok σ') (hg : GoodV G σ) (hv : VS G v) : GoodV G σ' ∧ Grows σ σ' := by
  rw [assignR] at h
  split at h
  · split at h
    · cases h
      refine ⟨⟨fun w hw => ?_, hg.2⟩, .refl _⟩
      rcases List.mem_or_eq_of_mem_set hw with hw | rfl
      · exact hg.1 w hw
      · exact hv
    · cases h
  · split at h
    · cases h
    · cases h
      exact ⟨goodV_setGlob hg hv, grows_setGlob _ _ _⟩

theorem assigns_good : ∀ {xs : List Sym} {vs : List RV} {ρ : REnv} {σ σ' : RS}, assignsR ρ σ xs vs = .ok σ' → GoodV G σ → (∀ v ∈ vs, VS G v) →
    GoodV G σ' ∧ Grows σ σ'
  | [], vs, ρ, σ, σ', h, hg, _ => by
    cases vs <;> (simp only [assignsR, Res.ok.injEq] at h; subst h; exact ⟨hg, .refl _⟩)
  | _ :: _, [], ρ, σ, σ', h, hg, _ => by simp only [assignsR, Res.ok.injEq] at h; subst h; exact ⟨hg, .refl _⟩
  | x :: xs, v :: vs, ρ, σ, σ', h, hg, hv => by
    rw [assignsR] at h
    obtain ⟨σ1, h1, h2⟩ := Res.bind_eq_ok.1 h
    obtain ⟨a, b⟩ := assign_good h1 hg (hv v (by simp))
    obtain ⟨c, d⟩ := assigns_good h2 a (fun w hw => hv w (by simp [hw]))
    exact ⟨c, b.trans d⟩

theorem single_eq {vs : List RV} {v : RV} (h : single vs = .ok v) : vs = [v] := by
  rcases single_cases vs with h' | ⟨w, hw, h'⟩
  · rw [h'] at h; cases h
  · rw [h'] at h; cases h; exact hw

/-- A clause that is selected. -/
theorem select_known {ρ : REnv} {f : Formals} {body : List E} : ∀ {cs : List Cl} {n : Nat}, select cs n = some (f, body) → Known G ρ (outerC cs) →
    Known G ρ ((outers body).filter (fun x => decide (x ∉ f.ids))) ∧ acceptsN f n = true
  | [], _, h, _ => by simp [select] at h
  | .mk f' body' :: cs, n, h, hk => by
    rw [outerC, Known.append] at hk
    rw [select] at h
    split at h
    · rename_i ha
      cases h
      exact ⟨hk.1, ha⟩
    · exact select_known h hk.2

theorem params_len {f : Formals} {vs : List RV} (h : acceptsN f vs.length = true) : (params f vs).length = f.ids.length := by
  rw [acceptsN] at h
  cases hr : f.rest <;> simp_all [params, Formals.ids]

/-- The invariants are kept by evaluation. -/
def KeepsAt (G : Sym → Prop) (P : Prims) (n : Nat) : Prop :=
  (∀ {ρ e σ vs σ'}, ev P n ρ e σ = .ok (vs, σ') → Known G ρ (outer e) → GoodV G σ → (∀ v ∈ vs, VS G v) ∧ GoodV G σ' ∧ Grows σ σ') ∧
  (∀ {ρ es σ vs σ'}, evBody P n ρ es σ = .ok (vs, σ') → Known G ρ (outers es) → GoodV G σ → (∀ v ∈ vs, VS G v) ∧ GoodV G σ' ∧ Grows σ σ') ∧
  (∀ {ρ es σ vs σ'}, evArgs P n ρ es σ = .ok (vs, σ') → Known G ρ (outers es) → GoodV G σ → (∀ v ∈ vs, VS G v) ∧ GoodV G σ' ∧ Grows σ σ') ∧
  (∀ {ρ bs σ vs σ'}, evBds P n ρ bs σ = .ok (vs, σ') → Known G ρ (outerD bs) → GoodV G σ →
    (∀ v ∈ vs, VS G v) ∧ GoodV G σ' ∧ Grows σ σ' ∧ vs.length = (bdsIds bs).length) ∧
  (∀ {ρ bs σ σ'}, evRec P n ρ bs σ = .ok σ' → Known G ρ (outerD bs) → GoodV G σ → GoodV G σ' ∧ Grows σ σ') ∧
  (∀ {f as σ vs σ'}, applyR P n f as σ = .ok (vs, σ') → VS G f → (∀ v ∈ as, VS G v) → GoodV G σ → (∀ v ∈ vs, VS G v) ∧ GoodV G σ' ∧ Grows σ σ')

theorem keeps (P : Prims) : ∀ n, KeepsAt G P n
  | 0 => by
    refine ⟨?_, ?_, ?_, ?_, ?_, ?_⟩ <;> intros <;> simp_all [ev, evBody, evArgs, evBds, evRec, applyR]
  | n + 1 => by
    obtain ⟨hE, hB, hA, hD, hR, hP⟩ := keeps P n
    refine ⟨?_, ?_, ?_, ?_, ?_, ?_⟩
    · intro ρ e σ vs σ' h hk hg
      cases e with
      | var x =>
        rw [ev] at h
        obtain ⟨v, h1, h2⟩ := Res.bind_eq_ok.1 h
        cases h2
        refine ⟨?_, hg, .refl _⟩
        intro w hw
        rw [List.mem_singleton.1 hw]
        rw [lookupR] at h1
        split at h1
        · cases h1
        · cases h1
        · rename_i v' _ hv'
          cases h1
          split at hv'
          · exact hg.1 _ (List.mem_of_getElem? hv')
          · exact hg.2 _ _ hv'
      | lit l => rw [ev] at h; cases h; exact ⟨by simp [VS], hg, .refl _⟩
      | quote d => rw [ev] at h; cases h; exact ⟨by simp [vs_ofX], hg, .refl _⟩
      | quoteSyntax d => rw [ev] at h; cases h; exact ⟨by simp [VS], hg, .refl _⟩
      | unbound => rw [ev] at h; cases h; exact ⟨by simp [VS], hg, .refl _⟩
      | define xs e =>
        rw [ev] at h
        obtain ⟨⟨ws, σ1⟩, h1, h2⟩ := Res.bind_eq_ok.1 h
        rw [outer] at hk
        obtain ⟨a, b, c⟩ := hE h1 hk hg
        dsimp only at h2
        split at h2
        · cases h2
          exact ⟨by simp [VS], goodV_setGlobs b a, c.trans grows_setGlobs⟩
        · cases h2
      | set x e =>
        rw [ev] at h
        obtain ⟨⟨ws, σ1⟩, h1, h2⟩ := Res.bind_eq_ok.1 h
        obtain ⟨v, h3, h4⟩ := Res.bind_eq_ok.1 h2
        obtain ⟨σ2, h5, h6⟩ := Res.bind_eq_ok.1 h4
        cases h6
        rw [outer, Known.cons] at hk
        obtain ⟨a, b, c⟩ := hE h1 hk.2 hg
        have := single_eq h3
        subst this
        obtain ⟨p, q⟩ := assign_good h5 b (a v (by simp))
        exact ⟨by simp [VS], p, c.trans q⟩
      | ite c a b =>
        rw [ev] at h
        obtain ⟨⟨ws, σ1⟩, h1, h2⟩ := Res.bind_eq_ok.1 h
        obtain ⟨v, h3, h4⟩ := Res.bind_eq_ok.1 h2
        rw [outer, Known.append, Known.append] at hk
        obtain ⟨_, g1, g2⟩ := hE h1 hk.1 hg
        split at h4
        · obtain ⟨x, y, z⟩ := hE h4 hk.2.2 g1
          exact ⟨x, y, g2.trans z⟩
        · obtain ⟨x, y, z⟩ := hE h4 hk.2.1 g1
          exact ⟨x, y, g2.trans z⟩
      | letv bs body =>
        rw [ev] at h
        obtain ⟨⟨ws, σ1⟩, h1, h2⟩ := Res.bind_eq_ok.1 h
        rw [outer, Known.append] at hk
        obtain ⟨a, b, c, d⟩ := hD h1 hk.1 hg
        obtain ⟨x, y, z⟩ := hB h2 (Known.bind d hk.2) (goodV_bind b a)
        refine ⟨x, y, fun w hw => z w ?_⟩
        rw [grows_bind]; exact c w hw
      | letrecv bs body =>
        rw [ev] at h
        dsimp only at h
        obtain ⟨σ1, h1, h2⟩ := Res.bind_eq_ok.1 h
        rw [outer] at hk
        have hk' := Known.bind (σ := σ) (vs := List.replicate (bdsIds bs).length .unbound) (by simp) hk
        rw [Known.append] at hk'
        have hg0 : GoodV G (bindVals ρ σ (bdsIds bs) (List.replicate (bdsIds bs).length .unbound)).2 :=
          goodV_bind hg (fun v hv => by rw [(List.mem_replicate.1 hv).2]; trivial)
        obtain ⟨b, c⟩ := hR h1 hk'.1 hg0
        obtain ⟨x, y, z⟩ := hB h2 hk'.2 b
        refine ⟨x, y, fun w hw => z w (c w ?_)⟩
        rw [grows_bind]; exact hw
      | lam f body =>
        rw [ev] at h
        cases h
        rw [outer] at hk
        refine ⟨?_, hg, .refl _⟩
        intro w hw
        rw [List.mem_singleton.1 hw, VS]
        simpa [outerC] using hk
      | clam cs =>
        rw [ev] at h
        cases h
        rw [outer] at hk
        refine ⟨?_, hg, .refl _⟩
        intro w hw
        rw [List.mem_singleton.1 hw, VS]
        exact hk
      | begin es =>
        rw [ev] at h
        rw [outer] at hk
        exact hB h hk hg
      | app f args =>
        rw [ev] at h
        obtain ⟨⟨ws, σ1⟩, h1, h2⟩ := Res.bind_eq_ok.1 h
        obtain ⟨v, h3, h4⟩ := Res.bind_eq_ok.1 h2
        obtain ⟨⟨as, σ2⟩, h5, h6⟩ := Res.bind_eq_ok.1 h4
        rw [outer, Known.append] at hk
        obtain ⟨a, b, c⟩ := hE h1 hk.1 hg
        have := single_eq h3
        subst this
        obtain ⟨d, e, f⟩ := hA h5 hk.2 b
        obtain ⟨x, y, z⟩ := hP h6 (a v (by simp)) d e
        exact ⟨x, y, c.trans (f.trans z)⟩
      | mvcall e c =>
        rw [ev] at h
        obtain ⟨⟨as, σ1⟩, h1, h2⟩ := Res.bind_eq_ok.1 h
        obtain ⟨⟨ws, σ2⟩, h3, h4⟩ := Res.bind_eq_ok.1 h2
        obtain ⟨v, h5, h6⟩ := Res.bind_eq_ok.1 h4
        rw [outer, Known.append] at hk
        obtain ⟨a, b, c⟩ := hE h1 hk.1 hg
        obtain ⟨d, e, f⟩ := hE h3 hk.2 b
        have := single_eq h5
        subst this
        obtain ⟨x, y, z⟩ := hP h6 (d v (by simp)) a e
        exact ⟨x, y, c.trans (f.trans z)⟩
      | mvlet e xs body =>
        rw [ev] at h
        obtain ⟨⟨ws, σ1⟩, h1, h2⟩ := Res.bind_eq_ok.1 h
        rw [outer, Known.append] at hk
        obtain ⟨a, b, c⟩ := hE h1 hk.1 hg
        dsimp only at h2
        split at h2
        · rename_i hl
          obtain ⟨x, y, z⟩ := hE h2 (Known.bind hl hk.2) (goodV_bind b a)
          refine ⟨x, y, fun w hw => z w ?_⟩
          rw [grows_bind]; exact c w hw
        · cases h2
      | mvvals es =>
        rw [ev] at h
        rw [outer] at hk
        exact hA h hk hg
    · intro ρ es σ vs σ' h hk hg
      match es with
      | [] => rw [evBody] at h; cases h; exact ⟨by simp [VS], hg, .refl _⟩
      | [e] =>
        rw [evBody] at h
        rw [outers, outers, List.append_nil] at hk
        exact hE h hk hg
      | e :: e' :: es =>
        rw [evBody] at h
        obtain ⟨⟨ws, σ1⟩, h1, h2⟩ := Res.bind_eq_ok.1 h
        rw [outers, Known.append] at hk
        obtain ⟨_, b, c⟩ := hE h1 hk.1 hg
        obtain ⟨x, y, z⟩ := hB h2 hk.2 b
        exact ⟨x, y, c.trans z⟩
    · intro ρ es σ vs σ' h hk hg
      match es with
      | [] => rw [evArgs] at h; cases h; exact ⟨by simp, hg, .refl _⟩
      | e :: es =>
        rw [evArgs] at h
        obtain ⟨⟨ws, σ1⟩, h1, h2⟩ := Res.bind_eq_ok.1 h
        obtain ⟨v, h3, h4⟩ := Res.bind_eq_ok.1 h2
        obtain ⟨⟨as, σ2⟩, h5, h6⟩ := Res.bind_eq_ok.1 h4
        cases h6
        rw [outers, Known.append] at hk
        obtain ⟨a, b, c⟩ := hE h1 hk.1 hg
        have := single_eq h3
        subst this
        obtain ⟨x, y, z⟩ := hA h5 hk.2 b
        refine ⟨?_, y, c.trans z⟩
        intro w hw
        rcases List.mem_cons.1 hw with rfl | hw
        · exact a _ (by simp)
        · exact x w hw
    · intro ρ bs σ vs σ' h hk hg
      match bs with
      | [] => rw [evBds] at h; cases h; exact ⟨by simp, hg, .refl _, rfl⟩
      | .mk xs e :: bs =>
        rw [evBds] at h
        obtain ⟨⟨ws, σ1⟩, h1, h2⟩ := Res.bind_eq_ok.1 h
        rw [outerD, Known.append] at hk
        obtain ⟨a, b, c⟩ := hE h1 hk.1 hg
        dsimp only at h2
        split at h2
        · rename_i hl
          obtain ⟨⟨us, σ2⟩, h3, h4⟩ := Res.bind_eq_ok.1 h2
          cases h4
          obtain ⟨x, y, z, l⟩ := hD h3 hk.2 b
          refine ⟨?_, y, c.trans z, by simp [bdsIds, Bd.ids, l, hl.1]⟩
          intro w hw
          rcases List.mem_append.1 hw with hw | hw
          · exact a w hw
          · exact x w hw
        · cases h2
    · intro ρ bs σ σ' h hk hg
      match bs with
      | [] => rw [evRec] at h; cases h; exact ⟨hg, .refl _⟩
      | .mk xs e :: bs =>
        rw [evRec] at h
        obtain ⟨⟨ws, σ1⟩, h1, h2⟩ := Res.bind_eq_ok.1 h
        rw [outerD, Known.append] at hk
        obtain ⟨a, b, c⟩ := hE h1 hk.1 hg
        dsimp only at h2
        split at h2
        · obtain ⟨σ2, h3, h4⟩ := Res.bind_eq_ok.1 h2
          obtain ⟨p, q⟩ := assigns_good h3 b a
          obtain ⟨y, z⟩ := hR h4 hk.2 p
          exact ⟨y, c.trans (q.trans z)⟩
        · cases h2
    · intro f as σ vs σ' h hf ha hg
      cases f with
      | clo c =>
        cases c with
        | clo ρ cs =>
          rw [applyR] at h
          split at h
          · cases h
          · rename_i f body hs
            rw [VS] at hf
            obtain ⟨k1, k2⟩ := select_known hs hf
            obtain ⟨x, y, z⟩ := hB h (Known.bind (params_len k2) k1) (goodV_bind hg (vs_params ha))
            refine ⟨x, y, fun w hw => z w ?_⟩
            rw [grows_bind]; exact hw
        | prim p k =>
          rw [applyR] at h
          split at h
          · split at h
            · cases h
            · rename_i v hv
              cases h
              refine ⟨?_, hg, .refl _⟩
              intro w hw
              rw [List.mem_singleton.1 hw]
              exact vs_prim ha hv
          · cases h
        | values => rw [applyR] at h; cases h; exact ⟨ha, hg, .refl _⟩
        | apply =>
          match as with
          | [] | [_] => simp [applyR] at h
          | f :: v :: ws =>
            rw [applyR] at h
            split at h
            · cases h
            · rename_i as hs
              exact hP h (ha f (by simp)) (vs_spread (fun w hw => ha w (by simp at hw ⊢; tauto)) hs) hg
        | cwv =>
          match as with
          | [] | [_] | _ :: _ :: _ :: _ => simp [applyR] at h
          | [p, c] =>
            rw [applyR] at h
            obtain ⟨⟨us, σ1⟩, h1, h2⟩ := Res.bind_eq_ok.1 h
            obtain ⟨a, b, c'⟩ := hP h1 (ha p (by simp)) (by simp) hg
            obtain ⟨x, y, z⟩ := hP h2 (ha c (by simp)) a b
            exact ⟨x, y, c'.trans z⟩
      | _ => simp [applyR] at h

/-- The invariants are kept from part to part. -/
theorem into_keeps {P : Prims} {t t' : Task} {σ σ' : RS} (h : Into P t σ t' σ') (ht : TaskS G t) (hg : GoodV G σ) : TaskS G t' ∧ GoodV G σ' ∧ Grows σ σ' := by
  cases h with
  | define xs e => exact ⟨ht, hg, .refl _⟩
  | set x e => exact ⟨(Known.cons.1 ht).2, hg, .refl _⟩
  | iteC c a b => exact ⟨(Known.append.1 ht).1, hg, .refl _⟩
  | iteT h1 _ =>
    obtain ⟨n, h1⟩ := h1
    obtain ⟨k1, k2⟩ := Known.append.1 ht
    obtain ⟨_, b, c⟩ := (keeps P n).1 h1 k1 hg
    exact ⟨(Known.append.1 k2).1, b, c⟩
  | iteE h1 _ =>
    obtain ⟨n, h1⟩ := h1
    obtain ⟨k1, k2⟩ := Known.append.1 ht
    obtain ⟨_, b, c⟩ := (keeps P n).1 h1 k1 hg
    exact ⟨(Known.append.1 k2).2, b, c⟩
  | letvB bs body => exact ⟨(Known.append.1 ht).1, hg, .refl _⟩
  | letv h1 =>
    obtain ⟨n, h1⟩ := h1
    obtain ⟨k1, k2⟩ := Known.append.1 ht
    obtain ⟨a, b, c, d⟩ := (keeps P n).2.2.2.1 h1 k1 hg
    exact ⟨Known.bind d k2, goodV_bind b a, fun x hx => by rw [grows_bind]; exact c x hx⟩
  | letrecvB bs body =>
    have hk := Known.bind (σ := σ) (vs := List.replicate (bdsIds bs).length .unbound) (by simp) ht
    exact ⟨(Known.append.1 hk).1, goodV_bind hg (fun v hv => by rw [(List.mem_replicate.1 hv).2]; trivial), fun x hx => by rw [grows_bind]; exact hx⟩
  | @letrecv ρ _ _ bs body h1 =>
    obtain ⟨n, h1⟩ := h1
    have hk := Known.bind (σ := σ) (vs := List.replicate (bdsIds bs).length .unbound) (by simp) ht
    obtain ⟨b, c⟩ := (keeps P n).2.2.2.2.1 h1 (Known.append.1 hk).1 (goodV_bind hg (fun v hv => by rw [(List.mem_replicate.1 hv).2]; trivial))
    exact ⟨(Known.append.1 hk).2, b, fun x hx => c x (by rw [grows_bind]; exact hx)⟩
  | begin es => exact ⟨ht, hg, .refl _⟩
  | appF f args => exact ⟨(Known.append.1 ht).1, hg, .refl _⟩
  | appA h1 =>
    obtain ⟨n, h1⟩ := h1
    obtain ⟨k1, k2⟩ := Known.append.1 ht
    obtain ⟨_, b, c⟩ := (keeps P n).1 h1 k1 hg
    exact ⟨k2, b, c⟩
  | app h1 h2 =>
    obtain ⟨n, h1⟩ := h1
    obtain ⟨m, h2⟩ := h2
    obtain ⟨k1, k2⟩ := Known.append.1 ht
    obtain ⟨a, b, c⟩ := (keeps P n).1 h1 k1 hg
    obtain ⟨d, e, f⟩ := (keeps P m).2.2.1 h2 k2 b
    exact ⟨⟨a _ (by simp), d⟩, e, c.trans f⟩
  | mvcallP e c => exact ⟨(Known.append.1 ht).1, hg, .refl _⟩
  | mvcallC h1 =>
    obtain ⟨n, h1⟩ := h1
    obtain ⟨k1, k2⟩ := Known.append.1 ht
    obtain ⟨_, b, c⟩ := (keeps P n).1 h1 k1 hg
    exact ⟨k2, b, c⟩
  | mvcall h1 h2 =>
    obtain ⟨n, h1⟩ := h1
    obtain ⟨m, h2⟩ := h2
    obtain ⟨k1, k2⟩ := Known.append.1 ht
    obtain ⟨a, b, c⟩ := (keeps P n).1 h1 k1 hg
    obtain ⟨d, e, f⟩ := (keeps P m).1 h2 k2 b
    exact ⟨⟨d _ (by simp), a⟩, e, c.trans f⟩
  | mvletP e xs body => exact ⟨(Known.append.1 ht).1, hg, .refl _⟩
  | mvlet h1 hl =>
    obtain ⟨n, h1⟩ := h1
    obtain ⟨k1, k2⟩ := Known.append.1 ht
    obtain ⟨a, b, c⟩ := (keeps P n).1 h1 k1 hg
    exact ⟨Known.bind hl k2, goodV_bind b a, fun x hx => by rw [grows_bind]; exact c x hx⟩
  | mvvals es => exact ⟨ht, hg, .refl _⟩
  | last e => exact ⟨(Known.append.1 ht).1, hg, .refl _⟩
  | first e e' es => exact ⟨(Known.append.1 ht).1, hg, .refl _⟩
  | rest h1 =>
    obtain ⟨n, h1⟩ := h1
    obtain ⟨k1, k2⟩ := Known.append.1 ht
    obtain ⟨_, b, c⟩ := (keeps P n).1 h1 k1 hg
    exact ⟨k2, b, c⟩
  | arg e es => exact ⟨(Known.append.1 ht).1, hg, .refl _⟩
  | args h1 =>
    obtain ⟨n, h1⟩ := h1
    obtain ⟨k1, k2⟩ := Known.append.1 ht
    obtain ⟨_, b, c⟩ := (keeps P n).1 h1 k1 hg
    exact ⟨k2, b, c⟩
  | bd xs e bs => exact ⟨(Known.append.1 ht).1, hg, .refl _⟩
  | bds h1 _ _ =>
    obtain ⟨n, h1⟩ := h1
    obtain ⟨k1, k2⟩ := Known.append.1 ht
    obtain ⟨_, b, c⟩ := (keeps P n).1 h1 k1 hg
    exact ⟨k2, b, c⟩
  | rd xs e bs => exact ⟨(Known.append.1 ht).1, hg, .refl _⟩
  | rds h1 _ _ h2 =>
    obtain ⟨n, h1⟩ := h1
    obtain ⟨k1, k2⟩ := Known.append.1 ht
    obtain ⟨a, b, c⟩ := (keeps P n).1 h1 k1 hg
    obtain ⟨d, e⟩ := assigns_good h2 b a
    exact ⟨k2, d, c.trans e⟩
  | clo h1 =>
    obtain ⟨k1, k2⟩ := select_known h1 ht.1
    exact ⟨Known.bind (params_len k2) k1, goodV_bind hg (vs_params ht.2), fun x hx => by rw [grows_bind]; exact hx⟩
  | apply h1 => exact ⟨⟨ht.2 _ (by simp), vs_spread (fun w hw => ht.2 w (by simp at hw ⊢; tauto)) h1⟩, hg, .refl _⟩
  | cwvP p c => exact ⟨⟨ht.2 _ (by simp), by simp⟩, hg, .refl _⟩
  | cwv h1 =>
    obtain ⟨n, h1⟩ := h1
    obtain ⟨a, b, c⟩ := (keeps P n).2.2.2.2.2 h1 (ht.2 _ (by simp)) (by simp) hg
    exact ⟨⟨ht.2 _ (by simp), a⟩, b, c⟩

theorem intos_keep {P : Prims} {t t' : Task} {σ σ' : RS} (h : Intos P t σ t' σ') (ht : TaskS G t) (hg : GoodV G σ) : TaskS G t' ∧ GoodV G σ' ∧ Grows σ σ' := by
  induction h with
  | refl => exact ⟨ht, hg, .refl _⟩
  | step h1 _ ih =>
    obtain ⟨a, b, c⟩ := into_keeps h1 ht hg
    obtain ⟨d, e, f⟩ := ih a b
    exact ⟨d, e, c.trans f⟩

/-- An unknown variable that is met was among those used from the beginning, and did not exist then. -/
theorem intos_known {P : Prims} {t t' : Task} {σ σ' : RS} (h : Intos P t σ t' σ') (ht : TaskS G t) (hg : GoodV G σ) {x : Sym} (hu : Unknown x t' σ') :
    G x ∧ σ.globs x = none := by
  obtain ⟨a, _, c⟩ := intos_keep h ht hg
  obtain ⟨ρ, h1, h2, h3⟩ := hu
  refine ⟨?_, Classical.byContradiction fun hn => c x hn h2⟩
  rcases h3 with rfl | ⟨e, rfl⟩
  · rcases a x (by rw [outer]; simp) with h | h
    · exact absurd h1 h
    · exact h
  · rcases a x (by rw [outer]; simp) with h | h
    · exact absurd h1 h
    · exact h

/-- Loading keeps the invariants and defines the names. -/
theorem loads_keep {P : Prims} {es : List E} {σ σ' : RS} (h : Loads P es σ σ') (hk : ∀ e ∈ es, ∀ x ∈ outer e, G x) (hg : GoodV G σ) :
    GoodV G σ' ∧ Grows σ σ' ∧ ∀ x ∈ defines es, σ'.globs x ≠ none := by
  induction h with
  | nil => exact ⟨hg, .refl _, by simp [defines]⟩
  | @cons e es σ σ1 σ2 vs h1 h2 ih =>
    obtain ⟨n, h1⟩ := h1
    obtain ⟨a, b, c⟩ := (keeps P n).1 h1 (fun x hx => .inr (hk e (by simp) x hx)) hg
    obtain ⟨d, f, g⟩ := ih (fun e he => hk e (by simp [he])) b
    refine ⟨d, c.trans f, ?_⟩
    cases e with
    | define xs e =>
      intro x hx
      rw [defines] at hx
      rcases List.mem_append.1 hx with hx | hx
      · refine f x ?_
        cases n with
        | zero => rw [ev] at h1; cases h1
        | succ n =>
          rw [ev] at h1
          obtain ⟨⟨ws, σ3⟩, _, h4⟩ := Res.bind_eq_ok.1 h1
          dsimp only at h4
          split at h4
          · rename_i hl
            cases h4
            exact setGlobs_sets hl hx
          · cases h4
      · exact g x hx
    | _ => exact g

end Minim.Jit
