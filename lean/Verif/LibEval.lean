import Verif.LibFix

set_option autoImplicit false

/-!
# Evaluating expressions without naming stores (C108)

The judgements of this file say that an expression has a value in every store that extends a given one: cells may have been added and top-level variables outside `Q` may have changed.  Their rules follow the syntax.
-/

namespace Minim.Fix

open Minim.Sx Minim.Core Minim.Jit

/-- Specification: a later store: cells are added, the top-level variables of `Q` are the same. -/
structure Sub (Q : Sym → Prop) (σ τ : RS) : Prop where
  cells : σ.cells <+: τ.cells
  globs : ∀ x, Q x → τ.globs x = σ.globs x

/-- Specification: the environment has the variables of the list with these values, and no others. -/
def Env (σ : RS) (ρ : REnv) (Γ : List (Sym × RV)) : Prop :=
  ∀ x, match Γ.lookup x with
    | some v => v ≠ .unbound ∧ ∃ c, ρ x = some c ∧ σ.cells[c]? = some v
    | none => ρ x = none

variable (P : Prims) (Q : Sym → Prop)

/-- Specification: in every later store the expression has the value `v`, and only cells are added. -/
def ZE (σ : RS) (Γ : List (Sym × RV)) (e : E) (v : RV) : Prop := ∀ τ ρ, Sub Q σ τ → Env τ ρ Γ → ∃ τ', Evs P ρ e τ [v] τ' ∧ Sub Q τ τ'

/-- Specification: the same of a sequence. -/
def ZB (σ : RS) (Γ : List (Sym × RV)) (es : List E) (v : RV) : Prop := ∀ τ ρ, Sub Q σ τ → Env τ ρ Γ → ∃ τ', EvB P ρ es τ [v] τ' ∧ Sub Q τ τ'

/-- Specification: the same of arguments. -/
def ZA (σ : RS) (Γ : List (Sym × RV)) (es : List E) (vs : List RV) : Prop := ∀ τ ρ, Sub Q σ τ → Env τ ρ Γ → ∃ τ', EvA P ρ es τ vs τ' ∧ Sub Q τ τ'

/-- Specification: the same of an application. -/
def ZP (σ : RS) (f : RV) (vs : List RV) (v : RV) : Prop := ∀ τ, Sub Q σ τ → ∃ τ', EvP P f vs τ [v] τ' ∧ Sub Q τ τ'

/-- Specification: in every later store the top-level variable has the value `v`. -/
def Gl (σ : RS) (x : Sym) (v : RV) : Prop := Q x ∧ σ.globs x = some v

variable {P Q}

/-- Specification: a closure of these clauses whose environment has these variables. -/
def IsClo (σ : RS) (Γ : List (Sym × RV)) (cs : List Cl) (g : RV) : Prop := ∃ ρ, g = .clo (.clo ρ cs) ∧ Env σ ρ Γ

theorem Sub.refl (σ : RS) : Sub Q σ σ := ⟨List.prefix_rfl, fun _ _ => rfl⟩

theorem Sub.trans {a b c : RS} (h : Sub Q a b) (h' : Sub Q b c) : Sub Q a c := ⟨h.cells.trans h'.cells, fun x hx => (h'.globs x hx).trans (h.globs x hx)⟩

theorem Sub.cell {σ τ : RS} (h : Sub Q σ τ) {c : Nat} {v : RV} (hc : σ.cells[c]? = some v) : τ.cells[c]? = some v := by
  obtain ⟨l, hl⟩ := h.cells
  rw [← hl, List.getElem?_append_left]
  · exact hc
  · by_contra hn
    rw [List.getElem?_eq_none (by omega)] at hc
    cases hc

theorem Env.mono {σ τ : RS} {ρ : REnv} {Γ : List (Sym × RV)} (h : Env σ ρ Γ) (hs : Sub Q σ τ) : Env τ ρ Γ := by
  intro x
  have := h x
  revert this
  split
  · rintro ⟨h1, c, h2, h3⟩
    exact ⟨h1, c, h2, hs.cell h3⟩
  · exact id

theorem IsClo.mono {σ τ : RS} {Γ : List (Sym × RV)} {cs : List Cl} {g : RV} (h : IsClo σ Γ cs g) (hs : Sub Q σ τ) : IsClo τ Γ cs g := by
  obtain ⟨ρ, h1, h2⟩ := h
  exact ⟨ρ, h1, h2.mono hs⟩

theorem Gl.mono {σ τ : RS} {x : Sym} {v : RV} (h : Gl Q σ x v) (hs : Sub Q σ τ) : Gl Q τ x v := ⟨h.1, (hs.globs x h.1).trans h.2⟩

theorem ZE.mono {σ τ : RS} {Γ : List (Sym × RV)} {e : E} {v : RV} (h : ZE P Q σ Γ e v) (hs : Sub Q σ τ) : ZE P Q τ Γ e v := fun _ _ h1 h2 => h _ _ (hs.trans h1) h2

theorem ZP.mono {σ τ : RS} {f : RV} {vs : List RV} {v : RV} (h : ZP P Q σ f vs v) (hs : Sub Q σ τ) : ZP P Q τ f vs v := fun _ h1 => h _ (hs.trans h1)

/-- One new variable. -/
theorem env_set {σ : RS} {ρ : REnv} {Γ : List (Sym × RV)} {x : Sym} {v : RV} (h : Env σ ρ Γ) (hv : v ≠ .unbound) :
    Env { σ with cells := σ.cells ++ [v] } (ρ.set x σ.cells.length) ((x, v) :: Γ) := by
  intro y
  rw [List.lookup_cons]
  by_cases hy : y = x
  · subst hy
    simp only [BEq.rfl]
    exact ⟨hv, _, by rw [REnv.set, if_pos rfl], by simp⟩
  · have hb : (y == x) = false := by simpa using hy
    rw [hb]
    have := h y
    revert this
    simp only
    split
    · rintro ⟨h1, c, h2, h3⟩
      refine ⟨h1, c, by rw [REnv.set, if_neg hy]; exact h2, ?_⟩
      exact (Sub.cell (Q := fun _ => False) (τ := { σ with cells := σ.cells ++ [v] }) ⟨List.prefix_append _ _, fun _ h => h.elim⟩ h3)
    · intro h
      rw [REnv.set, if_neg hy]; exact h

theorem sub_add {σ : RS} {v : RV} : Sub Q σ { σ with cells := σ.cells ++ [v] } := ⟨List.prefix_append _ _, fun _ _ => rfl⟩

/-- Specification: several new variables. -/
def binds : List Sym → List RV → List (Sym × RV) → List (Sym × RV)
  | x :: xs, v :: vs, Γ => binds xs vs ((x, v) :: Γ)
  | _, _, Γ => Γ

theorem env_bind : ∀ {xs : List Sym} {vs : List RV} {σ : RS} {ρ : REnv} {Γ : List (Sym × RV)}, Env σ ρ Γ → (∀ v ∈ vs, v ≠ .unbound) →
    Env (bindVals ρ σ xs vs).2 (bindVals ρ σ xs vs).1 (binds xs vs Γ) ∧ Sub Q σ (bindVals ρ σ xs vs).2
  | [], vs, σ, ρ, Γ, h, _ => by cases vs <;> exact ⟨h, .refl _⟩
  | _ :: _, [], σ, ρ, Γ, h, _ => ⟨h, .refl _⟩
  | x :: xs, v :: vs, σ, ρ, Γ, h, hv => by
    rw [bindVals, binds]
    obtain ⟨a, b⟩ := env_bind (xs := xs) (vs := vs) (env_set (x := x) h (hv v (by simp))) (fun w hw => hv w (by simp [hw]))
    exact ⟨a, sub_add.trans b⟩

/-! ### Rules -/

variable {σ : RS} {Γ : List (Sym × RV)}

theorem ZE.loc {x : Sym} {v : RV} (h : Γ.lookup x = some v) : ZE P Q σ Γ (.var x) v := by
  intro τ ρ hs he
  have := he x
  rw [h] at this
  obtain ⟨hv, c, h1, h2⟩ := this
  refine ⟨τ, Evs.var ?_, .refl _⟩
  rw [lookupR, h1]
  simp only [h2]

theorem ZE.glob {x : Sym} {v : RV} (h : Γ.lookup x = none) (hg : Gl Q σ x v) (hv : v ≠ .unbound) : ZE P Q σ Γ (.var x) v := by
  intro τ ρ hs he
  have := he x
  rw [h] at this
  refine ⟨τ, Evs.var ?_, .refl _⟩
  rw [lookupR, this]
  simp only [(hg.mono hs).2]

theorem ZE.lit {l : Lit} : ZE P Q σ Γ (.lit l) (.lit l) := fun τ _ _ _ => ⟨τ, Evs.lit, .refl _⟩

theorem ZE.quote {d : X} : ZE P Q σ Γ (.quote d) (ofX d) := fun τ _ _ _ => ⟨τ, Evs.quote, .refl _⟩

theorem ZE.yes {c a b : E} {w v : RV} (hc : ZE P Q σ Γ c w) (hw : isFalse w = false) (ha : ZE P Q σ Γ a v) : ZE P Q σ Γ (.ite c a b) v := by
  intro τ ρ hs he
  obtain ⟨τ1, h1, s1⟩ := hc τ ρ hs he
  obtain ⟨τ2, h2, s2⟩ := ha τ1 ρ (hs.trans s1) (he.mono s1)
  exact ⟨τ2, Evs.ite_true h1 hw h2, s1.trans s2⟩

theorem ZE.no {c a b : E} {w v : RV} (hc : ZE P Q σ Γ c w) (hw : isFalse w = true) (hb : ZE P Q σ Γ b v) : ZE P Q σ Γ (.ite c a b) v := by
  intro τ ρ hs he
  obtain ⟨τ1, h1, s1⟩ := hc τ ρ hs he
  obtain ⟨τ2, h2, s2⟩ := hb τ1 ρ (hs.trans s1) (he.mono s1)
  exact ⟨τ2, Evs.ite_false h1 hw h2, s1.trans s2⟩

theorem ZE.app {f : E} {args : List E} {g : RV} {vs : List RV} {v : RV} (hf : ZE P Q σ Γ f g) (ha : ZA P Q σ Γ args vs) (hp : ZP P Q σ g vs v) : ZE P Q σ Γ (.app f args) v := by
  intro τ ρ hs he
  obtain ⟨τ1, h1, s1⟩ := hf τ ρ hs he
  obtain ⟨τ2, h2, s2⟩ := ha τ1 ρ (hs.trans s1) (he.mono s1)
  obtain ⟨τ3, h3, s3⟩ := hp τ2 ((hs.trans s1).trans s2)
  exact ⟨τ3, Evs.app h1 h2 h3, (s1.trans s2).trans s3⟩

theorem ZE.begin {es : List E} {v : RV} (h : ZB P Q σ Γ es v) : ZE P Q σ Γ (.begin es) v := by
  intro τ ρ hs he
  obtain ⟨τ1, h1, s1⟩ := h τ ρ hs he
  exact ⟨τ1, Evs.begin h1, s1⟩

theorem ZA.nil : ZA P Q σ Γ [] [] := fun τ _ _ _ => ⟨τ, EvA.nil, .refl _⟩

theorem ZA.cons {e : E} {es : List E} {v : RV} {vs : List RV} (h : ZE P Q σ Γ e v) (ht : ZA P Q σ Γ es vs) : ZA P Q σ Γ (e :: es) (v :: vs) := by
  intro τ ρ hs he
  obtain ⟨τ1, h1, s1⟩ := h τ ρ hs he
  obtain ⟨τ2, h2, s2⟩ := ht τ1 ρ (hs.trans s1) (he.mono s1)
  exact ⟨τ2, EvA.cons h1 h2, s1.trans s2⟩

theorem ZB.one {e : E} {v : RV} (h : ZE P Q σ Γ e v) : ZB P Q σ Γ [e] v := by
  intro τ ρ hs he
  obtain ⟨τ1, h1, s1⟩ := h τ ρ hs he
  exact ⟨τ1, EvB.one h1, s1⟩

theorem ZB.cons {e e' : E} {es : List E} {w v : RV} (h : ZE P Q σ Γ e w) (ht : ZB P Q σ Γ (e' :: es) v) : ZB P Q σ Γ (e :: e' :: es) v := by
  intro τ ρ hs he
  obtain ⟨τ1, h1, s1⟩ := h τ ρ hs he
  obtain ⟨τ2, h2, s2⟩ := ht τ1 ρ (hs.trans s1) (he.mono s1)
  exact ⟨τ2, EvB.cons h1 h2, s1.trans s2⟩

theorem ZP.prim {p k : Nat} {vs : List RV} {v : RV} (hl : vs.length = k ∧ k ≤ 6) (h : P.f RC p vs = some v) : ZP P Q σ (.clo (.prim p k)) vs v :=
  fun τ _ => ⟨τ, EvP.prim hl h, .refl _⟩

theorem ZP.clo {cs : List Cl} {g : RV} {vs : List RV} {v : RV} {f : Formals} {body : List E} (hg : IsClo σ Γ cs g) (hs : select cs vs.length = some (f, body))
    (hv : ∀ v ∈ params f vs, v ≠ .unbound) (hb : ZB P Q σ (binds f.ids (params f vs) Γ) body v) : ZP P Q σ g vs v := by
  obtain ⟨ρ, rfl, he⟩ := hg
  intro τ hτ
  obtain ⟨a, b⟩ := env_bind (Q := Q) (xs := f.ids) (vs := params f vs) (he.mono hτ) hv
  obtain ⟨τ1, h1, s1⟩ := hb _ _ (hτ.trans b) a
  exact ⟨τ1, EvP.clo hs h1, b.trans s1⟩

theorem ZP.apply {f l : RV} {ws vs : List RV} {v : RV} (hs : spread (l :: ws) = some vs) (h : ZP P Q σ f vs v) : ZP P Q σ (.clo .apply) (f :: l :: ws) v := by
  intro τ hτ
  obtain ⟨τ1, h1, s1⟩ := h τ hτ
  exact ⟨τ1, EvP.apply hs h1, s1⟩

/-- A closure made at top level. -/
theorem isClo_top {cs : List Cl} : IsClo σ [] cs (.clo (.clo (fun _ => none) cs)) := ⟨_, rfl, fun _ => rfl⟩

theorem bound_one {v : RV} (h : v ≠ .unbound) : bound [v] = true := by cases v <;> simp_all [bound]

/-- `let-values` of one variable. -/
theorem ZE.let1 {x : Sym} {e : E} {body : List E} {w v : RV} (h : ZE P Q σ Γ e w) (hw : w ≠ .unbound) (hb : ZB P Q σ ((x, w) :: Γ) body v) : ZE P Q σ Γ (.letv [.mk [x] e] body) v := by
  intro τ ρ hs he
  obtain ⟨τ1, ⟨n, h1⟩, s1⟩ := h τ ρ hs he
  obtain ⟨τ2, ⟨m, h2⟩, s2⟩ := hb _ _ ((hs.trans s1).trans sub_add) (env_set (x := x) (he.mono s1) hw)
  refine ⟨τ2, ⟨n + m + 2 + 1, ?_⟩, (s1.trans sub_add).trans s2⟩
  rw [ev, evBds, ev_le (n := n + m + 1) (by omega) h1]
  simp only [Res.ok_bind, List.length_cons, List.length_nil, bound_one hw, and_self, if_true, evBds, List.append_nil, bdsIds, Bd.ids, bindVals]
  exact evBody_le (by omega) h2

/-- `let-values` of a procedure. -/
theorem ZE.letLam {x : Sym} {f : Formals} {lb body : List E} {v : RV} (hb : ∀ τ g, Sub Q σ τ → IsClo τ Γ [.mk f lb] g → ZB P Q τ ((x, g) :: Γ) body v) :
    ZE P Q σ Γ (.letv [.mk [x] (.lam f lb)] body) v := by
  intro τ ρ hs he
  have hw : (.clo (.clo ρ [.mk f lb]) : RV) ≠ .unbound := nofun
  obtain ⟨τ2, ⟨m, h2⟩, s2⟩ := hb τ _ hs ⟨ρ, rfl, he⟩ _ _ sub_add (env_set (x := x) he hw)
  refine ⟨τ2, ⟨m + 3, ?_⟩, sub_add.trans s2⟩
  rw [ev, evBds, ev]
  simp only [Res.ok_bind, List.length_cons, List.length_nil, bound, and_self, if_true, evBds, List.append_nil, bdsIds, Bd.ids, bindVals]
  exact evBody_le (by omega) h2

/-- `let-values` of nothing. -/
theorem ZE.let0 {body : List E} {v : RV} (hb : ZB P Q σ Γ body v) : ZE P Q σ Γ (.letv [] body) v := by
  intro τ ρ hs he
  obtain ⟨τ2, ⟨m, h2⟩, s2⟩ := hb τ ρ hs he
  refine ⟨τ2, ⟨m + 1 + 1, ?_⟩, s2⟩
  rw [ev, evBds]
  simp only [Res.ok_bind, bdsIds, bindVals]
  exact evBody_le (by omega) h2

/-- `letrec-values` of one procedure. -/
theorem ZE.loop {x : Sym} {f : Formals} {lb body : List E} {v : RV} (hb : ∀ τ g, Sub Q σ τ → IsClo τ ((x, g) :: Γ) [.mk f lb] g → ZB P Q τ ((x, g) :: Γ) body v) :
    ZE P Q σ Γ (.letrecv [.mk [x] (.lam f lb)] body) v := by
  intro τ ρ hs he
  let g : RV := .clo (.clo (ρ.set x τ.cells.length) [.mk f lb])
  have hg : g ≠ .unbound := nofun
  have he' := env_set (x := x) (v := g) he hg
  have hs' : Sub Q τ { τ with cells := τ.cells ++ [g] } := sub_add
  obtain ⟨τ2, ⟨m, h2⟩, s2⟩ := hb _ g (hs.trans hs') ⟨_, rfl, he'⟩ _ _ (.refl _) he'
  refine ⟨τ2, ⟨m + 3, ?_⟩, hs'.trans s2⟩
  rw [ev]
  simp only [bdsIds, Bd.ids, List.append_nil, List.length_cons, List.length_nil, Nat.zero_add, List.replicate_one, bindVals]
  rw [evRec, ev]
  simp only [Res.ok_bind, List.length_cons, List.length_nil, bound, and_self, if_true, assignsR, assignR, REnv.set, List.length_append, Nat.lt_succ_self, evRec, Nat.zero_add]
  have hset : (τ.cells ++ [V.unbound]).set τ.cells.length g = τ.cells ++ [g] := by simp
  have : evBody P (m + 2) (ρ.set x τ.cells.length) body { τ with cells := τ.cells ++ [g] } = .ok ([v], τ2) := evBody_le (by omega) h2
  rw [← hset] at this
  exact this

end Minim.Fix
