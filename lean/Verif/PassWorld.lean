import Verif.PassRel

set_option autoImplicit false

/-!
# Related stores

The rewritten program allocates its variables in another order and has additional ones.  A world `w` lists, for each cell of the original program, the cell of
the rewritten program that corresponds to it.
-/

namespace Minim.Jit

open Minim.Sx Minim.Core

variable {P : Prims} {K : Kn} {F : Sym → Prop}

/-- A world: for each cell of the original program the name of the variable and the cell of the rewritten program. -/
abbrev W := List (Sym × Nat)

/-- The cells of the rewritten program that correspond to a cell of the original. -/
abbrev W.tgt (w : W) : List Nat := w.map Prod.snd

/-- Environments agree on the variables outside `F`; the ones in `K` are not local. -/
structure EnvRel (K : Kn) (F : Sym → Prop) (w : W) (ρ ρ' : REnv) : Prop where
  loc : ∀ x, ¬ F x → ORel (fun c c' => w[c]? = some (x, c')) (ρ x) (ρ' x)
  kS : ∀ x, K x → ρ x = none
  kT : ∀ x, K x → ρ' x = none

/-- Procedures: the same code up to one rewriting step. -/
inductive CR (K : Kn) (F : Sym → Prop) (w : W) : RC → RC → Prop where
  | clo {ρ ρ' : REnv} {cs cs' : List Cl} : EnvRel K F w ρ ρ' → WfC K F cs → TrC K F cs cs' → CR K F w (.clo ρ cs) (.clo ρ' cs')
  | prim (p n : Nat) : CR K F w (.prim p n) (.prim p n)
  | values : CR K F w .values .values
  | apply : CR K F w .apply .apply
  | cwv : CR K F w .cwv .cwv
  | cwvClo {ρ : REnv} {a b : Sym} : (∀ j, ¬ F (.gen j)) → a ≠ b → CR K F w .cwv (.clo ρ [.mk (fixed [a, b]) [.mvcall (.app (.var a) []) (.var b)]])

/-- Values. -/
abbrev PV (K : Kn) (F : Sym → Prop) (w : W) : RV → RV → Prop := VRel (CR K F w)

/-- Stores. -/
structure SR (K : Kn) (F : Sym → Prop) (w : W) (σ σ' : RS) : Prop where
  len : w.length = σ.cells.length
  nodup : w.tgt.Nodup
  cell : ∀ (i : Nat) (x : Sym) (j : Nat), w[i]? = some (x, j) → ORel (PV K F w) σ.cells[i]? σ'.cells[j]?
  lt : ∀ j ∈ w.tgt, j < σ'.cells.length
  glob : ∀ x, ORel (PV K F w) (σ.globs x) (σ'.globs x)
  values : σ.globs .values = some (.clo .values)
  cwv : σ.globs .callWithValues = some (.clo .cwv)

/-- What an evaluation does to related stores. -/
structure Post (K : Kn) (F : Sym → Prop) (w : W) (σ σ' : RS) (w1 : W) (σ1 σ1' : RS) : Prop where
  ext : ∃ new, w1 = w ++ new ∧ ∀ j ∈ W.tgt new, σ'.cells.length ≤ j
  sr : SR K F w1 σ1 σ1'
  len : σ'.cells.length ≤ σ1'.cells.length
  frame : ∀ j : Nat, j < σ'.cells.length → j ∉ w.tgt → σ1'.cells[j]? = σ'.cells[j]?
  kS : ∀ x, K.con x → σ1.globs x = σ.globs x
  const : ∀ (c : Nat) (x : Sym) (j : Nat), w[c]? = some (x, j) → K.con x → σ1.cells[c]? = σ.cells[c]?

theorem ORel.mono {α β : Type} {R S : α → β → Prop} (h : ∀ a b, R a b → S a b) : ∀ {x : Option α} {y : Option β}, ORel R x y → ORel S x y
  | none, none => fun _ => trivial
  | some _, some _ => h _ _
  | none, some _ => False.elim
  | some _, none => False.elim

theorem ORel.some_inv {α β : Type} {R : α → β → Prop} {a : α} : ∀ {y : Option β}, ORel R (some a) y → ∃ b, y = some b ∧ R a b
  | none => False.elim
  | some b => fun h => ⟨b, rfl, h⟩

theorem ORel.none_inv {α β : Type} {R : α → β → Prop} : ∀ {y : Option β}, ORel R (none : Option α) y → y = none
  | none => fun _ => rfl
  | some _ => False.elim

theorem VRel.mono {C C' : Type} {R S : C → C' → Prop} (h : ∀ a b, R a b → S a b) {v : V C} {v' : V C'} (hv : VRel R v v') : VRel S v v' := by
  induction hv with
  | null => exact .null
  | sym => exact .sym _
  | lit => exact .lit _
  | other => exact .other _
  | stx => exact .stx _
  | void => exact .void
  | unbound => exact .unbound
  | tenv => exact .tenv _
  | cons _ _ h1 h2 => exact .cons h1 h2
  | clo hc => exact .clo (h _ _ hc)

theorem getElem?_ext {w new : W} {i : Nat} {j : Sym × Nat} (h : w[i]? = some j) : (w ++ new)[i]? = some j := by
  rw [List.getElem?_append_left (List.getElem?_eq_some_iff.1 h).1, h]

theorem mem_tgt {w : W} {i j : Nat} {x : Sym} (h : w[i]? = some (x, j)) : j ∈ w.tgt := List.mem_map.2 ⟨_, List.mem_iff_getElem?.2 ⟨i, h⟩, rfl⟩

theorem EnvRel.ext {w new : W} {ρ ρ' : REnv} (h : EnvRel K F w ρ ρ') : EnvRel K F (w ++ new) ρ ρ' :=
  ⟨fun x hx => (h.loc x hx).mono fun _ _ => getElem?_ext, h.kS, h.kT⟩

theorem CR.ext {w new : W} {c c' : RC} (h : CR K F w c c') : CR K F (w ++ new) c c' := by
  cases h with
  | clo h1 h2 h3 => exact .clo h1.ext h2 h3
  | prim => exact .prim _ _
  | values => exact .values
  | apply => exact .apply
  | cwv => exact .cwv
  | cwvClo h h' => exact .cwvClo h h'

theorem PV.ext {w new : W} {v v' : RV} (h : PV K F w v v') : PV K F (w ++ new) v v' := VRel.mono (fun _ _ => CR.ext) h

theorem PVs.ext {w new : W} {v v' : List RV} (h : List.Forall₂ (PV K F w) v v') : List.Forall₂ (PV K F (w ++ new)) v v' := by
  induction h with
  | nil => exact .nil
  | cons h _ ih => exact .cons h.ext ih

section
variable {w w1 w2 : W} {σ σ1 σ2 σ' σ1' σ2' : RS} {ρ ρ' : REnv}

theorem Post.refl (h : SR K F w σ σ') : Post K F w σ σ' w σ σ' :=
  ⟨⟨[], by simp, by simp⟩, h, Nat.le_refl _, fun _ _ _ => rfl, fun _ _ => rfl, fun _ _ _ _ _ => rfl⟩

theorem Post.trans (h : Post K F w σ σ' w1 σ1 σ1') (h2 : Post K F w1 σ1 σ1' w2 σ2 σ2') : Post K F w σ σ' w2 σ2 σ2' := by
  obtain ⟨n1, e1, l1⟩ := h.ext
  obtain ⟨n2, e2, l2⟩ := h2.ext
  refine ⟨⟨n1 ++ n2, by rw [e2, e1, List.append_assoc], ?_⟩, h2.sr, Nat.le_trans h.len h2.len, ?_, fun x hx => (h2.kS x hx).trans (h.kS x hx),
    fun c x j hc hx => (h2.const c x j (by rw [e1]; exact getElem?_ext hc) hx).trans (h.const c x j hc hx)⟩
  · intro j hj
    rw [W.tgt, List.map_append] at hj
    rcases List.mem_append.1 hj with hj | hj
    · exact l1 j hj
    · exact Nat.le_trans h.len (l2 j hj)
  · intro j hj hw
    rw [h2.frame j (Nat.lt_of_lt_of_le hj h.len) ?_, h.frame j hj hw]
    rw [e1, W.tgt, List.map_append, List.mem_append]
    rintro (hm | hm)
    · exact hw hm
    · exact absurd (l1 j hm) (by omega)

theorem Post.env (h : Post K F w σ σ' w1 σ1 σ1') (he : EnvRel K F w ρ ρ') : EnvRel K F w1 ρ ρ' := by
  obtain ⟨n, e, _⟩ := h.ext
  subst e; exact he.ext

theorem Post.pv (h : Post K F w σ σ' w1 σ1 σ1') {v v' : RV} (hv : PV K F w v v') : PV K F w1 v v' := by
  obtain ⟨n, e, _⟩ := h.ext
  subst e; exact hv.ext

theorem Post.pvs (h : Post K F w σ σ' w1 σ1 σ1') {v v' : List RV} (hv : List.Forall₂ (PV K F w) v v') : List.Forall₂ (PV K F w1) v v' := by
  obtain ⟨n, e, _⟩ := h.ext
  subst e; exact PVs.ext hv

theorem SR.valuesT (h : SR K F w σ σ') : σ'.globs .values = some (.clo .values) := by
  have := h.glob .values
  rw [h.values] at this
  obtain ⟨b, hb, hr⟩ := this.some_inv
  cases hr with
  | clo hc => cases hc; exact hb

/-- New cells of the rewritten program that correspond to nothing. -/
theorem SR.addCells (hs : SR K F w σ σ') (us : List RV) : Post K F w σ σ' w σ { σ' with cells := σ'.cells ++ us } := by
  refine ⟨⟨[], by simp, by simp⟩, ⟨hs.len, hs.nodup, ?_, ?_, hs.glob, hs.values, hs.cwv⟩, by simp, ?_, fun _ _ => rfl, fun _ _ _ _ _ => rfl⟩
  · intro i x j h
    show ORel _ _ (σ'.cells ++ us)[j]?
    rw [List.getElem?_append_left (hs.lt j (mem_tgt h))]
    exact hs.cell i x j h
  · intro j hj
    have := hs.lt j hj
    simp only [List.length_append]
    omega
  · intro j hj _
    show (σ'.cells ++ us)[j]? = _
    rw [List.getElem?_append_left hj]

theorem SR.cwvT (h : SR K F w σ σ') (hG : ∀ j, F (.gen j)) : σ'.globs .callWithValues = some (.clo .cwv) := by
  have := h.glob .callWithValues
  rw [h.cwv] at this
  obtain ⟨b, hb, hr⟩ := this.some_inv
  cases hr with
  | clo hc =>
    cases hc with
    | cwv => exact hb
    | cwvClo h => exact absurd (hG 0) (h 0)

theorem pLookup (he : EnvRel K F w ρ ρ') (hs : SR K F w σ σ') {x : Sym} (hx : ¬ F x) {v : RV} (h : lookupR ρ σ x = .ok v) :
    ∃ v', lookupR ρ' σ' x = .ok v' ∧ PV K F w v v' := by
  have key : ∀ {a b : Option RV}, ORel (PV K F w) a b →
      (match a with | none => Res.err | some .unbound => .err | some v => .ok v) = .ok v →
      ∃ v', (match b with | none => Res.err | some .unbound => .err | some v => .ok v) = .ok v' ∧ PV K F w v v' := by
    intro a b hab ha
    match a, b, hab with
    | none, none, _ => cases ha
    | some a, some b, hab =>
      cases hab with
      | unbound => cases ha
      | null => cases ha; exact ⟨_, rfl, .null⟩
      | sym => cases ha; exact ⟨_, rfl, .sym _⟩
      | lit => cases ha; exact ⟨_, rfl, .lit _⟩
      | other => cases ha; exact ⟨_, rfl, .other _⟩
      | stx => cases ha; exact ⟨_, rfl, .stx _⟩
      | void => cases ha; exact ⟨_, rfl, .void⟩
      | tenv => cases ha; exact ⟨_, rfl, .tenv _⟩
      | cons h1 h2 => cases ha; exact ⟨_, rfl, .cons h1 h2⟩
      | clo h1 => cases ha; exact ⟨_, rfl, .clo h1⟩
  have hl := he.loc x hx
  unfold lookupR at h ⊢
  cases hr : ρ x with
  | none =>
    rw [hr] at hl h
    rw [hl.none_inv]
    exact key (hs.glob x) h
  | some c =>
    rw [hr] at hl h
    obtain ⟨c', e', hc⟩ := hl.some_inv
    rw [e']
    exact key (hs.cell c x c' hc) h

theorem ORel.refl_of {α : Type} {R : α → α → Prop} : ∀ {x : Option α}, (∀ a, x = Option.some a → R a a) → ORel R x x
  | .none => fun _ => trivial
  | .some a => fun h => h a rfl

/-- One cell on either side gets a new value. -/
theorem SR.setCell (hs : SR K F w σ σ') {c c' : Nat} {x : Sym} (hc : w[c]? = some (x, c')) (hx : ¬ K.con x) {v v' : RV} (hv : PV K F w v v') :
    Post K F w σ σ' w { σ with cells := σ.cells.set c v } { σ' with cells := σ'.cells.set c' v' } := by
  refine ⟨⟨[], by simp, by simp⟩, ⟨by simpa using hs.len, hs.nodup, ?_, by simpa using hs.lt, hs.glob, hs.values, hs.cwv⟩, by simp, ?_, fun _ _ => rfl, ?_⟩
  · intro i y j hij
    have hlt := (List.getElem?_eq_some_iff.1 hc).1
    have hlt' := hs.lt c' (mem_tgt hc)
    have := hs.cell i y j hij
    show ORel _ (σ.cells.set c v)[i]? (σ'.cells.set c' v')[j]?
    by_cases hic : i = c
    · subst hic
      rw [hc] at hij
      cases hij
      rw [List.getElem?_set_self (by rw [← hs.len]; exact hlt), List.getElem?_set_self hlt']
      exact hv
    · have hjc : j ≠ c' := by
        rintro rfl
        have h1 : w.tgt[c]? = some j := by rw [W.tgt, List.getElem?_map, hc]; rfl
        have h2 : w.tgt[i]? = some j := by rw [W.tgt, List.getElem?_map, hij]; rfl
        have h1 := List.getElem?_eq_some_iff.1 h1
        have h2 := List.getElem?_eq_some_iff.1 h2
        exact hic ((hs.nodup.getElem_inj_iff (hi := h2.1) (hj := h1.1)).1 (h2.2.trans h1.2.symm))
      rw [List.getElem?_set_ne (Ne.symm hic), List.getElem?_set_ne (Ne.symm hjc)]
      exact this
  · intro j _ hj
    have : j ≠ c' := by rintro rfl; exact hj (mem_tgt hc)
    show (σ'.cells.set c' v')[j]? = _
    rw [List.getElem?_set_ne (Ne.symm this)]
  · intro i y j hij hy
    show (σ.cells.set c v)[i]? = _
    have : i ≠ c := by
      rintro rfl
      rw [hc] at hij
      cases hij
      exact hx hy
    rw [List.getElem?_set_ne (Ne.symm this)]

theorem SR.setGlob (hs : SR K F w σ σ') (hK : Names K F) {x : Sym} (hx : ¬ K.con x) {v v' : RV} (hv : PV K F w v v') : Post K F w σ σ' w (σ.setGlob x v) (σ'.setGlob x v') := by
  have hne : ∀ y, K.con y → y ≠ x := by rintro y hy rfl; exact hx hy
  refine ⟨⟨[], by simp, by simp⟩, ⟨hs.len, hs.nodup, hs.cell, hs.lt, ?_, ?_, ?_⟩, Nat.le_refl _, fun _ _ _ => rfl, ?_, ?_⟩
  · intro y
    simp only [RS.setGlob]
    by_cases h : y = x
    · simp only [h, if_true]; exact hv
    · simp only [h, if_false]; exact hs.glob y
  · simp only [RS.setGlob, if_neg (hne _ (hK.sub _ hK.values))]; exact hs.values
  · simp only [RS.setGlob, if_neg (hne _ (hK.sub _ hK.cwv))]; exact hs.cwv
  · intro y hy; simp only [RS.setGlob, if_neg (hne y hy)]
  · intro _ _ _ _ _; rfl

theorem pSetGlobs (hK : Names K F) : ∀ {xs : List Sym} {vs vs' : List RV} {σ σ' : RS}, SR K F w σ σ' → (∀ x ∈ xs, ¬ K.con x) → List.Forall₂ (PV K F w) vs vs' →
    Post K F w σ σ' w (σ.setGlobs xs vs) (σ'.setGlobs xs vs')
  | [], vs, vs', σ, σ', hs, _, hv => by cases hv <;> exact Post.refl hs
  | x :: xs, _, _, σ, σ', hs, _, .nil => Post.refl hs
  | x :: xs, _, _, σ, σ', hs, hx, .cons h1 h2 => by
    have hp := hs.setGlob hK (hx x (by simp)) h1
    exact hp.trans (pSetGlobs hK hp.sr (fun y hy => hx y (by simp [hy])) h2)

theorem pAssign (hK : Names K F) (he : EnvRel K F w ρ ρ') (hs : SR K F w σ σ') {x : Sym} (hx : ¬ F x) (hk : ¬ K.con x) {v v' : RV} (hv : PV K F w v v')
    (h : assignR ρ σ x v = .ok σ1) : ∃ σ1', assignR ρ' σ' x v' = .ok σ1' ∧ Post K F w σ σ' w σ1 σ1' := by
  have hl := he.loc x hx
  unfold assignR at h ⊢
  cases hr : ρ x with
  | none =>
    rw [hr] at hl h
    rw [hl.none_inv]
    have hg := hs.glob x
    simp only at h ⊢
    cases ho : σ.globs x with
    | none => rw [ho] at h; cases h
    | some u =>
      rw [ho] at hg h
      obtain ⟨b, hb, _⟩ := hg.some_inv
      rw [hb]
      cases h
      exact ⟨_, rfl, hs.setGlob hK hk hv⟩
  | some c =>
    rw [hr] at hl h
    obtain ⟨c', e', hc⟩ := hl.some_inv
    rw [e']
    simp only at h ⊢
    split at h
    · cases h
      rw [if_pos (hs.lt c' (mem_tgt hc))]
      exact ⟨_, rfl, hs.setCell hc hk hv⟩
    · cases h

/-- A new variable on both sides. -/
theorem pBindOne (he : EnvRel K F w ρ ρ') (hs : SR K F w σ σ') {x : Sym} (hk : ¬ K x) {v v' : RV} (hv : PV K F w v v') :
    EnvRel K F (w ++ [(x, σ'.cells.length)]) (ρ.set x σ.cells.length) (ρ'.set x σ'.cells.length) ∧
    Post K F w σ σ' (w ++ [(x, σ'.cells.length)]) { σ with cells := σ.cells ++ [v] } { σ' with cells := σ'.cells ++ [v'] } := by
  have hne : ∀ y, K y → y ≠ x := by rintro y hy rfl; exact hk hy
  have hi : ∀ (i : Nat) (y : Sym) (j : Nat), (w ++ [(x, σ'.cells.length)])[i]? = some (y, j) → (w[i]? = some (y, j)) ∨ (i = w.length ∧ j = σ'.cells.length) := by
    intro i y j h
    rcases Nat.lt_trichotomy i w.length with h' | h' | h'
    · rw [List.getElem?_append_left h'] at h; exact .inl h
    · subst h'; simp at h; exact .inr ⟨rfl, h.2.symm⟩
    · rw [List.getElem?_eq_none (by simp; omega)] at h; cases h
  refine ⟨⟨?_, ?_, ?_⟩, ⟨⟨_, rfl, by simp⟩, ⟨by simp [hs.len], ?_, ?_, ?_, ?_, hs.values, hs.cwv⟩, by simp, ?_, fun _ _ => rfl, ?_⟩⟩
  · intro y hy
    simp only [REnv.set]
    by_cases h : y = x
    · simp only [h, if_true, ORel]
      rw [← hs.len, List.getElem?_append_right (Nat.le_refl _)]; simp
    · simp only [h, if_false]
      exact (he.loc y hy).mono fun _ _ => getElem?_ext
  · intro y hy; simp only [REnv.set, if_neg (hne y hy)]; exact he.kS y hy
  · intro y hy; simp only [REnv.set, if_neg (hne y hy)]; exact he.kT y hy
  · rw [W.tgt, List.map_append, List.nodup_append]
    refine ⟨hs.nodup, by simp, ?_⟩
    intro a ha b hb
    simp only [List.map_cons, List.map_nil, List.mem_singleton] at hb
    have := hs.lt a ha
    omega
  · intro i y j hij
    rcases hi i y j hij with h | ⟨h1, h2⟩
    · have hlt := hs.lt j (mem_tgt h)
      have hlt' : i < σ.cells.length := by rw [← hs.len]; exact (List.getElem?_eq_some_iff.1 h).1
      show ORel _ (σ.cells ++ [v])[i]? (σ'.cells ++ [v'])[j]?
      rw [List.getElem?_append_left hlt, List.getElem?_append_left hlt']
      exact (hs.cell i y j h).mono fun _ _ => PV.ext
    · subst h1 h2
      show ORel _ (σ.cells ++ [v])[w.length]? (σ'.cells ++ [v'])[σ'.cells.length]?
      rw [hs.len, List.getElem?_append_right (Nat.le_refl _), List.getElem?_append_right (Nat.le_refl _)]
      simp only [Nat.sub_self, List.getElem?_cons_zero]
      exact hv.ext
  · intro j hj
    rw [W.tgt, List.map_append] at hj
    simp only [List.mem_append, List.map_cons, List.map_nil, List.mem_singleton, List.length_append, List.length_singleton] at hj ⊢
    rcases hj with hj | hj
    · have := hs.lt j hj; omega
    · omega
  · intro y
    exact (hs.glob y).mono fun _ _ => PV.ext
  · intro j hj _
    show (σ'.cells ++ [v'])[j]? = _
    rw [List.getElem?_append_left hj]
  · intro i y j h _
    show (σ.cells ++ [v])[i]? = _
    rw [List.getElem?_append_left (by rw [← hs.len]; exact (List.getElem?_eq_some_iff.1 h).1)]

/-- New variables on both sides. -/
theorem pBind : ∀ {xs : List Sym} {vs vs' : List RV} {w : W} {ρ ρ' : REnv} {σ σ' : RS}, EnvRel K F w ρ ρ' → SR K F w σ σ' → (∀ x ∈ xs, ¬ K x) →
    List.Forall₂ (PV K F w) vs vs' →
    ∃ w1, EnvRel K F w1 (bindVals ρ σ xs vs).1 (bindVals ρ' σ' xs vs').1 ∧ Post K F w σ σ' w1 (bindVals ρ σ xs vs).2 (bindVals ρ' σ' xs vs').2
  | [], vs, vs', w, ρ, ρ', σ, σ', he, hs, _, hv => by
    cases hv <;> exact ⟨w, by simpa [bindVals] using he, by simpa [bindVals] using Post.refl hs⟩
  | x :: xs, _, _, w, ρ, ρ', σ, σ', he, hs, _, .nil => ⟨w, by simpa [bindVals] using he, by simpa [bindVals] using Post.refl hs⟩
  | x :: xs, _, _, w, ρ, ρ', σ, σ', he, hs, hx, .cons h1 h2 => by
    obtain ⟨he1, hp1⟩ := pBindOne he hs (hx x (by simp)) h1
    obtain ⟨w2, he2, hp2⟩ := pBind (xs := xs) he1 hp1.sr (fun y hy => hx y (by simp [hy])) (PVs.ext h2)
    exact ⟨w2, he2, hp1.trans hp2⟩

/-! ### Variables only the rewritten program has -/

theorem pBindTmpOne (hKF : ∀ x, K x → ¬ F x) (he : EnvRel K F w ρ ρ') (hs : SR K F w σ σ') {t : Sym} (ht : F t) (v' : RV) :
    EnvRel K F w ρ (ρ'.set t σ'.cells.length) ∧ Post K F w σ σ' w σ { σ' with cells := σ'.cells ++ [v'] } := by
  refine ⟨⟨?_, he.kS, ?_⟩, ⟨⟨[], by simp, by simp⟩, ⟨hs.len, hs.nodup, ?_, ?_, hs.glob, hs.values, hs.cwv⟩, by simp, ?_, fun _ _ => rfl, fun _ _ _ _ _ => rfl⟩⟩
  · intro y hy
    have : y ≠ t := by rintro rfl; exact hy ht
    simp only [REnv.set, if_neg this]
    exact he.loc y hy
  · intro y hy
    have : y ≠ t := by rintro rfl; exact hKF _ hy ht
    simp only [REnv.set, if_neg this]
    exact he.kT y hy
  · intro i y j h
    have hlt := hs.lt j (mem_tgt h)
    show ORel _ _ (σ'.cells ++ [v'])[j]?
    rw [List.getElem?_append_left hlt]
    exact hs.cell i y j h
  · intro j hj
    have := hs.lt j hj
    simp only [List.length_append, List.length_singleton]; omega
  · intro j hj _
    show (σ'.cells ++ [v'])[j]? = _
    rw [List.getElem?_append_left hj]

theorem pBindTmp (hKF : ∀ x, K x → ¬ F x) : ∀ {ts : List Sym} {vs' : List RV} {ρ' : REnv} {σ' : RS}, EnvRel K F w ρ ρ' → SR K F w σ σ' → (∀ t ∈ ts, F t) →
    EnvRel K F w ρ (bindVals ρ' σ' ts vs').1 ∧ Post K F w σ σ' w σ (bindVals ρ' σ' ts vs').2
  | [], vs', ρ', σ', he, hs, _ => by simpa [bindVals] using ⟨he, Post.refl hs⟩
  | t :: ts, [], ρ', σ', he, hs, _ => by simpa [bindVals] using ⟨he, Post.refl hs⟩
  | t :: ts, v :: vs', ρ', σ', he, hs, ht => by
    obtain ⟨he1, hp1⟩ := pBindTmpOne hKF he hs (ht t (by simp)) v
    obtain ⟨he2, hp2⟩ := pBindTmp hKF (ts := ts) (vs' := vs') he1 hp1.sr (fun y hy => ht y (by simp [hy]))
    exact ⟨he2, hp1.trans hp2⟩

end

/-! ### Where `bindVals` puts things -/

theorem bindVals_cells : ∀ (xs : List Sym) (vs : List RV) (ρ : REnv) (σ : RS), xs.length = vs.length →
    (bindVals ρ σ xs vs).2 = { σ with cells := σ.cells ++ vs }
  | [], [], _, _, _ => by simp [bindVals]
  | _ :: xs, _ :: vs, _, _, h => by
    rw [bindVals, bindVals_cells xs vs _ _ (by simpa using h)]
    simp

theorem bindVals_not_mem : ∀ (xs : List Sym) (vs : List RV) (ρ : REnv) (σ : RS) {x : Sym}, x ∉ xs → (bindVals ρ σ xs vs).1 x = ρ x
  | [], vs, _, _, _, _ => by cases vs <;> rfl
  | _ :: _, [], _, _, _, _ => rfl
  | y :: xs, _ :: vs, _, _, x, h => by
    rw [bindVals, bindVals_not_mem xs vs _ _ (fun hh => h (by simp [hh]))]
    have : x ≠ y := by rintro rfl; simp at h
    simp [REnv.set, this]

theorem bindVals_get : ∀ (xs : List Sym) (vs : List RV) (ρ : REnv) (σ : RS), xs.length = vs.length → xs.Nodup → ∀ {i : Nat} {x : Sym}, xs[i]? = some x →
    (bindVals ρ σ xs vs).1 x = some (σ.cells.length + i)
  | [], _, _, _, _, _, _, _, h => by simp at h
  | y :: xs, v :: vs, ρ, σ, hl, hn, i, x, h => by
    rw [bindVals]
    cases i with
    | zero =>
      simp only [List.getElem?_cons_zero, Option.some.injEq] at h
      subst h
      rw [bindVals_not_mem _ _ _ _ (List.nodup_cons.1 hn).1]
      simp [REnv.set]
    | succ i =>
      rw [bindVals_get xs vs _ _ (by simpa using hl) (List.nodup_cons.1 hn).2 (by simpa using h)]
      simp; omega

end Minim.Jit
