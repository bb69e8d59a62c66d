import Verif.PassInv

set_option autoImplicit false

/-!
# One rewriting step preserves results
-/

namespace Minim.Jit

open Minim.Sx Minim.Core

/-- The rewritten program has a related result. -/
def Reach (K : Kn) (F : Sym → Prop) (run : List RV → RS → Prop) (w : W) (σ σ' : RS) (vs : List RV) (σ1 : RS) : Prop :=
  ∃ vs' σ1' w1, run vs' σ1' ∧ Post K F w σ σ' w1 σ1 σ1' ∧ List.Forall₂ (PV K F w1) vs vs'

/-- The claim for evaluations with fuel `n`. -/
structure Sims (P : Prims) (K : Kn) (F : Sym → Prop) (n : Nat) : Prop where
  e : ∀ {ρ e σ vs σ1}, ev P n ρ e σ = .ok (vs, σ1) → Wf K F e → ∀ {e' ρ' σ' w}, Tr K F e e' → EnvRel K F w ρ ρ' → SR K F w σ σ' →
    Reach K F (Evs P ρ' e' σ') w σ σ' vs σ1
  b : ∀ {ρ es σ vs σ1}, evBody P n ρ es σ = .ok (vs, σ1) → WfL K F es → ∀ {es' ρ' σ' w}, TrL K F es es' → EnvRel K F w ρ ρ' → SR K F w σ σ' →
    Reach K F (EvB P ρ' es' σ') w σ σ' vs σ1
  a : ∀ {ρ es σ vs σ1}, evArgs P n ρ es σ = .ok (vs, σ1) → WfL K F es → ∀ {es' ρ' σ' w}, TrL K F es es' → EnvRel K F w ρ ρ' → SR K F w σ σ' →
    Reach K F (EvA P ρ' es' σ') w σ σ' vs σ1
  p : ∀ {f as σ vs σ1}, applyR P n f as σ = .ok (vs, σ1) → ∀ {f' as' σ' w}, PV K F w f f' → List.Forall₂ (PV K F w) as as' → SR K F w σ σ' →
    Reach K F (EvP P f' as' σ') w σ σ' vs σ1

section
variable {P : Prims} {K : Kn} {F : Sym → Prop} {n : Nat}

theorem Forall₂.one_inv {α β : Type} {R : α → β → Prop} {a : α} {l : List β} (h : List.Forall₂ R [a] l) : ∃ b, l = [b] ∧ R a b := by
  cases h with
  | cons h t => cases t; exact ⟨_, rfl, h⟩

/-- One value. -/
theorem Sims.e1 (ih : Sims P K F n) {ρ ρ' : REnv} {e e' : E} {σ σ1 σ' : RS} {v : RV} {w : W} (h : ev P n ρ e σ = .ok ([v], σ1)) (hw : Wf K F e) (ht : Tr K F e e')
    (he : EnvRel K F w ρ ρ') (hs : SR K F w σ σ') : ∃ v' σ1' w1, Evs P ρ' e' σ' [v'] σ1' ∧ Post K F w σ σ' w1 σ1 σ1' ∧ PV K F w1 v v' := by
  obtain ⟨vs', σ1', w1, h1, h2, h3⟩ := ih.e h hw ht he hs
  obtain ⟨v', rfl, hv⟩ := Forall₂.one_inv h3
  exact ⟨v', σ1', w1, h1, h2, hv⟩

theorem bound_iff {C : Type} {vs : List (V C)} : bound vs = true ↔ ∀ v ∈ vs, v ≠ .unbound := by
  induction vs with
  | nil => simp [bound]
  | cons v vs ih =>
    cases v <;> simp [bound, ih]

theorem bound_rel {C C' : Type} {R : C → C' → Prop} {vs : List (V C)} {us : List (V C')} (h : List.Forall₂ (VRel R) vs us) : bound us = bound vs := by
  induction h with
  | nil => rfl
  | cons h _ ih => cases h <;> simp [bound, ih]

/-! ### Stable expressions -/

/-- Variables that are never assigned keep their values. -/
theorem Post.con {ρ ρ' : REnv} {w w1 : W} {σ σ1 σ' σ1' : RS} (hp : Post K F w σ σ' w1 σ1 σ1') (he : EnvRel K F w ρ ρ') {x : Sym} (hx : K.con x) (hF : ¬ F x) :
    lookupR ρ σ1 x = lookupR ρ σ x := by
  unfold lookupR
  have := he.loc x hF
  cases h : ρ x with
  | none => simp only [hp.kS x hx]
  | some c =>
    rw [h] at this
    obtain ⟨c', _, hc⟩ := this.some_inv
    simp only [hp.const c x c' hc hx]

theorem stable_sim {ρ ρ' : REnv} {c c' : E} {σ σ1 : RS} {vs : List RV} (h : ev P n ρ c σ = .ok (vs, σ1)) (hst : Stable K c) (hw : Wf K F c) (ht : Tr K F c c') :
    σ1 = σ ∧ ∃ v, vs = [v] ∧ ∀ {w2 : W} {σ2 σ2' : RS}, EnvRel K F w2 ρ ρ' → SR K F w2 σ2 σ2' → (∀ x, K.con x → ¬ F x → lookupR ρ σ2 x = lookupR ρ σ x) →
      ∃ v', Evs P ρ' c' σ2' [v'] σ2' ∧ PV K F w2 v v' := by
  cases n with
  | zero => simp [ev] at h
  | succ n =>
    cases c with
    | var x =>
      cases ht
      obtain ⟨v, hl, rfl, rfl⟩ := ev_var_inv h
      refine ⟨rfl, v, rfl, ?_⟩
      intro w2 σ2 σ2' he hs hk
      have : lookupR ρ σ2 x = .ok v := by
        rw [hk x hst (by rw [Wf] at hw; exact hw)]; exact hl
      obtain ⟨v', h1, h2⟩ := pLookup he hs hw this
      exact ⟨v', .var h1, h2⟩
    | lit l => cases ht; rw [ev] at h; cases h; exact ⟨rfl, _, rfl, fun _ _ _ => ⟨_, .lit, .lit _⟩⟩
    | quote d => cases ht; rw [ev] at h; cases h; exact ⟨rfl, _, rfl, fun _ _ _ => ⟨_, .quote, VRel.ofX d⟩⟩
    | quoteSyntax d => cases ht; rw [ev] at h; cases h; exact ⟨rfl, _, rfl, fun _ _ _ => ⟨_, .quoteSyntax, .stx _⟩⟩
    | lam f es =>
      cases ht with
      | lam ht =>
        rw [ev] at h; cases h
        rw [Wf] at hw
        exact ⟨rfl, _, rfl, fun he _ _ => ⟨_, .lam, .clo (.clo he (by simp only [WfC]; exact ⟨hw.1, hw.2, trivial⟩) (.cons ht .nil))⟩⟩
    | clam cs =>
      rw [ev] at h; cases h
      rw [Wf] at hw
      cases ht with
      | clam ht => exact ⟨rfl, _, rfl, fun he _ _ => ⟨_, .clam, .clo (.clo he hw ht)⟩⟩
      | clam1 ht => exact ⟨rfl, _, rfl, fun he _ _ => ⟨_, .lam, .clo (.clo he hw (.cons ht .nil))⟩⟩
    | _ => exact hst.elim

/-! ### Sequences -/

theorem seq_sim (ih : Sims P K F n) {ρ ρ' : REnv} {e : E} : ∀ {es es' : List E} {σ σ2 σ' : RS} {vs : List RV} {w : W}, TrL K F es es' → WfL K F es →
    evBody P n ρ (es ++ [e]) σ = .ok (vs, σ2) → EnvRel K F w ρ ρ' → SR K F w σ σ' →
    ∃ σa σa' w1, ev P n ρ e σa = .ok (vs, σ2) ∧ Post K F w σ σ' w1 σa σa' ∧ ∀ e'' us σr, Evs P ρ' e'' σa' us σr → EvB P ρ' (es' ++ [e'']) σ' us σr
  | _, _, σ, σ2, σ', vs, w, .nil, _, h, _, hs => ⟨σ, σ', w, evBody_one_inv' h, Post.refl hs, fun _ _ _ h => .one h⟩
  | a :: es, a' :: es', σ, σ2, σ', vs, w, .cons h1 h2, hw, h, he, hs => by
    rw [WfL] at hw
    have hne : ∃ b bs, es ++ [e] = b :: bs := by cases es <;> simp
    obtain ⟨b, bs, hb⟩ := hne
    rw [List.cons_append, hb] at h
    obtain ⟨ws, σ1, ha, hr⟩ := evBody_cons_inv' h
    rw [← hb] at hr
    obtain ⟨us, σ1', w1, r1, p1, _⟩ := ih.e ha hw.1 h1 he hs
    obtain ⟨σa, σa', w2, r2, p2, f2⟩ := seq_sim ih h2 hw.2 hr (p1.env he) p1.sr
    refine ⟨σa, σa', w2, r2, p1.trans p2, ?_⟩
    intro e'' us σr hh
    have := f2 e'' us σr hh
    have hne : ∃ b bs, es' ++ [e''] = b :: bs := by cases es' <;> simp
    obtain ⟨b', bs', hb'⟩ := hne
    rw [List.cons_append, hb']
    rw [hb'] at this
    exact .cons r1 this

/-! ### Temporaries -/

/-- Temporaries and their values. -/
def Tmps (ρ' : REnv) (σ' : RS) (w : W) : List Sym → List RV → Prop :=
  List.Forall₂ (fun t u => ∃ c, ρ' t = some c ∧ c < σ'.cells.length ∧ c ∉ w.tgt ∧ σ'.cells[c]? = some u ∧ u ≠ .unbound)

theorem Tmps.post {ρ' : REnv} {σ σ1 σ' σ1' : RS} {w w1 : W} {ts : List Sym} {us : List RV} (h : Tmps ρ' σ' w ts us) (hp : Post K F w σ σ' w1 σ1 σ1') :
    Tmps ρ' σ1' w1 ts us := by
  obtain ⟨new, e, hn⟩ := hp.ext
  induction h with
  | nil => exact .nil
  | cons h _ ih =>
    refine .cons ?_ ih
    obtain ⟨c, h1, h2, h3, h4, h5⟩ := h
    refine ⟨c, h1, Nat.lt_of_lt_of_le h2 hp.len, ?_, by rw [hp.frame c h2 h3]; exact h4, h5⟩
    rw [e, W.tgt, List.map_append, List.mem_append]
    rintro (hh | hh)
    · exact h3 hh
    · have := hn c hh; omega

theorem Tmps.lookup {ρ' : REnv} {σ' : RS} {w : W} {ts : List Sym} {us : List RV} (h : Tmps ρ' σ' w ts us) : List.Forall₂ (fun t u => lookupR ρ' σ' t = .ok u) ts us := by
  induction h with
  | nil => exact .nil
  | cons h _ ih =>
    refine .cons ?_ ih
    obtain ⟨c, h1, h2, h3, h4, h5⟩ := h
    simp only [lookupR, h1, h4]

theorem Tmps.env {ρ' ρ1' : REnv} {σ' : RS} {w : W} {ts : List Sym} {us : List RV} (h : Tmps ρ' σ' w ts us) (he : ∀ t ∈ ts, ρ1' t = ρ' t) : Tmps ρ1' σ' w ts us := by
  induction h with
  | nil => exact .nil
  | cons h _ ih =>
    refine .cons ?_ (ih fun t ht => he t (by simp [ht]))
    obtain ⟨c, h1, h2⟩ := h
    exact ⟨c, by rw [he _ (by simp)]; exact h1, h2⟩

theorem tmpIds_length : ∀ (k : Nat) (xs : List Sym), (tmpIds k xs).length = xs.length
  | _, [] => rfl
  | k, _ :: xs => by simp [tmpIds, tmpIds_length (k + 1) xs]

theorem mem_tmpIds {t : Sym} : ∀ {k : Nat} {xs : List Sym}, t ∈ tmpIds k xs → ∃ j, t = .gen j ∧ k ≤ j ∧ j < k + xs.length
  | _, [], h => by simp [tmpIds] at h
  | k, _ :: xs, h => by
    simp only [tmpIds, List.mem_cons] at h
    rcases h with h | h
    · exact ⟨k, h, Nat.le_refl _, by simp⟩
    · obtain ⟨j, h1, h2, h3⟩ := mem_tmpIds h
      exact ⟨j, h1, by omega, by simp; omega⟩

theorem tmpIds_nodup : ∀ (k : Nat) (xs : List Sym), (tmpIds k xs).Nodup
  | _, [] => by simp [tmpIds]
  | k, _ :: xs => by
    rw [tmpIds, List.nodup_cons]
    refine ⟨fun h => ?_, tmpIds_nodup (k + 1) xs⟩
    obtain ⟨j, h1, h2, _⟩ := mem_tmpIds h
    cases h1; omega

/-- Binding temporaries makes them available. -/
theorem tmps_bind : ∀ (ts : List Sym) (us : List RV) {ρ ρ' : REnv} {σ σ' : RS} {w : W}, SR K F w σ σ' → ts.Nodup → ts.length = us.length → bound us = true →
    Tmps (bindVals ρ' σ' ts us).1 (bindVals ρ' σ' ts us).2 w ts us := by
  intro ts us ρ ρ' σ σ' w hs hn hl hb
  rw [bound_iff] at hb
  rw [bindVals_cells ts us ρ' σ' hl]
  refine List.forall₂_iff_get.2 ⟨hl, ?_⟩
  intro i h1 h2
  refine ⟨σ'.cells.length + i, ?_, ?_, ?_, ?_, ?_⟩
  · exact bindVals_get ts us ρ' σ' hl hn (by simp [h1])
  · simp only [List.length_append]; omega
  · intro hm; have := hs.lt _ hm; omega
  · rw [List.getElem?_append_right (by omega)]; simp [h2]
  · exact hb _ (by simp)

end

end Minim.Jit
