import Verif.PassLet

set_option autoImplicit false

/-!
# One rewriting step preserves results: all rules
-/

namespace Minim.Jit

open Minim.Sx Minim.Core

section
variable {P : Prims} {K : Kn} {F : Sym → Prop} {n : Nat}

/-- A call with related arguments of a procedure with a fixed number of parameters, whose body is evaluated in place. -/
theorem Sims.inline (ih : Sims P K F n) {ρ ρ' : REnv} {xs : List Sym} {es es' : List E} {as as' : List RV} {σ σ1 σ' : RS} {vs : List RV} {w : W}
    (h : applyR P n (.clo (.clo ρ [.mk (fixed xs) es])) as σ = .ok (vs, σ1)) (hx : ∀ x ∈ xs, ¬ K x ∧ ¬ F x) (hw : WfL K F es) (ht : TrL K F es es')
    (he : EnvRel K F w ρ ρ') (hs : SR K F w σ σ') (ha : List.Forall₂ (PV K F w) as as') :
    as'.length = xs.length ∧
    ∃ vs' σ1' w1, EvB P (bindVals ρ' σ' xs as').1 es' (bindVals ρ' σ' xs as').2 vs' σ1' ∧ Post K F w σ σ' w1 σ1 σ1' ∧ List.Forall₂ (PV K F w1) vs vs' := by
  obtain ⟨hl, hb⟩ := apply_fixed_inv h
  obtain ⟨w1, he1, hp1⟩ := pBind he hs (fun x hx' => (hx x hx').1) ha
  obtain ⟨vs', σ1', w2, r, p, v⟩ := ih.b hb hw ht he1 hp1.sr
  exact ⟨by rw [← ha.length_eq, hl], vs', σ1', w2, r, hp1.trans p, v⟩

theorem lam_fixed_ids {xs : List Sym} (h : ∀ x ∈ (fixed xs).ids, ¬ K x ∧ ¬ F x) : ∀ x ∈ xs, ¬ K x ∧ ¬ F x := fun x hx => h x (by simp [Formals.ids, hx])

theorem lookup_global {ρ : REnv} {σ : RS} {x : Sym} {c : RC} {v : RV} (hr : ρ x = none) (hg : σ.globs x = some (.clo c)) (h : lookupR ρ σ x = .ok v) : v = .clo c := by
  simp only [lookupR, hr, hg] at h
  cases h; rfl

/-- Calls of `values`. -/
theorem values_inv (hK : Names K F) {ρ ρ' : REnv} {es : List E} {σ σ' σ1 : RS} {vs : List RV} {w : W} (he : EnvRel K F w ρ ρ') (hs : SR K F w σ σ')
    (h : ev P (n + 1) ρ (.app (.var .values) es) σ = .ok (vs, σ1)) : evArgs P n ρ es σ = .ok (vs, σ1) := by
  obtain ⟨g, σa, as, σb, h1, h2, h3⟩ := ev_app_inv h
  obtain ⟨v, hl, e, rfl⟩ := ev_var_inv h1
  cases lookup_global (he.kS _ hK.values) hs.values hl
  cases e
  cases n with
  | zero => simp [applyR] at h3
  | succ n => rw [applyR] at h3; cases h3; exact h2

/-- Calls of `call-with-values`. -/
theorem cwv_inv (hK : Names K F) {ρ ρ' : REnv} {es : List E} {σ σ' σ1 : RS} {vs : List RV} {w : W} (he : EnvRel K F w ρ ρ') (hs : SR K F w σ σ')
    (h : ev P (n + 1) ρ (.app (.var .callWithValues) es) σ = .ok (vs, σ1)) :
    ∃ p c σa as σb, evArgs P n ρ es σ = .ok ([p, c], σa) ∧ applyR P n p [] σa = .ok (as, σb) ∧ applyR P n c as σb = .ok (vs, σ1) := by
  obtain ⟨g, σa, as, σb, h1, h2, h3⟩ := ev_app_inv h
  obtain ⟨v, hl, e, rfl⟩ := ev_var_inv h1
  cases lookup_global (he.kS _ hK.cwv) hs.cwv hl
  cases e
  cases n with
  | zero => simp [applyR] at h3
  | succ n =>
    match as, h2, h3 with
    | [], _, h3 => simp [applyR] at h3
    | [_], _, h3 => simp [applyR] at h3
    | _ :: _ :: _ :: _, _, h3 => simp [applyR] at h3
    | [p, c], h2, h3 =>
      rw [applyR, Res.bind_eq_ok] at h3
      obtain ⟨⟨as, σc⟩, h3, h4⟩ := h3
      exact ⟨p, c, σb, as, σc, h2, applyR_le (Nat.le_succ n) h3, applyR_le (Nat.le_succ n) h4⟩

/-- The variables of `letrec-values`. -/
theorem unbounds_rel {w : W} : ∀ m : Nat, List.Forall₂ (PV K F w) (List.replicate m .unbound) (List.replicate m .unbound)
  | 0 => .nil
  | m + 1 => .cons .unbound (unbounds_rel m)

/-- `let-values`: congruence. -/
theorem bds_sim (ih : Sims P K F n) {ρ ρ' : REnv} : ∀ {bs bs' : List Bd} {σ σ1 σ' : RS} {vs : List RV} {w : W}, TrB K F bs bs' → WfB K F bs →
    evBds P n ρ bs σ = .ok (vs, σ1) → EnvRel K F w ρ ρ' → SR K F w σ σ' →
    (bdsIds bs).length = vs.length ∧ ∃ m vs' σ1' w1, evBds P m ρ' bs' σ' = .ok (vs', σ1') ∧ Post K F w σ σ' w1 σ1 σ1' ∧ List.Forall₂ (PV K F w1) vs vs'
  | _, _, σ, σ1, σ', vs, w, .nil, _, h, _, hs => by
    obtain ⟨rfl, rfl⟩ := evBds_nil_inv h
    exact ⟨rfl, 1, [], σ', w, by rw [evBds], Post.refl hs, .nil⟩
  | .mk xs e :: bs, .mk _ e' :: bs', σ, σ1, σ', vs, w, .cons h1 h2, hw, h, he, hs => by
    rw [WfB] at hw
    obtain ⟨us, σa, ws, ha, hl, hb, hr, rfl⟩ := evBds_cons_inv' h
    obtain ⟨us', σa', w1, ⟨m1, r1⟩, p1, v1⟩ := ih.e ha hw.1 h1 he hs
    obtain ⟨hl2, m2, ws', σb', w2, r2, p2, v2⟩ := bds_sim ih h2 hw.2 hr (p1.env he) p1.sr
    refine ⟨by simp [bdsIds, Bd.ids, hl, hl2], m1 + m2 + 1, us' ++ ws', σb', w2, ?_, p1.trans p2, Forall₂.append (p2.pvs v1) v2⟩
    rw [evBds, ev_le (n := m1 + m2) (by omega) r1]
    simp only [Res.ok_bind]
    rw [if_pos ⟨by rw [← v1.length_eq, hl], by rw [bound_rel v1, hb]⟩]
    have : evBds P (m1 + m2) ρ' bs' σa' = .ok (ws', σb') := by
      have key : ∀ d, evBds P (m2 + d) ρ' bs' σa' = .ok (ws', σb') := fun d => by
        induction d with
        | zero => exact r2
        | succ d ih => exact (mono_all P _).d ih
      rw [Nat.add_comm]; exact key m1
    rw [this]; rfl

theorem assigns_sim (hK : Names K F) {ρ ρ' : REnv} : ∀ {xs : List Sym} {us us' : List RV} {σ σ1 σ' : RS} {w : W},
    assignsR ρ σ xs us = .ok σ1 → (∀ x ∈ xs, ¬ K.con x ∧ ¬ F x) → EnvRel K F w ρ ρ' → SR K F w σ σ' → List.Forall₂ (PV K F w) us us' →
    ∃ σ1', assignsR ρ' σ' xs us' = .ok σ1' ∧ Post K F w σ σ' w σ1 σ1'
  | [], us, us', σ, σ1, σ', w, h, _, _, hs, hu => by
    cases hu <;> (simp only [assignsR] at h ⊢; cases h; exact ⟨_, rfl, Post.refl hs⟩)
  | x :: xs, _, _, σ, σ1, σ', w, h, _, _, hs, .nil => by simp only [assignsR] at h ⊢; cases h; exact ⟨_, rfl, Post.refl hs⟩
  | x :: xs, _, _, σ, σ1, σ', w, h, hx, he, hs, .cons hu hus => by
    rw [assignsR, Res.bind_eq_ok] at h
    obtain ⟨σa, h1, h2⟩ := h
    obtain ⟨σa', ha, hp⟩ := pAssign hK he hs (hx x (by simp)).2 (hx x (by simp)).1 hu h1
    obtain ⟨σb', hb, hp2⟩ := assigns_sim hK h2 (fun z hz => hx z (List.mem_cons_of_mem _ hz)) he hp.sr hus
    exact ⟨σb', by rw [assignsR, ha]; exact hb, hp.trans hp2⟩

/-- `letrec-values`: congruence. -/
theorem recs_sim (hK : Names K F) (ih : Sims P K F n) {ρ ρ' : REnv} : ∀ {bs bs' : List Bd} {σ σ1 σ' : RS} {w : W}, TrB K F bs bs' → WfB K F bs →
    (∀ x ∈ bdsIds bs, ¬ K.con x ∧ ¬ F x) → evRec P n ρ bs σ = .ok σ1 → EnvRel K F w ρ ρ' → SR K F w σ σ' →
    ∃ m σ1' w1, evRec P m ρ' bs' σ' = .ok σ1' ∧ Post K F w σ σ' w1 σ1 σ1'
  | _, _, σ, σ1, σ', w, .nil, _, _, h, _, hs => by
    cases evRec_nil_inv h
    exact ⟨1, σ', w, by rw [evRec], Post.refl hs⟩
  | .mk xs e :: bs, .mk _ e' :: bs', σ, σ1, σ', w, .cons h1 h2, hw, hx, h, he, hs => by
    rw [WfB] at hw
    obtain ⟨us, σa, σb, ha, hl, hb, has, hr⟩ := evRec_cons_inv' h
    obtain ⟨us', σa', w1, ⟨m1, r1⟩, p1, v1⟩ := ih.e ha hw.1 h1 he hs
    obtain ⟨σb', r2, p2⟩ := assigns_sim hK has (fun x hx' => hx x (by simp [bdsIds, Bd.ids, hx'])) (p1.env he) p1.sr v1
    have p12 := p1.trans p2
    obtain ⟨m3, σ1', w3, r3, p3⟩ := recs_sim hK ih h2 hw.2 (fun x hx' => hx x (by simp [bdsIds, hx'])) hr (p12.env he) p12.sr
    refine ⟨m1 + m3 + 1, σ1', w3, ?_, p12.trans p3⟩
    rw [evRec, ev_le (n := m1 + m3) (by omega) r1]
    simp only [Res.ok_bind]
    rw [if_pos ⟨by rw [← v1.length_eq, hl], by rw [bound_rel v1, hb]⟩, r2]
    have key : ∀ d, evRec P (m3 + d) ρ' bs' σb' = .ok σ1' := fun d => by
      induction d with
      | zero => exact r3
      | succ d ih => exact (mono_all P _).r ih
    show evRec P (m1 + m3) ρ' bs' σb' = _
    rw [Nat.add_comm]; exact key m1

/-! ### All expressions -/

theorem bindVals_nil {ρ : REnv} {σ : RS} {vs : List RV} : bindVals ρ σ [] vs = (ρ, σ) := by cases vs <;> rfl

theorem sim_e (hN : Names K F) (ih : Sims P K F n) {ρ : REnv} {e : E} {σ : RS} {vs : List RV} {σ1 : RS} (h : ev P (n + 1) ρ e σ = .ok (vs, σ1)) (hw : Wf K F e) {e' : E}
    {ρ' : REnv} {σ' : RS} {w : W} (ht : Tr K F e e') (he : EnvRel K F w ρ ρ') (hs : SR K F w σ σ') : Reach K F (Evs P ρ' e' σ') w σ σ' vs σ1 := by
  have hK := hN
  cases ht with
  | var x =>
    obtain ⟨v, hl, rfl, rfl⟩ := ev_var_inv h
    obtain ⟨v', h1, h2⟩ := pLookup he hs (by simpa only [Wf] using hw) hl
    exact ⟨[v'], σ', w, .var h1, Post.refl hs, .cons h2 .nil⟩
  | lit l => rw [ev] at h; cases h; exact ⟨_, σ', w, .lit, Post.refl hs, .cons (.lit _) .nil⟩
  | quote d => rw [ev] at h; cases h; exact ⟨_, σ', w, .quote, Post.refl hs, .cons (VRel.ofX d) .nil⟩
  | quoteSyntax d => rw [ev] at h; cases h; exact ⟨_, σ', w, .quoteSyntax, Post.refl hs, .cons (.stx _) .nil⟩
  | unbound => rw [ev] at h; cases h; exact ⟨_, σ', w, .unbound, Post.refl hs, .cons .unbound .nil⟩
  | define h1 =>
    rw [Wf] at hw
    rw [ev, Res.bind_eq_ok] at h
    obtain ⟨⟨us, σa⟩, ha, h⟩ := h
    simp only at h
    split at h
    next hl =>
      cases h
      obtain ⟨us', σa', w1, r1, p1, v1⟩ := ih.e ha hw.2 h1 he hs
      have p2 := pSetGlobs hK p1.sr (fun x hx => (hw.1 x hx).1) v1
      exact ⟨_, _, w1, .define r1 (by rw [← v1.length_eq, hl]), p1.trans p2, .cons .void .nil⟩
    · cases h
  | set h1 =>
    rw [Wf] at hw
    rw [ev, Res.bind_eq_ok] at h
    obtain ⟨⟨us, σa⟩, ha, h⟩ := h
    simp only [Res.bind_eq_ok] at h
    obtain ⟨v, hv, σb, hb, h⟩ := h
    cases single_inv hv
    cases h
    obtain ⟨v', σa', w1, r1, p1, v1⟩ := ih.e1 ha hw.2.2 h1 he hs
    obtain ⟨σb', r2, p2⟩ := pAssign hK (p1.env he) p1.sr hw.2.1 hw.1 v1 hb
    exact ⟨_, _, w1, .set r1 r2, p1.trans p2, .cons .void .nil⟩
  | ite h1 h2 h3 =>
    rw [Wf] at hw
    obtain ⟨v, σa, ha, h⟩ := ev_ite_inv h
    obtain ⟨v', σa', w1, r1, p1, v1⟩ := ih.e1 ha hw.1 h1 he hs
    rcases h with ⟨hf, h⟩ | ⟨hf, h⟩
    · obtain ⟨vs', σb', w2, r2, p2, v2⟩ := ih.e h hw.2.2 h3 (p1.env he) p1.sr
      exact ⟨vs', σb', w2, .ite_false r1 (by rw [VRel.isFalse v1, hf]) r2, p1.trans p2, v2⟩
    · obtain ⟨vs', σb', w2, r2, p2, v2⟩ := ih.e h hw.2.1 h2 (p1.env he) p1.sr
      exact ⟨vs', σb', w2, .ite_true r1 (by rw [VRel.isFalse v1, hf]) r2, p1.trans p2, v2⟩
  | letv h1 h2 =>
    rw [Wf] at hw
    rw [ev, Res.bind_eq_ok] at h
    obtain ⟨⟨us, σa⟩, ha, h⟩ := h
    obtain ⟨hl, m, us', σa', w1, r1, p1, v1⟩ := bds_sim ih h1 hw.2.2.1 ha he hs
    obtain ⟨w2, e2, p2⟩ := pBind (p1.env he) p1.sr (fun x hx => (hw.1 x hx).1) v1
    obtain ⟨vs', σb', w3, ⟨m3, r3⟩, p3, v3⟩ := ih.b h hw.2.2.2 h2 e2 p2.sr
    refine ⟨vs', σb', w3, ⟨m + m3 + 1, ?_⟩, p1.trans (p2.trans p3), v3⟩
    have key : ∀ d, evBds P (m + d) ρ' _ σ' = .ok (us', σa') := fun d => by
      induction d with
      | zero => exact r1
      | succ d ih => exact (mono_all P _).d ih
    rw [ev, key m3, h1.ids]
    exact evBody_le (by omega) r3
  | letrecv h1 h2 =>
    rw [Wf] at hw
    rw [ev] at h
    obtain ⟨w1, e1, p1⟩ := pBind he hs (fun x hx hk => (hw.1 x hx).1 (hK.sub x hk)) (unbounds_rel _)
    simp only [Res.bind_eq_ok] at h
    obtain ⟨σa, ha, h⟩ := h
    obtain ⟨m, σa', w2, r2, p2⟩ := recs_sim hK ih h1 hw.2.2.1 hw.1 ha e1 p1.sr
    obtain ⟨vs', σb', w3, ⟨m3, r3⟩, p3, v3⟩ := ih.b h hw.2.2.2 h2 (p2.env e1) p2.sr
    refine ⟨vs', σb', w3, ⟨m + m3 + 1, ?_⟩, p1.trans (p2.trans p3), v3⟩
    have key : ∀ d, evRec P (m + d) _ _ _ = .ok σa' := fun d => by
      induction d with
      | zero => exact r2
      | succ d ih => exact (mono_all P _).r ih
    rw [ev, h1.ids]
    simp only [key m3, Res.ok_bind]
    exact evBody_le (by omega) r3
  | lam h1 =>
    rw [Wf] at hw
    rw [ev] at h; cases h
    exact ⟨_, σ', w, .lam, Post.refl hs, .cons (.clo (.clo he (by simp only [WfC]; exact ⟨hw.1, hw.2, trivial⟩) (.cons h1 .nil))) .nil⟩
  | clam h1 =>
    rw [Wf] at hw
    rw [ev] at h; cases h
    exact ⟨_, σ', w, .clam, Post.refl hs, .cons (.clo (.clo he hw h1)) .nil⟩
  | clam1 h1 =>
    rw [Wf] at hw
    rw [ev] at h; cases h
    exact ⟨_, σ', w, .lam, Post.refl hs, .cons (.clo (.clo he hw (.cons h1 .nil))) .nil⟩
  | begin h1 =>
    rw [Wf] at hw
    rw [ev] at h
    obtain ⟨vs', σa', w1, r1, p1, v1⟩ := ih.b h hw h1 he hs
    exact ⟨vs', σa', w1, .begin r1, p1, v1⟩
  | app h1 h2 =>
    rw [Wf] at hw
    obtain ⟨g, σa, as, σb, ha, hb, hc⟩ := ev_app_inv h
    obtain ⟨g', σa', w1, r1, p1, v1⟩ := ih.e1 ha hw.1 h1 he hs
    obtain ⟨as', σb', w2, r2, p2, v2⟩ := ih.a hb hw.2 h2 (p1.env he) p1.sr
    obtain ⟨vs', σc', w3, r3, p3, v3⟩ := ih.p hc (p2.pv v1) v2 p2.sr
    exact ⟨vs', σc', w3, .app r1 r2 r3, p1.trans (p2.trans p3), v3⟩
  | mvcall h1 h2 =>
    rw [Wf] at hw
    obtain ⟨as, σa, g, σb, ha, hb, hc⟩ := ev_mvcall_inv h
    obtain ⟨as', σa', w1, r1, p1, v1⟩ := ih.e ha hw.1 h1 he hs
    obtain ⟨g', σb', w2, r2, p2, v2⟩ := ih.e1 hb hw.2 h2 (p1.env he) p1.sr
    obtain ⟨vs', σc', w3, r3, p3, v3⟩ := ih.p hc v2 (p2.pvs v1) p2.sr
    exact ⟨vs', σc', w3, .mvcall r1 r2 r3, p1.trans (p2.trans p3), v3⟩
  | mvlet h1 h2 =>
    rw [Wf] at hw
    obtain ⟨as, σa, ha, hl, hb⟩ := ev_mvlet_inv h
    obtain ⟨as', σa', w1, r1, p1, v1⟩ := ih.e ha hw.2.1 h1 he hs
    obtain ⟨w2, e2, p2⟩ := pBind (p1.env he) p1.sr (fun x hx => (hw.1 x hx).1) v1
    obtain ⟨vs', σb', w3, r3, p3, v3⟩ := ih.e hb hw.2.2 h2 e2 p2.sr
    exact ⟨vs', σb', w3, .mvlet r1 (by rw [← v1.length_eq, hl]) r3, p1.trans (p2.trans p3), v3⟩
  | mvvals h1 =>
    rw [Wf] at hw
    rw [ev] at h
    obtain ⟨vs', σa', w1, r1, p1, v1⟩ := ih.a h hw h1 he hs
    exact ⟨vs', σa', w1, .mvvals r1, p1, v1⟩
  | let0 h1 =>
    rw [Wf] at hw
    rw [ev, Res.bind_eq_ok] at h
    obtain ⟨⟨us, σa⟩, ha, h⟩ := h
    obtain ⟨rfl, rfl⟩ := evBds_nil_inv ha
    obtain ⟨vs', σa', w1, r1, p1, v1⟩ := ih.b h hw.2.2.2 h1 he hs
    exact ⟨vs', σa', w1, .begin r1, p1, v1⟩
  | let1 hG h1 h2 =>
    rw [Wf] at hw
    rw [ev, Res.bind_eq_ok] at h
    obtain ⟨⟨us, σa⟩, ha, h⟩ := h
    obtain ⟨us, σb, ws, ha, hl, hb, hr, rfl⟩ := evBds_cons_inv' ha
    obtain ⟨rfl, rfl⟩ := evBds_nil_inv hr
    have hw1 := hw.2.2.1
    rw [WfB] at hw1
    simp only [bdsIds, Bd.ids, List.append_nil] at h hw
    obtain ⟨us', σa', w1, r1, p1, v1⟩ := ih.e ha hw1.1 h1 he hs
    obtain ⟨w2, e2, p2⟩ := pBind (p1.env he) p1.sr (fun x hx => (hw.1 x hx).1) v1
    obtain ⟨vs', σb', w3, r3, p3, v3⟩ := ih.b h hw.2.2.2 h2 e2 p2.sr
    exact ⟨vs', σb', w3, .cwvLam (he.kT _ hN.cwv) (hs.cwvT hG) r1 (by rw [← v1.length_eq, hl]) r3, p1.trans (p2.trans p3), v3⟩
  | @let2 bs bs' es es' k hG h1 h2 =>
    rw [Wf] at hw
    rw [ev, Res.bind_eq_ok] at h
    obtain ⟨⟨us, σa⟩, ha, h⟩ := h
    obtain ⟨ρ1', σ1', w1, us1, e1, p1, t1, l1, l1', z1, _, r1⟩ := let2_sim (ids := []) (tmps := []) (us := []) (body := es') (k := k) hK hN.disj hG ih h1 hw.2.2.1 ha he hs .nil
      (by simp) rfl
    have hperm : (revIds bs []).Perm (bdsIds bs ++ []) := revIds_perm bs []
    rw [List.append_nil] at hperm
    obtain ⟨w2, e2, p2⟩ := pBindPerm e1 p1.sr (fun x hx => (hw.1 x hx).1) hw.2.1 hperm l1' l1 z1
    obtain ⟨vs', σb', w3, r3, p3, v3⟩ := ih.b h hw.2.2.2 h2 e2 p2.sr
    exact ⟨vs', σb', w3, r1 _ _ (.app .lam (.vars t1.lookup) (.call l1.symm r3)), p1.trans (p2.trans p3), v3⟩
  | letrec0 h1 =>
    rw [Wf] at hw
    rw [ev] at h
    simp only [Res.bind_eq_ok] at h
    obtain ⟨σa, ha, h⟩ := h
    cases evRec_nil_inv ha
    obtain ⟨vs', σa', w1, r1, p1, v1⟩ := ih.b h hw.2.2.2 h1 he hs
    exact ⟨vs', σa', w1, .begin r1, p1, v1⟩
  | @letrec1 bs bs' es es' k hG h1 h2 hne =>
    rw [Wf] at hw
    rw [ev] at h
    simp only [Res.bind_eq_ok] at h
    obtain ⟨σa, ha, h⟩ := h
    obtain ⟨w1, e1, p1⟩ := pBind he hs (fun x hx hk => (hw.1 x hx).1 (hK.sub x hk)) (unbounds_rel (bdsIds bs).length)
    obtain ⟨σa', w2, p2, r2⟩ := rec_sim hK hN.disj hG ih (k := k) h1 hw.2.2.1 hw.1 ha e1 p1.sr
    obtain ⟨vs', σb', w3, r3, p3, v3⟩ := ih.b h hw.2.2.2 h2 (p2.env e1) p2.sr
    have hne' : es' ≠ [] := by
      rintro rfl
      have := h2.length
      cases es <;> simp_all
    refine ⟨vs', σb', w3, ?_, p1.trans (p2.trans p3), v3⟩
    exact .cwvLam (he.kT _ hN.cwv) (hs.cwvT hG) (.valuesCall (he.kT _ hN.values) hs.valuesT (.unbounds _)) (by simp) (r2 _ _ _ hne' r3)
  | values1 h1 =>
    rw [Wf, WfL] at hw
    have h := values_inv hK he hs h
    obtain ⟨v, σa, ws, ha, hb, rfl⟩ := evArgs_cons_inv' h
    obtain ⟨rfl, rfl⟩ := evArgs_nil_inv hb
    exact ih.e ha hw.2.1 h1 he hs
  | values h1 =>
    rw [Wf] at hw
    have h := values_inv hK he hs h
    obtain ⟨vs', σa', w1, r1, p1, v1⟩ := ih.a h hw.2 h1 he hs
    exact ⟨vs', σa', w1, .mvvals r1, p1, v1⟩
  | cwv h1 h2 hst =>
    simp only [Wf, WfL] at hw
    obtain ⟨pv, cv, σa, as, σb, ha, hb, hc⟩ := cwv_inv hK he hs h
    obtain ⟨_, σ2, ws, ha, hb', e⟩ := evArgs_cons_inv' ha
    cases e
    obtain ⟨_, σ3, ws', hc', hn', e⟩ := evArgs_cons_inv' hb'
    cases e
    obtain ⟨_, rfl⟩ := evArgs_nil_inv hn'
    obtain ⟨rfl, v, e, hst'⟩ := stable_sim hc' hst hw.2.2.1 h2
    cases e
    obtain ⟨pv', σ2', w1, r1, p1, v1⟩ := ih.e1 ha hw.2.1 h1 he hs
    obtain ⟨as', σb', w2, r2, p2, v2⟩ := ih.p hb v1 .nil p1.sr
    have p12 := p1.trans p2
    obtain ⟨cv', r3, v3⟩ := hst' (p12.env he) p12.sr (fun x hx hF => p2.con (p1.env he) hx hF)
    obtain ⟨vs', σc', w3, r4, p4, v4⟩ := ih.p hc v3 v2 p2.sr
    exact ⟨vs', σc', w3, .mvcall (.app r1 .nil r2) r3 r4, p12.trans p4, v4⟩
  | cwvMore h1 h2 =>
    obtain ⟨pv, cv, σa, as, σb, ha, _⟩ := cwv_inv hK he hs h
    have := evArgs_length ha
    simp only [List.length_cons, List.length_nil] at this
    omega
  | mvThunk h1 h2 =>
    rw [Wf, Wf, Wf] at hw
    obtain ⟨as, σa, g, σb, ha, hb, hc⟩ := ev_mvcall_inv h
    obtain ⟨g1, σ2, us, σ3, ha1, ha2, ha3⟩ := ev_app_inv' ha
    obtain ⟨e, rfl⟩ := ev_lam_inv ha1
    cases e
    obtain ⟨hl, hbody⟩ := apply_fixed_inv ha3
    have hl2 := evArgs_length ha2
    have hl3 : us = [] := by simpa using hl
    subst hl3
    have hargs := List.length_eq_zero_iff.1 hl2.symm
    rw [hargs] at ha2
    obtain ⟨_, rfl⟩ := evArgs_nil_inv ha2
    simp only [bindVals_nil] at hbody
    obtain ⟨as', σa', w1, r1, p1, v1⟩ := ih.b hbody hw.1.1.2 h1 he hs
    obtain ⟨g', σb', w2, r2, p2, v2⟩ := ih.e1 hb hw.2 h2 (p1.env he) p1.sr
    obtain ⟨vs', σc', w3, r3, p3, v3⟩ := ih.p hc v2 (p2.pvs v1) p2.sr
    exact ⟨vs', σc', w3, .mvcall r1.asExpr r2 r3, p1.trans (p2.trans p3), v3⟩
  | mvVals h1 h2 hst =>
    rw [Wf, Wf] at hw
    obtain ⟨as, σa, g, σb, ha, hb, hc⟩ := ev_mvcall_inv h
    have ha := ev_mvvals_inv ha
    obtain ⟨rfl, v, e, hst'⟩ := stable_sim hb hst hw.2 h2
    cases e
    obtain ⟨as', σa', w1, r1, p1, v1⟩ := ih.a ha hw.1 h1 he hs
    obtain ⟨g', r2, v2⟩ := hst' he hs (fun x hx hF => (p1.con he hx hF).symm)
    obtain ⟨vs', σc', w3, r3, p3, v3⟩ := ih.p hc (p1.pv v2) v1 p1.sr
    exact ⟨vs', σc', w3, .app r2 r1 r3, p1.trans p3, v3⟩
  | mvBegin h1 h2 h3 =>
    rw [Wf, Wf] at hw
    have happ : ∀ {as : List E} {b : E}, WfL K F (as ++ [b]) → WfL K F as ∧ Wf K F b := by
      intro as b hh
      induction as with
      | nil => simp only [List.nil_append, WfL] at hh ⊢; exact ⟨trivial, hh.1⟩
      | cons a as ih => rw [List.cons_append, WfL] at hh; rw [WfL]; exact ⟨⟨hh.1, (ih hh.2).1⟩, (ih hh.2).2⟩
    obtain ⟨hw1, hw2⟩ := happ hw.1
    obtain ⟨as, σa, g, σb, ha, hb, hc⟩ := ev_mvcall_inv h
    have ha := ev_begin_inv ha
    obtain ⟨σ2, σ2', w1, ha, p1, r1⟩ := seq_sim ih h1 hw1 ha he hs
    obtain ⟨as', σa', w2, r2, p2, v2⟩ := ih.e ha hw2 h2 (p1.env he) p1.sr
    have p12 := p1.trans p2
    obtain ⟨g', σb', w3, r3, p3, v3⟩ := ih.e1 hb hw.2 h3 (p12.env he) p12.sr
    obtain ⟨vs', σc', w4, r4, p4, v4⟩ := ih.p hc v3 (p3.pvs v2) p3.sr
    exact ⟨vs', σc', w4, .begin (r1 _ _ _ (.mvcall r2 r3 r4)), p12.trans (p3.trans p4), v4⟩
  | mvIf h1 h2 h3 h4 =>
    rw [Wf, Wf] at hw
    obtain ⟨as, σa, g, σb, ha, hb, hc⟩ := ev_mvcall_inv h
    obtain ⟨v, σ2, ha, hbr⟩ := ev_ite_inv' ha
    obtain ⟨v', σ2', w1, r1, p1, v1⟩ := ih.e1 ha hw.1.1 h1 he hs
    rcases hbr with ⟨hf, hbr⟩ | ⟨hf, hbr⟩
    · obtain ⟨as', σa', w2, r2, p2, v2⟩ := ih.e hbr hw.1.2.2 h3 (p1.env he) p1.sr
      have p12 := p1.trans p2
      obtain ⟨g', σb', w3, r3, p3, v3⟩ := ih.e1 hb hw.2 h4 (p12.env he) p12.sr
      obtain ⟨vs', σc', w4, r4, p4, v4⟩ := ih.p hc v3 (p3.pvs v2) p3.sr
      exact ⟨vs', σc', w4, .ite_false r1 (by rw [VRel.isFalse v1, hf]) (.mvcall r2 r3 r4), p12.trans (p3.trans p4), v4⟩
    · obtain ⟨as', σa', w2, r2, p2, v2⟩ := ih.e hbr hw.1.2.1 h2 (p1.env he) p1.sr
      have p12 := p1.trans p2
      obtain ⟨g', σb', w3, r3, p3, v3⟩ := ih.e1 hb hw.2 h4 (p12.env he) p12.sr
      obtain ⟨vs', σc', w4, r4, p4, v4⟩ := ih.p hc v3 (p3.pvs v2) p3.sr
      exact ⟨vs', σc', w4, .ite_true r1 (by rw [VRel.isFalse v1, hf]) (.mvcall r2 r3 r4), p12.trans (p3.trans p4), v4⟩
  | mvAtom h1 h2 hst hat =>
    rw [Wf] at hw
    obtain ⟨as, σa, g, σb, ha, hb, hc⟩ := ev_mvcall_inv h
    obtain ⟨u, rfl⟩ := atom_single hat ha
    obtain ⟨rfl, v, e, hst'⟩ := stable_sim hb hst hw.2 h2
    cases e
    obtain ⟨u', σa', w1, r1, p1, v1⟩ := ih.e1 ha hw.1 h1 he hs
    obtain ⟨g', r2, v2⟩ := hst' he hs (fun x hx hF => (p1.con he hx hF).symm)
    obtain ⟨vs', σc', w3, r3, p3, v3⟩ := ih.p hc (p1.pv v2) (.cons v1 .nil) p1.sr
    exact ⟨vs', σc', w3, .app r2 (.cons r1 .nil) r3, p1.trans p3, v3⟩
  | mvLam h1 h2 =>
    rw [Wf, Wf] at hw
    obtain ⟨as, σa, g, σb, ha, hb, hc⟩ := ev_mvcall_inv h
    obtain ⟨e, rfl⟩ := ev_lam_inv hb
    cases e
    obtain ⟨as', σa', w1, r1, p1, v1⟩ := ih.e ha hw.1 h1 he hs
    obtain ⟨hl, vs', σb', w2, r2, p2, v2⟩ := ih.inline hc (lam_fixed_ids hw.2.1) hw.2.2 h2 (p1.env he) p1.sr v1
    exact ⟨vs', σb', w2, .mvlet r1 hl r2.asExpr, p1.trans p2, v2⟩
  | app0 h1 =>
    rw [Wf, Wf] at hw
    obtain ⟨g, σa, as, σb, ha, hb, hc⟩ := ev_app_inv h
    obtain ⟨e, rfl⟩ := ev_lam_inv ha
    cases e
    obtain ⟨rfl, rfl⟩ := evArgs_nil_inv hb
    obtain ⟨hl, vs', σb', w2, r2, p2, v2⟩ := ih.inline hc (lam_fixed_ids hw.1.1) hw.1.2 h1 he hs .nil
    have := List.length_eq_zero_iff.1 hl.symm
    subst this
    simp only [bindVals_nil] at r2
    exact ⟨vs', σb', w2, r2.asExpr, p2, v2⟩
  | app1 h1 h2 =>
    rw [Wf, Wf, WfL] at hw
    obtain ⟨g, σa, as, σb, ha, hb, hc⟩ := ev_app_inv h
    obtain ⟨e, rfl⟩ := ev_lam_inv ha
    cases e
    obtain ⟨v, σ2, ws, hb, hn, rfl⟩ := evArgs_cons_inv' hb
    obtain ⟨rfl, rfl⟩ := evArgs_nil_inv hn
    obtain ⟨v', σa', w1, r1, p1, v1⟩ := ih.e1 hb hw.2.1 h1 he hs
    obtain ⟨hl, vs', σb', w2, r2, p2, v2⟩ := ih.inline hc (lam_fixed_ids hw.1.1) hw.1.2 h2 (p1.env he) p1.sr (.cons v1 .nil)
    exact ⟨vs', σb', w2, .mvlet r1 hl r2.asExpr, p1.trans p2, v2⟩
  | app2 h1 h2 =>
    rw [Wf, Wf] at hw
    obtain ⟨g, σa, as, σb, ha, hb, hc⟩ := ev_app_inv h
    obtain ⟨e, rfl⟩ := ev_lam_inv ha
    cases e
    obtain ⟨as', σa', w1, r1, p1, v1⟩ := ih.a hb hw.2 h1 he hs
    obtain ⟨hl, vs', σb', w2, r2, p2, v2⟩ := ih.inline hc (lam_fixed_ids hw.1.1) hw.1.2 h2 (p1.env he) p1.sr v1
    exact ⟨vs', σb', w2, .mvlet (.valuesCall (he.kT _ hN.values) hs.valuesT r1) hl r2.asExpr, p1.trans p2, v2⟩

theorem pParams {w : W} {f : Formals} {as as' : List RV} (h : List.Forall₂ (PV K F w) as as') : List.Forall₂ (PV K F w) (params f as) (params f as') := by
  unfold params
  split
  · exact Forall₂.append (Forall₂.take h _) (.cons (VRel.listV (Forall₂.drop h _)) .nil)
  · exact h

theorem applyR_clo {f : RV} {as : List RV} {σ : RS} {r : List RV × RS} {m : Nat} (h : applyR P m f as σ = .ok r) : ∃ c, f = .clo c := by
  cases m with
  | zero => simp [applyR] at h
  | succ m => cases f <;> first | exact ⟨_, rfl⟩ | simp [applyR] at h

theorem sim_p (ih : Sims P K F n) {f : RV} {as : List RV} {σ σ1 : RS} {vs : List RV} (h : applyR P (n + 1) f as σ = .ok (vs, σ1)) {f' : RV} {as' : List RV} {σ' : RS} {w : W}
    (hf : PV K F w f f') (ha : List.Forall₂ (PV K F w) as as') (hs : SR K F w σ σ') : Reach K F (EvP P f' as' σ') w σ σ' vs σ1 := by
  cases hf with
  | clo hc =>
    cases hc with
    | clo he hw ht =>
      obtain ⟨f, es, hsel, hb⟩ := applyR_clo_inv h
      obtain ⟨es', hsel', ht'⟩ := ht.select hsel
      obtain ⟨hx, hw'⟩ := hw.select hsel
      obtain ⟨w1, e1, p1⟩ := pBind he hs (fun x hx' => (hx x hx').1) (pParams (f := f) ha)
      obtain ⟨vs', σ1', w2, r2, p2, v2⟩ := ih.b hb hw' ht' e1 p1.sr
      exact ⟨vs', σ1', w2, .clo (by rw [← ha.length_eq]; exact hsel') r2, p1.trans p2, v2⟩
    | prim p k =>
      rw [applyR] at h
      split at h
      next hk =>
        have := P.param (CR K F w) p as as' ha
        cases hp : P.f RC p as with
        | none => rw [hp] at h; cases h
        | some v =>
          rw [hp] at h this
          cases h
          obtain ⟨v', hv', hr⟩ := this.some_inv
          exact ⟨[v'], σ', w, .prim ⟨by rw [← ha.length_eq]; exact hk.1, hk.2⟩ hv', Post.refl hs, .cons hr .nil⟩
      · cases h
    | values => rw [applyR] at h; cases h; exact ⟨as', σ', w, .values, Post.refl hs, ha⟩
    | apply =>
      match as, as', h, ha with
      | [], _, h, _ => simp [applyR] at h
      | [_], _, h, _ => simp [applyR] at h
      | g :: v :: us, _, h, .cons hg (.cons hv hus) =>
        rw [applyR] at h
        split at h
        · cases h
        next bs hsp =>
          obtain ⟨bs', hsp', hr⟩ := spread_rel (.cons hv hus) hsp
          obtain ⟨vs', σ1', w1, r1, p1, v1⟩ := ih.p h hg hr hs
          exact ⟨vs', σ1', w1, .apply hsp' r1, p1, v1⟩
    | cwv =>
      match as, as', h, ha with
      | [], _, h, _ => simp [applyR] at h
      | [_], _, h, _ => simp [applyR] at h
      | _ :: _ :: _ :: _, _, h, _ => simp [applyR] at h
      | [p, c], _, h, .cons hp (.cons hc .nil) =>
        rw [applyR, Res.bind_eq_ok] at h
        obtain ⟨⟨us, σa⟩, h1, h2⟩ := h
        obtain ⟨us', σa', w1, r1, p1, v1⟩ := ih.p h1 hp .nil hs
        obtain ⟨vs', σb', w2, r2, p2, v2⟩ := ih.p h2 (p1.pv hc) v1 p1.sr
        exact ⟨vs', σb', w2, .cwv r1 r2, p1.trans p2, v2⟩
    | @cwvClo ρ a b _ hab =>
      match as, as', h, ha with
      | [], _, h, _ => simp [applyR] at h
      | [_], _, h, _ => simp [applyR] at h
      | _ :: _ :: _ :: _, _, h, _ => simp [applyR] at h
      | [p, c], [p', c'], h, .cons hp (.cons hc .nil) =>
        rw [applyR, Res.bind_eq_ok] at h
        obtain ⟨⟨us, σa⟩, h1, h2⟩ := h
        have p0 := hs.addCells [p', c']
        have hb1 : (bindVals ρ σ' [a, b] [p', c']).2 = { σ' with cells := σ'.cells ++ [p', c'] } := by simp [bindVals]
        have ha1 : (bindVals ρ σ' [a, b] [p', c']).1 a = some σ'.cells.length := by simp [bindVals, REnv.set, hab]
        have hb2 : (bindVals ρ σ' [a, b] [p', c']).1 b = some (σ'.cells.length + 1) := by simp [bindVals, REnv.set]
        obtain ⟨us', σa', w1, r1, p1, v1⟩ := ih.p h1 hp .nil p0.sr
        obtain ⟨vs', σb', w2, r2, p2, v2⟩ := ih.p h2 (p1.pv hc) v1 p1.sr
        have la : lookupR (bindVals ρ σ' [a, b] [p', c']).1 { σ' with cells := σ'.cells ++ [p', c'] } a = .ok p' := by
          obtain ⟨q, rfl⟩ := applyR_clo h1
          cases hp
          simp [lookupR, ha1]
        have hcell : σa'.cells[σ'.cells.length + 1]? = some c' := by
          rw [p1.frame (σ'.cells.length + 1) (by simp) (fun hm => by have := hs.lt _ hm; omega)]
          simp
        have lb : lookupR (bindVals ρ σ' [a, b] [p', c']).1 σa' b = .ok c' := by
          obtain ⟨q, rfl⟩ := applyR_clo h2
          cases hc
          simp [lookupR, hb2, hcell]
        exact ⟨vs', σb', w2, .call rfl (by rw [hb1]; exact .one (.mvcall (.app (.var la) .nil r1) (.var lb) r2)), p0.trans (p1.trans p2), v2⟩
  | _ => simp [applyR] at h

/-- One rewriting step preserves results. -/
theorem sims (P : Prims) (hN : Names K F) : ∀ n, Sims P K F n
  | 0 => ⟨fun h => by simp [ev] at h, fun h => by simp [evBody] at h, fun h => by simp [evArgs] at h, fun h => by simp [applyR] at h⟩
  | n + 1 => by
    have ih := sims P hN n
    refine ⟨fun h hw _ _ _ _ ht he hs => sim_e hN ih h hw ht he hs, ?_, ?_, fun h _ _ _ _ hf ha hs => sim_p ih h hf ha hs⟩
    · intro ρ es σ vs σ1 h hw es' ρ' σ' w ht he hs
      match es, es', ht, h with
      | [], _, .nil, h => rw [evBody] at h; cases h; exact ⟨_, σ', w, .nil, Post.refl hs, .cons .void .nil⟩
      | [e], _, .cons h1 .nil, h =>
        rw [evBody] at h
        rw [WfL] at hw
        obtain ⟨vs', σ1', w1, r1, p1, v1⟩ := ih.e h hw.1 h1 he hs
        exact ⟨vs', σ1', w1, .one r1, p1, v1⟩
      | e :: e2 :: es, _, .cons h1 (.cons h2 h3), h =>
        rw [evBody, Res.bind_eq_ok] at h
        obtain ⟨⟨us, σa⟩, ha, hb⟩ := h
        rw [WfL] at hw
        obtain ⟨us', σa', w1, r1, p1, _⟩ := ih.e ha hw.1 h1 he hs
        obtain ⟨vs', σ1', w2, r2, p2, v2⟩ := ih.b hb hw.2 (.cons h2 h3) (p1.env he) p1.sr
        exact ⟨vs', σ1', w2, .cons r1 r2, p1.trans p2, v2⟩
    · intro ρ es σ vs σ1 h hw es' ρ' σ' w ht he hs
      match es, es', ht, h with
      | [], _, .nil, h => rw [evArgs] at h; cases h; exact ⟨_, σ', w, .nil, Post.refl hs, .nil⟩
      | e :: es, _, .cons h1 h2, h =>
        obtain ⟨v, σa, ws, ha, hb, rfl⟩ := evArgs_cons_inv h
        rw [WfL] at hw
        obtain ⟨v', σa', w1, r1, p1, v1⟩ := ih.e1 ha hw.1 h1 he hs
        obtain ⟨ws', σb', w2, r2, p2, v2⟩ := ih.a hb hw.2 h2 (p1.env he) p1.sr
        exact ⟨v' :: ws', σb', w2, .cons r1 r2, p1.trans p2, .cons (p2.pv v1) v2⟩

end

end Minim.Jit
