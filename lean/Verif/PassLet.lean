import Verif.PassSim

set_option autoImplicit false

/-!
# The first pass: bindings
-/

namespace Minim.Jit

open Minim.Sx Minim.Core

section
variable {P : Prims} {K : Kn} {F : Sym → Prop} {n : Nat}

/-! ### `letrec-values` -/

/-- The assignments to the variables of one binding. -/
theorem setBody_sim (hK : Names K F) {ρ ρt : REnv} : ∀ {xs : List Sym} {us us' : List RV} {ts : List Sym} {σ σ1 σ' : RS} {w : W},
    assignsR ρ σ xs us = .ok σ1 → (∀ x ∈ xs, ¬ K.con x ∧ ¬ F x) → EnvRel K F w ρ ρt → SR K F w σ σ' → List.Forall₂ (PV K F w) us us' → Tmps ρt σ' w ts us' →
    us.length = xs.length → xs ≠ [] →
    ∃ vs' σ1', EvB P ρt (setBody xs ts) σ' vs' σ1' ∧ Post K F w σ σ' w σ1 σ1'
  | [], _, _, _, _, _, _, _, _, _, _, _, _, _, _, hne => absurd rfl hne
  | x :: xs, _, _, _, _, _, _, _, h, hx, he, hs, .nil, _, hl, _ => by simp at hl
  | x :: xs, u :: us, u' :: us', t :: ts, σ, σ1, σ', w, h, hx, he, hs, .cons hu hus, .cons ht hts, hl, _ => by
    rw [assignsR, Res.bind_eq_ok] at h
    obtain ⟨σa, h1, h2⟩ := h
    obtain ⟨σa', ha, hp⟩ := pAssign hK he hs (hx x (by simp)).2 (hx x (by simp)).1 hu h1
    have hlook : lookupR ρt σ' t = .ok u' := by
      obtain ⟨c, h1, h2, h3, h4, h5⟩ := ht
      simp only [lookupR, h1, h4]
    have hset : Evs P ρt (.set x (.var t)) σ' [.void] σa' := .set (.var hlook) ha
    cases xs with
    | nil =>
      cases us with
      | nil =>
        rw [assignsR] at h2
        · cases h2
          cases hus
          cases hts
          exact ⟨_, σa', by simp only [setBody]; exact .one hset, hp⟩
        · intros; simp_all
      | cons => simp at hl
    | cons y ys =>
      have hts' : Tmps ρt σa' w ts us' := Tmps.post (ts := ts) (us := us') hts hp
      obtain ⟨vs', σ1', r, p⟩ := setBody_sim hK h2 (fun z hz => hx z (List.mem_cons_of_mem _ hz)) he hp.sr hus hts' (by simpa using hl) (by simp)
      refine ⟨vs', σ1', ?_, hp.trans p⟩
      rw [setBody]
      match ts, us', hts, hts', r with
      | t' :: ts, _, _, _, r =>
        rw [setBody] at r ⊢
        exact .cons hset r
      | [], [], _, _, _ => cases hus; simp at hl

/-- All recursive bindings. -/
theorem rec_sim (hK : Names K F) (hKF : ∀ x, K x → ¬ F x) (hG : ∀ j, F (.gen j)) (ih : Sims P K F n) {ρ ρ' : REnv} :
    ∀ {bs bs' : List Bd} {k : Nat} {σ σ1 σ' : RS} {w : W}, TrB K F bs bs' → WfB K F bs → (∀ x ∈ bdsIds bs, ¬ K.con x ∧ ¬ F x) → evRec P n ρ bs σ = .ok σ1 →
    EnvRel K F w ρ ρ' → SR K F w σ σ' →
    ∃ σ1' w1, Post K F w σ σ' w1 σ1 σ1' ∧ ∀ es us σr, es ≠ [] → EvB P ρ' es σ1' us σr → EvB P ρ' (setExprs k bs' ++ es) σ' us σr
  | _, _, _, σ, σ1, σ', w, .nil, _, _, h, _, hs => by
    cases evRec_nil_inv h
    exact ⟨σ', w, Post.refl hs, fun _ _ _ _ h => h⟩
  | .mk xs e :: bs, .mk _ e' :: bs', k, σ, σ1, σ', w, .cons h1 h2, hw, hx, h, he, hs => by
    rw [WfB] at hw
    obtain ⟨us, σa, σb, ha, hl, hb, has, hr⟩ := evRec_cons_inv' h
    obtain ⟨us', σa', w1, r1, p1, v1⟩ := ih.e ha hw.1 h1 he hs
    have hl' : us'.length = xs.length := by rw [← hl]; exact v1.length_eq.symm
    have hb' : bound us' = true := by rw [bound_rel v1]; exact hb
    have hF : ∀ t ∈ tmpIds k xs, F t := by
      intro t ht
      obtain ⟨j, rfl, _⟩ := mem_tmpIds ht
      exact hG j
    obtain ⟨he2, p2⟩ := pBindTmp hKF (ts := tmpIds k xs) (vs' := us') (p1.env he) p1.sr hF
    have htm := tmps_bind (ρ := ρ) (ρ' := ρ') (tmpIds k xs) us' p1.sr (tmpIds_nodup k xs) (by rw [tmpIds_length, hl']) hb'
    have hxs : ∀ x ∈ xs, ¬ K.con x ∧ ¬ F x := fun x hx' => hx x (by simp [bdsIds, Bd.ids, hx'])
    have key : ∃ vs' σb', EvB P (bindVals ρ' σa' (tmpIds k xs) us').1 (if xs.isEmpty then [.app (.var .values) []] else setBody xs (tmpIds k xs))
        (bindVals ρ' σa' (tmpIds k xs) us').2 vs' σb' ∧ Post K F w1 σa (bindVals ρ' σa' (tmpIds k xs) us').2 w1 σb σb' := by
      cases xs with
      | nil =>
        rw [assignsR] at has
        · cases has
          exact ⟨[], _, .one (.valuesCall (he2.kT _ hK.values) p2.sr.valuesT .nil), Post.refl p2.sr⟩
        · intros; simp_all
      | cons x xs =>
        obtain ⟨vs', σb', r, p⟩ := setBody_sim (P := P) hK has hxs he2 p2.sr v1 htm hl (by simp)
        exact ⟨vs', σb', r, p⟩
    obtain ⟨vs', σb', r3, p3⟩ := key
    have p123 := p1.trans (p2.trans p3)
    obtain ⟨σ1', w2, p4, r4⟩ := rec_sim hK hKF hG ih (k := k + xs.length) h2 hw.2 (fun x hx' => hx x (by simp [bdsIds, hx'])) hr (p123.env he) p123.sr
    refine ⟨σ1', w2, p123.trans p4, ?_⟩
    intro es us2 σr hes hev
    have := r4 es us2 σr hes hev
    rw [setExprs, List.cons_append]
    have hne : ∃ b bs, setExprs (k + (Bd.mk xs e').ids.length) bs' ++ es = b :: bs := by
      cases hh : setExprs (k + (Bd.mk xs e').ids.length) bs' ++ es with
      | nil => simp at hh; exact absurd hh.2 hes
      | cons b bs => exact ⟨b, bs, rfl⟩
    obtain ⟨b, bs, hh⟩ := hne
    rw [hh]
    simp only [Bd.ids] at hh
    rw [hh] at this
    refine .cons (ws := vs') ?_ this
    rw [setExpr]
    exact .cwvLam (he.kT _ hK.cwv) (hs.cwvT hG) r1 (by rw [tmpIds_length, hl']) r3

/-! ### `let-values` with several bindings -/

/-- The identifiers and temporaries `jit_opt_L0_let_values2` collects. -/
def revIds : List Bd → List Sym → List Sym
  | [], ids => ids
  | b :: bs, ids => revIds bs (b.ids ++ ids)

/-- The temporaries `jit_opt_L0_let_values2` collects. -/
def revTmps : Nat → List Bd → List Sym → List Sym
  | _, [], tmps => tmps
  | k, b :: bs, tmps => revTmps (k + b.ids.length) bs (tmpIds k b.ids ++ tmps)

theorem revIds_perm : ∀ (bs : List Bd) (ids : List Sym), (revIds bs ids).Perm (bdsIds bs ++ ids)
  | [], ids => List.Perm.refl _
  | b :: bs, ids => by
    rw [revIds, bdsIds]
    refine (revIds_perm bs _).trans ?_
    rw [← List.append_assoc]
    exact List.perm_append_comm.append_right ids

theorem let2_sim (hK : Names K F) (hKF : ∀ x, K x → ¬ F x) (hG : ∀ j, F (.gen j)) (ih : Sims P K F n) {ρ : REnv} {body : List E} :
    ∀ {bs bs' : List Bd} {k : Nat} {ids tmps : List Sym} {us : List RV} {ρ' : REnv} {σ σ1 σ' : RS} {vs : List RV} {w : W}, TrB K F bs bs' → WfB K F bs →
    evBds P n ρ bs σ = .ok (vs, σ1) → EnvRel K F w ρ ρ' → SR K F w σ σ' → Tmps ρ' σ' w tmps us → (∀ t ∈ tmps, ∃ j, t = .gen j ∧ j < k) → ids.length = us.length →
    ∃ ρ1' σ1' w1 us1, EnvRel K F w1 ρ ρ1' ∧ Post K F w σ σ' w1 σ1 σ1' ∧ Tmps ρ1' σ1' w1 (revTmps k bs tmps) us1 ∧ (revIds bs ids).length = us1.length ∧
      (bdsIds bs).length = vs.length ∧
      (∀ x v, (x, v) ∈ (bdsIds bs).zip vs → ∃ u, (x, u) ∈ (revIds bs ids).zip us1 ∧ PV K F w1 v u) ∧
      (∀ p, p ∈ ids.zip us → p ∈ (revIds bs ids).zip us1) ∧
      ∀ rs σr, Evs P ρ1' (.app (.lam (fixed (revIds bs ids)) body) ((revTmps k bs tmps).map .var)) σ1' rs σr → Evs P ρ' (let2 k bs' ids tmps body) σ' rs σr
  | _, _, k, ids, tmps, us, ρ', σ, σ1, σ', vs, w, .nil, _, h, he, hs, ht, _, hl => by
    obtain ⟨rfl, rfl⟩ := evBds_nil_inv h
    exact ⟨ρ', σ', w, us, he, Post.refl hs, ht, hl, rfl, by simp [bdsIds], fun p hp => hp, fun _ _ h => by rw [let2]; exact h⟩
  | .mk xs e :: bs, .mk _ e' :: bs', k, ids, tmps, us, ρ', σ, σ1, σ', vs, w, .cons h1 h2, hw, h, he, hs, ht, hk, hl => by
    rw [WfB] at hw
    obtain ⟨as, σa, ws, ha, hla, hb, hr, rfl⟩ := evBds_cons_inv' h
    obtain ⟨as', σa', w1, r1, p1, v1⟩ := ih.e ha hw.1 h1 he hs
    have hla' : as'.length = xs.length := by rw [← hla]; exact v1.length_eq.symm
    have hb' : bound as' = true := by rw [bound_rel v1]; exact hb
    have hF : ∀ t ∈ tmpIds k xs, F t := by
      intro t ht
      obtain ⟨j, rfl, _⟩ := mem_tmpIds ht
      exact hG j
    obtain ⟨he2, p2⟩ := pBindTmp hKF (ts := tmpIds k xs) (vs' := as') (p1.env he) p1.sr hF
    have htm := tmps_bind (ρ := ρ) (ρ' := ρ') (tmpIds k xs) as' p1.sr (tmpIds_nodup k xs) (by rw [tmpIds_length, hla']) hb'
    have htm2 : Tmps (bindVals ρ' σa' (tmpIds k xs) as').1 (bindVals ρ' σa' (tmpIds k xs) as').2 w1 tmps us := by
      refine Tmps.env (Tmps.post (Tmps.post ht p1) p2) ?_
      intro t htt
      refine bindVals_not_mem _ _ _ _ ?_
      intro hm
      obtain ⟨j, rfl, hj⟩ := hk t htt
      obtain ⟨j', e, hj', _⟩ := mem_tmpIds hm
      cases e; omega
    have hk' : ∀ t ∈ tmpIds k xs ++ tmps, ∃ j, t = .gen j ∧ j < k + xs.length := by
      intro t htt
      rcases List.mem_append.1 htt with h | h
      · obtain ⟨j, e, _, hj⟩ := mem_tmpIds h; exact ⟨j, e, hj⟩
      · obtain ⟨j, e, hj⟩ := hk t h; exact ⟨j, e, by omega⟩
    obtain ⟨ρ1', σ1', w2, us1, e3, p3, t3, l3, l3', z3, z3', r3⟩ := let2_sim hK hKF hG ih (k := k + xs.length) (ids := xs ++ ids) (tmps := tmpIds k xs ++ tmps)
      (us := as' ++ us) h2 hw.2 hr he2 p2.sr (Forall₂.append htm htm2) hk' (by simp [hl, hla'])
    refine ⟨ρ1', σ1', w2, us1, e3, p1.trans (p2.trans p3), t3, l3, by simp [bdsIds, Bd.ids, hla, l3'], ?_, ?_, ?_⟩
    · intro x v hxv
      simp only [bdsIds, Bd.ids] at hxv
      rw [List.zip_append hla.symm, List.mem_append] at hxv
      rcases hxv with hxv | hxv
      · obtain ⟨i, hi⟩ := List.mem_iff_getElem?.1 hxv
        rw [List.getElem?_zip_eq_some] at hi
        obtain ⟨u, hu, hvu⟩ := Forall₂.get v1 hi.2
        refine ⟨u, z3' _ ?_, p3.pv (p2.pv hvu)⟩
        rw [List.zip_append hla'.symm, List.mem_append]
        exact .inl (List.mem_iff_getElem?.2 ⟨i, List.getElem?_zip_eq_some.2 ⟨hi.1, hu⟩⟩)
      · exact z3 x v hxv
    · intro p hp
      refine z3' p ?_
      rw [List.zip_append hla'.symm, List.mem_append]
      exact .inr hp
    · intro rs σr hh
      rw [let2]
      exact .cwvLam (he.kT _ hK.cwv) (hs.cwvT hG) r1 (by rw [tmpIds_length, hla']) (.one (r3 rs σr hh))

/-- The same variables bound in another order. -/
theorem pBindPerm {ρ ρ' : REnv} {σ σ' : RS} {w : W} {xs ys : List Sym} {vs us : List RV} (he : EnvRel K F w ρ ρ') (hs : SR K F w σ σ') (hx : ∀ x ∈ xs, ¬ K x)
    (hn : xs.Nodup) (hp : ys.Perm xs) (hl : xs.length = vs.length) (hl' : ys.length = us.length)
    (hz : ∀ x v, (x, v) ∈ xs.zip vs → ∃ u, (x, u) ∈ ys.zip us ∧ PV K F w v u) :
    ∃ w1, EnvRel K F w1 (bindVals ρ σ xs vs).1 (bindVals ρ' σ' ys us).1 ∧ Post K F w σ σ' w1 (bindVals ρ σ xs vs).2 (bindVals ρ' σ' ys us).2 := by
  have hn' : ys.Nodup := (hp.nodup_iff).2 hn
  have hidx : ∀ {x : Sym}, x ∈ xs → ∃ i, ys[i]? = some x ∧ ys.idxOf x = i ∧ i < ys.length := by
    intro x hx
    have hy := hp.mem_iff.2 hx
    have hlt := List.idxOf_lt_length_of_mem hy
    exact ⟨ys.idxOf x, by rw [List.getElem?_eq_getElem hlt, List.getElem_idxOf hlt], rfl, hlt⟩
  have hnew : ∀ a : Nat, (w ++ xs.map fun x => (x, σ'.cells.length + ys.idxOf x))[w.length + a]? = (xs[a]?).map fun x => (x, σ'.cells.length + ys.idxOf x) := by
    intro a
    rw [List.getElem?_append_right (by omega), Nat.add_sub_cancel_left, List.getElem?_map]
  rw [bindVals_cells xs vs ρ σ hl, bindVals_cells ys us ρ' σ' hl']
  refine ⟨w ++ xs.map fun x => (x, σ'.cells.length + ys.idxOf x), ⟨?_, ?_, ?_⟩, ⟨⟨_, rfl, ?_⟩, ⟨?_, ?_, ?_, ?_, ?_, hs.values, hs.cwv⟩, by simp, ?_, fun _ _ => rfl, ?_⟩⟩
  · intro x hF
    by_cases hm : x ∈ xs
    · obtain ⟨i, hi⟩ := List.mem_iff_getElem?.1 hm
      obtain ⟨j, hj, hj', _⟩ := hidx hm
      rw [bindVals_get xs vs ρ σ hl hn hi, bindVals_get ys us ρ' σ' hl' hn' hj]
      show (w ++ _)[σ.cells.length + i]? = _
      rw [← hs.len, hnew, hi, ← hj']
      rfl
    · rw [bindVals_not_mem _ _ _ _ hm, bindVals_not_mem _ _ _ _ (fun h => hm (hp.mem_iff.1 h))]
      exact (he.loc x hF).mono fun _ _ => getElem?_ext
  · intro x hk
    rw [bindVals_not_mem _ _ _ _ (fun h => hx x h hk)]; exact he.kS x hk
  · intro x hk
    rw [bindVals_not_mem _ _ _ _ (fun h => hx x (hp.mem_iff.1 h) hk)]; exact he.kT x hk
  · intro j hj
    rw [W.tgt, List.map_map] at hj
    obtain ⟨x, _, rfl⟩ := List.mem_map.1 hj
    simp
  · simp [hs.len, hl]
  · rw [W.tgt, List.map_append, List.map_map, List.nodup_append]
    refine ⟨hs.nodup, ?_, ?_⟩
    · refine List.Nodup.map_on ?_ hn
      intro x hx1 y hy1 hxy
      obtain ⟨i, hi, hi', _⟩ := hidx hx1
      obtain ⟨j, hj, hj', _⟩ := hidx hy1
      simp only [Function.comp] at hxy
      have : i = j := by omega
      subst this
      rw [hi] at hj
      exact Option.some.inj hj
    · intro a ha b hb
      obtain ⟨x, _, rfl⟩ := List.mem_map.1 hb
      have := hs.lt a ha
      simp only [Function.comp]
      omega
  · intro i y j hij
    show ORel _ (σ.cells ++ vs)[i]? (σ'.cells ++ us)[j]?
    by_cases hi : i < w.length
    · rw [List.getElem?_append_left hi] at hij
      rw [List.getElem?_append_left (by rw [← hs.len]; exact hi), List.getElem?_append_left (hs.lt j (mem_tgt hij))]
      exact (hs.cell i y j hij).mono fun _ _ => PV.ext
    · obtain ⟨a, rfl⟩ : ∃ a, i = w.length + a := ⟨i - w.length, by omega⟩
      rw [hnew, Option.map_eq_some_iff] at hij
      obtain ⟨x, hx1, e⟩ := hij
      obtain ⟨rfl, rfl⟩ := Prod.mk.inj e
      have hm : x ∈ xs := List.mem_iff_getElem?.2 ⟨a, hx1⟩
      obtain ⟨b, hb, hb', _⟩ := hidx hm
      have hav : ∃ v, vs[a]? = some v := by
        have := (List.getElem?_eq_some_iff.1 hx1).1
        exact ⟨vs[a]'(by omega), by rw [List.getElem?_eq_getElem]⟩
      obtain ⟨v, hv⟩ := hav
      obtain ⟨u, hu, hvu⟩ := hz x v (List.mem_iff_getElem?.2 ⟨a, List.getElem?_zip_eq_some.2 ⟨hx1, hv⟩⟩)
      obtain ⟨b2, hb2⟩ := List.mem_iff_getElem?.1 hu
      rw [List.getElem?_zip_eq_some] at hb2
      have : b2 = b := by
        have h1 := List.getElem?_eq_some_iff.1 hb2.1
        have h2 := List.getElem?_eq_some_iff.1 hb
        exact (hn'.getElem_inj_iff (hi := h1.1) (hj := h2.1)).1 (h1.2.trans h2.2.symm)
      subst this
      rw [hs.len, List.getElem?_append_right (by omega), List.getElem?_append_right (by omega), Nat.add_sub_cancel_left, Nat.add_sub_cancel_left, hv, hb', hb2.2]
      exact hvu.ext
  · intro j hj
    rw [W.tgt, List.map_append, List.map_map] at hj
    simp only [List.mem_append, List.length_append] at hj ⊢
    rcases hj with hj | hj
    · have := hs.lt j hj; omega
    · obtain ⟨x, hx1, rfl⟩ := List.mem_map.1 hj
      obtain ⟨b, _, hb', hb2⟩ := hidx hx1
      simp only [Function.comp]
      omega
  · intro y
    exact (hs.glob y).mono fun _ _ => PV.ext
  · intro j hj _
    show (σ'.cells ++ us)[j]? = _
    rw [List.getElem?_append_left hj]
  · intro i y j h _
    show (σ.cells ++ vs)[i]? = _
    rw [List.getElem?_append_left (by rw [← hs.len]; exact (List.getElem?_eq_some_iff.1 h).1)]

end

end Minim.Jit
