import Verif.ExpSim

set_option autoImplicit false

/-!
# Expansions mean what the expressions mean: the induction
-/

namespace Minim.Exp

open Minim.Sx Minim.Core Minim.Jit

variable {P : Prims} {n : Nat} {N : Sym → Prop} {ρ ρ' : REnv} {σ σ1 : SS} {σ' : RS} {vs : List SV}

theorem step_a (ih : Sim P n) {es : List S} (h : sArgs P (n + 1) ρ es σ = .ok (vs, σ1)) (hN : Names N) (ho : OkL N es) (ha : Agree N ρ ρ') (hs : SR P σ σ') (rb : Bool) :
    Out P (EvA P ρ' (xps rb es) σ') vs σ1 := by
  cases es with
  | nil => rw [sArgs] at h; cases h; rw [xps]; exact ⟨[], σ', .nil, .nil, hs⟩
  | cons e es =>
    rw [OkL] at ho
    rw [sArgs, Res.bind_eq_ok] at h
    obtain ⟨⟨vs1, σ2⟩, h1, h2⟩ := h
    simp only [Res.bind_eq_ok] at h2
    obtain ⟨v, h2, ⟨ws, σ3⟩, h3, h4⟩ := h2
    cases single_inv h2
    cases h4
    obtain ⟨v', σ2', k1, k2, k3⟩ := ih.e1 h1 hN ho.1.2 ha hs rb
    obtain ⟨ws', σ3', r1, r2, r3⟩ := ih.a h3 hN ho.2 ha k3 rb
    rw [xps]
    exact ⟨_, σ3', .cons k1 r1, .cons k2 r2, r3⟩

theorem step_l (ih : Sim P n) {xss : List (List Sym)} {es : List S} (h : sBds P (n + 1) ρ xss es σ = .ok (vs, σ1)) (hN : Names N) (ho : OkL N es) (ha : Agree N ρ ρ') (hs : SR P σ σ') (rb : Bool) :
    Out P (EvD P ρ' (mkBds xss (xps rb es)) σ') vs σ1 := by
  match xss, es, h, ho with
  | [], es, h, _ => rw [sBds] at h; cases h; exact ⟨[], σ', by rw [mkBds]; exact .nil; simp, .nil, hs⟩; simp
  | xs :: xss, [], h, _ => rw [sBds] at h; cases h; exact ⟨[], σ', by rw [xps, mkBds]; exact .nil; simp, .nil, hs⟩; simp
  | xs :: xss, e :: es, h, ho =>
    rw [OkL] at ho
    rw [sBds, Res.bind_eq_ok] at h
    obtain ⟨⟨vs1, σ2⟩, h1, h2⟩ := h
    simp only at h2
    split at h2
    next hl =>
      simp only [Res.bind_eq_ok] at h2
      obtain ⟨⟨ws, σ3⟩, h3, h4⟩ := h2
      cases h4
      obtain ⟨v', σ2', k1, k2, k3⟩ := ih.e h1 hN ho.1.2 ha hs rb
      obtain ⟨ws', σ3', r1, r2, r3⟩ := ih.l h3 hN ho.2 ha k3 rb
      rw [xps, mkBds]
      exact ⟨_, σ3', .cons k1.1 (by rw [← k2.length_eq, bound_rel k2]; exact hl) r1, List.rel_append k2 r2, r3⟩
    · cases h2

theorem step_r (ih : Sim P n) {xss : List (List Sym)} {es : List S} (h : sRecs P (n + 1) ρ xss es σ = .ok σ1) (hN : Names N) (ho : OkL N es) (hx : ∀ x ∈ xss.flatten, Bindable N x)
    (ha : Agree N ρ ρ') (hs : SR P σ σ') (rb : Bool) : ∃ σ1', EvR P ρ' (mkBds xss (xps rb es)) σ' σ1' ∧ SR P σ1 σ1' := by
  match xss, es, h, ho, hx with
  | [], es, h, _, _ => rw [sRecs] at h; cases h; exact ⟨σ', by rw [mkBds]; exact .nil; simp, hs⟩; simp
  | xs :: xss, [], h, _, _ => rw [sRecs] at h; cases h; exact ⟨σ', by rw [xps, mkBds]; exact .nil; simp, hs⟩; simp
  | xs :: xss, e :: es, h, ho, hx =>
    rw [OkL] at ho
    rw [sRecs, Res.bind_eq_ok] at h
    obtain ⟨⟨vs1, σ2⟩, h1, h2⟩ := h
    simp only at h2
    split at h2
    next hl =>
      simp only [Res.bind_eq_ok] at h2
      obtain ⟨σ3, h3, h4⟩ := h2
      obtain ⟨v', σ2', k1, k2, k3⟩ := ih.e h1 hN ho.1.2 ha hs rb
      obtain ⟨σ3', k4, k5⟩ := assigns_rel ha k3 (fun x hx' => hx x (by simp [hx'])) k2 h3
      obtain ⟨σ4', r1, r2⟩ := ih.r h4 hN ho.2 (fun x hx' => hx x (by simp only [List.flatten_cons, List.mem_append]; exact .inr hx')) ha k5 rb
      rw [xps, mkBds]
      exact ⟨σ4', .cons k1.1 (by rw [← k2.length_eq, bound_rel k2]; exact hl) k4 r1, r2⟩
    · cases h2

theorem step_p (ih : Sim P n) {f : SV} {as : List SV} {f' : RV} {as' : List RV} (h : sApply P (n + 1) f as σ = .ok (vs, σ1)) (hf : VX f f') (has : List.Forall₂ VX as as') (hs : SR P σ σ') :
    Out P (EvP P f' as' σ') vs σ1 := by
  cases hf with
  | clo hc =>
    cases hc with
    | clo N ρ ρ' fs bodies hN hl hff hb ha =>
      rw [sApply] at h
      split at h
      · cases h
      next f body hsel =>
        obtain ⟨k1, k2, k3⟩ := select_rel hl hsel
        obtain ⟨o1, o2, o3⟩ := okBs_mem hb _ k3
        obtain ⟨b1, b2⟩ := bind_rel (hff f k2) (params_rel (f := f) has) ha hs
        exact (ih.b h hN o3 o1 b1 b2).mono fun vs' σ1' _ he => EvP.clo (by rw [← has.length_eq]; exact k1) he
    | prim p k =>
      rw [sApply] at h
      split at h
      next hk =>
        have hp := P.param CR p as as' has
        split at h
        · cases h
        next v hv =>
          cases h
          rw [hv] at hp
          cases hv' : P.f RC p as' with
          | none => rw [hv'] at hp; exact hp.elim
          | some w =>
            rw [hv'] at hp
            exact ⟨[w], σ', EvP.prim (by rw [← has.length_eq]; exact hk) hv', .cons hp .nil, hs⟩
      · cases h
    | values => rw [sApply] at h; cases h; exact ⟨as', σ', .values, has, hs⟩
    | apply =>
      match as, as', has, h with
      | [], _, _, h => simp [sApply] at h
      | [_], _, _, h => simp [sApply] at h
      | f :: v :: ws, _, .cons hf (.cons hv hws), h =>
        rw [sApply] at h
        split at h
        · cases h
        next bs hbs =>
          obtain ⟨cs, hcs, hr⟩ := spread_rel (.cons hv hws) hbs
          exact (ih.p h hf hr hs).mono fun _ _ _ he => EvP.apply hcs he
    | cwv =>
      match as, as', has, h with
      | [], _, _, h => simp [sApply] at h
      | [_], _, _, h => simp [sApply] at h
      | _ :: _ :: _ :: _, _, _, h => simp [sApply] at h
      | [p, c], _, .cons hp (.cons hc .nil), h =>
        rw [sApply] at h
        simp only [Res.bind_eq_ok] at h
        obtain ⟨⟨bs, σ2⟩, h1, h2⟩ := h
        obtain ⟨bs', σ2', k1, k2, k3⟩ := ih.p h1 hp .nil hs
        exact (ih.p h2 hc k2 k3).mono fun _ _ _ he => EvP.cwv k1 he
  | _ => simp [sApply] at h

theorem step_seq (ih : Sim P n) {es : List S} (h : sSeq P (n + 1) ρ es σ = .ok (vs, σ1)) (hN : Names N) (ho : OkL N es) (hne : es ≠ []) (ha : Agree N ρ ρ') (hs : SR P σ σ') :
    Out P (EvXs P ρ' (xps false es) σ') vs σ1 := by
  match es, hne, h, ho with
  | [e], _, h, ho =>
    rw [OkL] at ho
    rw [sSeq] at h
    refine (ih.e h hN ho.1.2 ha hs false).mono fun vs' σ1' _ he => ?_
    rw [xps, xps]
    rw [EvXs, flats, flats, List.append_nil]
    exact ⟨.one he.1, he.2⟩
  | e :: e' :: es, _, h, ho =>
    rw [OkL] at ho
    rw [sSeq, Res.bind_eq_ok] at h
    obtain ⟨⟨ws, σ2⟩, h1, h2⟩ := h
    obtain ⟨ws', σ2', k1, k2, k3⟩ := ih.e h1 hN ho.1.2 ha hs false
    refine (ih.seq h2 hN ho.2 (by simp) ha k3).mono fun vs' σ1' _ he => ?_
    rw [xps]
    have hfl := flat_nf _ ((nf_xp N e ho.1.2).1 ho.1.1 false)
    have hne : flats (xps false (e' :: es)) ≠ [] := by
      have h3 := nf_xps N (e' :: es) ho.2 false
      rw [xps, NFl] at h3
      rw [xps, flats]
      exact fun h' => (flat_nf _ h3.1).2 (List.append_eq_nil_iff.1 h').1
    refine ⟨?_, ?_, ?_⟩
    · have := he.1
      rw [xps] at this ⊢
      exact .cons k1.1 this
    · rw [flats, List.map_append]
      exact evr_append k1.2.1 he.2.1
    · obtain ⟨σm, e1, e2⟩ := he.2.2
      rw [flats, EvT, recs_append (fun x hx => nf_notDef (hfl.1 x hx).2) hne]
      exact ⟨σm, evr_append k1.2.1 e1, e2⟩

theorem okI_cons {e : S} {es : List S} (h : OkI N (e :: es)) : Ok N e ∧ OkI N es := by rw [OkI] at h; exact h

theorem flats_ne {es : List S} (ho : OkI N es) (he : endsExpr es = true) : flats (xps false es) ≠ [] := by
  have hf := nf_items N es ho
  have := endsE_items (V := Vis N) (fun s hs hd => (hf s hs).1 hd false) (fun s hs is r hd => (by
    obtain ⟨e, _, he⟩ := (hf s hs).2 is r hd
    exact ⟨e, he false⟩)) he
  intro h
  rw [h] at this
  cases this

theorem bodyE_ne {es : List S} (ho : OkI N es) (he : endsExpr es = true) : bodyE (xps false es) ≠ [] := by
  have h := flats_ne ho he
  rw [bodyE]
  cases hf : flats (xps false es) with
  | nil => exact (h hf).elim
  | cons e l => rw [asm]; split <;> simp

theorem step_d (ih : Sim P n) {es : List S} (h : sDefs P (n + 1) ρ es σ = .ok (vs, σ1)) (hN : Names N) (ho : OkI N es) (hend : endsExpr es = true) (ha : Agree N ρ ρ') (hs : SR P σ σ') :
    Out P (EvT P ρ' (flats (xps false es)) σ') vs σ1 := by
  cases es with
  | nil => simp [sDefs] at h
  | cons e es =>
    obtain ⟨oe, oes⟩ := okI_cons ho
    unfold sDefs at h
    cases hd : defn e with
    | some p =>
      obtain ⟨is, r⟩ := p
      obtain ⟨x1, x2, x3, x4⟩ := defn_xp hd oe
      rw [hd] at h
      simp only [Res.bind_eq_ok] at h
      obtain ⟨⟨us, σ2⟩, h1, h2⟩ := h
      simp only at h2
      split at h2
      next hl =>
        simp only [Res.bind_eq_ok] at h2
        obtain ⟨σ3, h3, h4⟩ := h2
        obtain ⟨us', σ2', k1, k2, k3⟩ := ih.e h1 hN x2 ha hs true
        obtain ⟨σ3', k4, k5⟩ := assigns_rel ha k3 x4 k2 h3
        have hend' : endsExpr es = true := by
          cases es with
          | nil => simp [endsExpr, hd] at hend
          | cons => exact hend
        refine (ih.d h4 hN oes hend' ha k5).mono fun vs' σ1' _ he => ?_
        obtain ⟨σm, e1, e2⟩ := he
        rw [xps, flats, x1, flat]
        have hne := flats_ne oes hend'
        cases hf : flats (xps false es) with
        | nil => exact (hne hf).elim
        | cons y ys =>
          rw [hf] at e1 e2
          rw [List.singleton_append, EvT, recs, toBd]
          exact ⟨σm, .cons k1.1 (by rw [← k2.length_eq, bound_rel k2]; exact hl) k4 e1, e2⟩
      · cases h2
    | none =>
      have hnf := (nf_xp N e oe).1 hd false
      have hfl := flat_nf _ hnf
      rw [hd] at h
      cases es with
      | nil =>
        simp only at h
        refine (ih.e h hN oe ha hs false).mono fun vs' σ1' _ he => ?_
        rw [xps, xps, flats, flats, List.append_nil]
        exact he.2.2
      | cons e' es =>
        simp only [Res.bind_eq_ok] at h
        obtain ⟨⟨ws, σ2⟩, h1, h2⟩ := h
        obtain ⟨ws', σ2', k1, k2, k3⟩ := ih.e h1 hN oe ha hs false
        refine (ih.d h2 hN oes hend ha k3).mono fun vs' σ1' _ he => ?_
        obtain ⟨σm, e1, e2⟩ := he
        rw [xps, flats, EvT, recs_append (fun x hx => nf_notDef (hfl.1 x hx).2) (flats_ne oes hend)]
        exact ⟨σm, evr_append k1.2.1 e1, e2⟩

theorem step_b (ih : Sim P n) {es : List S} (h : sBody P (n + 1) ρ es σ = .ok (vs, σ1)) (hN : Names N) (ho : OkI N es) (hend : endsExpr es = true) (ha : Agree N ρ ρ') (hs : SR P σ σ') :
    Out P (EvB P ρ' (bodyE (xps false es)) σ') vs σ1 := by
  cases es with
  | nil => simp [sBody] at h
  | cons e es =>
    obtain ⟨oe, oes⟩ := okI_cons ho
    unfold sBody at h
    cases hd : defn e with
    | some p =>
      obtain ⟨is, r⟩ := p
      obtain ⟨x1, x2, x3, x4⟩ := defn_xp hd oe
      rw [hd] at h
      simp only [Option.isSome_some, if_true] at h
      have hall : ∀ {l : List S}, OkI N l → ∀ x ∈ defIds l, Bindable N x := by
        intro l
        induction l with
        | nil => intro _ x hx; cases hx
        | cons s l ih' =>
          intro hl x hx
          obtain ⟨o1, o2⟩ := okI_cons hl
          rw [defIds] at hx
          rcases List.mem_append.1 hx with hx | hx
          · cases hds : defn s with
            | none => rw [hds] at hx; cases hx
            | some p => rw [hds] at hx; exact (defn_xp hds o1).2.2.2 x hx
          · exact ih' o2 x hx
      obtain ⟨b1, b2⟩ := bind_rel (hall ho) (replicate_rel (defIds (e :: es)).length) ha hs
      refine (ih.d h hN ho hend b1 b2).mono fun vs' σ1' _ he => ?_
      obtain ⟨σm, e1, e2⟩ := he
      have hforms := forms_of (nf_items N _ ho)
      have hb : bdsIds (recs (flats (xps false (e :: es)))).1 = defIds (e :: es) := by
        have hf := nf_items N _ ho
        rw [(recs_nf (V := Vis N) (.inr (.inr (.inr rfl))) hforms.1 (endsE_items (V := Vis N) (fun s hs hd => (hf s hs).1 hd false) (fun s hs is r hd => (by
          obtain ⟨e, _, he⟩ := (hf s hs).2 is r hd
          exact ⟨e, he false⟩)) hend)).1, hforms.2]
      have hbody : bodyE (xps false (e :: es)) = [.letrecv (recs (flats (xps false (e :: es)))).1 (recs (flats (xps false (e :: es)))).2] := by
        rw [bodyE]
        have : flats (xps false (e :: es)) = .define is (xp true r) :: flats (xps false es) := by rw [xps, flats, x1, flat]; rfl
        rw [this, asm]
        rfl
      rw [hbody]
      refine .one (Evs.letrecv ?_ e1 e2)
      rw [hb]
    | none =>
      have hfl := flat_nf _ ((nf_xp N e oe).1 hd false)
      rw [hd] at h
      simp only [Option.isSome_none, Bool.false_eq_true, if_false] at h
      have hbody : bodyE (xps false (e :: es)) = flat (xp false e) ++ bodyE (xps false es) := by
        rw [bodyE, xps, flats, asm_append fun x hx => nf_notDef (hfl.1 x hx).2]; rfl
      rw [hbody]
      cases es with
      | nil =>
        simp only at h
        refine (ih.e h hN oe ha hs false).mono fun vs' σ1' _ he => ?_
        have : bodyE (xps false []) = [] := by rw [xps, bodyE, flats, asm]
        rw [this, List.append_nil]
        exact evb_flat _ ((nf_xp N e oe).1 hd false) he.1
      | cons e' es =>
        simp only [Res.bind_eq_ok] at h
        obtain ⟨⟨ws, σ2⟩, h1, h2⟩ := h
        obtain ⟨ws', σ2', k1, k2, k3⟩ := ih.e h1 hN oe ha hs false
        refine (ih.b h2 hN oes hend ha k3).mono fun vs' σ1' _ he => ?_
        exact EvB.append hfl.2 (bodyE_ne oes hend) (evb_flat _ ((nf_xp N e oe).1 hd false) k1.1) he

theorem step_t (ih : Sim P n) {e : S} {es : List S} (h : sBody P (n + 1) ρ (e :: es) σ = .ok (vs, σ1)) (hN : Names N) (ho : OkI N (e :: es)) (hend : endsExpr (e :: es) = true) (ha : Agree N ρ ρ')
    (hs : SR P σ σ') (rb : Bool) : Out P (EvX P ρ' (thenE (if es.isEmpty then xp rb e else xp false e) (xps false es)) σ') vs σ1 := by
  cases es with
  | nil =>
    have hd : defn e = none := by simpa [endsExpr] using hend
    unfold sBody at h
    rw [hd] at h
    simp only [Option.isSome_none, Bool.false_eq_true, if_false] at h
    simp only [List.isEmpty_nil, if_true, xps, thenE]
    exact ih.e h hN (okI_cons ho).1 ha hs rb
  | cons e' es =>
    have := step_b ih h hN ho hend ha hs
    simp only [List.isEmpty_cons, Bool.false_eq_true, if_false, xps, thenE]
    refine Out.xs ha rfl (this.mono fun vs' σ1' _ he => Evs.letv0 ?_)
    simpa only [xps] using he

theorem step_and (ih : Sim P n) {es : List S} (h : sAnds P (n + 1) ρ es σ = .ok (vs, σ1)) (hN : Names N) (ho : OkL N es) (ha : Agree N ρ ρ') (hs : SR P σ σ') (rb : Bool) :
    Out P (EvX P ρ' (andE (xps rb es)) σ') vs σ1 := by
  match es, h, ho with
  | [], h, _ => rw [sAnds] at h; cases h; rw [xps, andE]; exact Out.xs ha rfl ⟨_, σ', .lit, .cons (.lit _) .nil, hs⟩
  | [e], h, ho =>
    rw [OkL] at ho
    rw [sAnds] at h; rw [xps, xps, andE]; exact ih.e h hN ho.1.2 ha hs rb
  | e :: e' :: es, h, ho =>
    rw [OkL] at ho
    rw [sAnds, Res.bind_eq_ok] at h
    obtain ⟨⟨us, σ2⟩, h1, h2⟩ := h
    simp only [Res.bind_eq_ok] at h2
    obtain ⟨v, h2, h3⟩ := h2
    cases single_inv h2
    obtain ⟨v', σ2', k1, k2, k3⟩ := ih.e1 h1 hN ho.1.2 ha hs rb
    rw [xps, xps, andE, ← xps]
    refine Out.xs ha rfl ?_
    split at h3
    next hv => cases h3; exact ⟨_, σ2', .ite_false k1 (by rw [k2.isFalse]; exact hv) .lit, .cons (.lit _) .nil, k3⟩
    next hv => exact (ih.and h3 hN ho.2 ha k3 rb).mono fun _ _ _ he => .ite_true k1 (by rw [k2.isFalse]; simpa using hv) he.1

theorem orT_agree (hN : Names N) (ha : Agree N ρ ρ') (c : Nat) : Agree N ρ (ρ'.set sOrT c) :=
  ha.hide (fun h => hN.ort _ h rfl) (by decide) (by decide) c

theorem lookup_pushed {x : Sym} {v : RV} (hv : v ≠ .unbound) : lookupR (ρ'.set x σ'.cells.length) { σ' with cells := σ'.cells ++ [v] } x = .ok v := by
  unfold lookupR
  simp only [REnv.set, if_true]
  rw [List.getElem?_append_right (Nat.le_refl _)]
  simp only [Nat.sub_self, List.getElem?_cons_zero]

theorem step_or (ih : Sim P n) {e : S} {es : List S} (h : sOrs P (n + 1) ρ (e :: es) σ = .ok (vs, σ1)) (hN : Names N) (ho : OkL N (e :: es)) (ha : Agree N ρ ρ') (hs : SR P σ σ') (rb : Bool) :
    Out P (EvX P ρ' (orE (xp rb e :: xps false es)) σ') vs σ1 := by
  rw [OkL] at ho
  match es, h, ho with
  | [], h, ho =>
    rw [sOrs] at h; rw [xps, orE]; exact ih.e h hN ho.1.2 ha hs rb
  | e' :: es, h, ho =>
    rw [sOrs, Res.bind_eq_ok] at h
    obtain ⟨⟨us, σ2⟩, h1, h2⟩ := h
    simp only [Res.bind_eq_ok] at h2
    obtain ⟨v, h2, h3⟩ := h2
    cases single_inv h2
    obtain ⟨v', σ2', k1, k2, k3⟩ := ih.e1 h1 hN ho.1.2 ha hs rb
    rw [xps, orE]
    split at h3
    next hbd =>
      have hv' : v' ≠ .unbound := bound_iff.1 ((bound_rel (.cons k2 .nil)).trans hbd) v' (by simp)
      have hd : EvD P ρ' [.mk [sOrT] (xp rb e)] σ' [v'] σ2' := by
        have := EvD.cons (xs := [sOrT]) k1 ⟨rfl, (bound_rel (.cons k2 .nil)).trans hbd⟩ (EvD.nil (σ := σ2'))
        simpa using this
      refine Out.xs ha rfl ?_
      split at h3
      next hv =>
        refine (ih.or h3 hN ho.2 (orT_agree hN ha σ2'.cells.length) (k3.push k2) false).mono fun _ _ _ he => Evs.letv hd (.one ?_)
        exact .ite_false (Evs.var (lookup_pushed hv')) (by rw [k2.isFalse]; exact hv) he.1
      next hv =>
        cases h3
        refine ⟨[v'], _, Evs.letv hd (.one (.ite_true (Evs.var (lookup_pushed hv')) (by rw [k2.isFalse]; simpa using hv) (Evs.var (lookup_pushed hv')))), .cons k2 .nil, k3.push k2⟩
    · cases h3

theorem step_c (ih : Sim P n) {ts : List S} {bs : List (List S)} {els : List S} (h : sConds P (n + 1) ρ ts bs els σ = .ok (vs, σ1)) (hN : Names N) (hl : ts.length = bs.length) (ho : OkL N ts)
    (hb : OkBs N bs) (he : els = [] ∨ endsExpr els = true) (hoe : OkI N els) (ha : Agree N ρ ρ') (hs : SR P σ σ') (rb : Bool) :
    Out P (EvX P ρ' (condE (xps rb ts) (xpThens rb bs) (elsX rb els)) σ') vs σ1 := by
  match ts, bs, hl, h, ho, hb with
  | [], [], _, h, _, _ =>
    rw [xps, xpThens, condE]
    · cases els with
      | nil =>
        rw [sConds] at h
        · cases h
          exact Out.xs ha rfl ⟨_, σ', voidE_ev ha hs, .cons .void .nil, hs⟩
        · simp
      | cons e es =>
        rw [sConds] at h
        · exact ih.t h hN hoe (he.resolve_left (by simp)) ha hs rb
        · simp
    · simp
  | t :: ts, b :: bs, hl, h, ho, hb =>
    rw [OkL] at ho
    rw [OkBs] at hb
    rw [sConds, Res.bind_eq_ok] at h
    obtain ⟨⟨us, σ2⟩, h1, h2⟩ := h
    simp only [Res.bind_eq_ok] at h2
    obtain ⟨v, h2, h3⟩ := h2
    cases single_inv h2
    obtain ⟨v', σ2', k1, k2, k3⟩ := ih.e1 h1 hN ho.1.2 ha hs rb
    cases b with
    | nil => cases hb.1.1
    | cons e es =>
      rw [xps, xpThens, condE]
      refine Out.xs ha rfl ?_
      split at h3
      next hv => exact (ih.c h3 hN (by simpa using hl) ho.2 hb.2 he hoe ha k3 rb).mono fun _ _ _ he => .ite_false k1 (by rw [k2.isFalse]; exact hv) he.1
      next hv => exact (ih.t h3 hN hb.1.2.2 hb.1.1 ha k3 rb).mono fun _ _ _ he => .ite_true k1 (by rw [k2.isFalse]; simpa using hv) he.1

theorem step_s0 (ih : Sim P n) {body : List S} (h : sStar P (n + 1) ρ [] [] body σ = .ok (vs, σ1)) (hN : Names N) (h5 : endsExpr body = true) (h7 : OkI N body) (ha : Agree N ρ ρ') (hs : SR P σ σ') :
    Out P (EvB P ρ' (bodyE (xps false body)) σ') vs σ1 := by
  rw [sStar] at h
  · exact ih.b h hN h7 h5 ha hs
  · simp

theorem step_s (ih : Sim P n) {x : Sym} {xs : List Sym} {e : S} {es body : List S} (h : sStar P (n + 1) ρ (x :: xs) (e :: es) body σ = .ok (vs, σ1)) (hN : Names N) (hl : xs.length = es.length)
    (hx : ∀ y ∈ x :: xs, Bindable N y) (ho : OkL N (e :: es)) (h5 : endsExpr body = true) (h7 : OkI N body) (ha : Agree N ρ ρ') (hs : SR P σ σ') (rb : Bool) :
    Out P (Evs P ρ' (starE (x :: xs) (xp rb e :: xps false es) (bodyE (xps false body))) σ') vs σ1 := by
  rw [OkL] at ho
  rw [sStar, Res.bind_eq_ok] at h
  obtain ⟨⟨us, σ2⟩, h1, h2⟩ := h
  simp only [Res.bind_eq_ok] at h2
  obtain ⟨v, h2, h3⟩ := h2
  cases single_inv h2
  obtain ⟨v', σ2', k1, k2, k3⟩ := ih.e1 h1 hN ho.1.2 ha hs rb
  split at h3
  next hbd =>
    have hd : EvD P ρ' [.mk [x] (xp rb e)] σ' [v'] σ2' := by
      have := EvD.cons (xs := [x]) k1 ⟨rfl, (bound_rel (.cons k2 .nil)).trans hbd⟩ (EvD.nil (σ := σ2'))
      simpa using this
    obtain ⟨b1, b2⟩ := bind_rel (N := N) (xs := [x]) (fun y hy => hx y (by simp only [List.mem_singleton] at hy; simp [hy])) (.cons k2 .nil) ha k3
    match xs, es, hl, h3, ho, hx with
    | [], [], _, h3, _, _ =>
      refine (ih.s0 h3 hN h5 h7 b1 b2).mono fun _ _ _ he => ?_
      have : starE [x] (xp rb e :: xps false []) (bodyE (xps false body)) = .letv [.mk [x] (xp rb e)] (bodyE (xps false body)) := by rw [starE]; simp
      rw [this]
      exact Evs.letv hd he
    | y :: xs, f :: es, hl, h3, ho, hx =>
      refine (ih.s h3 hN (by simpa using hl) (fun z hz => hx z (List.mem_cons_of_mem _ hz)) ho.2 h5 h7 b1 b2 false).mono fun _ _ _ he => ?_
      rw [xps, starE]
      exact Evs.letv hd (.one he)
  · cases h3

theorem seqE_ev {l : List E} {ws : List RV} {σ1' : RS} (hnb : ∀ e ∈ l, isBegin e = false) (hne : l ≠ []) (h1 : EvB P ρ' l σ' ws σ1') (h2 : EvR P ρ' (l.map exBd) σ' σ1')
    (h3 : EvT P ρ' l σ' ws σ1') : EvX P ρ' (seqE l) σ' ws σ1' := by
  match l, hne with
  | [e], _ =>
    refine ⟨h1.one_inv, ?_⟩
    have : seqE [e] = e := rfl
    rw [this, flat_eq (hnb e (by simp))]
    exact ⟨h2, h3⟩
  | e :: e' :: l, _ =>
    have : seqE (e :: e' :: l) = .begin (e :: e' :: l) := rfl
    rw [this, EvX, flat, flats_id hnb]
    exact ⟨.begin h1, h2, h3⟩

theorem step_e (ih : Sim P n) {s : S} (h : sev P (n + 1) ρ s σ = .ok (vs, σ1)) (hN : Names N) (ho : Ok N s) (ha : Agree N ρ ρ') (hs : SR P σ σ') (rb : Bool) :
    Out P (EvX P ρ' (xp rb s) σ') vs σ1 := by
  match s, h, ho with
  | .var x, h, ho =>
    rw [Ok] at ho
    rw [sev, Res.bind_eq_ok] at h
    obtain ⟨v, h1, h2⟩ := h
    cases h2
    obtain ⟨w, k1, k2⟩ := lookup_rel ha hs ho h1
    rw [xp]
    exact Out.xs ha rfl ⟨[w], σ', .var k1, .cons k2 .nil, hs⟩
  | .lit l, h, _ => rw [sev] at h; cases h; rw [xp]; exact Out.xs ha rfl ⟨_, σ', .lit, .cons (.lit _) .nil, hs⟩
  | .quote d, h, _ => rw [sev] at h; cases h; rw [xp]; exact Out.xs ha rfl ⟨_, σ', .quote, .cons (VRel.ofX d) .nil, hs⟩
  | .quoteSyntax d, h, _ => rw [sev] at h; cases h; rw [xp]; exact Out.xs ha rfl ⟨_, σ', .quoteSyntax, .cons (.stx d) .nil, hs⟩
  | .set x e, h, ho =>
    rw [Ok] at ho
    rw [sev, Res.bind_eq_ok] at h
    obtain ⟨⟨us, σ2⟩, h1, h2⟩ := h
    simp only [Res.bind_eq_ok] at h2
    obtain ⟨v, h2, σ3, h3, h4⟩ := h2
    cases single_inv h2
    cases h4
    obtain ⟨v', σ2', k1, k2, k3⟩ := ih.e1 h1 hN ho.2.2 ha hs rb
    obtain ⟨σ3', k4, k5⟩ := assign_rel ha k3 ho.1 k2 h3
    rw [xp]
    exact Out.xs ha rfl ⟨_, σ3', .set k1 k4, .cons .void .nil, k5⟩
  | .ite c t e, h, ho =>
    rw [Ok] at ho
    rw [sev, Res.bind_eq_ok] at h
    obtain ⟨⟨us, σ2⟩, h1, h2⟩ := h
    simp only [Res.bind_eq_ok] at h2
    obtain ⟨v, h2, h3⟩ := h2
    cases single_inv h2
    obtain ⟨v', σ2', k1, k2, k3⟩ := ih.e1 h1 hN ho.1.2 ha hs rb
    rw [xp]
    refine Out.xs ha rfl ?_
    split at h3
    next hv => exact (ih.e h3 hN ho.2.2.2 ha k3 rb).mono fun _ _ _ he => .ite_false k1 (by rw [k2.isFalse]; exact hv) he.1
    next hv => exact (ih.e h3 hN ho.2.1.2 ha k3 rb).mono fun _ _ _ he => .ite_true k1 (by rw [k2.isFalse]; simpa using hv) he.1
  | .lam f body, h, ho =>
    rw [Ok] at ho
    rw [sev] at h; cases h
    rw [xp]
    refine Out.xs ha rfl ⟨_, σ', .lam, .cons (.clo ?_) .nil, hs⟩
    have := CR.clo N ρ ρ' [f] [body] hN rfl (by simpa using ho.1) (by rw [OkBs, OkBs]; exact ⟨ho.2, trivial⟩) ha
    simpa [xpBodies, mkCls] using this
  | .clam fs bodies, h, ho =>
    rw [Ok] at ho
    rw [sev] at h; cases h
    rw [xp]
    exact Out.xs ha rfl ⟨_, σ', .clam, .cons (.clo (.clo N ρ ρ' fs bodies hN ho.1 ho.2.1 ho.2.2 ha)) .nil, hs⟩
  | .begin [], h, _ =>
    rw [sev] at h
    rw [xp]
    refine Out.xs ha rfl ⟨[.void], σ', voidE_ev ha hs, ?_⟩
    cases n with
    | zero => simp [sSeq] at h
    | succ n => rw [sSeq] at h; cases h; exact ⟨.cons .void .nil, hs⟩
  | .begin (e :: es), h, ho =>
    rw [Ok] at ho
    rw [sev] at h
    have hx := ih.seq h hN ho (by simp) ha hs
    have hnf := nf_xps N (e :: es) ho false
    cases rb with
    | false =>
      refine hx.mono fun vs' σ1' _ he => ?_
      rw [xp, ← xps, EvX, flat]
      exact ⟨.begin he.1, he.2⟩
    | true =>
      refine hx.mono fun vs' σ1' _ he => ?_
      have hf := flats_nf _ hnf
      rw [xp, ← xps, bodyE, asm_eq fun x hx => nf_notDef (hf x hx).2]
      have hne : flats (xps false (e :: es)) ≠ [] := by
        rw [xps, NFl] at hnf
        rw [xps, flats]
        exact fun h' => (flat_nf _ hnf.1).2 (List.append_eq_nil_iff.1 h').1
      exact seqE_ev (fun x hx => (hf x hx).1) hne (evb_flats _ (by simp [xps]) hnf he.1) he.2.1 he.2.2
  | .app f args, h, ho =>
    rw [Ok] at ho
    rw [sev, Res.bind_eq_ok] at h
    obtain ⟨⟨us, σ2⟩, h1, h2⟩ := h
    simp only [Res.bind_eq_ok] at h2
    obtain ⟨g, h2, ⟨as, σ3⟩, h3, h4⟩ := h2
    cases single_inv h2
    obtain ⟨g', σ2', k1, k2, k3⟩ := ih.e1 h1 hN ho.1.2 ha hs rb
    obtain ⟨as', σ3', k4, k5, k6⟩ := ih.a h3 hN ho.2 ha k3 rb
    rw [xp]
    exact Out.xs ha rfl ((ih.p h4 k2 k5 k6).mono fun _ _ _ he => .app k1 k4 he)
  | .letv xss es body, h, ho =>
    rw [Ok] at ho
    obtain ⟨h1, h2, h3, h4, h5, h6, h7⟩ := ho
    rw [sev] at h
    rw [xp]
    exact ih.let_ h hN h1 h3 h4 h5 h7 ha hs rb
  | .letrecv xss es body, h, ho =>
    rw [Ok] at ho
    obtain ⟨h1, h2, h3, h4, h5, h6, h7⟩ := ho
    rw [sev] at h
    rw [xp]
    exact ih.letrec_ h hN h1 h3 h4 h5 h7 ha hs rb
  | .and es, h, ho =>
    rw [Ok] at ho
    rw [sev] at h
    rw [xp]
    exact ih.and h hN ho ha hs rb
  | .or [], h, _ =>
    rw [sev] at h
    rw [xp]
    refine Out.xs ha rfl ⟨_, σ', .lit, ?_⟩
    cases n with
    | zero => simp [sOrs] at h
    | succ n => rw [sOrs] at h; cases h; exact ⟨.cons (.lit _) .nil, hs⟩
  | .or (e :: es), h, ho =>
    rw [Ok] at ho
    rw [sev] at h
    rw [xp]
    exact ih.or h hN ho ha hs rb
  | .when c body, h, ho =>
    rw [Ok] at ho
    rw [sev, Res.bind_eq_ok] at h
    obtain ⟨⟨us, σ2⟩, h1, h2⟩ := h
    simp only [Res.bind_eq_ok] at h2
    obtain ⟨v, h2, h3⟩ := h2
    cases single_inv h2
    obtain ⟨v', σ2', k1, k2, k3⟩ := ih.e1 h1 hN ho.1.2 ha hs rb
    rw [xp]
    refine Out.xs ha rfl ?_
    split at h3
    next hv => cases h3; exact ⟨_, σ2', .ite_false k1 (by rw [k2.isFalse]; exact hv) (voidE_ev ha k3), .cons .void .nil, k3⟩
    next hv => exact (ih.b h3 hN ho.2.2.2 ho.2.1 ha k3).mono fun _ _ _ he => .ite_true k1 (by rw [k2.isFalse]; simpa using hv) (.letv0 he)
  | .unless c body, h, ho =>
    rw [Ok] at ho
    rw [sev, Res.bind_eq_ok] at h
    obtain ⟨⟨us, σ2⟩, h1, h2⟩ := h
    simp only [Res.bind_eq_ok] at h2
    obtain ⟨v, h2, h3⟩ := h2
    cases single_inv h2
    obtain ⟨v', σ2', k1, k2, k3⟩ := ih.e1 h1 hN ho.1.2 ha hs rb
    rw [xp]
    refine Out.xs ha rfl ?_
    split at h3
    next hv => exact (ih.b h3 hN ho.2.2.2 ho.2.1 ha k3).mono fun _ _ _ he => .ite_false k1 (by rw [k2.isFalse]; exact hv) (.letv0 he)
    next hv => cases h3; exact ⟨_, σ2', .ite_true k1 (by rw [k2.isFalse]; simpa using hv) (voidE_ev ha k3), .cons .void .nil, k3⟩
  | .cond ts bs els, h, ho =>
    rw [Ok] at ho
    rw [sev] at h
    have := ih.c h hN ho.1 ho.2.1 ho.2.2.1 ho.2.2.2.1 ho.2.2.2.2.2 ha hs rb
    cases els with
    | nil => rw [xp]; exact this
    | cons e es => rw [xp]; exact this
  | .let1 xs es body, h, ho =>
    rw [Ok] at ho
    obtain ⟨h1, h2, h3, h4, h5, h6, h7⟩ := ho
    rw [sev] at h
    rw [xp]
    refine ih.let_ (xss := xs.map fun x => [x]) ?_ hN (by simpa using h1) (by rw [flatten_single]; exact h3) h4 h5 h7 ha hs rb
    rw [flatten_single]
    exact h
  | .letstar xs [] body, h, ho =>
    rw [Ok] at ho
    obtain ⟨h1, h3, h4, h5, h6, h7⟩ := ho
    rw [sev] at h
    rw [xp]
    have : xs = [] := by simpa using h1
    subst this
    exact Out.xs ha rfl ((ih.s0 h hN h5 h7 ha hs).mono fun _ _ _ he => .letv0 he)
  | .letstar [] (e :: es) body, h, ho =>
    rw [Ok] at ho
    cases ho.1
  | .letstar (x :: xs) (e :: es) body, h, ho =>
    rw [Ok] at ho
    obtain ⟨h1, h3, h4, h5, h6, h7⟩ := ho
    rw [sev] at h
    rw [xp]
    refine Out.xs ha ?_ (ih.s h hN (by simpa using h1) h3 h4 h5 h7 ha hs rb)
    cases xs with
    | nil => rw [starE]; rfl; simp
    | cons y xs =>
      cases es with
      | nil => simp at h1
      | cons f es => rw [xps, starE]; rfl
  | .letrec xs es body, h, ho =>
    rw [Ok] at ho
    obtain ⟨h1, h2, h3, h4, h5, h6, h7⟩ := ho
    rw [sev] at h
    rw [xp]
    refine ih.letrec_ (xss := xs.map fun x => [x]) ?_ hN (by simpa using h1) (by rw [flatten_single]; exact h3) h4 h5 h7 ha hs rb
    rw [flatten_single]
    exact h
  | .nlet f xs es body, h, ho =>
    rw [Ok] at ho
    obtain ⟨h1, h2, h3, h4, h4', h5, h6, h7⟩ := ho
    rw [sev] at h
    obtain ⟨b1, b2⟩ := bind_rel (N := N) (xs := [f]) (vs := [.unbound]) (ws := [.unbound]) (by simpa using h2) (.cons .unbound .nil) ha hs
    simp only [Res.bind_eq_ok] at h
    obtain ⟨σ2, k1, ⟨as, σ3⟩, k2, k3⟩ := h
    have hc : CR (.clo (sBind ρ σ [f] [.unbound]).1 [⟨xs, none⟩] [body]) (.clo (bindVals ρ' σ' [f] [.unbound]).1 [.mk ⟨xs, none⟩ (bodyE (xps false body))]) := by
      have := CR.clo N _ _ [⟨xs, none⟩] [body] hN rfl (by simpa [Formals.ids] using h3) (by rw [OkBs, OkBs]; exact ⟨⟨h5, h6, h7⟩, trivial⟩) b1
      simpa [xpBodies, mkCls] using this
    obtain ⟨σ2', l1, l2⟩ := assign_rel b1 b2 h2 (.clo hc) k1
    have ha' : Agree (fun x => N x ∧ x ≠ f) ρ (bindVals ρ' σ' [f] [.unbound]).1 := by
      simp only [bindVals]
      exact (ha.weaken (M := fun x => N x ∧ x ≠ f) fun x hx => hx.1).hide (fun h => h.2 rfl) h2.2.1 h2.2.2 _
    obtain ⟨as', σ3', r1, r2, r3⟩ := ih.a k2 (hN.weaken fun x hx => hx.1) h4' ha' l2 false
    obtain ⟨vs', σ4', q1, q2, q3⟩ := ih.p k3 (.clo hc) r2 r3
    rw [xp]
    refine Out.xs ha rfl ⟨vs', σ4', Evs.letrecv (σ1 := σ2') rfl (EvR.cons .lam ⟨rfl, rfl⟩ ?_ .nil) (.one (.app (Evs.var ?_) r1 q1)), q2, q3⟩
    · rw [assignsR]
      exact (congrArg (fun r => r >>= fun σ => assignsR _ σ [] []) l1).trans rfl
    · have hfc : (bindVals ρ' σ' [f] [.unbound]).1 f = some σ'.cells.length := by simp [bindVals, REnv.set]
      unfold assignR at l1
      rw [hfc] at l1
      simp only at l1
      split at l1
      next hlt =>
        cases l1
        unfold lookupR
        simp only [REnv.set, if_true, List.getElem?_set_self hlt]
      · cases l1
  | .define xs e, h, _ => rw [sev] at h; cases h
  | .def1 x e, h, _ => rw [sev] at h; cases h
  | .fn f fs body, h, _ => rw [sev] at h; cases h

theorem sim_all (P : Prims) : ∀ n, Sim P n
  | 0 => .zero P
  | n + 1 => by
    have ih := sim_all P n
    exact ⟨step_e ih, step_seq ih, step_b ih, step_t ih, step_d ih, step_a ih, step_l ih, step_r ih, step_and ih, step_or ih, step_c ih, step_s0 ih, step_s ih, step_p ih⟩

end Minim.Exp
