import Verif.PassSeq

set_option autoImplicit false

/-!
# Programs that contain the definition of `call-with-values` (C82, C110)
-/

namespace Minim.Jit

open Minim.Sx Minim.Core

section
variable {P : Prims} {host : Host}

theorem runs_append {n : Nat} : ∀ {es fs : List E} {σ σ' : RS} {vss : List (List RV)}, runs P n (es ++ fs) σ = .ok (vss, σ') ↔
    ∃ us σ1 ws, runs P n es σ = .ok (us, σ1) ∧ runs P n fs σ1 = .ok (ws, σ') ∧ vss = us ++ ws
  | [], fs, σ, σ', vss => by simp [runs]
  | e :: es, fs, σ, σ', vss => by
    simp only [List.cons_append, runs, Res.bind_eq_ok]
    constructor
    · rintro ⟨⟨vs, σa⟩, ha, ⟨wss, σb⟩, hb, h⟩
      cases h
      obtain ⟨us, σ1, ws, h1, h2, rfl⟩ := runs_append.1 hb
      exact ⟨vs :: us, σ1, ws, ⟨(vs, σa), ha, (us, σ1), h1, rfl⟩, h2, rfl⟩
    · rintro ⟨us, σ1, ws, ⟨⟨vs, σa⟩, ha, ⟨wss, σb⟩, hb, h⟩, h2, rfl⟩
      cases h
      exact ⟨(vs, σa), ha, (wss ++ ws, σ'), runs_append.2 ⟨wss, σb, ws, hb, h2, rfl⟩, rfl⟩

theorem runs_length {n : Nat} : ∀ {es : List E} {σ σ' : RS} {vss : List (List RV)}, runs P n es σ = .ok (vss, σ') → vss.length = es.length
  | [], σ, σ', vss, h => by cases h; rfl
  | e :: es, σ, σ', vss, h => by
    simp only [runs, Res.bind_eq_ok] at h
    obtain ⟨⟨vs, σa⟩, ha, ⟨wss, σb⟩, hb, h⟩ := h
    cases h
    simp [runs_length hb]

theorem topShows {e0 : Nat} : ∀ {es : List E} {vss uss : List (List RV)} {ws : List MV}, List.Forall₂ (List.Forall₂ SameV) vss uss →
    List.Forall₂ (fun p w => isSet p.1 = true ∨ (∃ v, p.2 = [v] ∧ VR e0 v w) ∨ (p.2.length ≠ 1 ∧ w = .values)) (es.zip uss) ws →
    List.Forall₂ (fun p w => isSet p.1 = true ∨ Shows p.2 w) (es.zip vss) ws
  | [], _, _, _, _, h => by
    simp only [List.zip_nil_left] at h ⊢
    cases h
    exact .nil
  | _ :: _, _, _, _, .nil, h => by
    simp only [List.zip_nil_right] at h ⊢
    cases h
    exact .nil
  | e :: es, _, _, _, .cons h t, h' => by
    rw [List.zip_cons_cons] at h' ⊢
    cases h' with
    | cons a b => exact .cons (a.imp id fun h' => .of h h') (topShows t b)

/-- The definition of `call-with-values`, whatever the store. -/
theorem cwvDef_hide (n : Nat) (a b : Sym) (σ : RS) (o : Option RV) :
    ev P (n + 2) REnv.empty (cwvDef a b) (σ.hide .callWithValues o) = .ok ([.void], σ.hide .callWithValues (some (.clo (.clo REnv.empty [cwvClause a b])))) := by
  have : (σ.hide .callWithValues o).setGlobs [.callWithValues] [.clo (.clo REnv.empty [cwvClause a b])] = σ.hide .callWithValues (some (.clo (.clo REnv.empty [cwvClause a b]))) := by
    simp only [RS.setGlobs, RS.setGlob, RS.hide, RS.mk.injEq, true_and]
    funext x
    by_cases h : x = .callWithValues <;> simp [h]
  simp only [cwvDef, ev, Res.ok_bind]
  rw [← this]
  rfl

theorem goodH_builtin {x : Sym} : ∀ {v : RV}, VRel Builtin v v → VH x v
  | .clo (.prim _ _), _ | .clo .values, _ | .clo .apply, _ | .clo .cwv, _ => by simp [VH]
  | .clo (.clo _ _), h => by cases h with | clo h => cases h
  | .cons a d, h => by
    cases h with
    | cons h1 h2 => exact ⟨goodH_builtin h1, goodH_builtin h2⟩
  | .null, _ | .sym _, _ | .lit _, _ | .other _, _ | .stx _, _ | .void, _ | .unbound, _ | .tenv _, _ => by simp [VH]
  | .values, h | .num _, h | .cell _, h | .undef, h => by cases h

theorem goodH_boot {a b : Sym} {σ : RS} (ha : a ≠ .callWithValues) (hb : b ≠ .callWithValues) (h : Initial σ) : GoodH .callWithValues (boot a b σ) := by
  refine ⟨fun v hv => ?_, fun y v hv => ?_⟩
  · rw [show (boot a b σ).cells = [] from h.cells] at hv
    simp at hv
  · simp only [boot] at hv
    split at hv
    · cases hv
      simp [VH, lacksC, lacksL, lacks, cwvClause, ha, hb]
    · exact goodH_builtin (h.globs y v hv)

end

/-- C82 (partial; missing as in `C82_machine_partial`, but for the assignment of variables at top level).  Programs that contain the definition of `call-with-values` of the prelude, and do not mention this
variable before it in their optimised forms: the compiled forms, run one after the other from a state without `call-with-values`, end without error and show the values of the source forms, those of assignments
at top level excepted; the definition itself shows void. -/
theorem C82_file_partial (P : Prims) (host : Host) (hP : host.prim = P.f MC) (con : Sym → Prop) (n k : Nat) (es fs es' fs' : List E) (codes : List Code)
    (he : optimise n k es = .ok es') (hf : optimise n (L0s k es).2 fs = .ok fs') (hw : WfL (stdK con) IsGen (es ++ fs)) (hs : SCL (stdK con) (es ++ fs)) (hl : lacksL .callWithValues es' = true)
    (a b : Sym) (hab : a ≠ b) (ha : a ≠ .callWithValues) (hb : b ≠ .callWithValues) (hok : ∀ e ∈ es' ++ fs', okTop e = true)
    (hc : List.Forall₂ (fun e c => compileExpr e = .ok c) (es' ++ cwvDef a b :: fs') codes)
    (σ σ1 : RS) (hi : Initial σ) (s : St) (e0 : Nat) (hst : SRel e0 σ.pre s) (hcont : s.cont = []) (m : Nat) (vss : List (List RV)) (hr : runs P m (es ++ fs) σ = .ok (vss, σ1)) :
    ∃ ws s1, Session host codes s ws s1 ∧
      List.Forall₂ (fun p w => isSet p.1 = true ∨ Shows p.2 w) ((es' ++ cwvDef a b :: fs').zip (vss.take es.length ++ [.void] :: vss.drop es.length)) ws ∧
      (∀ x, ObsG (σ1.globs x) (s1.globs e0 x)) ∧ s1.cont = [] ∧ s1.env = s.env := by
  have h : optimise n k (es ++ fs) = .ok (es' ++ fs') := optimise_append.2 ⟨es', fs', he, hf, rfl⟩
  obtain ⟨m1, us, σa, r1, v1, g1⟩ := C82_optimise_partial P con n k _ _ h hw hs σ m vss σ1 hi hr
  have wf' := optimise_wf h hw hs
  obtain ⟨m2, us', σb, w2, r2, p2, v2⟩ := prog_step (stdK_names' con) r1 (TrL.refl _ _ (es' ++ fs')) wf' (boot_sr hab hi)
  have hv : List.Forall₂ (List.Forall₂ SameV) vss us' := Forall₂.trans (R := List.Forall₂ SameV) (fun _ _ _ h h' => Forall₂.trans (R := SameV) (fun _ _ _ a b => SameV.trans a b) h h') v1
    (v2.imp fun _ _ h => h.imp fun _ _ => VRel.mono fun _ _ => CR.same)
  have hg : ∀ x, ORel SameV (σ1.globs x) (σb.globs x) := fun x => ORel.trans (R := SameV) (fun _ _ _ a b => SameV.trans a b) (g1 x) ((p2.sr.glob x).mono fun _ _ => VRel.mono fun _ _ => CR.same)
  obtain ⟨ua, σm, ub, ra, rb, rfl⟩ := runs_append.1 r2
  have hgood := goodH_boot ha hb hi
  let cl : RV := .clo (.clo REnv.empty [cwvClause a b])
  have e1 : (boot a b σ).hide .callWithValues none = σ.pre := by
    simp only [RS.hide, boot, RS.pre, RS.mk.injEq, true_and]
    funext x
    by_cases h : x = .callWithValues <;> simp [h]
  have e2 : (boot a b σ).hide .callWithValues (some cl) = boot a b σ := by
    simp only [RS.hide, boot, RS.mk.injEq, true_and, cl]
    funext x
    by_cases h : x = .callWithValues <;> simp [h]
  have x1 := (runs_hide (o := none) ra hl hgood).2
  have x2 := (runs_hide (o := some cl) ra hl hgood).2
  rw [e1] at x1
  rw [e2, ra] at x2
  have e3 : σm.hide .callWithValues (some cl) = σm := by
    simp only [Res.ok.injEq, Prod.mk.injEq, true_and] at x2
    exact x2.symm
  have hrun : runs P (m2 + 2) (es' ++ cwvDef a b :: fs') σ.pre = .ok (ua ++ [.void] :: ub, σb) := by
    refine runs_append.2 ⟨ua, _, [.void] :: ub, runs_le (by omega) x1, ?_, rfl⟩
    rw [runs, cwvDef_hide]
    simp only [Res.ok_bind]
    rw [show σm.hide .callWithValues (some (.clo (.clo REnv.empty [cwvClause a b]))) = σm from e3, runs_le (m := m2 + 2) (by omega) rb]
    rfl
  obtain ⟨ws, s1, r3, v3, _, g3, c3, n3⟩ := session_top hP (fun e he => by
    rcases List.mem_append.1 he with h | h
    · exact hok e (List.mem_append_left _ h)
    · rcases List.mem_cons.1 h with rfl | h
      · rfl
      · exact hok e (List.mem_append_right _ h)) hc hst hcont hrun
  refine ⟨ws, s1, r3, topShows ?_ v3, fun x => ObsG.of (hg x) (g3.globs x), c3, n3⟩
  have hla : ua.length = es.length := (runs_length ra).trans (optimise_length he)
  have ht : List.Forall₂ (List.Forall₂ SameV) (vss.take es.length) ua := by
    have := List.forall₂_take es.length hv
    rwa [← hla, List.take_left', hla] at this
    rfl
  have hd : List.Forall₂ (List.Forall₂ SameV) (vss.drop es.length) ub := by
    have := List.forall₂_drop es.length hv
    rwa [← hla, List.drop_left', hla] at this
    rfl
  exact List.rel_append ht (.cons (.cons .void .nil) hd)

set_option maxRecDepth 10000 in
/-- The hypotheses can be met: a procedure is defined before `call-with-values`, and a form after it uses both; it has the value `(1 . 3)` on the machine. -/
example : ∃ codes ws s1, Session demoHost codes (start (.mk [] (.pair 0 .fls)) passMGlobs) ws s1 ∧ ws[2]? = some (ofX (.cons (.lit (.const 1)) (.lit (.const 3)))) := by
  obtain ⟨σ1, hr⟩ : ∃ σ1, runs demoPrims 40 (passDemo.take 1 ++ passDemo.drop 1) passStore = .ok ([[.void], [ofX (.cons (.lit (.const 1)) (.lit (.const 3)))]], σ1) := ⟨_, rfl⟩
  obtain ⟨e1, he⟩ : ∃ e, optimise 40 0 (passDemo.take 1) = .ok [e] := ⟨_, rfl⟩
  obtain ⟨f1, hf⟩ : ∃ f, optimise 40 (L0s 0 (passDemo.take 1)).2 (passDemo.drop 1) = .ok [f] := ⟨_, rfl⟩
  have h1 : lacksL .callWithValues [e1] = true := by cases he; rfl
  have h2 : okTop e1 = true ∧ okTop f1 = true := by cases he; cases hf; exact ⟨rfl, rfl⟩
  have h3 : isSet f1 = false := by cases hf; rfl
  obtain ⟨codes, hc⟩ : ∃ codes, List.Forall₂ (fun e c => compileExpr e = .ok c) ([e1] ++ cwvDef (.user 1) (.user 2) :: [f1]) codes := by
    cases he
    cases hf
    exact ⟨_, .cons rfl (.cons rfl (.cons rfl .nil))⟩
  obtain ⟨ws, s1, r, v, _⟩ := C82_file_partial demoPrims demoHost rfl _ 40 0 (passDemo.take 1) (passDemo.drop 1) _ _ codes he hf passDemo_wf passDemo_sc h1 (.user 1) (.user 2) (by simp) (by simp) (by simp)
    (by simp [h2]) hc passStore σ1 passStore_initial _ 0 (pass_rel _) rfl 40 _ hr
  refine ⟨codes, ws, s1, r, ?_⟩
  cases v with
  | cons _ t =>
    cases t with
    | cons _ t =>
      cases t with
      | cons h _ =>
        rcases h with h | ⟨u, hu, h⟩ | ⟨h, _⟩
        · exact absurd h (by simp [h3])
        · cases hu
          rw [VRel.ofX_eq (.cons (.lit (.const 1)) (.lit (.const 3))) h]
          rfl
        · exact absurd rfl h

end Minim.Jit
