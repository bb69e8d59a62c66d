import Verif.FailSem
import Verif.MachineProps

set_option autoImplicit false

/-!
# Compiled code and reference semantics: errors and divergence
-/

namespace Minim.Jit

open Minim.Sx Minim.Core

/-- The machine is about to evaluate the task: at the start of its code, or at an instruction that applies the procedure. -/
inductive At (host : Host) (e0 : Nat) : Task → RS → St → Prop where
  | e {ρ : REnv} {e : E} {σ : RS} {s : St} (sc : Scope) (t busy : Bool) (nl : Nat) (tm0 : List Code) (is : List Item) (nl' : Nat) (tm1 : List Code)
      (loc : Option (List Sym)) (items : List Item) (tm : List Code) :
      compile e sc t nl tm0 = .ok (is, nl', tm1) → hasClauses e = true → okE busy loc e = true → (t = true → busy = false) →
      Here items tm s.code s.pc is → (∃ new, tm = new ++ tm1) → Pre e0 loc sc ρ (fun x => Free x e) σ busy (boundVars e []).1.length s →
      At host e0 (.e ρ e) σ s
  | b {ρ : REnv} {es : List E} {σ : RS} {s : St} (sc : Scope) (t busy : Bool) (nl : Nat) (tm0 : List Code) (is : List Item) (nl' : Nat) (tm1 : List Code)
      (loc : Option (List Sym)) (items : List Item) (tm : List Code) :
      compileBody es sc t nl tm0 = .ok (is, nl', tm1) → hasClausesL es = true → okL busy loc es = true → (t = true → busy = false) →
      Here items tm s.code s.pc is → (∃ new, tm = new ++ tm1) → Pre e0 loc sc ρ (fun x => ∃ e ∈ es, Free x e) σ busy (boundVarsSeq es []).1.length s →
      At host e0 (.b ρ es) σ s
  | a {ρ : REnv} {es : List E} {σ : RS} {s : St} (sc : Scope) (nl : Nat) (tm0 : List Code) (is : List Item) (nl' : Nat) (tm1 : List Code)
      (loc : Option (List Sym)) (items : List Item) (tm : List Code) :
      compileArgs es sc nl tm0 = .ok (is, nl', tm1) → hasClausesL es = true → okL true loc es = true →
      Here items tm s.code s.pc is → (∃ new, tm = new ++ tm1) → Pre e0 loc sc ρ (fun x => ∃ e ∈ es, Free x e) σ true (boundVarsSeq es []).1.length s →
      At host e0 (.a ρ es) σ s
  | v {ρ : REnv} {es : List E} {σ : RS} {s : St} (sc : Scope) (t : Bool) (nl : Nat) (tm0 : List Code) (is : List Item) (nl' : Nat) (tm1 : List Code)
      (loc : Option (List Sym)) (items : List Item) (tm : List Code) :
      compile (.mvvals es) sc t nl tm0 = .ok (is, nl', tm1) → hasClausesL es = true → okV loc es = true →
      Here items tm s.code s.pc is → (∃ new, tm = new ++ tm1) → Pre e0 loc sc ρ (fun x => ∃ e ∈ es, Free x e) σ false (boundVarsSeq es []).1.length s →
      At host e0 (.a ρ es) σ s
  | p {f : RV} {vs : List RV} {σ : RS} {s : St} (s' : St) : step host s = s'.app → VR e0 f s'.cp → List.Forall₂ (VR e0) vs s'.args → SRel e0 σ s' →
      At host e0 (.p f vs) σ s

theorem Fails.of_steps {host : Host} {s s' : St} (h : Steps host s s') (hf : Fails host s') : Fails host s := by
  obtain ⟨u, h1, h2⟩ := hf
  exact ⟨u, h.trans h1, h2⟩

theorem force_values {e0 : Nat} {vs : List RV} {s : St} (h : ResRel e0 vs s) (hl : vs.length ≠ 1) : force s.res = none := by
  rcases h with ⟨v, rfl, _⟩ | ⟨_, h, _⟩
  · exact absurd rfl hl
  · rw [h]; rfl

/-- The values bound are not as many as the variables. -/
theorem exec_bindValues_wrong {host : Host} {e0 : Nat} {vs : List RV} {s : St} {i : Nat} {xs : List Sym} (h : ResRel e0 vs s) (hl : vs.length ≠ xs.length) :
    s.exec host (.bindValues i xs.length xs) = .err := by
  rw [St.exec]
  rcases h with ⟨v, rfl, hv⟩ | ⟨_, h, h3⟩
  · split
    next hv' => exact absurd hv' hv.ne_values
    · rw [if_neg (fun h => hl h.symm)]
  · split
    · rw [if_neg (by rw [← List.Forall₂.length_eq h3]; exact hl)]
    next h' => exact absurd h h'

theorem exec_tlBind_wrong {host : Host} {e0 : Nat} {vs : List RV} {s : St} {xs : List Sym} (he : s.tenv = .tenv e0) (h : ResRel e0 vs s)
    (hl : vs.length ≠ xs.length) : s.exec host (.tlBindValues xs.length xs) = .err := by
  rw [St.exec]
  split
  · rcases h with ⟨v, rfl, hv⟩ | ⟨_, h, h3⟩
    · split
      next hv' => exact absurd hv' hv.ne_values
      · rw [if_neg (fun h => hl h.symm)]
    · split
      · rw [if_neg (by rw [← List.Forall₂.length_eq h3]; exact hl)]
      next h' => exact absurd h h'
  next h' => exact absurd he (h' e0)

/-- The first part of a call: the frame is saved if the call is not in tail position. -/
theorem call_enter {host : Host} {e0 : Nat} {t busy : Bool} {lbl : Nat} {s : St} {call : List Item} {σ : RS} {items : List Item}
    {tm : List Code} {loc : Option (List Sym)} {sc : Scope} {ρ : REnv} {F : Sym → Prop} {b : Nat}
    (htb : t = true → busy = false) (hpre : Pre e0 loc sc ρ F σ busy b s)
    (hh : Here items tm s.code s.pc (if t then call else .ins (.saveCC lbl) :: (call ++ [.lab lbl]))) :
    ∃ s0, Steps host s s0 ∧ Here items tm s0.code s0.pc (call ++ if t then [] else [.lab lbl]) ∧ Pre e0 loc sc ρ F σ false b s0 := by
  cases t with
  | true =>
    simp only [if_true] at hh ⊢
    exact ⟨s, .refl _, by simpa using hh, hpre.scok, hpre.slots, hpre.fr, hpre.st, fun _ => hpre.clean (htb rfl)⟩
  | false =>
    simp only [Bool.false_eq_true, if_false] at hh ⊢
    have hst := hh.step host
    simp only [mapI, St.exec] at hst
    generalize hs0 : St.adv { s with cont := ⟨s.code, labPos items lbl, s.env, s.cp, s.args⟩ :: s.cont, cp := .void, args := [] } = s0 at hst
    have e1 : s0.env = s.env := by rw [← hs0]; rfl
    have e2 : s0.envs = s.envs := by rw [← hs0]; rfl
    exact ⟨s0, .one hst, by rw [← hs0]; exact hh.next, hpre.scok, by rw [slots_congr e2 e1]; exact hpre.slots, hpre.fr.congr e2 e1,
      hpre.st.congr (by rw [← hs0]; rfl) (by rw [← hs0]; rfl) (by rw [← hs0]; rfl), fun _ => by rw [← hs0]; rfl⟩

section
variable {host : Host} {P : Prims} {e0 : Nat}

/-- What the machine does on an application expression, as far as evaluation goes. -/
structure AppCfg (host : Host) (P : Prims) (e0 : Nat) (ρ : REnv) (f : E) (args : List E) (σ : RS) (s : St) : Prop where
  op : ∃ s', Steps host s s' ∧ At host e0 (.e ρ f) σ s'
  bad : ∀ vs σ1, Evs P ρ f σ vs σ1 → vs.length ≠ 1 → Fails host s
  opnds : ∀ v σ1, Evs P ρ f σ [v] σ1 → ∃ s', Steps host s s' ∧ At host e0 (.a ρ args) σ1 s'
  call : ∀ v vs σ1 σ2, Evs P ρ f σ [v] σ1 → EvA P ρ args σ1 vs σ2 → ∃ s', Steps host s s' ∧ At host e0 (.p v vs) σ2 s'

theorem app_cfg (hP : host.prim = P.f MC) {f : E} {args : List E} {sc : Scope} {n0 n1 n2 k : Nat} {tm0 t1 t2 : List Code} {fi ai r : List Item}
    {loc : Option (List Sym)} {ρ : REnv} {σ : RS} {s : St} {items : List Item} {tm : List Code} (h1 : compile f sc false n0 tm0 = .ok (fi, n1, t1))
    (h2 : compileArgs args sc n1 t1 = .ok (ai, n2, t2)) (hcl : hasClauses f = true ∧ hasClausesL args = true)
    (hok : okE false loc f = true ∧ okL true loc args = true)
    (hh : Here items tm s.code s.pc (fi ++ .ins .setProc :: .ins (.checkStack k) :: (ai ++ .ins .apply :: r))) (hext : ∃ new, tm = new ++ t2)
    (hpre : Pre e0 loc sc ρ (fun x => Free x (.app f args)) σ false (boundVars (.app f args) []).1.length s) : AppCfg host P e0 ρ f args σ s := by
  have hb : (boundVars (.app f args) []).1.length = (boundVars f []).1.length + (boundVarsSeq args []).1.length := by
    simp only [boundVars, List.length_append, boundVarsSeq_indep args (boundVars f []).2 []]
  have hpre0 : Pre e0 loc sc ρ (fun x => Free x f) σ false (boundVars f []).1.length s :=
    ⟨hpre.scok.mono (fun x hx => Free.appF _ _ hx), by have := hpre.slots; omega, hpre.fr, hpre.st, hpre.clean⟩
  have hext1 := ext_trans (compileArgs_ext h2 hcl.2) hext
  -- the operator
  have hop : ∀ {us σ1}, Evs P ρ f σ us σ1 → ∃ s1, Steps host s s1 ∧ Fin e0 false false sc.length s (instrs fi).length us σ1 s1 ∧
      Here items tm s1.code s1.pc (.ins .setProc :: .ins (.checkStack k) :: (ai ++ .ins .apply :: r)) := by
    rintro us σ1 ⟨n, v1⟩
    obtain ⟨s1, a1, a2⟩ := (sim e0 hP n).1 f sc false false n0 tm0 fi n1 t1 loc ρ σ us σ1 s items tm h1 hcl.1 hok.1 (by simp) v1 hh.left hext1 hpre0
    exact ⟨s1, a1, a2, by rw [(a2.mid rfl).code, (a2.mid rfl).pc]; exact hh.right⟩
  -- the operator and the transfer to the arguments
  have harg : ∀ {v σ1}, Evs P ρ f σ [v] σ1 → ∃ s1, Steps host s s1 ∧ Here items tm s1.code s1.pc (ai ++ .ins .apply :: r) ∧
      Pre e0 loc sc ρ (fun x => ∃ e ∈ args, Free x e) σ1 true (boundVarsSeq args []).1.length s1 ∧ VR e0 v s1.cp ∧ s1.args = [] := by
    intro v σ1 hv1
    obtain ⟨s1, a1, a2, hh1⟩ := hop hv1
    have m1 := a2.mid rfl
    have hv := resRel_single a2.res (v := v) rfl
    have hst := hh1.step host
    simp only [mapI, St.exec, hv.force] at hst
    have hh2 : Here items tm (St.adv { s1 with cp := s1.res }).code (St.adv { s1 with cp := s1.res }).pc (.ins (.checkStack k) :: (ai ++ .ins .apply :: r)) := hh1.next
    have hst2 := hh2.step host
    simp only [mapI, St.exec] at hst2
    exact ⟨_, a1.trans (.step hst (.one hst2)), hh2.next,
      hpre.next m1.env (m1.pres.congr rfl rfl rfl) (a2.st.congr rfl rfl rfl) (fun x ⟨e', h, h'⟩ => Free.appA _ _ e' h h') (by omega) (by simp), hv, m1.clean rfl⟩
  refine ⟨⟨s, .refl _, .e sc false false n0 tm0 fi n1 t1 loc items tm h1 hcl.1 hok.1 (by simp) hh.left hext1 hpre0⟩, ?_, ?_, ?_⟩
  · intro vs σ1 hv hl
    obtain ⟨s1, a1, a2, hh1⟩ := hop hv
    refine ⟨s1, a1, ?_⟩
    have hst := hh1.step host
    simpa only [mapI, St.exec, force_values a2.res hl] using hst
  · intro v σ1 hv
    obtain ⟨s1, a1, a2, a3, _, _⟩ := harg hv
    exact ⟨s1, a1, .a sc n1 t1 ai n2 t2 loc items tm h2 hcl.2 hok.2 a2.left hext a3⟩
  · rintro v vs σ1 σ2 hv ⟨n, hvs⟩
    obtain ⟨s1, a1, a2, a3, a4, a5⟩ := harg hv
    obtain ⟨s2, us', b1, b2, b3, b4, b5, b6, b7, b8, b9, b10⟩ := (sim e0 hP n).2.2.1 args sc n1 t1 ai n2 t2 loc ρ σ1 vs σ2 s1 items tm h2 hcl.2 hok.2 hvs a2.left hext a3
    have hh4 : Here items tm s2.code s2.pc (.ins .apply :: r) := by rw [b2, b3]; exact a2.right
    have hst4 := hh4.step host
    simp only [mapI, St.exec] at hst4
    exact ⟨s2, a1.trans b1, .p s2 hst4 (by rw [b6]; exact a4) (by rw [b7, a5]; exact b8) b9⟩

/-- The same for producer and consumer. -/
structure MvCfg (host : Host) (P : Prims) (e0 : Nat) (ρ : REnv) (e c : E) (σ : RS) (s : St) : Prop where
  prod : ∃ s', Steps host s s' ∧ At host e0 (.e ρ e) σ s'
  cons : ∀ vs σ1, Evs P ρ e σ vs σ1 → ∃ s', Steps host s s' ∧ At host e0 (.e ρ c) σ1 s'
  bad : ∀ as vs σ1 σ2, Evs P ρ e σ as σ1 → Evs P ρ c σ1 vs σ2 → vs.length ≠ 1 → Fails host s
  call : ∀ v vs σ1 σ2, Evs P ρ e σ vs σ1 → Evs P ρ c σ1 [v] σ2 → ∃ s', Steps host s s' ∧ At host e0 (.p v vs) σ2 s'

theorem mv_cfg (hP : host.prim = P.f MC) {e c : E} {sc : Scope} {n0 n1 n2 : Nat} {tm0 t1 t2 : List Code} {ei ci r : List Item}
    {loc : Option (List Sym)} {ρ : REnv} {σ : RS} {s : St} {items : List Item} {tm : List Code} (h1 : compile e sc false n0 tm0 = .ok (ei, n1, t1))
    (h2 : compile c sc false n1 t1 = .ok (ci, n2, t2)) (hcl : hasClauses e = true ∧ hasClauses c = true)
    (hok : okE false loc e = true ∧ okE true loc c = true)
    (hh : Here items tm s.code s.pc (ei ++ .ins .clearFrame :: .ins .doWithValues :: (ci ++ .ins .setProc :: .ins .apply :: r))) (hext : ∃ new, tm = new ++ t2)
    (hpre : Pre e0 loc sc ρ (fun x => Free x (.mvcall e c)) σ false (boundVars (.mvcall e c) []).1.length s) : MvCfg host P e0 ρ e c σ s := by
  have hb : (boundVars (.mvcall e c) []).1.length = (boundVars e []).1.length + (boundVars c []).1.length := by
    simp only [boundVars, List.length_append, boundVars_indep c (boundVars e []).2 []]
  have hpre0 : Pre e0 loc sc ρ (fun x => Free x e) σ false (boundVars e []).1.length s :=
    ⟨hpre.scok.mono (fun x hx => Free.mvcallP _ _ hx), by have := hpre.slots; omega, hpre.fr, hpre.st, hpre.clean⟩
  have hext1 := ext_trans (compile_ext h2 hcl.2) hext
  have hprod : ∀ {us σ1}, Evs P ρ e σ us σ1 → ∃ s3 ws, Steps host s s3 ∧ Here items tm s3.code s3.pc (ci ++ .ins .setProc :: .ins .apply :: r) ∧
      Pre e0 loc sc ρ (fun x => Free x c) σ1 true (boundVars c []).1.length s3 ∧ s3.args = ws ∧ List.Forall₂ (VR e0) us ws := by
    rintro us σ1 ⟨n, v1⟩
    obtain ⟨s1, a1, a2⟩ := (sim e0 hP n).1 e sc false false n0 tm0 ei n1 t1 loc ρ σ us σ1 s items tm h1 hcl.1 hok.1 (by simp) v1 hh.left hext1 hpre0
    have m1 := a2.mid rfl
    have hh1 : Here items tm s1.code s1.pc (.ins .clearFrame :: .ins .doWithValues :: (ci ++ .ins .setProc :: .ins .apply :: r)) := by
      rw [m1.code, m1.pc]; exact hh.right
    have hst1 := hh1.step host
    simp only [mapI, St.exec] at hst1
    generalize hs2 : St.adv { s1 with cp := .undef, args := [] } = s2 at hst1
    have hh2 : Here items tm s2.code s2.pc (.ins .doWithValues :: (ci ++ .ins .setProc :: .ins .apply :: r)) := by rw [← hs2]; exact hh1.next
    obtain ⟨ws, w1, w2⟩ := exec_withValues (host := host) (s := s2) (a2.res.congr (s' := s2) (by rw [← hs2]; rfl) (by rw [← hs2]; rfl))
    have hst2 := hh2.step host
    simp only [mapI, w1] at hst2
    generalize hs3 : St.adv { s2 with args := s2.args ++ ws } = s3 at hst2
    have hh3 : Here items tm s3.code s3.pc (ci ++ .ins .setProc :: .ins .apply :: r) := by rw [← hs3]; exact hh2.next
    have hargs3 : s3.args = ws := by rw [← hs3, ← hs2]; simp [St.adv]
    have henv3 : s3.env = s.env := by rw [← hs3, ← hs2]; exact m1.env
    have hpres3 : Pres sc.length s s3 := m1.pres.congr rfl rfl (by rw [← hs3, ← hs2]; rfl)
    have hst3 : SRel e0 σ1 s3 := a2.st.congr (by rw [← hs3, ← hs2]; rfl) (by rw [← hs3, ← hs2]; rfl) (by rw [← hs3, ← hs2]; rfl)
    exact ⟨s3, ws, a1.trans (.step hst1 (.one hst2)), hh3, hpre.next henv3 hpres3 hst3 (fun x hx => Free.mvcallC _ _ hx) (by omega) (by simp), hargs3, w2⟩
  have hcons : ∀ {us σ1 fs σ2}, Evs P ρ e σ us σ1 → Evs P ρ c σ1 fs σ2 → ∃ s4 ws, Steps host s s4 ∧ Here items tm s4.code s4.pc (.ins .setProc :: .ins .apply :: r) ∧
      s4.args = ws ∧ List.Forall₂ (VR e0) us ws ∧ ResRel e0 fs s4 ∧ SRel e0 σ2 s4 := by
    rintro us σ1 fs σ2 hu ⟨n, hf⟩
    obtain ⟨s3, ws, a1, a2, a3, a4, a5⟩ := hprod hu
    obtain ⟨s4, b1, b2⟩ := (sim e0 hP n).1 c sc false true n1 t1 ci n2 t2 loc ρ σ1 fs σ2 s3 items tm h2 hcl.2 hok.2 (by simp) hf a2.left hext a3
    have m4 := b2.mid rfl
    exact ⟨s4, ws, a1.trans b1, by rw [m4.code, m4.pc]; exact a2.right, by rw [(m4.busyF rfl).1, a4], a5, b2.res, b2.st⟩
  refine ⟨⟨s, .refl _, .e sc false false n0 tm0 ei n1 t1 loc items tm h1 hcl.1 hok.1 (by simp) hh.left hext1 hpre0⟩, ?_, ?_, ?_⟩
  · intro vs σ1 hv
    obtain ⟨s3, ws, a1, a2, a3, _, _⟩ := hprod hv
    exact ⟨s3, a1, .e sc false true n1 t1 ci n2 t2 loc items tm h2 hcl.2 hok.2 (by simp) a2.left hext a3⟩
  · intro as vs σ1 σ2 hv hw hl
    obtain ⟨s4, ws, a1, a2, _, _, a3, _⟩ := hcons hv hw
    refine ⟨s4, a1, ?_⟩
    have hst := a2.step host
    simpa only [mapI, St.exec, force_values a3 hl] using hst
  · intro v vs σ1 σ2 hv hw
    obtain ⟨s4, ws, a1, a2, a3, a4, a5, a6⟩ := hcons hv hw
    have hf := resRel_single a5 (v := v) rfl
    have hst4 := a2.step host
    simp only [mapI, St.exec, hf.force] at hst4
    have hh5 : Here items tm (St.adv { s4 with cp := s4.res }).code (St.adv { s4 with cp := s4.res }).pc (.ins .apply :: r) := a2.next
    have hst5 := hh5.step host
    simp only [mapI, St.exec] at hst5
    exact ⟨_, a1.trans (.one hst4), .p _ hst5 hf (by have : (St.adv { s4 with cp := s4.res }).args = ws := a3
                                                     rw [this]; exact a4) (a6.congr rfl rfl rfl)⟩

/-- The configuration of an application expression. -/
theorem At.app_cfg (hP : host.prim = P.f MC) {ρ : REnv} {f : E} {args : List E} {σ : RS} {s : St} (h : At host e0 (.e ρ (.app f args)) σ s) :
    ∃ s0, Steps host s s0 ∧ AppCfg host P e0 ρ f args σ s0 := by
  cases h with
  | e sc t busy nl tm0 is nl' tm1 loc items tm hc hcl hok htb hh hext hpre =>
  simp only [okE, Bool.and_eq_true] at hok
  simp only [hasClauses, Bool.and_eq_true] at hcl
  rw [compile] at hc
  obtain ⟨⟨fi, n1, t1⟩, h1, hc⟩ := Res.bind_eq_ok.1 hc
  obtain ⟨⟨ai, n2, t2⟩, h2, hc⟩ := Res.bind_eq_ok.1 hc
  simp only at hc h1 h2
  have hc' : is = (if t then (fi ++ .ins .setProc :: .ins (.checkStack args.length) :: (ai ++ [.ins .apply]))
      else .ins (.saveCC nl) :: ((fi ++ .ins .setProc :: .ins (.checkStack args.length) :: (ai ++ [.ins .apply])) ++ [.lab nl])) ∧ nl' = n2 ∧ tm1 = t2 := by
    cases t <;> simp only [if_true, Bool.false_eq_true, if_false, Res.ok.injEq, Prod.mk.injEq] at hc ⊢ <;> exact ⟨hc.1.symm, hc.2.1.symm, hc.2.2.symm⟩
  obtain ⟨rfl, rfl, rfl⟩ := hc'
  obtain ⟨s0, a1, a2, a3⟩ := call_enter (host := host) htb hpre hh
  simp only [List.append_assoc, List.cons_append, List.nil_append] at a2
  exact ⟨s0, a1, Minim.Jit.app_cfg hP h1 h2 hcl hok a2 hext a3⟩

theorem At.mv_cfg (hP : host.prim = P.f MC) {ρ : REnv} {e c : E} {σ : RS} {s : St} (h : At host e0 (.e ρ (.mvcall e c)) σ s) :
    ∃ s0, Steps host s s0 ∧ MvCfg host P e0 ρ e c σ s0 := by
  cases h with
  | e sc t busy nl tm0 is nl' tm1 loc items tm hc hcl hok htb hh hext hpre =>
  simp only [okE, Bool.and_eq_true] at hok
  simp only [hasClauses, Bool.and_eq_true] at hcl
  rw [compile] at hc
  obtain ⟨⟨ei, n1, t1⟩, h1, hc⟩ := Res.bind_eq_ok.1 hc
  obtain ⟨⟨ci, n2, t2⟩, h2, hc⟩ := Res.bind_eq_ok.1 hc
  simp only at hc h1 h2
  have hc' : is = (if t then (ei ++ .ins .clearFrame :: .ins .doWithValues :: (ci ++ [.ins .setProc, .ins .apply]))
      else .ins (.saveCC nl) :: ((ei ++ .ins .clearFrame :: .ins .doWithValues :: (ci ++ [.ins .setProc, .ins .apply])) ++ [.lab nl])) ∧ nl' = n2 ∧ tm1 = t2 := by
    cases t <;> simp only [if_true, Bool.false_eq_true, if_false, Res.ok.injEq, Prod.mk.injEq] at hc ⊢ <;> exact ⟨hc.1.symm, hc.2.1.symm, hc.2.2.symm⟩
  obtain ⟨rfl, rfl, rfl⟩ := hc'
  obtain ⟨s0, a1, a2, a3⟩ := call_enter (host := host) htb hpre hh
  simp only [List.append_assoc, List.cons_append, List.nil_append] at a2
  exact ⟨s0, a1, Minim.Jit.mv_cfg hP h1 h2 hcl hok a2 hext a3⟩

/-- The evaluation of a part: the machine gets to it. -/
theorem At.into (hP : host.prim = P.f MC) {t t' : Task} {σ σ' : RS} {s : St} (hat : At host e0 t σ s) (hin : Into P t σ t' σ') (hp : ∀ f vs, t ≠ .p f vs) :
    ∃ s', Steps host s s' ∧ At host e0 t' σ' s' := by
  cases hin with
  | define xs e =>
    cases hat with
    | e sc t busy nl tm0 is nl' tm1 loc items tm hc hcl hok htb hh hext hpre =>
    simp only [okE, Bool.and_eq_true] at hok
    simp only [hasClauses] at hcl
    rw [compile] at hc
    obtain ⟨⟨ei, n1, t1⟩, h1, hc⟩ := Res.bind_eq_ok.1 hc
    simp only [Res.ok.injEq, Prod.mk.injEq] at hc
    obtain ⟨rfl, rfl, rfl⟩ := hc
    have hb : (boundVars (.define xs e) []).1.length = xs.length + (boundVars e []).1.length := by simp only [boundVars, List.length_append]
    obtain ⟨L, hL⟩ := Option.isSome_iff_exists.1 hok.1
    exact ⟨s, .refl _, .e sc false busy nl tm0 ei n1 t1 loc items tm h1 hcl hok.2 (by simp) hh.left hext
      ⟨by have := hpre.scok; rw [hL] at this ⊢; exact this, by have := hpre.slots; omega, hpre.fr, hpre.st, hpre.clean⟩⟩
  | set x e =>
    cases hat with
    | e sc t busy nl tm0 is nl' tm1 loc items tm hc hcl hok htb hh hext hpre =>
    simp only [okE, Bool.and_eq_true] at hok
    simp only [hasClauses] at hcl
    rw [compile] at hc
    obtain ⟨⟨ei, n1, t1⟩, h1, hc⟩ := Res.bind_eq_ok.1 hc
    simp only [Res.ok.injEq, Prod.mk.injEq] at hc
    obtain ⟨rfl, rfl, rfl⟩ := hc
    exact ⟨s, .refl _, .e sc false busy nl tm0 ei n1 t1 loc items tm h1 hcl hok.2 (by simp) hh.left hext
      ⟨hpre.scok.mono (fun y hy => Free.setRhs _ _ hy), by have := hpre.slots; simpa [boundVars] using this, hpre.fr, hpre.st, hpre.clean⟩⟩
  | @iteC ρ _ c a b =>
    cases hat with
    | e sc t busy nl tm0 is nl' tm1 loc items tm hc hcl hok htb hh hext hpre =>
    simp only [okE, Bool.and_eq_true] at hok
    simp only [hasClauses, Bool.and_eq_true] at hcl
    rw [compile] at hc
    obtain ⟨⟨ci, n1, t1⟩, h1, hc⟩ := Res.bind_eq_ok.1 hc
    obtain ⟨⟨ai, n2, t2⟩, h2, hc⟩ := Res.bind_eq_ok.1 hc
    obtain ⟨⟨bi, n3, t3⟩, h3, hc⟩ := Res.bind_eq_ok.1 hc
    have hb : (boundVars (.ite c a b) []).1.length = (boundVars c []).1.length + (boundVars a []).1.length + (boundVars b []).1.length := by
      simp only [boundVars, List.length_append, boundVars_indep a (boundVars c []).2 [], boundVars_indep b (boundVars a (boundVars c []).2).2 []]
    have hslots := hpre.slots
    have hprec : Pre e0 loc sc ρ (fun x => Free x c) σ busy (boundVars c []).1.length s :=
      ⟨hpre.scok.mono (fun y hy => Free.iteC _ _ _ hy), by omega, hpre.fr, hpre.st, hpre.clean⟩
    have e3 := compile_ext h3 hcl.2
    have e2 := compile_ext h2 hcl.1.2
    simp only at hc
    cases t <;> simp only [if_true, Bool.false_eq_true, if_false, Res.ok.injEq, Prod.mk.injEq] at hc <;> obtain ⟨rfl, rfl, rfl⟩ := hc
    · exact ⟨s, .refl _, .e sc false busy nl tm0 ci n1 t1 loc items tm h1 hcl.1.1 hok.1.1 (by simp) hh.left (ext_trans (ext_trans e2 e3) hext) hprec⟩
    · exact ⟨s, .refl _, .e sc false busy nl tm0 ci n1 t1 loc items tm h1 hcl.1.1 hok.1.1 (by simp) hh.left (ext_trans (ext_trans e2 e3) hext) hprec⟩
  | @iteT ρ σ σ1 c a b v hv hf =>
    cases hat with
    | e sc t busy nl tm0 is nl' tm1 loc items tm hc hcl hok htb hh hext hpre =>
    simp only [okE, Bool.and_eq_true] at hok
    simp only [hasClauses, Bool.and_eq_true] at hcl
    rw [compile] at hc
    obtain ⟨⟨ci, n1, t1⟩, h1, hc⟩ := Res.bind_eq_ok.1 hc
    obtain ⟨⟨ai, n2, t2⟩, h2, hc⟩ := Res.bind_eq_ok.1 hc
    obtain ⟨⟨bi, n3, t3⟩, h3, hc⟩ := Res.bind_eq_ok.1 hc
    have hb : (boundVars (.ite c a b) []).1.length = (boundVars c []).1.length + (boundVars a []).1.length + (boundVars b []).1.length := by
      simp only [boundVars, List.length_append, boundVars_indep a (boundVars c []).2 [], boundVars_indep b (boundVars a (boundVars c []).2).2 []]
    have hslots := hpre.slots
    have hprec : Pre e0 loc sc ρ (fun x => Free x c) σ busy (boundVars c []).1.length s :=
      ⟨hpre.scok.mono (fun y hy => Free.iteC _ _ _ hy), by omega, hpre.fr, hpre.st, hpre.clean⟩
    have e3 := compile_ext h3 hcl.2
    have e2 := compile_ext h2 hcl.1.2
    simp only at hc
    obtain ⟨n, hv⟩ := hv
    have hc' : ∃ r, is = ci ++ .ins (.branchf n3) :: (ai ++ r) ∧ tm1 = t3 := by
      cases t <;> simp only [if_true, Bool.false_eq_true, if_false, Res.ok.injEq, Prod.mk.injEq] at hc <;> exact ⟨_, hc.1.symm, hc.2.2.symm⟩
    obtain ⟨r, rfl, rfl⟩ := hc'
    obtain ⟨s1, a1, a2⟩ := (sim e0 hP n).1 c sc false busy nl tm0 ci n1 t1 loc ρ σ _ σ' s items tm h1 hcl.1.1 hok.1.1 (by simp) hv hh.left
      (ext_trans (ext_trans e2 e3) hext) hprec
    have m1 := a2.mid rfl
    have hw := resRel_single a2.res (v := v) rfl
    have hh1 : Here items tm s1.code s1.pc (.ins (.branchf n3) :: (ai ++ r)) := by rw [m1.code, m1.pc]; exact hh.right
    have hst := hh1.step host
    simp only [mapI, St.exec, hw.isFalse, hf, Bool.false_eq_true, if_false] at hst
    have m2 : Mid busy sc.length s ((instrs ci).length + 1) s1.adv := m1.adv rfl (by simp only [St.adv, m1.pc]; omega) rfl rfl rfl rfl (Pres.of_eq rfl)
    exact ⟨s1.adv, a1.trans (.one hst), .e sc t busy n1 t1 ai n2 t2 loc items tm h2 hcl.1.2 hok.1.2 htb hh1.next.left (ext_trans e3 hext)
      (hpre.next m2.env m2.pres (a2.st.congr rfl rfl rfl) (fun y hy => Free.iteT _ _ _ hy) (by omega) m2.clean)⟩
  | @iteE ρ σ σ1 c a b v hv hf =>
    cases hat with
    | e sc t busy nl tm0 is nl' tm1 loc items tm hc hcl hok htb hh hext hpre =>
    simp only [okE, Bool.and_eq_true] at hok
    simp only [hasClauses, Bool.and_eq_true] at hcl
    rw [compile] at hc
    obtain ⟨⟨ci, n1, t1⟩, h1, hc⟩ := Res.bind_eq_ok.1 hc
    obtain ⟨⟨ai, n2, t2⟩, h2, hc⟩ := Res.bind_eq_ok.1 hc
    obtain ⟨⟨bi, n3, t3⟩, h3, hc⟩ := Res.bind_eq_ok.1 hc
    have hb : (boundVars (.ite c a b) []).1.length = (boundVars c []).1.length + (boundVars a []).1.length + (boundVars b []).1.length := by
      simp only [boundVars, List.length_append, boundVars_indep a (boundVars c []).2 [], boundVars_indep b (boundVars a (boundVars c []).2).2 []]
    have hslots := hpre.slots
    have hprec : Pre e0 loc sc ρ (fun x => Free x c) σ busy (boundVars c []).1.length s :=
      ⟨hpre.scok.mono (fun y hy => Free.iteC _ _ _ hy), by omega, hpre.fr, hpre.st, hpre.clean⟩
    have e3 := compile_ext h3 hcl.2
    have e2 := compile_ext h2 hcl.1.2
    simp only at hc
    obtain ⟨n, hv⟩ := hv
    have hc' : ∃ q r, is = ci ++ .ins (.branchf n3) :: ((ai ++ q) ++ .lab n3 :: (bi ++ r)) ∧ tm1 = t3 := by
      cases t <;> simp only [if_true, Bool.false_eq_true, if_false, Res.ok.injEq, Prod.mk.injEq] at hc
      · exact ⟨[.ins (.brancha (n3 + 1))], [.lab (n3 + 1)], by rw [← hc.1]; simp, hc.2.2.symm⟩
      · exact ⟨[], [], by rw [← hc.1]; simp, hc.2.2.symm⟩
    obtain ⟨q, r, rfl, rfl⟩ := hc'
    obtain ⟨s1, a1, a2⟩ := (sim e0 hP n).1 c sc false busy nl tm0 ci n1 t1 loc ρ σ _ σ' s items tm h1 hcl.1.1 hok.1.1 (by simp) hv hh.left
      (ext_trans (ext_trans e2 e3) hext) hprec
    have m1 := a2.mid rfl
    have hw := resRel_single a2.res (v := v) rfl
    have hh1 : Here items tm s1.code s1.pc (.ins (.branchf n3) :: ((ai ++ q) ++ .lab n3 :: (bi ++ r))) := by rw [m1.code, m1.pc]; exact hh.right
    have hst := hh1.step host
    simp only [mapI, St.exec, hw.isFalse, hf, if_true] at hst
    have hl := hh1.next.right.lab
    rw [hl] at hst
    have m2 : Mid busy sc.length s ((instrs ci).length + 1 + (instrs (ai ++ q)).length) { s1 with pc := s1.pc + 1 + (instrs (ai ++ q)).length } :=
      m1.adv rfl (by simp only [m1.pc]; omega) rfl rfl rfl rfl (Pres.of_eq rfl)
    exact ⟨_, a1.trans (.one hst), .e sc t busy n2 t2 bi n3 _ loc items tm h3 hcl.2 hok.2 htb hh1.next.right.skip.left hext
      (hpre.next m2.env m2.pres (a2.st.congr rfl rfl rfl) (fun y hy => Free.iteE _ _ _ hy) (by omega) m2.clean)⟩
  | letvB bs body =>
    cases hat with
    | e sc t busy nl tm0 is nl' tm1 loc items tm hc hcl hok htb hh hext hpre => simp [okE] at hok
  | letv =>
    cases hat with
    | e sc t busy nl tm0 is nl' tm1 loc items tm hc hcl hok htb hh hext hpre => simp [okE] at hok
  | letrecvB bs body =>
    cases hat with
    | e sc t busy nl tm0 is nl' tm1 loc items tm hc hcl hok htb hh hext hpre => simp [okE] at hok
  | letrecv =>
    cases hat with
    | e sc t busy nl tm0 is nl' tm1 loc items tm hc hcl hok htb hh hext hpre => simp [okE] at hok
  | begin es =>
    cases hat with
    | e sc t busy nl tm0 is nl' tm1 loc items tm hc hcl hok htb hh hext hpre =>
    simp only [okE] at hok
    simp only [hasClauses] at hcl
    simp only [compile] at hc
    exact ⟨s, .refl _, .b sc t busy nl tm0 is nl' tm1 loc items tm hc hcl hok htb hh hext
      ⟨hpre.scok.mono (fun y ⟨e1, h, h'⟩ => Free.begin _ e1 h h'), by have := hpre.slots; simpa only [boundVars] using this, hpre.fr, hpre.st, hpre.clean⟩⟩
  | appF f args =>
    obtain ⟨s0, h1, h2⟩ := hat.app_cfg hP
    obtain ⟨s1, h3, h4⟩ := h2.op
    exact ⟨s1, h1.trans h3, h4⟩
  | appA hf =>
    obtain ⟨s0, h1, h2⟩ := hat.app_cfg hP
    obtain ⟨s1, h3, h4⟩ := h2.opnds _ _ hf
    exact ⟨s1, h1.trans h3, h4⟩
  | app hf ha =>
    obtain ⟨s0, h1, h2⟩ := hat.app_cfg hP
    obtain ⟨s1, h3, h4⟩ := h2.call _ _ _ _ hf ha
    exact ⟨s1, h1.trans h3, h4⟩
  | mvcallP e c =>
    obtain ⟨s0, h1, h2⟩ := hat.mv_cfg hP
    obtain ⟨s1, h3, h4⟩ := h2.prod
    exact ⟨s1, h1.trans h3, h4⟩
  | mvcallC he =>
    obtain ⟨s0, h1, h2⟩ := hat.mv_cfg hP
    obtain ⟨s1, h3, h4⟩ := h2.cons _ _ he
    exact ⟨s1, h1.trans h3, h4⟩
  | mvcall he hc =>
    obtain ⟨s0, h1, h2⟩ := hat.mv_cfg hP
    obtain ⟨s1, h3, h4⟩ := h2.call _ _ _ _ he hc
    exact ⟨s1, h1.trans h3, h4⟩
  | mvletP e xs body =>
    cases hat with
    | e sc t busy nl tm0 is nl' tm1 loc items tm hc hcl hok htb hh hext hpre =>
    simp only [okE, Bool.and_eq_true] at hok
    simp only [hasClauses, Bool.and_eq_true] at hcl
    rw [compile] at hc
    obtain ⟨⟨ei, n1, t1⟩, h1, hc⟩ := Res.bind_eq_ok.1 hc
    obtain ⟨⟨bi, n2, t2⟩, h2, hc⟩ := Res.bind_eq_ok.1 hc
    simp only [Res.ok.injEq, Prod.mk.injEq] at hc
    obtain ⟨rfl, rfl, rfl⟩ := hc
    have hb : (boundVars (.mvlet e xs body) []).1.length = (boundVars e []).1.length + (xs.length + (boundVars body []).1.length) := by
      simp only [boundVars, List.length_append, boundVars_indep body (boundVars e []).2 []]
    have hslots := hpre.slots
    exact ⟨s, .refl _, .e sc false busy nl tm0 ei n1 t1 loc items tm h1 hcl.1 hok.1 (by simp) hh.left (ext_trans (compile_ext h2 hcl.2) hext)
      ⟨hpre.scok.mono (fun y hy => Free.mvletP _ _ _ hy), by omega, hpre.fr, hpre.st, hpre.clean⟩⟩
  | @mvlet ρ σ σ1 e xs body us hv hlen =>
    cases hat with
    | e sc t busy nl tm0 is nl' tm1 loc items tm hc hcl hok htb hh hext hpre =>
    simp only [okE, Bool.and_eq_true] at hok
    simp only [hasClauses, Bool.and_eq_true] at hcl
    rw [compile] at hc
    obtain ⟨⟨ei, n1, t1⟩, h1, hc⟩ := Res.bind_eq_ok.1 hc
    obtain ⟨⟨bi, n2, t2⟩, h2, hc⟩ := Res.bind_eq_ok.1 hc
    simp only [Res.ok.injEq, Prod.mk.injEq] at hc
    obtain ⟨rfl, rfl, rfl⟩ := hc
    have hb : (boundVars (.mvlet e xs body) []).1.length = (boundVars e []).1.length + (xs.length + (boundVars body []).1.length) := by
      simp only [boundVars, List.length_append, boundVars_indep body (boundVars e []).2 []]
    have hslots := hpre.slots
    obtain ⟨n, v1⟩ := hv
    obtain ⟨s1, a1, a2⟩ := (sim e0 hP n).1 e sc false busy nl tm0 ei n1 t1 loc ρ σ us σ1 s items tm h1 hcl.1 hok.1 (by simp) v1 hh.left
      (ext_trans (compile_ext h2 hcl.2) hext)
      ⟨hpre.scok.mono (fun y hy => Free.mvletP _ _ _ hy), by omega, hpre.fr, hpre.st, hpre.clean⟩
    have m1 := a2.mid rfl
    have hh1 : Here items tm s1.code s1.pc (.ins (.bindValues sc.length xs.length xs) :: bi) := by rw [m1.code, m1.pc]; exact hh.right
    have hst := hh1.step host
    have hsl1 := m1.pres.slots m1.env
    have hx : ∃ ws, s1.exec host (.bindValues sc.length xs.length xs) = .next { s1.bindAll sc.length ws with res := .void }.adv ∧
        List.Forall₂ (VR e0) us ws := by
      rcases a2.res with ⟨v, rfl, hv⟩ | ⟨q1, q2, q3⟩
      · match xs, hlen with
        | [x], _ =>
          refine ⟨[s1.res], ?_, .cons hv .nil⟩
          simp only [List.length_cons, List.length_nil] at hb
          exact exec_bindValues_one hv.ne_values (by omega)
      · refine ⟨s1.vals, exec_bindValues_many q2 (by rw [← List.Forall₂.length_eq q3]; exact hlen) (Nat.le_refl _) (by omega), q3⟩
    obtain ⟨ws, w1, w2⟩ := hx
    obtain ⟨E, b1, b2, b3, b4, b5⟩ := bindAll_sim xs (hpre.fr.pres m1.pres m1.env) a2.st (by omega) w2 hlen
    rw [b1] at w1 b2 b3 b4 b5
    simp only [mapI, w1] at hst
    have m2 : Mid busy sc.length s ((instrs ei).length + 1) (St.adv { s1 with envs := E, cells := s1.cells ++ ws, res := .void }) :=
      m1.adv rfl (by simp only [St.adv, m1.pc]; omega) rfl rfl rfl rfl (b4.congr rfl rfl rfl)
    have hsc' : ScOK (loc.map (scopeBind · xs)) (scopeBind sc xs) (bindVals ρ σ1 xs us).1 (fun x => Free x body) := by
      have hsc := hpre.scok
      cases loc with
      | none =>
        intro x hx
        rw [scopeBind_eq]
        by_cases h : x ∈ xs
        · simp [h]
        · have := hsc x (.mvletB _ _ _ h hx)
          simp [this]
      | some L =>
        refine ⟨by rw [hsc.1], fun x hx => ?_⟩
        rw [scopeBind_eq] at hx
        simp only [List.mem_append, List.mem_reverse, not_or] at hx
        rw [bindVals_none hx.1]
        exact hsc.2 x hx.2
    have hslots2 : (St.adv { s1 with envs := E, cells := s1.cells ++ ws, res := .void }).slots = s1.slots := b5
    exact ⟨_, a1.trans (.one hst), .e (scopeBind sc xs) t busy n1 t1 bi n2 t2 (loc.map (scopeBind · xs)) items tm h2 hcl.2 hok.2 htb hh1.next hext
      ⟨hsc', by rw [hslots2, scopeBind_length]; omega, b2.congr rfl rfl, b3.congr rfl rfl rfl, m2.clean⟩⟩
  | mvvals es =>
    cases hat with
    | e sc t busy nl tm0 is nl' tm1 loc items tm hc hcl hok htb hh hext hpre =>
    simp only [okE, Bool.and_eq_true, Bool.not_eq_true'] at hok
    simp only [hasClauses] at hcl
    obtain ⟨hb, hok⟩ := hok
    subst hb
    exact ⟨s, .refl _, .v sc t nl tm0 is nl' tm1 loc items tm hc hcl hok hh hext
      ⟨hpre.scok.mono (fun y ⟨e1, h, h'⟩ => Free.mvvals _ e1 h h'), by have := hpre.slots; simpa only [boundVars] using this, hpre.fr, hpre.st, hpre.clean⟩⟩
  | last e =>
    cases hat with
    | b sc t busy nl tm0 is nl' tm1 loc items tm hc hcl hok htb hh hext hpre =>
    simp only [hasClausesL, Bool.and_eq_true] at hcl
    simp only [okL, Bool.and_eq_true] at hok
    simp only [compileBody] at hc
    have hb := boundSeq_cons e []
    exact ⟨s, .refl _, .e sc t busy nl tm0 is nl' tm1 loc items tm hc hcl.1 hok.1 htb hh hext
      ⟨hpre.scok.mono (fun x hx => ⟨e, by simp, hx⟩), by have := hpre.slots; omega, hpre.fr, hpre.st, hpre.clean⟩⟩
  | first e e' es =>
    cases hat with
    | b sc t busy nl tm0 is nl' tm1 loc items tm hc hcl hok htb hh hext hpre =>
    simp only [hasClausesL, Bool.and_eq_true] at hcl
    simp only [okL, Bool.and_eq_true] at hok
    have hcl2 : hasClausesL (e' :: es) = true := by simp only [hasClausesL, Bool.and_eq_true]; exact hcl.2
    rw [compileBody] at hc
    obtain ⟨⟨ei, n1, t1⟩, h1, hc⟩ := Res.bind_eq_ok.1 hc
    obtain ⟨⟨ri, n2, t2⟩, h2, hc⟩ := Res.bind_eq_ok.1 hc
    simp only [Res.ok.injEq, Prod.mk.injEq] at hc
    obtain ⟨rfl, rfl, rfl⟩ := hc
    have hb := boundSeq_cons e (e' :: es)
    exact ⟨s, .refl _, .e sc false busy nl tm0 ei n1 t1 loc items tm h1 hcl.1 hok.1 (by simp) hh.left (ext_trans (compileBody_ext h2 hcl2) hext)
      ⟨hpre.scok.mono (fun x hx => ⟨e, by simp, hx⟩), by have := hpre.slots; omega, hpre.fr, hpre.st, hpre.clean⟩⟩
  | @rest ρ σ σ1 e e' es us hv =>
    cases hat with
    | b sc t busy nl tm0 is nl' tm1 loc items tm hc hcl hok htb hh hext hpre =>
    simp only [hasClausesL, Bool.and_eq_true] at hcl
    simp only [okL, Bool.and_eq_true] at hok
    have hcl2 : hasClausesL (e' :: es) = true := by simp only [hasClausesL, Bool.and_eq_true]; exact hcl.2
    have hok2 : okL busy loc (e' :: es) = true := by simp only [okL, Bool.and_eq_true]; exact hok.2
    rw [compileBody] at hc
    obtain ⟨⟨ei, n1, t1⟩, h1, hc⟩ := Res.bind_eq_ok.1 hc
    obtain ⟨⟨ri, n2, t2⟩, h2, hc⟩ := Res.bind_eq_ok.1 hc
    simp only [Res.ok.injEq, Prod.mk.injEq] at hc
    obtain ⟨rfl, rfl, rfl⟩ := hc
    have hb := boundSeq_cons e (e' :: es)
    obtain ⟨n, v1⟩ := hv
    obtain ⟨s1, a1, a2⟩ := (sim e0 hP n).1 e sc false busy nl tm0 ei n1 t1 loc ρ σ us σ' s items tm h1 hcl.1 hok.1 (by simp) v1 hh.left
      (ext_trans (compileBody_ext h2 hcl2) hext)
      ⟨hpre.scok.mono (fun x hx => ⟨e, by simp, hx⟩), by have := hpre.slots; omega, hpre.fr, hpre.st, hpre.clean⟩
    have m1 := a2.mid rfl
    exact ⟨s1, a1, .b sc t busy n1 t1 ri n2 t2 loc items tm h2 hcl2 hok2 htb (by rw [m1.code, m1.pc]; exact hh.right) hext
      (hpre.next m1.env m1.pres a2.st (fun x ⟨e1, h, h'⟩ => ⟨e1, List.mem_cons_of_mem _ h, h'⟩) (by omega) m1.clean)⟩
  | arg e es =>
    cases hat with
    | a sc nl tm0 is nl' tm1 loc items tm hc hcl hok hh hext hpre =>
      simp only [hasClausesL, Bool.and_eq_true] at hcl
      simp only [okL, Bool.and_eq_true] at hok
      rw [compileArgs] at hc
      obtain ⟨⟨ei, n1, t1⟩, h1, hc⟩ := Res.bind_eq_ok.1 hc
      obtain ⟨⟨ri, n2, t2⟩, h2, hc⟩ := Res.bind_eq_ok.1 hc
      simp only [Res.ok.injEq, Prod.mk.injEq] at hc
      obtain ⟨rfl, rfl, rfl⟩ := hc
      have hb := boundSeq_cons e es
      exact ⟨s, .refl _, .e sc false true nl tm0 ei n1 t1 loc items tm h1 hcl.1 hok.1 (by simp) hh.left (ext_trans (compileArgs_ext h2 hcl.2) hext)
        ⟨hpre.scok.mono (fun x hx => ⟨e, by simp, hx⟩), by have := hpre.slots; omega, hpre.fr, hpre.st, by simp⟩⟩
    | v sc t nl tm0 is nl' tm1 loc items tm hc hcl hok hh hext hpre =>
      simp only [hasClausesL, Bool.and_eq_true] at hcl
      simp only [okV, Bool.and_eq_true] at hok
      simp only [compile] at hc
      obtain ⟨⟨ei, n1, t1⟩, h1, hc⟩ := Res.bind_eq_ok.1 hc
      obtain ⟨⟨ri, n2, t2⟩, h2, hc⟩ := Res.bind_eq_ok.1 hc
      simp only [Res.ok.injEq, Prod.mk.injEq] at hc
      obtain ⟨rfl, rfl, rfl⟩ := hc
      have hb := boundSeq_cons e es
      have hst0 := hh.step host
      simp only [mapI, St.exec] at hst0
      have m0 : Mid false sc.length s 1 s.adv := (Mid.refl hpre.clean).adv rfl rfl rfl rfl rfl rfl (Pres.of_eq rfl)
      have hh0 : Here items tm s.adv.code s.adv.pc (ei ++ .ins .push :: (ri ++ .ins .doValues :: .ins .clearFrame :: tailRet t)) := hh.next
      exact ⟨s.adv, .one hst0, .e sc false false nl tm0 ei n1 t1 loc items tm h1 hcl.1 hok.1 (by simp) hh0.left (ext_trans (compileArgs_ext h2 hcl.2) hext)
        (hpre.next m0.env m0.pres (hpre.st.congr rfl rfl rfl) (fun x hx => ⟨e, by simp, hx⟩) (by omega) hpre.clean)⟩
  | @args ρ σ σ1 e es v hv =>
    obtain ⟨n, v1⟩ := hv
    cases hat with
    | a sc nl tm0 is nl' tm1 loc items tm hc hcl hok hh hext hpre =>
      simp only [hasClausesL, Bool.and_eq_true] at hcl
      simp only [okL, Bool.and_eq_true] at hok
      rw [compileArgs] at hc
      obtain ⟨⟨ei, n1, t1⟩, h1, hc⟩ := Res.bind_eq_ok.1 hc
      obtain ⟨⟨ri, n2, t2⟩, h2, hc⟩ := Res.bind_eq_ok.1 hc
      simp only [Res.ok.injEq, Prod.mk.injEq] at hc
      obtain ⟨rfl, rfl, rfl⟩ := hc
      have hb := boundSeq_cons e es
      obtain ⟨s1, a1, a2⟩ := (sim e0 hP n).1 e sc false true nl tm0 ei n1 t1 loc ρ σ _ σ' s items tm h1 hcl.1 hok.1 (by simp) v1 hh.left
        (ext_trans (compileArgs_ext h2 hcl.2) hext)
        ⟨hpre.scok.mono (fun x hx => ⟨e, by simp, hx⟩), by have := hpre.slots; omega, hpre.fr, hpre.st, by simp⟩
      have m1 := a2.mid rfl
      have hw := resRel_single a2.res (v := v) rfl
      have hh1 : Here items tm s1.code s1.pc (.ins .push :: ri) := by rw [m1.code, m1.pc]; exact hh.right
      have hst := hh1.step host
      simp only [mapI, St.exec, hw.force] at hst
      exact ⟨_, a1.trans (.one hst), .a sc n1 t1 ri n2 t2 loc items tm h2 hcl.2 hok.2 hh1.next hext
        (hpre.next m1.env (m1.pres.congr rfl rfl rfl) (a2.st.congr rfl rfl rfl) (fun x ⟨e', h, h'⟩ => ⟨e', List.mem_cons_of_mem _ h, h'⟩) (by omega) (by simp))⟩
    | v sc t nl tm0 is nl' tm1 loc items tm hc hcl hok hh hext hpre =>
      simp only [hasClausesL, Bool.and_eq_true] at hcl
      simp only [okV, Bool.and_eq_true] at hok
      simp only [compile] at hc
      obtain ⟨⟨ei, n1, t1⟩, h1, hc⟩ := Res.bind_eq_ok.1 hc
      obtain ⟨⟨ri, n2, t2⟩, h2, hc⟩ := Res.bind_eq_ok.1 hc
      simp only [Res.ok.injEq, Prod.mk.injEq] at hc
      obtain ⟨rfl, rfl, rfl⟩ := hc
      have hb := boundSeq_cons e es
      have hst0 := hh.step host
      simp only [mapI, St.exec] at hst0
      have m0 : Mid false sc.length s 1 s.adv := (Mid.refl hpre.clean).adv rfl rfl rfl rfl rfl rfl (Pres.of_eq rfl)
      have hh0 : Here items tm s.adv.code s.adv.pc (ei ++ .ins .push :: (ri ++ .ins .doValues :: .ins .clearFrame :: tailRet t)) := hh.next
      obtain ⟨s1, a1, a2⟩ := (sim e0 hP n).1 e sc false false nl tm0 ei n1 t1 loc ρ σ _ σ' s.adv items tm h1 hcl.1 hok.1 (by simp) v1 hh0.left
        (ext_trans (compileArgs_ext h2 hcl.2) hext)
        (hpre.next m0.env m0.pres (hpre.st.congr rfl rfl rfl) (fun x hx => ⟨e, by simp, hx⟩) (by omega) hpre.clean)
      have m1 := m0.trans (a2.mid rfl)
      have hw := resRel_single a2.res (v := v) rfl
      have hh1 : Here items tm s1.code s1.pc (.ins .push :: (ri ++ .ins .doValues :: .ins .clearFrame :: tailRet t)) := by
        rw [(a2.mid rfl).code, (a2.mid rfl).pc]; exact hh0.right
      have hst1 := hh1.step host
      simp only [mapI, St.exec, hw.force] at hst1
      exact ⟨_, .step hst0 (a1.trans (.one hst1)), .a sc n1 t1 ri n2 t2 loc items tm h2 hcl.2 hok.2 hh1.next.left hext
        (hpre.next m1.env (m1.pres.congr rfl rfl rfl) (a2.st.congr rfl rfl rfl) (fun x ⟨e', h, h'⟩ => ⟨e', List.mem_cons_of_mem _ h, h'⟩) (by omega) (by simp))⟩
  | bd => nomatch hat
  | bds => nomatch hat
  | rd => nomatch hat
  | rds => nomatch hat
  | clo => exact absurd rfl (hp _ _)
  | apply => exact absurd rfl (hp _ _)
  | cwvP => exact absurd rfl (hp _ _)
  | cwv => exact absurd rfl (hp _ _)

theorem app_clo {s : St} {c : MC} (h : s.cp = .clo c) : s.app = .next { s with code := c.code.ins, pc := 0, env := c.env } := by rw [St.app, h]

/-- What is no procedure of the reference semantics is none of the machine. -/
theorem app_err {s : St} {f : RV} (h : VR e0 f s.cp) (hf : ∀ c, f ≠ .clo c) : s.app = .err := by
  rw [St.app]
  generalize s.cp = w at h
  cases h <;> first | rfl | exact absurd rfl (hf _)

/-- Calling a closure: the body of the clause is entered, or there is an error. -/
theorem clo_cfg {ρ : REnv} {cs : List Cl} {vs : List RV} {σ : RS} {s : St} {c : MC} (hc : s.cp = .clo c) (hrel : CloRel e0 (.clo ρ cs) c)
    (hargs : List.Forall₂ (VR e0) vs s.args) (hs : SRel e0 σ s) :
    (∀ f body, select cs vs.length = some (f, body) → ∃ s', Steps host { s with code := c.code.ins, pc := 0, env := c.env } s' ∧
      At host e0 (.b (bindVals ρ σ f.ids (params f vs)).1 body) (bindVals ρ σ f.ids (params f vs)).2 s') ∧
    (select cs vs.length = none → Fails host { s with code := c.code.ins, pc := 0, env := c.env }) := by
  have hlen := List.Forall₂.length_eq hargs
  cases hrel with
  | clo fvs bounds is l m tm tm' ar comp asm hcl ok fv fit cells =>
  have hne : cs ≠ [] := by rintro rfl; simp [compileClauses] at comp
  obtain ⟨o, ho, hok⟩ := compileClauses_ok cs fvs bounds none 0 tm hcl (by simp)
  rw [comp] at ho
  simp only [Res.ok.injEq] at ho
  subst ho
  have hwf := clauses_wf hne hok
  rw [assemble_ok tm' ar hwf] at asm
  simp only [Res.ok.injEq] at asm
  have hcode : c.code.ins = (instrs (is ++ [.lab l, .ins .doArityError])).map (mapI (labPos (is ++ [.lab l, .ins .doArityError])) (tref tm')) := by
    rw [← asm]; rfl
  have hh : Here (is ++ [.lab l, .ins .doArityError]) tm' c.code.ins 0 (is ++ [.lab l, .ins .doArityError]) :=
    ⟨hcode, hwf.nodup, [], [], by simp, rfl⟩
  have hcl' : c.cells.length = fvs.length := by rw [cells]; simp
  obtain ⟨hx, hy⟩ := clauses_exec (host := host) hcl' cs bounds none 0 tm is l m tm' { s with code := c.code.ins, pc := 0, env := c.env } comp hcl (by simp) hh
    (by simp) hc fit
  simp only at hx hy
  rw [← hlen] at hx hy
  refine ⟨fun f body hsel => ?_, hy⟩
  obtain ⟨v, nb, p, n', bi, m', ta, tb, j1, j2, j3, j4, j5, j6⟩ := hx f body hsel
  have hacc := select_accepts hsel
  have hs1 : SRel e0 σ { s with code := c.code.ins, pc := 0, env := c.env } := hs.congr rfl rfl rfl
  obtain ⟨k1, k2⟩ := entered_sim (p := p) (v := v) (nb := nb) (f := f) hs1 hargs hacc cells
  have hpre : Pre e0 none (clauseScope fvs f) (bindVals ρ σ f.ids (params f vs)).1 (fun x => ∃ e ∈ body, Free x e) (bindVals ρ σ f.ids (params f vs)).2
      false (boundVarsSeq body []).1.length (St.entered { s with code := c.code.ins, pc := 0, env := c.env } p v
        (c.cells ++ newCells s.cells.length f.ids.length ++ List.replicate nb none) (params f s.args)) := by
    refine ⟨?_, ?_, k1, k2, fun _ => rfl⟩
    · rintro x ⟨e, he, hfr⟩
      rw [clauseScope, scopeBind_eq, scopeBind_eq]
      rcases fv f body e x j3 he hfr with h | h <;> simp [h]
    · rw [clauseScope_length]
      simp [St.slots, St.entered, newCells, hcl']
      omega
  exact ⟨_, j5, .b (clauseScope fvs f) true false n' ta bi m' tb none _ tm' j1 (hasClausesC_mem hcl j3) (okC_mem ok j3) (fun _ => rfl) j6 j2 hpre⟩

/-- The steps of `apply` before the arguments are spread. -/
theorem apply_steps {s : St} {c : MC} (code : c.code = applyCode) (h2 : 2 ≤ s.args.length) :
    Steps host { s with code := c.code.ins, pc := 0, env := c.env } { s with code := c.code.ins, pc := 2, env := c.env, res := .num s.args.length } := by
  have hi : c.code.ins = [.mov .res .ac, .branchlt 2 4, .doApply, .ret, .doArityError] := by rw [code]; rfl
  rw [hi]
  refine .step (s' := { s with code := [.mov .res .ac, .branchlt 2 4, .doApply, .ret, .doArityError], pc := 1, env := c.env, res := .num s.args.length }) rfl ?_
  refine .one ?_
  simp only [step, List.getElem?_cons_succ, List.getElem?_cons_zero, St.exec]
  rw [if_neg (by omega)]; rfl

theorem spread_none {C C' : Type} {R : C → C' → Prop} : ∀ {vs : List (V C)} {ws : List (V C')}, List.Forall₂ (VRel R) vs ws → spread vs = none → spread ws = none
  | _, _, .nil, _ => rfl
  | _, _, .cons (l₁ := []) h1 .nil, h => by
    rw [spread] at h ⊢
    exact unlist_none h1 h
  | _, _, .cons (l₁ := v :: vs) h1 (.cons h2 h3), h => by
    rw [spread, Option.map_eq_none_iff] at h
    rw [spread, spread_none (.cons h2 h3) h]
    rfl
where
  unlist_none {C C' : Type} {R : C → C' → Prop} {v : V C} {w : V C'} (h : VRel R v w) : unlist v = none → unlist w = none := by
    induction h with
    | cons _ _ _ ih =>
      intro hv
      simp only [Minim.Jit.unlist, Option.map_eq_none_iff] at hv ⊢
      exact ih hv
    | null => intro h; simp [Minim.Jit.unlist] at h
    | _ => intro _; simp [Minim.Jit.unlist]

/-- The next part of an application: the machine gets to it in at least one step. -/
theorem At.into_p {f : RV} {vs : List RV} {t' : Task} {σ σ' : RS} {s : St} (hat : At host e0 (.p f vs) σ s) (hin : Into P (.p f vs) σ t' σ') :
    ∃ s1 s', step host s = .next s1 ∧ Steps host s1 s' ∧ At host e0 t' σ' s' := by
  cases hat with
  | p u hst hf hargs hs =>
  cases hin with
  | clo hsel =>
    obtain ⟨c, hc, hrel⟩ := hf.clo_inv
    obtain ⟨s', h1, h2⟩ := (clo_cfg (host := host) hc hrel hargs hs).1 _ _ hsel
    exact ⟨_, s', hst.trans (app_clo hc), h1, h2⟩
  | @apply _ g v ws as hsp =>
    obtain ⟨c, hc, hrel⟩ := hf.clo_inv
    cases hrel with
    | apply code =>
    cases hargs' : u.args with
    | nil => rw [hargs'] at hargs; cases hargs
    | cons g' r =>
      cases r with
      | nil => rw [hargs'] at hargs; cases hargs with | cons _ h => cases h
      | cons v' ws' =>
        have hi : c.code.ins = [.mov .res .ac, .branchlt 2 4, .doApply, .ret, .doArityError] := by rw [code]; rfl
        have hsteps := apply_steps (host := host) (s := u) code (by rw [hargs']; simp)
        rw [hargs'] at hargs
        cases hargs with
        | cons hg hr =>
          obtain ⟨bs, hbs, hrel⟩ := spread_rel hr hsp
          rw [spread_eq, Option.map_eq_some_iff] at hbs
          obtain ⟨us, hus, rfl⟩ := hbs
          refine ⟨_, _, hst.trans (app_clo hc), hsteps, .p
            { u with code := c.code.ins, pc := 2, env := c.env, res := .num u.args.length, cp := g', args := (v' :: ws').dropLast ++ us } ?_ hg hrel (hs.congr rfl rfl rfl)⟩
          by_cases hgc : ∃ gc, g = .clo gc
          · obtain ⟨gc, rfl⟩ := hgc
            obtain ⟨gm, rfl, hgrel⟩ := hg.clo_inv
            simp only [step, hi, List.getElem?_cons_succ, List.getElem?_cons_zero, St.exec, hargs', hus]
          · rw [app_err (s := { u with code := c.code.ins, pc := 2, env := c.env, res := .num u.args.length, cp := g', args := (v' :: ws').dropLast ++ us }) hg
              (fun c h => hgc ⟨c, h⟩)]
            simp only [step, hi, List.getElem?_cons_succ, List.getElem?_cons_zero, St.exec, hargs']
            cases hg <;> first | rfl | exact absurd ⟨_, rfl⟩ hgc
  | cwvP => obtain ⟨c, _, hrel⟩ := hf.clo_inv; nomatch hrel
  | cwv => obtain ⟨c, _, hrel⟩ := hf.clo_inv; nomatch hrel

/-- Any number of parts. -/
theorem At.intos (hP : host.prim = P.f MC) {t t' : Task} {σ σ' : RS} (hin : Intos P t σ t' σ') : ∀ {s : St}, At host e0 t σ s → ∃ s', Steps host s s' ∧ At host e0 t' σ' s' := by
  induction hin with
  | refl => intro s h; exact ⟨s, .refl _, h⟩
  | @step t t1 t2 σ σ1 σ2 h1 _ ih =>
    intro s h
    have : ∃ s', Steps host s s' ∧ At host e0 t1 σ1 s' := by
      by_cases hp : ∃ f vs, t = .p f vs
      · obtain ⟨f, vs, rfl⟩ := hp
        obtain ⟨u, s', a1, a2, a3⟩ := h.into_p h1
        exact ⟨s', .step a1 a2, a3⟩
      · exact h.into hP h1 (fun f vs hh => hp ⟨f, vs, hh⟩)
    obtain ⟨s1, a1, a2⟩ := this
    obtain ⟨s2, b1, b2⟩ := ih a2
    exact ⟨s2, a1.trans b1, b2⟩

/-- The read of a variable without value. -/
theorem read_unset {ρ : REnv} {σ : RS} {s : St} {x : Sym} (h : SRel e0 σ s) (hu : Unset ρ σ x) : s.read (locOf e0 ρ x) = some .unbound := by
  rw [Unset] at hu
  rw [locOf]
  cases hρ : ρ x with
  | some c =>
    rw [hρ] at hu
    obtain ⟨w, h1, h2⟩ := Forall₂.get h.cells hu
    cases h2
    exact h1
  | none =>
    rw [hρ] at hu
    have hg := h.globs x
    simp only [St.read]
    rcases hu with hu | hu <;> rw [hu] at hg <;> cases hs : s.globs e0 x with
    | none => rfl
    | some w =>
      rw [hs] at hg
      first
        | (cases hg; rfl)
        | (cases w <;> first | rfl | exact hg.elim)

/-- An error of the reference semantics is reported by the machine. -/
theorem At.bad (hP : host.prim = P.f MC) {t : Task} {σ : RS} {s : St} (hat : At host e0 t σ s) (hb : Bad P t σ) : Fails host s := by
  cases hb with
  | @var ρ _ x hu =>
    cases hat with
    | e sc t busy nl tm0 is nl' tm1 loc items tm hc hcl hok htb hh hext hpre =>
    simp only [compile, Res.ok.injEq, Prod.mk.injEq] at hc
    obtain ⟨rfl, rfl, rfl⟩ := hc
    have hr := read_unset hpre.st hu
    refine ⟨s, .refl _, ?_⟩
    rw [hh.step host]
    cases hsr : scopeRef sc x with
    | some i => simp only [mapI, St.exec, hpre.fr x i hsr, hr]
    | none =>
      have hx := scopeRef_none.1 hsr
      have hρ : ρ x = none := by
        have hsc := hpre.scok
        cases loc with
        | none => exact absurd (hsc x .var) hx
        | some L => exact hsc.2 x hx
      have hl : locOf e0 ρ x = .glob e0 x := by rw [locOf, hρ]
      rw [hl, St.read, Option.some.injEq] at hr
      simp only [mapI, St.exec, hpre.st.tenv]
      cases hg : s.globs e0 x with
      | none => rfl
      | some u => rw [hg, Option.getD_some] at hr; subst hr; rfl
  | @define ρ _ σ1 xs e vs hv hl =>
    obtain ⟨n, v1⟩ := hv
    cases hat with
    | e sc t busy nl tm0 is nl' tm1 loc items tm hc hcl hok htb hh hext hpre =>
    simp only [okE, Bool.and_eq_true] at hok
    simp only [hasClauses] at hcl
    rw [compile] at hc
    obtain ⟨⟨ei, n1, t1⟩, h1, hc⟩ := Res.bind_eq_ok.1 hc
    simp only [Res.ok.injEq, Prod.mk.injEq] at hc
    obtain ⟨rfl, rfl, rfl⟩ := hc
    have hb : (boundVars (.define xs e) []).1.length = xs.length + (boundVars e []).1.length := by simp only [boundVars, List.length_append]
    obtain ⟨L, hL⟩ := Option.isSome_iff_exists.1 hok.1
    obtain ⟨s1, a1, a2⟩ := (sim e0 hP n).1 e sc false busy nl tm0 ei n1 t1 loc ρ σ vs σ1 s items tm h1 hcl hok.2 (by simp) v1 hh.left hext
      ⟨by have := hpre.scok; rw [hL] at this ⊢; exact this, by have := hpre.slots; omega, hpre.fr, hpre.st, hpre.clean⟩
    have m1 := a2.mid rfl
    have hh1 : Here items tm s1.code s1.pc (.ins (.tlBindValues xs.length xs) :: tailRet t) := by rw [m1.code, m1.pc]; exact hh.right
    exact ⟨s1, a1, (hh1.step host).trans (exec_tlBind_wrong a2.st.tenv a2.res hl)⟩
  | operator hv hl =>
    obtain ⟨s0, h1, h2⟩ := hat.app_cfg hP
    exact .of_steps h1 (h2.bad _ _ hv hl)
  | consumer hv hw hl =>
    obtain ⟨s0, h1, h2⟩ := hat.mv_cfg hP
    exact .of_steps h1 (h2.bad _ _ _ _ hv hw hl)
  | @mvlet ρ _ σ1 e xs body us hv hl =>
    cases hat with
    | e sc t busy nl tm0 is nl' tm1 loc items tm hc hcl hok htb hh hext hpre =>
    simp only [okE, Bool.and_eq_true] at hok
    simp only [hasClauses, Bool.and_eq_true] at hcl
    rw [compile] at hc
    obtain ⟨⟨ei, n1, t1⟩, h1, hc⟩ := Res.bind_eq_ok.1 hc
    obtain ⟨⟨bi, n2, t2⟩, h2, hc⟩ := Res.bind_eq_ok.1 hc
    simp only [Res.ok.injEq, Prod.mk.injEq] at hc
    obtain ⟨rfl, rfl, rfl⟩ := hc
    have hb : (boundVars (.mvlet e xs body) []).1.length = (boundVars e []).1.length + (xs.length + (boundVars body []).1.length) := by
      simp only [boundVars, List.length_append, boundVars_indep body (boundVars e []).2 []]
    have hslots := hpre.slots
    obtain ⟨n, v1⟩ := hv
    obtain ⟨s1, a1, a2⟩ := (sim e0 hP n).1 e sc false busy nl tm0 ei n1 t1 loc ρ σ us σ1 s items tm h1 hcl.1 hok.1 (by simp) v1 hh.left
      (ext_trans (compile_ext h2 hcl.2) hext)
      ⟨hpre.scok.mono (fun y hy => Free.mvletP _ _ _ hy), by omega, hpre.fr, hpre.st, hpre.clean⟩
    have m1 := a2.mid rfl
    have hh1 : Here items tm s1.code s1.pc (.ins (.bindValues sc.length xs.length xs) :: bi) := by rw [m1.code, m1.pc]; exact hh.right
    exact ⟨s1, a1, (hh1.step host).trans (exec_bindValues_wrong a2.res hl)⟩
  | @arg ρ _ σ1 e es vs hv hl =>
    obtain ⟨n, v1⟩ := hv
    cases hat with
    | a sc nl tm0 is nl' tm1 loc items tm hc hcl hok hh hext hpre =>
      simp only [hasClausesL, Bool.and_eq_true] at hcl
      simp only [okL, Bool.and_eq_true] at hok
      rw [compileArgs] at hc
      obtain ⟨⟨ei, n1, t1⟩, h1, hc⟩ := Res.bind_eq_ok.1 hc
      obtain ⟨⟨ri, n2, t2⟩, h2, hc⟩ := Res.bind_eq_ok.1 hc
      simp only [Res.ok.injEq, Prod.mk.injEq] at hc
      obtain ⟨rfl, rfl, rfl⟩ := hc
      have hb := boundSeq_cons e es
      obtain ⟨s1, a1, a2⟩ := (sim e0 hP n).1 e sc false true nl tm0 ei n1 t1 loc ρ σ _ σ1 s items tm h1 hcl.1 hok.1 (by simp) v1 hh.left
        (ext_trans (compileArgs_ext h2 hcl.2) hext)
        ⟨hpre.scok.mono (fun x hx => ⟨e, by simp, hx⟩), by have := hpre.slots; omega, hpre.fr, hpre.st, by simp⟩
      have m1 := a2.mid rfl
      have hh1 : Here items tm s1.code s1.pc (.ins .push :: ri) := by rw [m1.code, m1.pc]; exact hh.right
      refine ⟨s1, a1, ?_⟩
      have hst := hh1.step host
      simpa only [mapI, St.exec, force_values a2.res hl] using hst
    | v sc t nl tm0 is nl' tm1 loc items tm hc hcl hok hh hext hpre =>
      simp only [hasClausesL, Bool.and_eq_true] at hcl
      simp only [okV, Bool.and_eq_true] at hok
      simp only [compile] at hc
      obtain ⟨⟨ei, n1, t1⟩, h1, hc⟩ := Res.bind_eq_ok.1 hc
      obtain ⟨⟨ri, n2, t2⟩, h2, hc⟩ := Res.bind_eq_ok.1 hc
      simp only [Res.ok.injEq, Prod.mk.injEq] at hc
      obtain ⟨rfl, rfl, rfl⟩ := hc
      have hb := boundSeq_cons e es
      have hst0 := hh.step host
      simp only [mapI, St.exec] at hst0
      have m0 : Mid false sc.length s 1 s.adv := (Mid.refl hpre.clean).adv rfl rfl rfl rfl rfl rfl (Pres.of_eq rfl)
      have hh0 : Here items tm s.adv.code s.adv.pc (ei ++ .ins .push :: (ri ++ .ins .doValues :: .ins .clearFrame :: tailRet t)) := hh.next
      obtain ⟨s1, a1, a2⟩ := (sim e0 hP n).1 e sc false false nl tm0 ei n1 t1 loc ρ σ _ σ1 s.adv items tm h1 hcl.1 hok.1 (by simp) v1 hh0.left
        (ext_trans (compileArgs_ext h2 hcl.2) hext)
        (hpre.next m0.env m0.pres (hpre.st.congr rfl rfl rfl) (fun x hx => ⟨e, by simp, hx⟩) (by omega) hpre.clean)
      have hh1 : Here items tm s1.code s1.pc (.ins .push :: (ri ++ .ins .doValues :: .ins .clearFrame :: tailRet t)) := by
        rw [(a2.mid rfl).code, (a2.mid rfl).pc]; exact hh0.right
      refine ⟨s1, .step hst0 a1, ?_⟩
      have hst := hh1.step host
      simpa only [mapI, St.exec, force_values a2.res hl] using hst
  | bd => nomatch hat
  | rd => nomatch hat
  | proc hn =>
    cases hat with
    | p u hst hf hargs hs => exact ⟨s, .refl _, hst.trans (app_err hf hn)⟩
  | clo hsel =>
    cases hat with
    | p u hst hf hargs hs =>
    obtain ⟨c, hc, hrel⟩ := hf.clo_inv
    exact .of_steps (.one (hst.trans (app_clo hc))) ((clo_cfg (host := host) hc hrel hargs hs).2 hsel)
  | @primArity _ p k vs hk =>
    cases hat with
    | p u hst hf hargs hs =>
    obtain ⟨c, hc, hrel⟩ := hf.clo_inv
    cases hrel with
    | prim code =>
    have hi : c.code.ins = [.mov .res .ac, .branchne k 4, .ccall p, .ret, .doArityError] := by rw [code]; rfl
    have hlen := List.Forall₂.length_eq hargs
    refine .of_steps (.one (hst.trans (app_clo hc))) ?_
    rw [hi]
    by_cases hlk : u.args.length = k
    · refine ⟨{ u with code := [.mov .res .ac, .branchne k 4, .ccall p, .ret, .doArityError], pc := 2, env := c.env, res := .num u.args.length }, ?_, ?_⟩
      · refine .step (s' := { u with code := [.mov .res .ac, .branchne k 4, .ccall p, .ret, .doArityError], pc := 1, env := c.env, res := .num u.args.length }) rfl (.one ?_)
        simp only [step, List.getElem?_cons_succ, List.getElem?_cons_zero, St.exec]
        rw [if_neg (by omega)]; rfl
      · simp only [step, List.getElem?_cons_succ, List.getElem?_cons_zero, St.exec]
        rw [if_pos (by omega)]
    · refine ⟨{ u with code := [.mov .res .ac, .branchne k 4, .ccall p, .ret, .doArityError], pc := 4, env := c.env, res := .num u.args.length }, ?_, ?_⟩
      · refine .step (s' := { u with code := [.mov .res .ac, .branchne k 4, .ccall p, .ret, .doArityError], pc := 1, env := c.env, res := .num u.args.length }) rfl (.one ?_)
        simp only [step, List.getElem?_cons_succ, List.getElem?_cons_zero, St.exec]
        rw [if_pos (by omega)]
      · simp only [step, List.getElem?_cons_succ, List.getElem?_cons_zero, St.exec]
  | @prim _ p k vs hk hn =>
    cases hat with
    | p u hst hf hargs hs =>
    obtain ⟨c, hc, hrel⟩ := hf.clo_inv
    cases hrel with
    | prim code =>
    have hi : c.code.ins = [.mov .res .ac, .branchne k 4, .ccall p, .ret, .doArityError] := by rw [code]; rfl
    have hlen := List.Forall₂.length_eq hargs
    have hpar := P.param (CloRel e0) p vs u.args hargs
    rw [hn] at hpar
    refine .of_steps (.one (hst.trans (app_clo hc))) ?_
    rw [hi]
    refine ⟨{ u with code := [.mov .res .ac, .branchne k 4, .ccall p, .ret, .doArityError], pc := 2, env := c.env, res := .num u.args.length }, ?_, ?_⟩
    · refine .step (s' := { u with code := [.mov .res .ac, .branchne k 4, .ccall p, .ret, .doArityError], pc := 1, env := c.env, res := .num u.args.length }) rfl (.one ?_)
      simp only [step, List.getElem?_cons_succ, List.getElem?_cons_zero, St.exec]
      rw [if_neg (by omega)]; rfl
    · simp only [step, List.getElem?_cons_succ, List.getElem?_cons_zero, St.exec, hP]
      rw [if_neg (by omega)]
      cases hw : P.f MC p u.args with
      | none => rfl
      | some w => rw [hw] at hpar; exact hpar.elim
  | @applyArity _ vs hl =>
    cases hat with
    | p u hst hf hargs hs =>
    obtain ⟨c, hc, hrel⟩ := hf.clo_inv
    cases hrel with
    | apply code =>
    have hi : c.code.ins = [.mov .res .ac, .branchlt 2 4, .doApply, .ret, .doArityError] := by rw [code]; rfl
    have hlen := List.Forall₂.length_eq hargs
    refine .of_steps (.one (hst.trans (app_clo hc))) ?_
    rw [hi]
    refine ⟨{ u with code := [.mov .res .ac, .branchlt 2 4, .doApply, .ret, .doArityError], pc := 4, env := c.env, res := .num u.args.length }, ?_, ?_⟩
    · refine .step (s' := { u with code := [.mov .res .ac, .branchlt 2 4, .doApply, .ret, .doArityError], pc := 1, env := c.env, res := .num u.args.length }) rfl (.one ?_)
      simp only [step, List.getElem?_cons_succ, List.getElem?_cons_zero, St.exec]
      rw [if_pos (by omega)]
    · simp only [step, List.getElem?_cons_succ, List.getElem?_cons_zero, St.exec]
  | @apply _ g v ws hsp =>
    cases hat with
    | p u hst hf hargs hs =>
    obtain ⟨c, hc, hrel⟩ := hf.clo_inv
    cases hrel with
    | apply code =>
    cases hargs' : u.args with
    | nil => rw [hargs'] at hargs; cases hargs
    | cons g' r =>
      cases r with
      | nil => rw [hargs'] at hargs; cases hargs with | cons _ h => cases h
      | cons v' ws' =>
        have hi : c.code.ins = [.mov .res .ac, .branchlt 2 4, .doApply, .ret, .doArityError] := by rw [code]; rfl
        have hsteps := apply_steps (host := host) (s := u) code (by rw [hargs']; simp)
        rw [hargs'] at hargs
        cases hargs with
        | cons hg hr =>
          have hbs := spread_none hr hsp
          rw [spread_eq, Option.map_eq_none_iff] at hbs
          refine .of_steps (.one (hst.trans (app_clo hc))) ⟨_, hsteps, ?_⟩
          simp only [step, hi, List.getElem?_cons_succ, List.getElem?_cons_zero, St.exec, hargs', hbs]
          cases g' <;> rfl
  | cwv =>
    cases hat with
    | p u hst hf hargs hs => obtain ⟨c, _, hrel⟩ := hf.clo_inv; nomatch hrel

/-! ## Divergence -/

/-- The size of what there is to evaluate. -/
noncomputable def Task.size : Task → Nat
  | .e _ x => sizeOf x
  | .b _ es => sizeOf es
  | .a _ es => sizeOf es
  | .d _ bs => sizeOf bs
  | .r _ bs => sizeOf bs
  | .p _ _ => 0

/-- Parts are smaller, apart from applications. -/
theorem into_size {t t' : Task} {σ σ' : RS} (h : Into P t σ t' σ') (hp : ∀ f vs, t ≠ .p f vs) : (∃ f vs, t' = .p f vs) ∨ t'.size < t.size := by
  cases h with
  | app | mvcall => exact .inl ⟨_, _, rfl⟩
  | clo | apply | cwvP | cwv => exact absurd rfl (hp _ _)
  | _ => right; simp only [Task.size, List.cons.sizeOf_spec, List.nil.sizeOf_spec, E.define.sizeOf_spec, E.set.sizeOf_spec, E.ite.sizeOf_spec, E.letv.sizeOf_spec,
      E.letrecv.sizeOf_spec, E.begin.sizeOf_spec, E.app.sizeOf_spec, E.mvcall.sizeOf_spec, E.mvlet.sizeOf_spec, E.mvvals.sizeOf_spec, Bd.mk.sizeOf_spec]; omega

/-- Specification: the machine, started in `s`, never stops. -/
def Forever (h : Host) (s : St) : Prop := ∀ s', Steps h s s' → ∃ s'', step h s' = .next s''

/-- On a chain of parts the machine makes a step and gets to a later part. -/
theorem chain_step (hP : host.prim = P.f MC) {f : Nat → Task × RS} (hf : ∀ i, Into P (f i).1 (f i).2 (f (i + 1)).1 (f (i + 1)).2) :
    ∀ (k i : Nat), (f i).1.size ≤ k → ∀ s, At host e0 (f i).1 (f i).2 s → ∃ s1 s' j, step host s = .next s1 ∧ Steps host s1 s' ∧ At host e0 (f j).1 (f j).2 s'
  | k, i, hk, s, hat => by
    by_cases hp : ∃ g vs, (f i).1 = .p g vs
    · obtain ⟨g, vs, hg⟩ := hp
      have h1 := hf i
      rw [hg] at h1 hat
      obtain ⟨s1, s', a1, a2, a3⟩ := hat.into_p h1
      exact ⟨s1, s', i + 1, a1, a2, a3⟩
    · obtain ⟨s', a1, a2⟩ := hat.into hP (hf i) (fun g vs h => hp ⟨g, vs, h⟩)
      have next : ∃ s1 s'' j, step host s' = .next s1 ∧ Steps host s1 s'' ∧ At host e0 (f j).1 (f j).2 s'' := by
        rcases into_size (hf i) (fun g vs h => hp ⟨g, vs, h⟩) with ⟨g, vs, hg⟩ | hlt
        · have h1 := hf (i + 1)
          rw [hg] at h1 a2
          obtain ⟨s1, s'', b1, b2, b3⟩ := a2.into_p h1
          exact ⟨s1, s'', i + 2, b1, b2, b3⟩
        · match k, hk with
          | 0, hk => omega
          | k + 1, hk => exact chain_step hP hf k (i + 1) (by omega) s' a2
      obtain ⟨s1, s'', j, b1, b2, b3⟩ := next
      cases a1 with
      | refl => exact ⟨s1, s'', j, b1, b2, b3⟩
      | step c1 c2 => exact ⟨_, s'', j, c1, c2.trans (.step b1 b2), b3⟩

/-- A divergent evaluation keeps the machine running for ever. -/
theorem At.diverges (hP : host.prim = P.f MC) {t : Task} {σ : RS} {s : St} (hat : At host e0 t σ s) (hd : Diverges P t σ) : Forever host s := by
  obtain ⟨f, h0, hf⟩ := hd
  have live : ∀ s, (∃ u i, Steps host s u ∧ At host e0 (f i).1 (f i).2 u) → ∃ s1, step host s = .next s1 ∧ ∃ u i, Steps host s1 u ∧ At host e0 (f i).1 (f i).2 u := by
    rintro s ⟨u, i, h1, h2⟩
    cases h1 with
    | refl =>
      obtain ⟨s1, s', j, a1, a2, a3⟩ := chain_step hP hf _ i (Nat.le_refl _) s h2
      exact ⟨s1, a1, s', j, a2, a3⟩
    | step c1 c2 => exact ⟨_, c1, u, i, c2, h2⟩
  have all : ∀ {s s' : St}, Steps host s s' → (∃ u i, Steps host s u ∧ At host e0 (f i).1 (f i).2 u) → ∃ u i, Steps host s' u ∧ At host e0 (f i).1 (f i).2 u := by
    intro s s' h
    induction h with
    | refl => exact id
    | step c1 _ ih =>
      intro hl
      obtain ⟨s1, a1, a2⟩ := live _ hl
      rw [c1] at a1
      cases a1
      exact ih a2
  intro s' hs
  obtain ⟨s1, a1, _⟩ := live s' (all hs ⟨s, 0, .refl _, by rw [h0]; exact hat⟩)
  exact ⟨s1, a1⟩

end

end Minim.Jit
