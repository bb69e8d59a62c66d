import Verif.SimExpr

set_option autoImplicit false

/-!
# Compiled code and reference semantics: all expressions
-/

namespace Minim.Jit

open Minim.Sx Minim.Core

/-- The clauses of a procedure fit into the space `boundVarsClauses` computes. -/
theorem fit_clauses : ∀ (cs : List Cl), List.Forall₂ FitCl cs (boundVarsClauses cs []).1
  | [] => .nil
  | .mk f body :: cs => by
    have hb : (boundVarsClauses (.mk f body :: cs) []).1 = (f.ids ++ (f.ids ++ (boundVarsSeq body []).1)) :: (boundVarsClauses cs []).1 := by
      simp only [boundVarsClauses, boundVarsClauses_indep cs (boundVarsSeq body []).2 []]
    rw [hb]
    refine .cons ?_ (fit_clauses cs)
    simp only [FitCl, List.length_append]; omega

/-- Making a closure. -/
theorem simE_clo {host : Host} {e0 : Nat} {sc : Scope} {t busy : Bool} {loc : Option (List Sym)} {ρ : REnv} {σ : RS} {s : St} {items : List Item}
    {tm tm' : List Code} {e : E} {cs : List Cl} {code : Code} {fvs : List Sym} {b : Nat} (hext : ∃ new, tm = new ++ code :: tm')
    (hh : Here items tm s.code s.pc (closureIns sc tm'.length fvs ++ tailRet t))
    (hpre : Pre e0 loc sc ρ (fun x => Free x e) σ busy b s) (hfv : ∀ x ∈ fvs, Free x e)
    (hrel : ∀ n, CloRel e0 (.clo ρ cs) ⟨code, fvs.map (fun x => some (locOf e0 ρ x)), n⟩) :
    ∃ s', Steps host s s' ∧ Fin e0 t busy sc.length s (instrs (closureIns sc tm'.length fvs ++ tailRet t)).length [.clo (.clo ρ cs)] σ s' := by
  have hx : ∀ x ∈ fvs, x ∈ sc ∨ ρ x = none := by
    intro x hx
    have hsc := hpre.scok
    cases loc with
    | none => exact .inl (hsc x (hfv x hx))
    | some L => by_cases h : x ∈ sc; exacts [.inl h, .inr (hsc.2 x h)]
  obtain ⟨s', n, h1, h2, h3, h4, h5⟩ := closure_sim (host := host) tm'.length fvs hpre.fr hpre.st hx hh
  obtain ⟨new, hnew⟩ := hext
  rw [tref_ext hnew] at h3
  refine ⟨s', h1, Fin.tail (m := (instrs (closureIns sc tm'.length fvs)).length)
    ((Mid.refl hpre.clean).adv h5.code h2 h5.env h5.cont h5.args h5.cp (Pres.of_eq h5.envs)) (resRel_one ?_) h4 (by rw [h5.code, h2]; exact hh.right) ?_⟩
  · rw [h3]; exact .clo (hrel n)
  · rw [instrs_append, List.length_append]

/-- Operator, arguments, application. -/
theorem app_core {host : Host} {P : Prims} {e0 n : Nat} (hE : SimE host P e0 n) (hA : SimA host P e0 n) (hP : SimP host P e0 n)
    {f : E} {args : List E} {sc : Scope} {n0 n1 n2 k : Nat} {tm0 t1 t2 : List Code} {fi ai r : List Item} {loc : Option (List Sym)} {ρ : REnv} {σ : RS}
    {rs : List RV} {σ' : RS} {s : St} {items : List Item} {tm : List Code} (h1 : compile f sc false n0 tm0 = .ok (fi, n1, t1))
    (h2 : compileArgs args sc n1 t1 = .ok (ai, n2, t2)) (hcl : hasClauses f = true ∧ hasClausesL args = true)
    (hok : okE false loc f = true ∧ okL true loc args = true)
    (hev : ev P (n + 1) ρ (.app f args) σ = .ok (rs, σ'))
    (hh : Here items tm s.code s.pc (fi ++ .ins .setProc :: .ins (.checkStack k) :: (ai ++ .ins .apply :: r))) (hext : ∃ new, tm = new ++ t2)
    (hpre : Pre e0 loc sc ρ (fun x => Free x (.app f args)) σ false (boundVars (.app f args) []).1.length s) :
    ∃ s', Steps host s s' ∧ s'.code[s'.pc]? = some .ret ∧ s'.cont = s.cont ∧ ResRel e0 rs s' ∧ SRel e0 σ' s' ∧ Pres sc.length s s' := by
  have hb : (boundVars (.app f args) []).1.length = (boundVars f []).1.length + (boundVarsSeq args []).1.length := by
    simp only [boundVars, List.length_append, boundVarsSeq_indep args (boundVars f []).2 []]
  rw [ev] at hev
  obtain ⟨⟨us, σ1⟩, v1, hev⟩ := Res.bind_eq_ok.1 hev
  obtain ⟨v, v2, hev⟩ := Res.bind_eq_ok.1 hev
  obtain ⟨⟨ws, σ2⟩, v3, hev⟩ := Res.bind_eq_ok.1 hev
  obtain ⟨s1, a1, a2⟩ := hE f sc false false n0 tm0 fi n1 t1 loc ρ σ us σ1 s items tm h1 hcl.1 hok.1 (by simp) v1 hh.left
    (ext_trans (compileArgs_ext h2 hcl.2) hext)
    ⟨hpre.scok.mono (fun x hx => Free.appF _ _ hx), by have := hpre.slots; omega, hpre.fr, hpre.st, hpre.clean⟩
  have m1 := a2.mid rfl
  have hv := resRel_single a2.res v2
  have hh1 : Here items tm s1.code s1.pc (.ins .setProc :: .ins (.checkStack k) :: (ai ++ .ins .apply :: r)) := by rw [m1.code, m1.pc]; exact hh.right
  have hst := hh1.step host
  simp only [mapI, St.exec, hv.force] at hst
  have hh2 : Here items tm (St.adv { s1 with cp := s1.res }).code (St.adv { s1 with cp := s1.res }).pc (.ins (.checkStack k) :: (ai ++ .ins .apply :: r)) := hh1.next
  have hst2 := hh2.step host
  simp only [mapI, St.exec] at hst2
  have hh3 : Here items tm (St.adv { s1 with cp := s1.res }).adv.code (St.adv { s1 with cp := s1.res }).adv.pc (ai ++ .ins .apply :: r) := hh2.next
  have hpre1 : Pre e0 loc sc ρ (fun x => ∃ e ∈ args, Free x e) σ1 true (boundVarsSeq args []).1.length (St.adv { s1 with cp := s1.res }).adv :=
    hpre.next m1.env (m1.pres.congr rfl rfl rfl) (a2.st.congr rfl rfl rfl) (fun x ⟨e', h, h'⟩ => Free.appA _ _ e' h h') (by omega) (by simp)
  obtain ⟨s2, us', b1, b2, b3, b4, b5, b6, b7, b8, b9, b10⟩ := hA args sc n1 t1 ai n2 t2 loc ρ σ1 ws σ2 _ items tm h2 hcl.2 hok.2 v3 hh3.left hext hpre1
  have hh4 : Here items tm s2.code s2.pc (.ins .apply :: r) := by rw [b2, b3]; exact hh3.right
  have hst4 := hh4.step host
  simp only [mapI, St.exec] at hst4
  have hargs2 : s2.args = us' := by rw [b7]; simp [St.adv, m1.clean rfl]
  obtain ⟨s3, s4, c1, c2, c3, c4, c5, c6, new, c7⟩ := hP v ws σ2 rs σ' s2 hev (by rw [b6]; exact hv) (by rw [hargs2]; exact b8) b9
  refine ⟨s4, a1.trans (.step hst (.step hst2 (b1.trans (.step (hst4.trans c1) c2)))), c3, ?_, c5, c6, ?_⟩
  · rw [c4, b5]; exact m1.cont
  · exact (m1.pres.trans (b10.congr (a' := s1) rfl rfl rfl) m1.env).trans (Pres.of_prefix c7) (b4.trans m1.env)

/-- Producer, consumer, application. -/
theorem mvcall_core {host : Host} {P : Prims} {e0 n : Nat} (hE : SimE host P e0 n) (hP : SimP host P e0 n)
    {e c : E} {sc : Scope} {n0 n1 n2 : Nat} {tm0 t1 t2 : List Code} {ei ci r : List Item} {loc : Option (List Sym)} {ρ : REnv} {σ : RS}
    {rs : List RV} {σ' : RS} {s : St} {items : List Item} {tm : List Code} (h1 : compile e sc false n0 tm0 = .ok (ei, n1, t1))
    (h2 : compile c sc false n1 t1 = .ok (ci, n2, t2)) (hcl : hasClauses e = true ∧ hasClauses c = true)
    (hok : okE false loc e = true ∧ okE true loc c = true)
    (hev : ev P (n + 1) ρ (.mvcall e c) σ = .ok (rs, σ'))
    (hh : Here items tm s.code s.pc (ei ++ .ins .clearFrame :: .ins .doWithValues :: (ci ++ .ins .setProc :: .ins .apply :: r))) (hext : ∃ new, tm = new ++ t2)
    (hpre : Pre e0 loc sc ρ (fun x => Free x (.mvcall e c)) σ false (boundVars (.mvcall e c) []).1.length s) :
    ∃ s', Steps host s s' ∧ s'.code[s'.pc]? = some .ret ∧ s'.cont = s.cont ∧ ResRel e0 rs s' ∧ SRel e0 σ' s' ∧ Pres sc.length s s' := by
  have hb : (boundVars (.mvcall e c) []).1.length = (boundVars e []).1.length + (boundVars c []).1.length := by
    simp only [boundVars, List.length_append, boundVars_indep c (boundVars e []).2 []]
  rw [ev] at hev
  obtain ⟨⟨us, σ1⟩, v1, hev⟩ := Res.bind_eq_ok.1 hev
  obtain ⟨⟨fs, σ2⟩, v2, hev⟩ := Res.bind_eq_ok.1 hev
  obtain ⟨f, v3, hev⟩ := Res.bind_eq_ok.1 hev
  obtain ⟨s1, a1, a2⟩ := hE e sc false false n0 tm0 ei n1 t1 loc ρ σ us σ1 s items tm h1 hcl.1 hok.1 (by simp) v1 hh.left
    (ext_trans (compile_ext h2 hcl.2) hext)
    ⟨hpre.scok.mono (fun x hx => Free.mvcallP _ _ hx), by have := hpre.slots; omega, hpre.fr, hpre.st, hpre.clean⟩
  have m1 := a2.mid rfl
  have hh1 : Here items tm s1.code s1.pc (.ins .clearFrame :: .ins .doWithValues :: (ci ++ .ins .setProc :: .ins .apply :: r)) := by
    rw [m1.code, m1.pc]; exact hh.right
  have hst1 := hh1.step host
  simp only [mapI, St.exec] at hst1
  generalize hs2 : St.adv { s1 with cp := .undef, args := [] } = s2 at hst1
  have hh2 : Here items tm s2.code s2.pc (.ins .doWithValues :: (ci ++ .ins .setProc :: .ins .apply :: r)) := by rw [← hs2]; exact hh1.next
  obtain ⟨ws, w1, w2⟩ := exec_withValues (host := host) (s := s2) (a2.res.congr (s' := s2) (by rw [← hs2]; rfl) (by rw [← hs2]; rfl))
  have hst2 := hh2.step host
  simp only [mapI, w1] at hst2
  generalize hs3 : St.adv { s2 with args := s2.args ++ ws } = s3 at hst2
  have hh3 : Here items tm s3.code s3.pc (ci ++ .ins .setProc :: .ins .apply :: r) := by rw [← hs3]; exact hh2.next
  have hargs3 : s3.args = ws := by rw [← hs3, ← hs2]; simp [St.adv]
  have henv3 : s3.env = s.env := by rw [← hs3, ← hs2]; exact m1.env
  have hpres3 : Pres sc.length s s3 := m1.pres.congr rfl rfl (by rw [← hs3, ← hs2]; rfl)
  have hst3 : SRel e0 σ1 s3 := a2.st.congr (by rw [← hs3, ← hs2]; rfl) (by rw [← hs3, ← hs2]; rfl) (by rw [← hs3, ← hs2]; rfl)
  obtain ⟨s4, b1, b2⟩ := hE c sc false true n1 t1 ci n2 t2 loc ρ σ1 fs σ2 s3 items tm h2 hcl.2 hok.2 (by simp) v2 hh3.left hext
    (hpre.next henv3 hpres3 hst3 (fun x hx => Free.mvcallC _ _ hx) (by omega) (by simp))
  have m4 := b2.mid rfl
  have hv := resRel_single b2.res v3
  have hh4 : Here items tm s4.code s4.pc (.ins .setProc :: .ins .apply :: r) := by rw [m4.code, m4.pc]; exact hh3.right
  have hst4 := hh4.step host
  simp only [mapI, St.exec, hv.force] at hst4
  have hh5 : Here items tm (St.adv { s4 with cp := s4.res }).code (St.adv { s4 with cp := s4.res }).pc (.ins .apply :: r) := hh4.next
  have hst5 := hh5.step host
  simp only [mapI, St.exec] at hst5
  obtain ⟨s5, s6, c1, c2, c3, c4, c5, c6, new, c7⟩ := hP f us σ2 rs σ' (St.adv { s4 with cp := s4.res }) hev hv
    (by have : (St.adv { s4 with cp := s4.res }).args = ws := by
          rw [← hargs3]; exact (m4.busyF rfl).1
        rw [this]; exact w2) (b2.st.congr rfl rfl rfl)
  refine ⟨s6, a1.trans (.step hst1 (.step hst2 (b1.trans (.step hst4 (.step (hst5.trans c1) c2))))), c3, ?_, c5, c6, ?_⟩
  · rw [c4]
    show s4.cont = s.cont
    rw [m4.cont, ← hs3, ← hs2]; exact m1.cont
  · exact (hpres3.trans m4.pres henv3).trans (Pres.of_prefix (s := s4) c7) (m4.env.trans henv3)

/-- A call not in tail position: the frame is saved and restored. -/
theorem call_wrap {host : Host} {e0 : Nat} {t busy : Bool} {k lbl : Nat} {s : St} {call : List Item} {rs : List RV} {σ σ' : RS} {items : List Item}
    {tm : List Code} {loc : Option (List Sym)} {sc : Scope} {ρ : REnv} {F : Sym → Prop} {b : Nat} (hk : k = sc.length)
    (htb : t = true → busy = false) (hpre : Pre e0 loc sc ρ F σ busy b s)
    (hh : Here items tm s.code s.pc (if t then call else .ins (.saveCC lbl) :: (call ++ [.lab lbl])))
    (core : ∀ s0 : St, Here items tm s0.code s0.pc (call ++ if t then [] else [.lab lbl]) → Pre e0 loc sc ρ F σ false b s0 →
      ∃ s', Steps host s0 s' ∧ s'.code[s'.pc]? = some .ret ∧ s'.cont = s0.cont ∧ ResRel e0 rs s' ∧ SRel e0 σ' s' ∧ Pres k s0 s') :
    ∃ s', Steps host s s' ∧ Fin e0 t busy k s (instrs (if t then call else .ins (.saveCC lbl) :: (call ++ [.lab lbl]))).length rs σ' s' := by
  subst hk
  cases t with
  | true =>
    simp only [if_true] at hh core ⊢
    obtain ⟨s', h1, h2, h3, h4, h5, h6⟩ := core s (by simpa using hh) ⟨hpre.scok, hpre.slots, hpre.fr, hpre.st, fun _ => hpre.clean (htb rfl)⟩
    exact ⟨s', h1, h4, h5, h3, h6, by simp, fun _ => h2⟩
  | false =>
    simp only [Bool.false_eq_true, if_false] at hh core ⊢
    have hst := hh.step host
    simp only [mapI, St.exec] at hst
    generalize hs0 : St.adv { s with cont := ⟨s.code, labPos items lbl, s.env, s.cp, s.args⟩ :: s.cont, cp := .void, args := [] } = s0 at hst
    have e1 : s0.env = s.env := by rw [← hs0]; rfl
    have e2 : s0.envs = s.envs := by rw [← hs0]; rfl
    obtain ⟨s1, h1, h2, h3, h4, h5, h6⟩ := core s0 (by rw [← hs0]; exact hh.next)
      ⟨hpre.scok, by rw [slots_congr e2 e1]; exact hpre.slots, hpre.fr.congr e2 e1,
        hpre.st.congr (by rw [← hs0]; rfl) (by rw [← hs0]; rfl) (by rw [← hs0]; rfl), fun _ => by rw [← hs0]; rfl⟩
    have hret : step host s1 = .next { s1 with code := s.code, pc := labPos items lbl, env := s.env, cp := s.cp, args := s.args, cont := s.cont } := by
      have hk : s1.cont = ⟨s.code, labPos items lbl, s.env, s.cp, s.args⟩ :: s.cont := by rw [h3, ← hs0]; rfl
      rw [step, h2]
      simp only [St.exec, hk]
    have hpc : labPos items lbl = s.pc + (instrs (.ins (.saveCC lbl) :: (call ++ [.lab lbl]))).length := by
      have := hh.next.right.lab
      rw [this]
      simp only [instrs, instrs_append, List.length_cons, List.length_append, List.length_nil]; omega
    have hp : Pres sc.length s { s1 with code := s.code, pc := labPos items lbl, env := s.env, cp := s.cp, args := s.args, cont := s.cont } :=
      h6.congr e2.symm e1.symm rfl
    refine ⟨_, .step hst (h1.trans (.one hret)), h4.congr rfl rfl, h5.congr rfl rfl rfl, rfl, hp, fun _ => ⟨rfl, hpc, rfl, rfl, fun _ => ⟨rfl, rfl⟩, hpre.clean, hp⟩, by simp⟩

theorem simE_succ {host : Host} {P : Prims} {e0 n : Nat} (hE : SimE host P e0 n) (hB : SimB host P e0 n) (hA : SimA host P e0 n) (hV : SimV host P e0 n)
    (hP : SimP host P e0 n) : SimE host P e0 (n + 1) := by
  intro e sc t busy nl tm0 is nl' tm1 loc ρ σ vs σ' s items tm hc hcl hok htb hev hh hext hpre
  -- an expression that is one instruction
  have simple : ∀ {i : I Nat Nat} {v : RV} {w : MV}, Here items tm s.code s.pc (.ins i :: tailRet t) → vs = [v] → σ' = σ → VR e0 v w →
      s.exec host (mapI (labPos items) (tref tm) i) = .next { s with res := w }.adv →
      ∃ s', Steps host s s' ∧ Fin e0 t busy sc.length s (instrs (.ins i :: tailRet t)).length vs σ' s' := by
    intro i v w hh h1 h2 h3 h4
    subst h1 h2
    have hst := hh.step host
    rw [h4] at hst
    refine ⟨_, .one hst, Fin.tail (m := 1) ((Mid.refl hpre.clean).adv rfl rfl rfl rfl rfl rfl (Pres.of_eq rfl)) (resRel_one h3) (hpre.st.congr rfl rfl rfl) hh.next ?_⟩
    simp only [instrs, List.length_cons]; omega
  cases e with
  | var x =>
    simp only [compile, Res.ok.injEq, Prod.mk.injEq] at hc
    obtain ⟨rfl, rfl, rfl⟩ := hc
    rw [ev] at hev
    obtain ⟨v, v1, hev⟩ := Res.bind_eq_ok.1 hev
    simp only [Res.ok.injEq, Prod.mk.injEq] at hev
    obtain ⟨rfl, rfl⟩ := hev
    obtain ⟨w, r1, r2, r3⟩ := read_sim hpre.st v1
    refine simple (w := w) hh rfl rfl r2 ?_
    cases hr : scopeRef sc x with
    | some i =>
      simp only [mapI, St.exec, hpre.fr x i hr, r1]
    | none =>
      have hx := scopeRef_none.1 hr
      have hρ : ρ x = none := by
        have hsc := hpre.scok
        cases loc with
        | none => exact absurd (hsc x .var) hx
        | some L => exact hsc.2 x hx
      have hl : locOf e0 ρ x = .glob e0 x := by rw [locOf, hρ]
      rw [hl, St.read, Option.some.injEq] at r1
      cases hg : s.globs e0 x with
      | none => rw [hg] at r1; exact absurd r1.symm r3
      | some u =>
        rw [hg, Option.getD_some] at r1
        subst r1
        simp only [mapI, St.exec, hpre.st.tenv, hg]
  | lit l =>
    cases hc
    cases hev
    exact simple hh rfl rfl (.lit l) rfl
  | quote d =>
    cases hc
    cases hev
    exact simple hh rfl rfl (VRel.ofX d) rfl
  | quoteSyntax d =>
    cases hc
    cases hev
    exact simple hh rfl rfl (.stx d) rfl
  | unbound =>
    cases hc
    cases hev
    exact simple hh rfl rfl .unbound rfl
  | define xs e =>
    simp only [okE, Bool.and_eq_true] at hok
    simp only [hasClauses] at hcl
    rw [compile] at hc
    obtain ⟨⟨ei, n1, t1⟩, h1, hc⟩ := Res.bind_eq_ok.1 hc
    simp only [Res.ok.injEq, Prod.mk.injEq] at hc
    obtain ⟨rfl, rfl, rfl⟩ := hc
    rw [ev] at hev
    obtain ⟨⟨us, σ1⟩, v1, hev⟩ := Res.bind_eq_ok.1 hev
    simp only at hev
    split at hev
    next hlen =>
      simp only [Res.ok.injEq, Prod.mk.injEq] at hev
      obtain ⟨rfl, rfl⟩ := hev
      have hb : (boundVars (.define xs e) []).1.length = xs.length + (boundVars e []).1.length := by simp only [boundVars, List.length_append]
      obtain ⟨L, hL⟩ := Option.isSome_iff_exists.1 hok.1
      obtain ⟨s1, a1, a2⟩ := hE e sc false busy nl tm0 ei n1 t1 loc ρ σ us σ1 s items tm h1 hcl hok.2 (by simp) v1 hh.left hext
        ⟨by have := hpre.scok; rw [hL] at this ⊢; exact this, by have := hpre.slots; omega, hpre.fr, hpre.st, hpre.clean⟩
      have m1 := a2.mid rfl
      have hh1 : Here items tm s1.code s1.pc (.ins (.tlBindValues xs.length xs) :: tailRet t) := by rw [m1.code, m1.pc]; exact hh.right
      have hst := hh1.step host
      have hx : ∃ g, s1.exec host (.tlBindValues xs.length xs) = .next { s1 with globs := g, res := .void }.adv ∧
          SRel e0 (σ1.setGlobs xs us) { s1 with globs := g, res := .void }.adv := by
        rcases a2.res with ⟨v, rfl, hv⟩ | ⟨q1, q2, q3⟩
        · match xs, hlen with
          | [x], _ =>
            refine ⟨_, exec_tlBind_one a2.st.tenv hv.ne_values, ?_⟩
            exact (setGlob_sim a2.st hv).congr rfl rfl rfl
        · obtain ⟨g, g1, g2⟩ := setGlobs_sim xs a2.st q3
          refine ⟨g, ?_, g2.congr ?_ ?_ ?_⟩
          · rw [exec_tlBind_many a2.st.tenv q2 (by rw [← List.Forall₂.length_eq q3]; exact hlen) (Nat.le_refl _), g1]
          · rw [g1]; rfl
          · rw [g1]; rfl
          · rw [g1]; rfl
      obtain ⟨g, g1, g2⟩ := hx
      simp only [mapI, g1] at hst
      refine ⟨_, a1.trans (.one hst), Fin.tail (m := (instrs ei).length + 1) (m1.adv rfl ?_ rfl rfl rfl rfl (Pres.of_eq rfl)) (resRel_one .void) g2 hh1.next ?_⟩
      · simp only [St.adv, m1.pc]; omega
      · simp only [instrs, instrs_append, List.length_cons, List.length_append]; omega
    · cases hev
  | set x e =>
    simp only [okE, Bool.and_eq_true] at hok
    simp only [hasClauses] at hcl
    rw [compile] at hc
    obtain ⟨⟨ei, n1, t1⟩, h1, hc⟩ := Res.bind_eq_ok.1 hc
    simp only [Res.ok.injEq, Prod.mk.injEq] at hc
    obtain ⟨rfl, rfl, rfl⟩ := hc
    rw [ev] at hev
    obtain ⟨⟨us, σ1⟩, v1, hev⟩ := Res.bind_eq_ok.1 hev
    obtain ⟨v, v2, hev⟩ := Res.bind_eq_ok.1 hev
    obtain ⟨σ2, v3, hev⟩ := Res.bind_eq_ok.1 hev
    simp only [Res.ok.injEq, Prod.mk.injEq] at hev
    obtain ⟨rfl, rfl⟩ := hev
    obtain ⟨s1, a1, a2⟩ := hE e sc false busy nl tm0 ei n1 t1 loc ρ σ us σ1 s items tm h1 hcl hok.2 (by simp) v1 hh.left hext
      ⟨hpre.scok.mono (fun y hy => Free.setRhs _ _ hy), by have := hpre.slots; simpa [boundVars] using this, hpre.fr, hpre.st, hpre.clean⟩
    have m1 := a2.mid rfl
    have hv := resRel_single a2.res v2
    have hx : x ∈ sc := by
      have hsc := hpre.scok
      cases loc with
      | none => exact hsc x (.setTarget _)
      | some L => have := hok.1; simp only [Option.all_some, decide_eq_true_eq] at this; rw [hsc.1] at this; exact this
    obtain ⟨i, hi⟩ := scopeRef_some.1 hx
    rw [hi] at hh ⊢
    have hh1 : Here items tm s1.code s1.pc (.ins (.rebind i) :: tailRet t) := by rw [m1.code, m1.pc]; exact hh.right
    have hst := hh1.step host
    simp only [mapI, St.exec, (hpre.fr.pres m1.pres m1.env) x i hi] at hst
    have hw := write_sim a2.st v3 hv
    obtain ⟨c, g, hcg⟩ := write_fields s1 (locOf e0 ρ x) s1.res
    rw [hcg] at hst hw
    refine ⟨_, a1.trans (.one hst), Fin.tail (m := (instrs ei).length + 1) (m1.adv rfl ?_ rfl rfl rfl rfl (Pres.of_eq rfl)) (resRel_one .void) (hw.congr rfl rfl rfl) hh1.next ?_⟩
    · simp only [St.adv, m1.pc]; omega
    · simp only [instrs, instrs_append, List.length_cons, List.length_append]; omega
  | ite c a b =>
    simp only [okE, Bool.and_eq_true] at hok
    simp only [hasClauses, Bool.and_eq_true] at hcl
    rw [compile] at hc
    obtain ⟨⟨ci, n1, t1⟩, h1, hc⟩ := Res.bind_eq_ok.1 hc
    obtain ⟨⟨ai, n2, t2⟩, h2, hc⟩ := Res.bind_eq_ok.1 hc
    obtain ⟨⟨bi, n3, t3⟩, h3, hc⟩ := Res.bind_eq_ok.1 hc
    have hb : (boundVars (.ite c a b) []).1.length = (boundVars c []).1.length + (boundVars a []).1.length + (boundVars b []).1.length := by
      simp only [boundVars, List.length_append, boundVars_indep a (boundVars c []).2 [], boundVars_indep b (boundVars a (boundVars c []).2).2 []]
    have hslots := hpre.slots
    rw [ev] at hev
    obtain ⟨⟨us, σ1⟩, v1, hev⟩ := Res.bind_eq_ok.1 hev
    obtain ⟨v, v2, hev⟩ := Res.bind_eq_ok.1 hev
    simp only at hev hc
    have hprec : Pre e0 loc sc ρ (fun x => Free x c) σ busy (boundVars c []).1.length s :=
      ⟨hpre.scok.mono (fun y hy => Free.iteC _ _ _ hy), by omega, hpre.fr, hpre.st, hpre.clean⟩
    have e3 := compile_ext h3 hcl.2
    have e2 := compile_ext h2 hcl.1.2
    cases t with
    | true =>
      simp only [if_true, Res.ok.injEq, Prod.mk.injEq] at hc
      obtain ⟨rfl, rfl, rfl⟩ := hc
      obtain ⟨s1, a1, a2⟩ := hE c sc false busy nl tm0 ci n1 t1 loc ρ σ us σ1 s items tm h1 hcl.1.1 hok.1.1 (by simp) v1 hh.left
        (ext_trans (ext_trans e2 e3) hext) hprec
      have m1 := a2.mid rfl
      have hv := resRel_single a2.res v2
      have hh1 : Here items tm s1.code s1.pc (.ins (.branchf n3) :: (ai ++ .lab n3 :: bi)) := by rw [m1.code, m1.pc]; exact hh.right
      have hst := hh1.step host
      simp only [mapI, St.exec, hv.isFalse] at hst
      split at hev
      next hf =>
        rw [if_pos hf] at hst
        have hl := hh1.next.right.lab
        rw [hl] at hst
        have m2 : Mid busy sc.length s ((instrs ci).length + 1 + (instrs ai).length) { s1 with pc := s1.pc + 1 + (instrs ai).length } :=
          m1.adv rfl (by simp only [m1.pc]; omega) rfl rfl rfl rfl (Pres.of_eq rfl)
        obtain ⟨s2, b1, b2⟩ := hE b sc true busy n2 t2 bi n3 t3 loc ρ σ1 vs σ' { s1 with pc := s1.pc + 1 + (instrs ai).length } items tm h3 hcl.2 hok.2 htb hev
          hh1.next.right.skip hext (hpre.next m2.env m2.pres (a2.st.congr rfl rfl rfl) (fun y hy => Free.iteE _ _ _ hy) (by omega) m2.clean)
        refine ⟨s2, a1.trans (.step hst b1), b2.after m2 ?_⟩
        simp only [instrs, instrs_append, List.length_cons, List.length_append]; omega
      next hf =>
        rw [if_neg hf] at hst
        have m2 : Mid busy sc.length s ((instrs ci).length + 1) s1.adv := m1.adv rfl (by simp only [St.adv, m1.pc]; omega) rfl rfl rfl rfl (Pres.of_eq rfl)
        obtain ⟨s2, b1, b2⟩ := hE a sc true busy n1 t1 ai n2 t2 loc ρ σ1 vs σ' s1.adv items tm h2 hcl.1.2 hok.1.2 htb hev
          hh1.next.left (ext_trans e3 hext) (hpre.next m2.env m2.pres (a2.st.congr rfl rfl rfl) (fun y hy => Free.iteT _ _ _ hy) (by omega) m2.clean)
        refine ⟨s2, a1.trans (.step hst b1), ?_⟩
        exact ⟨b2.res, b2.st, b2.cont.trans m2.cont, m2.pres.trans b2.pres m2.env, by simp, b2.ret⟩
    | false =>
      simp only [Bool.false_eq_true, if_false, Res.ok.injEq, Prod.mk.injEq] at hc
      obtain ⟨rfl, rfl, rfl⟩ := hc
      obtain ⟨s1, a1, a2⟩ := hE c sc false busy nl tm0 ci n1 t1 loc ρ σ us σ1 s items tm h1 hcl.1.1 hok.1.1 (by simp) v1 hh.left
        (ext_trans (ext_trans e2 e3) hext) hprec
      have m1 := a2.mid rfl
      have hv := resRel_single a2.res v2
      have hh1 : Here items tm s1.code s1.pc (.ins (.branchf n3) :: (ai ++ .ins (.brancha (n3 + 1)) :: .lab n3 :: (bi ++ [.lab (n3 + 1)]))) := by
        rw [m1.code, m1.pc]; exact hh.right
      have hst := hh1.step host
      simp only [mapI, St.exec, hv.isFalse] at hst
      have hlf := hh1.next.right.next.lab
      have hle := hh1.next.right.next.skip.right.lab
      have hlen : (instrs (ci ++ .ins (.branchf n3) :: (ai ++ .ins (.brancha (n3 + 1)) :: .lab n3 :: (bi ++ [.lab (n3 + 1)])))).length =
          (instrs ci).length + 1 + (instrs ai).length + 1 + (instrs bi).length := by
        simp only [instrs, instrs_append, List.length_cons, List.length_append, List.length_nil]; omega
      rw [hlen]
      split at hev
      next hf =>
        rw [if_pos hf] at hst
        rw [hlf] at hst
        have m2 : Mid busy sc.length s ((instrs ci).length + 1 + (instrs ai).length + 1) { s1 with pc := s1.pc + 1 + (instrs ai).length + 1 } :=
          m1.adv rfl (by simp only [m1.pc]; omega) rfl rfl rfl rfl (Pres.of_eq rfl)
        obtain ⟨s2, b1, b2⟩ := hE b sc false busy n2 t2 bi n3 t3 loc ρ σ1 vs σ' { s1 with pc := s1.pc + 1 + (instrs ai).length + 1 } items tm h3 hcl.2 hok.2 htb hev
          hh1.next.right.next.skip.left hext (hpre.next m2.env m2.pres (a2.st.congr rfl rfl rfl) (fun y hy => Free.iteE _ _ _ hy) (by omega) m2.clean)
        exact ⟨s2, a1.trans (.step hst b1), b2.after m2 rfl⟩
      next hf =>
        rw [if_neg hf] at hst
        have m2 : Mid busy sc.length s ((instrs ci).length + 1) s1.adv := m1.adv rfl (by simp only [St.adv, m1.pc]; omega) rfl rfl rfl rfl (Pres.of_eq rfl)
        obtain ⟨s2, b1, b2⟩ := hE a sc false busy n1 t1 ai n2 t2 loc ρ σ1 vs σ' s1.adv items tm h2 hcl.1.2 hok.1.2 htb hev
          hh1.next.left (ext_trans e3 hext) (hpre.next m2.env m2.pres (a2.st.congr rfl rfl rfl) (fun y hy => Free.iteT _ _ _ hy) (by omega) m2.clean)
        have m3 := m2.trans (b2.mid rfl)
        have hh2 : Here items tm s2.code s2.pc (.ins (.brancha (n3 + 1)) :: .lab n3 :: (bi ++ [.lab (n3 + 1)])) := by
          rw [(b2.mid rfl).code, (b2.mid rfl).pc]; exact hh1.next.right
        have hst2 := hh2.step host
        simp only [mapI, St.exec, hle] at hst2
        have m4 : Mid busy sc.length s ((instrs ci).length + 1 + (instrs ai).length + 1 + (instrs bi).length)
            { s2 with pc := s1.pc + 1 + (instrs ai).length + 1 + (instrs bi).length } :=
          m3.adv rfl (by simp only [m1.pc]; omega) rfl rfl rfl rfl (Pres.of_eq rfl)
        exact ⟨_, a1.trans (.step hst (b1.trans (.one hst2))), b2.res.congr rfl rfl, b2.st.congr rfl rfl rfl, m4.cont, m4.pres, fun _ => m4, by simp⟩
  | letv _ _ => simp [hasClauses] at hcl
  | letrecv _ _ => simp [hasClauses] at hcl
  | lam f body =>
    have hnl := hasClauses_noLet _ hcl
    simp only [okE] at hok
    simp only [hasClauses] at hcl
    rw [compile] at hc
    obtain ⟨⟨bi, n1, t1⟩, h1, hc⟩ := Res.bind_eq_ok.1 hc
    obtain ⟨code, h2, hc⟩ := Res.bind_eq_ok.1 hc
    simp only [Res.ok.injEq, Prod.mk.injEq] at hc h2
    obtain ⟨rfl, rfl, rfl⟩ := hc
    rw [ev] at hev
    simp only [Res.ok.injEq, Prod.mk.injEq] at hev
    obtain ⟨rfl, rfl⟩ := hev
    have hfv := (C49_exact (.lam f body) [] hnl).2
    refine simE_clo hext hh hpre (fun x hx => (hfv x).1 hx) (fun k => ?_)
    refine .clo (freeVars (.lam f body) []).1 [f.ids ++ (boundVarsSeq body []).1]
      (clauseEntry none f 0 ++ clauseHead (freeVars (.lam f body) []).1.length (f.ids ++ (boundVarsSeq body []).1).length f ++ bi) 0 n1 tm0 t1 (clausesArity [f])
      ?_ ?_ ?_ ?_ ?_ ?_ rfl
    · simp only [compileClauses, Nat.zero_add, h1, Res.ok_bind, List.headD_cons, List.append_nil]
    · rw [clauseBounds_lam] at h2
      exact h2
    · simp [hasClausesC, hcl]
    · simp [okC, hok]
    · intro g b2 e x hm he hx
      simp only [List.mem_singleton, Cl.mk.injEq] at hm
      obtain ⟨rfl, rfl⟩ := hm
      by_cases hids : x ∈ g.ids
      · exact .inl hids
      · simp only [Formals.ids, List.mem_append, not_or] at hids
        exact .inr ((hfv x).2 (.lam _ _ e hids.1 (by simpa using hids.2) he hx))
    · refine .cons ?_ .nil
      simp only [FitCl, List.length_append]; omega
  | clam cs =>
    have hnl := hasClauses_noLet _ hcl
    simp only [okE] at hok
    simp only [hasClauses, Bool.and_eq_true] at hcl
    rw [compile] at hc
    obtain ⟨⟨bi, last, n1, t1⟩, h1, hc⟩ := Res.bind_eq_ok.1 hc
    simp only at hc h1
    split at hc
    · cases hc
    next l =>
      obtain ⟨code, h2, hc⟩ := Res.bind_eq_ok.1 hc
      simp only [Res.ok.injEq, Prod.mk.injEq] at hc
      obtain ⟨rfl, rfl, rfl⟩ := hc
      rw [ev] at hev
      simp only [Res.ok.injEq, Prod.mk.injEq] at hev
      obtain ⟨rfl, rfl⟩ := hev
      have hfv := (C49_exact (.clam cs) [] hnl).2
      refine simE_clo hext hh hpre (fun x hx => (hfv x).1 hx) (fun k => ?_)
      refine .clo (freeVars (.clam cs) []).1 (clauseBounds (.clam cs)) bi l n1 tm0 t1 _ h1 h2 hcl.2 hok ?_ ?_ rfl
      · intro g b2 e x hm he hx
        by_cases hids : x ∈ g.ids
        · exact .inl hids
        · simp only [Formals.ids, List.mem_append, not_or] at hids
          exact .inr ((hfv x).2 (.clam _ g b2 e hm hids.1 (by simpa using hids.2) he hx))
      · rw [clauseBounds_clam]; exact fit_clauses cs
  | begin es =>
    simp only [okE] at hok
    simp only [hasClauses] at hcl
    simp only [compile] at hc
    rw [ev] at hev
    refine hB es sc t busy nl tm0 is nl' tm1 loc ρ σ vs σ' s items tm hc hcl hok htb hev hh hext
      ⟨hpre.scok.mono (fun y ⟨e, h, h'⟩ => Free.begin _ e h h'), by have := hpre.slots; simpa only [boundVars] using this, hpre.fr, hpre.st, hpre.clean⟩
  | app f args =>
    simp only [okE, Bool.and_eq_true] at hok
    simp only [hasClauses, Bool.and_eq_true] at hcl
    rw [compile] at hc
    obtain ⟨⟨fi, n1, t1⟩, h1, hc⟩ := Res.bind_eq_ok.1 hc
    obtain ⟨⟨ai, n2, t2⟩, h2, hc⟩ := Res.bind_eq_ok.1 hc
    simp only at hc h1 h2
    have hc' : is = (if t then (fi ++ .ins .setProc :: .ins (.checkStack args.length) :: (ai ++ [.ins .apply]))
        else .ins (.saveCC nl) :: ((fi ++ .ins .setProc :: .ins (.checkStack args.length) :: (ai ++ [.ins .apply])) ++ [.lab nl])) ∧ nl' = n2 ∧ tm1 = t2 := by
      cases t <;> simp only [if_true, Bool.false_eq_true, if_false, Res.ok.injEq, Prod.mk.injEq] at hc ⊢ <;> exact ⟨hc.1.symm, hc.2.1.symm, hc.2.2.symm⟩
    obtain ⟨rfl, rfl, rfl⟩ := hc'
    refine call_wrap rfl htb hpre hh (fun s0 hh0 hp0 => ?_)
    simp only [List.append_assoc, List.cons_append, List.nil_append] at hh0
    exact app_core hE hA hP h1 h2 hcl hok hev hh0 hext hp0
  | mvcall e c =>
    simp only [okE, Bool.and_eq_true] at hok
    simp only [hasClauses, Bool.and_eq_true] at hcl
    rw [compile] at hc
    obtain ⟨⟨ei, n1, t1⟩, h1, hc⟩ := Res.bind_eq_ok.1 hc
    obtain ⟨⟨ci, n2, t2⟩, h2, hc⟩ := Res.bind_eq_ok.1 hc
    simp only at hc h1 h2
    have hc' : is = (if t then (ei ++ .ins .clearFrame :: .ins .doWithValues :: (ci ++ [.ins .setProc, .ins .apply]))
        else .ins (.saveCC nl) :: ((ei ++ .ins .clearFrame :: .ins .doWithValues :: (ci ++ [.ins .setProc, .ins .apply])) ++ [.lab nl])) ∧ nl' = n2 ∧ tm1 = t2 := by
      cases t <;> simp only [if_true, Bool.false_eq_true, if_false, Res.ok.injEq, Prod.mk.injEq] at hc ⊢ <;> exact ⟨hc.1.symm, hc.2.1.symm, hc.2.2.symm⟩
    obtain ⟨rfl, rfl, rfl⟩ := hc'
    refine call_wrap rfl htb hpre hh (fun s0 hh0 hp0 => ?_)
    simp only [List.append_assoc, List.cons_append, List.nil_append] at hh0
    exact mvcall_core hE hP h1 h2 hcl hok hev hh0 hext hp0
  | mvlet e xs body =>
    simp only [okE, Bool.and_eq_true] at hok
    simp only [hasClauses, Bool.and_eq_true] at hcl
    rw [compile] at hc
    obtain ⟨⟨ei, n1, t1⟩, h1, hc⟩ := Res.bind_eq_ok.1 hc
    obtain ⟨⟨bi, n2, t2⟩, h2, hc⟩ := Res.bind_eq_ok.1 hc
    simp only [Res.ok.injEq, Prod.mk.injEq] at hc
    obtain ⟨rfl, rfl, rfl⟩ := hc
    have hb : (boundVars (.mvlet e xs body) []).1.length = (boundVars e []).1.length + (xs.length + (boundVars body []).1.length) := by
      simp only [boundVars, List.length_append, boundVars_indep body (boundVars e []).2 []]
    have hslots := hpre.slots
    rw [ev] at hev
    obtain ⟨⟨us, σ1⟩, v1, hev⟩ := Res.bind_eq_ok.1 hev
    simp only at hev
    split at hev
    next hlen =>
      obtain ⟨s1, a1, a2⟩ := hE e sc false busy nl tm0 ei n1 t1 loc ρ σ us σ1 s items tm h1 hcl.1 hok.1 (by simp) v1 hh.left
        (ext_trans (compile_ext h2 hcl.2) hext)
        ⟨hpre.scok.mono (fun y hy => Free.mvletP _ _ _ hy), by omega, hpre.fr, hpre.st, hpre.clean⟩
      have m1 := a2.mid rfl
      have hh1 : Here items tm s1.code s1.pc (.ins (.bindValues sc.length xs.length xs) :: bi) := by rw [m1.code, m1.pc]; exact hh.right
      have hst := hh1.step host
      have hsl1 := m1.pres.slots m1.env
      have hx : ∃ ws, s1.exec host (.bindValues sc.length xs.length xs) = .next { s1.bindAll sc.length ws with res := .void }.adv ∧
          List.Forall₂ (VR e0) us ws := by
        rcases a2.res with ⟨v, rfl, hv⟩ | ⟨q1, q2, q3⟩
        · match xs, hlen with
          | [x], _ =>
            refine ⟨[s1.res], ?_, .cons hv .nil⟩
            simp only [List.length_cons, List.length_nil] at hb
            exact exec_bindValues_one hv.ne_values (by omega)
        · refine ⟨s1.vals, exec_bindValues_many q2 (by rw [← List.Forall₂.length_eq q3]; exact hlen) (Nat.le_refl _) (by omega), q3⟩
      obtain ⟨ws, w1, w2⟩ := hx
      obtain ⟨E, b1, b2, b3, b4, b5⟩ := bindAll_sim xs (hpre.fr.pres m1.pres m1.env) a2.st (by omega) w2 hlen
      rw [b1] at w1 b2 b3 b4 b5
      simp only [mapI, w1] at hst
      have m2 : Mid busy sc.length s ((instrs ei).length + 1) (St.adv { s1 with envs := E, cells := s1.cells ++ ws, res := .void }) :=
        m1.adv rfl (by simp only [St.adv, m1.pc]; omega) rfl rfl rfl rfl (b4.congr rfl rfl rfl)
      have hsc' : ScOK (loc.map (scopeBind · xs)) (scopeBind sc xs) (bindVals ρ σ1 xs us).1 (fun x => Free x body) := by
        have hsc := hpre.scok
        cases loc with
        | none =>
          intro x hx
          rw [scopeBind_eq]
          by_cases h : x ∈ xs
          · simp [h]
          · have := hsc x (.mvletB _ _ _ h hx)
            simp [this]
        | some L =>
          refine ⟨by rw [hsc.1], fun x hx => ?_⟩
          rw [scopeBind_eq] at hx
          simp only [List.mem_append, List.mem_reverse, not_or] at hx
          rw [bindVals_none hx.1]
          exact hsc.2 x hx.2
      have hslots2 : (St.adv { s1 with envs := E, cells := s1.cells ++ ws, res := .void }).slots = s1.slots := b5
      obtain ⟨s2, c1, c2⟩ := hE body (scopeBind sc xs) t busy n1 t1 bi n2 t2 (loc.map (scopeBind · xs)) _ _ vs σ'
        (St.adv { s1 with envs := E, cells := s1.cells ++ ws, res := .void }) items tm h2 hcl.2 hok.2 htb hev hh1.next hext
        ⟨hsc', by rw [hslots2, scopeBind_length]; omega, b2.congr rfl rfl, b3.congr rfl rfl rfl, m2.clean⟩
      refine ⟨s2, a1.trans (.step hst c1), (c2.mono (by rw [scopeBind_length]; omega)).after m2 ?_⟩
      simp only [instrs, instrs_append, List.length_cons, List.length_append]; omega
    · cases hev
  | mvvals es =>
    simp only [okE, Bool.and_eq_true, Bool.not_eq_true'] at hok
    simp only [hasClauses] at hcl
    rw [ev] at hev
    obtain ⟨hb, hok⟩ := hok
    subst hb
    exact hV es sc t nl tm0 is nl' tm1 loc ρ σ vs σ' s items tm hc hcl hok hev hh hext
      ⟨hpre.scok.mono (fun y ⟨e, h, h'⟩ => Free.mvvals _ e h h'), by have := hpre.slots; simpa only [boundVars] using this, hpre.fr, hpre.st, hpre.clean⟩

theorem sim {host : Host} {P : Prims} (e0 : Nat) (hP : host.prim = P.f MC) : ∀ (n : Nat),
    SimE host P e0 n ∧ SimB host P e0 n ∧ SimA host P e0 n ∧ SimV host P e0 n ∧ SimP host P e0 n
  | 0 => by
    refine ⟨?_, ?_, ?_, ?_, ?_⟩
    · intro e sc t busy nl tm0 is nl' tm1 loc ρ σ vs σ' s items tm _ _ _ _ hev
      simp [ev] at hev
    · intro e sc t busy nl tm0 is nl' tm1 loc ρ σ vs σ' s items tm _ _ _ _ hev
      simp [evBody] at hev
    · intro e sc nl tm0 is nl' tm1 loc ρ σ vs σ' s items tm _ _ _ hev
      simp [evArgs] at hev
    · intro e sc t nl tm0 is nl' tm1 loc ρ σ vs σ' s items tm _ _ _ hev
      simp [evArgs] at hev
    · intro f vs σ rs σ' s hap
      simp [applyR] at hap
  | n + 1 => by
    obtain ⟨hE, hB, hA, hV, hAp⟩ := sim e0 hP n
    exact ⟨simE_succ hE hB hA hV hAp, simB_succ hE hB, simA_succ hE hA, simV_succ hE hA, simP_succ hP hB hAp⟩

end Minim.Jit
