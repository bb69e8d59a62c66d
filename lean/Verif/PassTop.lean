import Verif.PassRun

set_option autoImplicit false

/-!
# Assignments among the forms of a program (C52, C82)

prelude.min replaces the first versions of `error`, `errorf` and so on by `set!` at top level (prelude.min:2557-2622).  The machine leaves the new value as the value of such a form, not void
(`C52_negated_set`), but as a form of a program the assignment is otherwise right.
-/

namespace Minim.Jit

open Minim.Sx Minim.Core

/-- C52 (partial; missing as in `C52_value_partial`).  The assignment of a top-level variable as a form: the store is that of the reference semantics; the machine shows the new value. -/
theorem C52_assign_partial (P : Prims) (host : Host) (hP : host.prim = P.f MC) (x : Sym) (e : E) (code : Code) (hcl : hasClauses e = true)
    (hok : okE false (some []) e = true) (hcomp : compileExpr (.set x e) = .ok code) (n : Nat) (σ σ' : RS) (vs : List RV)
    (hev : ev P n REnv.empty (.set x e) σ = .ok (vs, σ')) (s : St) (e0 : Nat) (hs : SRel e0 σ s) (hcode : s.code = code.ins) (hpc : s.pc = 0) (hargs : s.args = []) :
    ∃ s', Steps host s s' ∧ vs = [.void] ∧ (∃ v, σ'.globs x = some v ∧ VR e0 v s'.res) ∧ SRel e0 σ' s' ∧ s'.cont = s.cont ∧ (∀ i, i < s.envs.length → i ≠ s.env → s'.envs[i]? = s.envs[i]?) ∧
      Resumes host s s' := by
  cases n with
  | zero => cases hev
  | succ n =>
  obtain ⟨is, m, tm, h1, hh⟩ := compileExpr_here (e := .set x e) hcl hcomp
  rw [ev] at hev
  obtain ⟨⟨us, σ1⟩, v1, hev⟩ := Res.bind_eq_ok.1 hev
  obtain ⟨v, v2, hev⟩ := Res.bind_eq_ok.1 hev
  obtain ⟨σ2, v3, hev⟩ := Res.bind_eq_ok.1 hev
  simp only [Res.ok.injEq, Prod.mk.injEq] at hev
  obtain ⟨rfl, rfl⟩ := hev
  rw [compile] at h1
  obtain ⟨⟨ei, n1, t1⟩, h2, h1⟩ := Res.bind_eq_ok.1 h1
  simp only [Res.ok.injEq, Prod.mk.injEq] at h1
  obtain ⟨rfl, rfl, rfl⟩ := h1
  have hbv : (boundVars (.set x e) []).1 = (boundVars e []).1 := rfl
  rw [hbv] at hh
  have hx : scopeRef [] x = none := rfl
  rw [hx] at hh
  simp only [] at hh
  have main : ∀ (items : List Item) (s1 : St), Here items t1 s1.code s1.pc (ei ++ .ins (.tlRebind x) :: tailRet true) → Pre e0 (some []) [] REnv.empty (fun x => Free x e) σ false (boundVars e []).1.length s1 →
      ∃ s', Steps host s1 s' ∧ (∃ v, σ2.globs x = some v ∧ VR e0 v s'.res) ∧ SRel e0 σ2 s' ∧ s'.cont = s1.cont ∧ Pres 0 s1 s' ∧ s'.code[s'.pc]? = some .ret := by
    intro items s1 hh hpre
    obtain ⟨s2, a, b⟩ := (sim e0 hP n).1 e [] false false 0 [] ei n1 t1 (some []) REnv.empty σ us σ1 s1 items t1 h2 hcl hok (by simp) v1 hh.left ⟨[], by simp⟩ hpre
    have m1 := b.mid rfl
    have hh1 : Here items t1 s2.code s2.pc (.ins (.tlRebind x) :: tailRet true) := by rw [m1.code, m1.pc]; exact hh.right
    have hst := hh1.step host
    have hv := resRel_single b.res v2
    rw [assignR] at v3
    simp only [REnv.empty] at v3
    split at v3
    · cases v3
    rename_i u hu
    cases v3
    have hg := b.st.globs x
    rw [hu] at hg
    obtain ⟨w, hw⟩ : ∃ w, s2.globs e0 x = some w := by
      cases h : s2.globs e0 x with
      | none => rw [h] at hg; exact hg.elim
      | some w => exact ⟨w, rfl⟩
    simp only [mapI, St.exec, b.st.tenv, hw] at hst
    refine ⟨_, a.trans (.one hst), ⟨v, ?_, hv⟩, (setGlob_sim b.st hv).congr b.st.tenv.symm rfl rfl, b.cont, b.pres.congr rfl rfl rfl, ?_⟩
    · simp [RS.setGlob]
    · have := hh1.next
      rw [tailRet, if_pos rfl] at this
      exact this.fetch
  by_cases hb : (boundVars e []).1 = []
  · rw [if_pos hb] at hh
    have hpre : Pre e0 (some []) [] REnv.empty (fun x => Free x e) σ false (boundVars e []).1.length s :=
      ⟨⟨rfl, fun _ _ => rfl⟩, by rw [hb]; exact Nat.zero_le _, fun x i hx => by simp [scopeRef] at hx, hs, fun _ => hargs⟩
    obtain ⟨s', a, b, c, d, f, g⟩ := main _ s (by rw [hcode, hpc]; simpa using hh) hpre
    exact ⟨s', a, rfl, b, c, d, f.others, resumes_of_ret g d⟩
  · rw [if_neg hb] at hh
    have hh0 : Here ([.ins (.pushEnv (boundVars e []).1.length)] ++ (ei ++ .ins (.tlRebind x) :: tailRet true)) t1 s.code s.pc (.ins (.pushEnv (boundVars e []).1.length) :: (ei ++ .ins (.tlRebind x) :: tailRet true)) := by
      rw [hcode, hpc]; exact hh
    have hst := hh0.step host
    simp only [mapI, St.exec] at hst
    generalize hs1 : St.adv { s with env := s.envs.length, envs := s.envs ++ [List.replicate (boundVars e []).1.length none] } = s1 at hst
    have e1 : s1.envs = s.envs ++ [List.replicate (boundVars e []).1.length none] := by rw [← hs1]; rfl
    have e2 : s1.env = s.envs.length := by rw [← hs1]; rfl
    have hpre : Pre e0 (some []) [] REnv.empty (fun x => Free x e) σ false (boundVars e []).1.length s1 := by
      refine ⟨⟨rfl, fun _ _ => rfl⟩, ?_, fun x i hx => by simp [scopeRef] at hx, hs.congr (by rw [← hs1]; rfl) (by rw [← hs1]; rfl) (by rw [← hs1]; rfl),
        fun _ => by rw [← hs1]; exact hargs⟩
      rw [St.slots, e1, e2]
      simp
    obtain ⟨s', a, b, c, d, f, g⟩ := main _ s1 (by rw [← hs1]; exact hh0.next) hpre
    have hk : s'.cont = s.cont := d.trans (by rw [← hs1]; rfl)
    refine ⟨s', .step hst a, rfl, b, c, hk, fun i hi _ => ?_, resumes_of_ret g hk⟩
    rw [f.others i (by rw [e1]; simp; omega) (by rw [e2]; omega), e1, List.getElem?_append_left hi]

/-- The theorem is not vacuous: `(set! x 8)` where `x` is defined. -/
example : ∃ code s', compileExpr (.set (.user 104) (.lit (.const 8))) = .ok code ∧ Steps demoHost (start code demoMGlobs) s' ∧ s'.res = .lit (.const 8) ∧ s'.globs 0 (.user 104) = some (.lit (.const 8)) := by
  obtain ⟨code, hc⟩ : ∃ code, compileExpr (.set (.user 104) (.lit (.const 8))) = .ok code := ⟨_, rfl⟩
  obtain ⟨s', h1, _, ⟨v, h2, h3⟩, h4, _⟩ := C52_assign_partial demoPrims demoHost rfl (.user 104) (.lit (.const 8)) code rfl rfl hc 20 ⟨[], demoGlobs⟩ _ _ rfl (start code demoMGlobs) 0 (demo_rel _) rfl rfl rfl
  refine ⟨code, s', hc, h1, ?_, ?_⟩
  · simp [RS.setGlob] at h2
    subst h2
    generalize s'.res = r at h3 ⊢
    cases h3
    rfl
  · have := h4.globs (.user 104)
    revert this
    cases s'.globs 0 (.user 104) with
    | none => simp [RS.setGlob, GRel]
    | some w =>
      simp only [RS.setGlob, if_true, GRel, Option.some.injEq]
      intro h
      cases h
      rfl

/-- Specification: the forms covered: as in `C52_value_partial`, or the assignment of a top-level variable. -/
def okTop : E → Bool
  | .set _ e => hasClauses e && okE false (some []) e
  | e => hasClauses e && okE false (some []) e

/-- Specification: is the form an assignment? -/
def isSet : E → Bool
  | .set _ _ => true
  | _ => false

section
variable {P : Prims} {host : Host}

theorem session_top {e0 n : Nat} (hP : host.prim = P.f MC) : ∀ {es : List E} {codes : List Code} {σ σ1 : RS} {vss : List (List RV)} {s : St},
    (∀ e ∈ es, okTop e = true) → List.Forall₂ (fun e c => compileExpr e = .ok c) es codes → SRel e0 σ s → s.cont = [] → runs P n es σ = .ok (vss, σ1) →
    ∃ ws s1, Session host codes s ws s1 ∧ List.Forall₂ (fun p w => isSet p.1 = true ∨ (∃ v, p.2 = [v] ∧ VR e0 v w) ∨ (p.2.length ≠ 1 ∧ w = .values)) (es.zip vss) ws ∧ vss.length = es.length ∧
      SRel e0 σ1 s1 ∧ s1.cont = [] ∧ s1.env = s.env
  | _, _, σ, σ1, vss, s, _, .nil, hs, hc, h => by
    cases h
    exact ⟨[], s, .nil s, .nil, rfl, hs, hc, rfl⟩
  | e :: es, c :: cs, σ, σ1, vss, s, hok, .cons h1 h2, hs, hc, h => by
    rw [runs] at h
    simp only [Res.bind_eq_ok] at h
    obtain ⟨⟨vs, σa⟩, ha, ⟨wss, σb⟩, hb, h⟩ := h
    cases h
    have ho := hok e (by simp)
    have hc1 : (s.enter c).cont = [] := hc
    have key : ∃ s1, Steps host (s.enter c) s1 ∧ (isSet e = true ∨ (∃ v, vs = [v] ∧ VR e0 v s1.res) ∨ (vs.length ≠ 1 ∧ s1.res = .values)) ∧ SRel e0 σa s1 ∧ s1.cont = [] ∧ step host s1 = .done s1.res s1 := by
      by_cases hset : isSet e = true
      · obtain ⟨x, e', rfl⟩ : ∃ x e', e = .set x e' := by cases e <;> first | exact ⟨_, _, rfl⟩ | cases hset
        simp only [okTop, Bool.and_eq_true] at ho
        obtain ⟨s1, a1, _, _, a3, a4, _, a5⟩ := C52_assign_partial P host hP x e' c ho.1 ho.2 h1 n σ σa vs ha (s.enter c) e0 (hs.congr rfl rfl rfl) rfl rfl rfl
        rw [Resumes, hc1] at a5
        exact ⟨s1, a1, .inl rfl, a3, a4.trans hc, a5⟩
      · have ho' : hasClauses e = true ∧ okE false (some []) e = true := by
          cases e <;> first | simpa [okTop] using ho | exact absurd rfl hset
        obtain ⟨s1, a1, a2, a3, a4, _, a5⟩ := C52_value_partial P host hP e c ho'.1 ho'.2 h1 n σ σa vs ha (s.enter c) e0 (hs.congr rfl rfl rfl) rfl rfl rfl
        rw [Resumes, hc1] at a5
        refine ⟨s1, a1, .inr ?_, a3, a4.trans hc, a5⟩
        rcases a2 with h | ⟨h, h', _⟩
        · exact .inl h
        · exact .inr ⟨h, h'⟩
    obtain ⟨s1, a1, a2, a3, a4, a5⟩ := key
    obtain ⟨ws, s2, b1, b2, b3, b4, b5, b6⟩ := session_top hP (s := { s1 with env := s.env }) (fun e he => hok e (by simp [he])) h2 (a3.congr rfl rfl rfl) a4 hb
    exact ⟨s1.res :: ws, s2, .cons a1 a5 b1, .cons a2 b2, by simp [b3], b4, b5, b6⟩

end

end Minim.Jit
