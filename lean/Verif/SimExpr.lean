import Verif.SimApply

set_option autoImplicit false

/-!
# Compiled code and reference semantics: expressions
-/

namespace Minim.Jit

open Minim.Sx Minim.Core

theorem compile_ext {e : E} {sc : Scope} {t : Bool} {n : Nat} {tm tm' : List Code} {is : List Item} {n' : Nat} (h : compile e sc t n tm = .ok (is, n', tm'))
    (hc : hasClauses e = true) : ∃ new, tm' = new ++ tm := by
  obtain ⟨o, h1, h2⟩ := compile_ok e sc t n tm hc
  rw [h] at h1; cases h1; exact h2.ext

theorem compileBody_ext {e : List E} {sc : Scope} {t : Bool} {n : Nat} {tm tm' : List Code} {is : List Item} {n' : Nat}
    (h : compileBody e sc t n tm = .ok (is, n', tm')) (hc : hasClausesL e = true) : ∃ new, tm' = new ++ tm := by
  obtain ⟨o, h1, h2⟩ := compileBody_ok e sc t n tm hc
  rw [h] at h1; cases h1; exact h2.ext

theorem compileArgs_ext {e : List E} {sc : Scope} {n : Nat} {tm tm' : List Code} {is : List Item} {n' : Nat}
    (h : compileArgs e sc n tm = .ok (is, n', tm')) (hc : hasClausesL e = true) : ∃ new, tm' = new ++ tm := by
  obtain ⟨o, h1, h2⟩ := compileArgs_ok e sc n tm hc
  rw [h] at h1; cases h1; exact h2.ext

theorem boundSeq_cons (e : E) (es : List E) :
    (boundVarsSeq (e :: es) []).1.length = (boundVars e []).1.length + (boundVarsSeq es []).1.length := by
  simp only [boundVarsSeq, List.length_append, boundVarsSeq_indep es (boundVars e []).2 []]

theorem simA_succ {host : Host} {P : Prims} {e0 n : Nat} (hE : SimE host P e0 n) (hA : SimA host P e0 n) : SimA host P e0 (n + 1) := by
  intro es sc nl tm0 is nl' tm1 loc ρ σ vs σ' s items tm hc hcl hok hev hh hext hpre
  cases es with
  | nil =>
    simp only [compileArgs, Res.ok.injEq, Prod.mk.injEq] at hc
    obtain ⟨rfl, rfl, rfl⟩ := hc
    simp only [evArgs, Res.ok.injEq, Prod.mk.injEq] at hev
    obtain ⟨rfl, rfl⟩ := hev
    exact ⟨s, [], .refl _, rfl, rfl, rfl, rfl, rfl, by simp, .nil, hpre.st, Pres.refl _ _⟩
  | cons e es =>
    simp only [hasClausesL, Bool.and_eq_true] at hcl
    simp only [okL, Bool.and_eq_true] at hok
    rw [compileArgs] at hc
    obtain ⟨⟨ei, n1, t1⟩, h1, hc⟩ := Res.bind_eq_ok.1 hc
    obtain ⟨⟨ri, n2, t2⟩, h2, hc⟩ := Res.bind_eq_ok.1 hc
    simp only [Res.ok.injEq, Prod.mk.injEq] at hc
    obtain ⟨rfl, rfl, rfl⟩ := hc
    rw [evArgs] at hev
    obtain ⟨⟨us, σ1⟩, v1, hev⟩ := Res.bind_eq_ok.1 hev
    obtain ⟨v, v2, hev⟩ := Res.bind_eq_ok.1 hev
    obtain ⟨⟨ws, σ2⟩, v3, hev⟩ := Res.bind_eq_ok.1 hev
    simp only [Res.ok.injEq, Prod.mk.injEq] at hev
    obtain ⟨rfl, rfl⟩ := hev
    have hb := boundSeq_cons e es
    obtain ⟨s1, a1, a2⟩ := hE e sc false true nl tm0 ei n1 t1 loc ρ σ us σ1 s items tm h1 hcl.1 hok.1 (by simp) v1 hh.left
      (ext_trans (compileArgs_ext h2 hcl.2) hext)
      ⟨hpre.scok.mono (fun x hx => ⟨e, by simp, hx⟩), by have := hpre.slots; omega, hpre.fr, hpre.st, by simp⟩
    have m1 := a2.mid rfl
    have hv := resRel_single a2.res v2
    have hh1 : Here items tm s1.code s1.pc (.ins .push :: ri) := by rw [m1.code, m1.pc]; exact hh.right
    have hst := hh1.step host
    simp only [mapI, St.exec, hv.force] at hst
    have hpre1 : Pre e0 loc sc ρ (fun x => ∃ e ∈ es, Free x e) σ1 true (boundVarsSeq es []).1.length (St.adv { s1 with args := s1.args ++ [s1.res] }) :=
      hpre.next m1.env (m1.pres.congr rfl rfl rfl) (a2.st.congr rfl rfl rfl) (fun x ⟨e', h, h'⟩ => ⟨e', List.mem_cons_of_mem _ h, h'⟩) (by omega) (by simp)
    obtain ⟨s2, us', b1, b2, b3, b4, b5, b6, b7, b8, b9, b10⟩ := hA es sc n1 t1 ri n2 t2 loc ρ σ1 ws σ2 _ items tm h2 hcl.2 hok.2 v3 hh1.next hext hpre1
    refine ⟨s2, s1.res :: us', a1.trans (.step hst b1), b2.trans m1.code, ?_, b4.trans m1.env, b5.trans m1.cont, b6.trans (m1.busyF rfl).2, ?_, .cons hv b8, b9, ?_⟩
    · rw [b3]; simp only [St.adv, m1.pc, instrs_append, instrs, List.length_append, List.length_cons]; omega
    · rw [b7]; simp [St.adv, (m1.busyF rfl).1]
    · exact m1.pres.trans (b10.congr rfl rfl rfl) m1.env

theorem simB_succ {host : Host} {P : Prims} {e0 n : Nat} (hE : SimE host P e0 n) (hB : SimB host P e0 n) : SimB host P e0 (n + 1) := by
  intro es sc t busy nl tm0 is nl' tm1 loc ρ σ vs σ' s items tm hc hcl hok htb hev hh hext hpre
  match es with
  | [] =>
    simp only [compileBody, Res.ok.injEq, Prod.mk.injEq] at hc
    obtain ⟨rfl, rfl, rfl⟩ := hc
    simp only [evBody, Res.ok.injEq, Prod.mk.injEq] at hev
    obtain ⟨rfl, rfl⟩ := hev
    have hst := hh.step host
    simp only [mapI, St.exec] at hst
    refine ⟨_, .one hst, Fin.tail (m := 1) ((Mid.refl hpre.clean).adv rfl rfl rfl rfl rfl rfl (Pres.of_eq rfl)) (resRel_one .void) (hpre.st.congr rfl rfl rfl) hh.next ?_⟩
    simp only [instrs, List.length_cons]; omega
  | [e] =>
    simp only [hasClausesL, Bool.and_eq_true] at hcl
    simp only [okL, Bool.and_eq_true] at hok
    simp only [compileBody] at hc
    rw [evBody] at hev
    have hb := boundSeq_cons e []
    exact hE e sc t busy nl tm0 is nl' tm1 loc ρ σ vs σ' s items tm hc hcl.1 hok.1 htb hev hh hext
      ⟨hpre.scok.mono (fun x hx => ⟨e, by simp, hx⟩), by have := hpre.slots; omega, hpre.fr, hpre.st, hpre.clean⟩
  | e :: e' :: es =>
    simp only [hasClausesL, Bool.and_eq_true] at hcl
    simp only [okL, Bool.and_eq_true] at hok
    have hcl2 : hasClausesL (e' :: es) = true := by simp only [hasClausesL, Bool.and_eq_true]; exact hcl.2
    have hok2 : okL busy loc (e' :: es) = true := by simp only [okL, Bool.and_eq_true]; exact hok.2
    rw [compileBody] at hc
    obtain ⟨⟨ei, n1, t1⟩, h1, hc⟩ := Res.bind_eq_ok.1 hc
    obtain ⟨⟨ri, n2, t2⟩, h2, hc⟩ := Res.bind_eq_ok.1 hc
    simp only [Res.ok.injEq, Prod.mk.injEq] at hc
    obtain ⟨rfl, rfl, rfl⟩ := hc
    rw [evBody] at hev
    obtain ⟨⟨us, σ1⟩, v1, hev⟩ := Res.bind_eq_ok.1 hev
    have hb := boundSeq_cons e (e' :: es)
    obtain ⟨s1, a1, a2⟩ := hE e sc false busy nl tm0 ei n1 t1 loc ρ σ us σ1 s items tm h1 hcl.1 hok.1 (by simp) v1 hh.left
      (ext_trans (compileBody_ext h2 hcl2) hext)
      ⟨hpre.scok.mono (fun x hx => ⟨e, by simp, hx⟩), by have := hpre.slots; omega, hpre.fr, hpre.st, hpre.clean⟩
    have m1 := a2.mid rfl
    have hpre1 : Pre e0 loc sc ρ (fun x => ∃ a ∈ e' :: es, Free x a) σ1 busy (boundVarsSeq (e' :: es) []).1.length s1 :=
      hpre.next m1.env m1.pres a2.st (fun x ⟨a, h, h'⟩ => ⟨a, List.mem_cons_of_mem _ h, h'⟩) (by omega) m1.clean
    obtain ⟨s2, b1, b2⟩ := hB (e' :: es) sc t busy n1 t1 ri n2 t2 loc ρ σ1 vs σ' s1 items tm h2 hcl2 hok2 htb hev (by rw [m1.code, m1.pc]; exact hh.right) hext hpre1
    exact ⟨s2, a1.trans b1, b2.after m1 (by rw [instrs_append, List.length_append])⟩

theorem simV_succ {host : Host} {P : Prims} {e0 n : Nat} (hE : SimE host P e0 n) (hA : SimA host P e0 n) : SimV host P e0 (n + 1) := by
  intro es sc t nl tm0 is nl' tm1 loc ρ σ vs σ' s items tm hc hcl hok hev hh hext hpre
  cases es with
  | nil =>
    simp only [compile, Res.ok.injEq, Prod.mk.injEq] at hc
    obtain ⟨rfl, rfl, rfl⟩ := hc
    simp only [evArgs, Res.ok.injEq, Prod.mk.injEq] at hev
    obtain ⟨rfl, rfl⟩ := hev
    have hst := hh.step host
    obtain ⟨r, u, h1, h2⟩ := exec_doValues (host := host) (e0 := e0) (s := s) (vs := []) (by rw [hpre.clean rfl]; exact .nil)
    simp only [mapI, h1] at hst
    refine ⟨_, .one hst, Fin.tail (m := 1) ((Mid.refl hpre.clean).adv rfl rfl rfl rfl rfl rfl (Pres.of_eq rfl)) h2 (hpre.st.congr rfl rfl rfl) hh.next ?_⟩
    simp only [instrs, List.length_cons]; omega
  | cons e es =>
    simp only [hasClausesL, Bool.and_eq_true] at hcl
    simp only [okV, Bool.and_eq_true] at hok
    simp only [compile] at hc
    obtain ⟨⟨ei, n1, t1⟩, h1, hc⟩ := Res.bind_eq_ok.1 hc
    obtain ⟨⟨ri, n2, t2⟩, h2, hc⟩ := Res.bind_eq_ok.1 hc
    simp only [Res.ok.injEq, Prod.mk.injEq] at hc
    obtain ⟨rfl, rfl, rfl⟩ := hc
    rw [evArgs] at hev
    obtain ⟨⟨us, σ1⟩, v1, hev⟩ := Res.bind_eq_ok.1 hev
    obtain ⟨v, v2, hev⟩ := Res.bind_eq_ok.1 hev
    obtain ⟨⟨ws, σ2⟩, v3, hev⟩ := Res.bind_eq_ok.1 hev
    simp only [Res.ok.injEq, Prod.mk.injEq] at hev
    obtain ⟨rfl, rfl⟩ := hev
    have hb := boundSeq_cons e es
    have hst0 := hh.step host
    simp only [mapI, St.exec] at hst0
    have m0 : Mid false sc.length s 1 s.adv := (Mid.refl hpre.clean).adv rfl rfl rfl rfl rfl rfl (Pres.of_eq rfl)
    have hh0 : Here items tm s.adv.code s.adv.pc (ei ++ .ins .push :: (ri ++ .ins .doValues :: .ins .clearFrame :: tailRet t)) := hh.next
    obtain ⟨s1, a1, a2⟩ := hE e sc false false nl tm0 ei n1 t1 loc ρ σ us σ1 s.adv items tm h1 hcl.1 hok.1 (by simp) v1 hh0.left
      (ext_trans (compileArgs_ext h2 hcl.2) hext)
      (hpre.next m0.env m0.pres (hpre.st.congr rfl rfl rfl) (fun x hx => ⟨e, by simp, hx⟩) (by omega) hpre.clean)
    have m1 := m0.trans (a2.mid rfl)
    have hv := resRel_single a2.res v2
    have hh1 : Here items tm s1.code s1.pc (.ins .push :: (ri ++ .ins .doValues :: .ins .clearFrame :: tailRet t)) := by
      rw [(a2.mid rfl).code, (a2.mid rfl).pc]; exact hh0.right
    have hst1 := hh1.step host
    simp only [mapI, St.exec, hv.force] at hst1
    have hpre1 : Pre e0 loc sc ρ (fun x => ∃ e ∈ es, Free x e) σ1 true (boundVarsSeq es []).1.length (St.adv { s1 with args := s1.args ++ [s1.res] }) :=
      hpre.next m1.env (m1.pres.congr rfl rfl rfl) (a2.st.congr rfl rfl rfl) (fun x ⟨e', h, h'⟩ => ⟨e', List.mem_cons_of_mem _ h, h'⟩) (by omega) (by simp)
    obtain ⟨s2, us', b1, b2, b3, b4, b5, b6, b7, b8, b9, b10⟩ := hA es sc n1 t1 ri n2 t2 loc ρ σ1 ws σ2 _ items tm h2 hcl.2 hok.2 v3 hh1.next.left hext hpre1
    have hh2 : Here items tm s2.code s2.pc (.ins .doValues :: .ins .clearFrame :: tailRet t) := by
      rw [b2, b3]; exact hh1.next.right
    have hargs2 : s2.args = s1.res :: us' := by
      rw [b7]; simp [St.adv, m1.clean rfl]
    obtain ⟨r, u, q1, q2⟩ := exec_doValues (host := host) (e0 := e0) (s := s2) (vs := v :: ws) (by rw [hargs2]; exact .cons hv b8)
    have hst2 := hh2.step host
    simp only [mapI, q1] at hst2
    have hh3 : Here items tm (St.adv { s2 with res := r, vals := u }).code (St.adv { s2 with res := r, vals := u }).pc (.ins .clearFrame :: tailRet t) := hh2.next
    have hst3 := hh3.step host
    simp only [mapI, St.exec] at hst3
    have hp2 : Pres sc.length s s2 := m1.pres.trans (b10.congr rfl rfl rfl) m1.env
    refine ⟨_, .step hst0 (a1.trans (.step hst1 (b1.trans (.step hst2 (.one hst3))))),
      Fin.tail (m := 1 + (instrs ei).length + 1 + (instrs ri).length + 2) ⟨b2.trans m1.code, ?_, b4.trans m1.env, b5.trans m1.cont, by simp, fun _ => rfl, hp2.congr rfl rfl rfl⟩
        (q2.congr rfl rfl) (b9.congr rfl rfl rfl) hh3.next ?_⟩
    · simp only [St.adv, b3, m1.pc]; omega
    · simp only [instrs, instrs_append, List.length_cons, List.length_append]; omega

end Minim.Jit
