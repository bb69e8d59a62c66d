import Verif.SimDefs

set_option autoImplicit false

/-!
# Compiled code and reference semantics: application
-/

namespace Minim.Jit

open Minim.Sx Minim.Core

theorem prefix_of_pres {k : Nat} {s s1 s' : St} {fr : List (Option Loc)} (h : Pres k s1 s') (h1 : s1.envs = s.envs ++ [fr]) (h2 : s1.env = s.envs.length) :
    ∃ new, s'.envs = s.envs ++ new := by
  refine ⟨s'.envs.drop s.envs.length, ?_⟩
  have ht : s'.envs.take s.envs.length = s.envs := by
    apply List.ext_getElem?
    intro i
    by_cases hi : i < s.envs.length
    · rw [List.getElem?_take_of_lt hi, h.others i (by rw [h1]; simp; omega) (by omega), h1, List.getElem?_append_left hi]
    · have hl := h.len
      rw [h1] at hl
      rw [List.getElem?_eq_none (by simp; omega), List.getElem?_eq_none (by omega)]
  conv => lhs; rw [← List.take_append_drop s.envs.length s'.envs, ht]

theorem params_rel {e0 : Nat} {f : Formals} {vs : List RV} {ws : List MV} (h : List.Forall₂ (VR e0) vs ws) :
    List.Forall₂ (VR e0) (params f vs) (params f ws) := by
  rw [params, params]
  split
  · exact Forall₂.append (Forall₂.take h _) (.cons (VRel.listV (Forall₂.drop h _)) .nil)
  · exact h

/-- The state after entering a clause corresponds to binding the parameters. -/
theorem entered_sim {e0 : Nat} {ρ : REnv} {σ : RS} {s : St} {fvs : List Sym} {f : Formals} {vs : List RV} {nb p : Nat} {v : MV} {cells : List (Option Loc)}
    (hs : SRel e0 σ s) (hv : List.Forall₂ (VR e0) vs s.args) (hacc : acceptsN f vs.length = true) (hc : cells = fvs.map (fun x => some (locOf e0 ρ x))) :
    FrRel e0 (bindVals ρ σ f.ids (params f vs)).1 (clauseScope fvs f)
        (s.entered p v (cells ++ newCells s.cells.length f.ids.length ++ List.replicate nb none) (params f s.args)) ∧
      SRel e0 (bindVals ρ σ f.ids (params f vs)).2
        (s.entered p v (cells ++ newCells s.cells.length f.ids.length ++ List.replicate nb none) (params f s.args)) := by
  have hsl : (scopeBind [] fvs).length = cells.length := by rw [scopeBind_length, hc]; simp
  generalize hs0 : ({ s with env := s.envs.length, envs := s.envs ++ [cells ++ List.replicate (f.ids.length + nb) none] } : St) = s0
  have hf0 : FrRel e0 ρ (scopeBind [] fvs) s0 := by
    intro x i hx
    have hg := scopeRef_get hx
    rw [scopeBind_eq, List.append_nil, List.reverse_reverse] at hg
    have hi : i < fvs.length := (List.getElem?_eq_some_iff.1 hg).1
    rw [← hs0]
    simp only [St.slot, List.getElem?_concat_length]
    rw [List.getElem?_append_left (by rw [hc]; simpa using hi), hc, List.getElem?_map, hg]
    rfl
  have hr0 : SRel e0 σ s0 := by rw [← hs0]; exact hs.congr rfl rfl rfl
  have hslots : (scopeBind [] fvs).length + f.ids.length ≤ s0.slots := by
    rw [hsl, ← hs0]; simp [St.slots]
  have hlen : (params f vs).length = f.ids.length := params_length hacc
  obtain ⟨E, h1, h2, h3, _, _⟩ := bindAll_sim f.ids hf0 hr0 hslots (params_rel hv) hlen
  have hlen' : (params f s.args).length = f.ids.length := by rw [← List.Forall₂.length_eq (params_rel (f := f) hv), hlen]
  have hb := bindEnvs_last s.envs f.ids.length cells s.cells.length nb
  have hE : s0.bindAll (scopeBind [] fvs).length (params f s.args) =
      { s with
        env := s.envs.length, envs := s.envs ++ [cells ++ newCells s.cells.length f.ids.length ++ List.replicate nb none]
        cells := s.cells ++ params f s.args } := by
    rw [bindAll_eq, hsl, hlen', ← hs0]
    simp only [hb]
  rw [hE] at h2 h3
  exact ⟨h2.congr rfl rfl, h3.congr rfl rfl rfl⟩

theorem select_accepts : ∀ {cs : List Cl} {n : Nat} {f : Formals} {body : List E}, select cs n = some (f, body) → acceptsN f n = true
  | [], _, _, _, h => by simp [select] at h
  | .mk g b :: cs, n, f, body, h => by
    rw [select] at h
    split at h
    next ha => simp only [Option.some.injEq, Prod.mk.injEq] at h; rw [← h.1]; exact ha
    · exact select_accepts h

theorem okC_mem : ∀ {cs : List Cl} {f : Formals} {body : List E}, okC cs = true → Cl.mk f body ∈ cs → okL false none body = true
  | [], _, _, _, h => by simp at h
  | .mk g b :: cs, f, body, h, hm => by
    simp only [okC, Bool.and_eq_true] at h
    rcases List.mem_cons.1 hm with h' | h'
    · cases h'; exact h.1
    · exact okC_mem h.2 h'

theorem hasClausesC_mem : ∀ {cs : List Cl} {f : Formals} {body : List E}, hasClausesC cs = true → Cl.mk f body ∈ cs → hasClausesL body = true
  | [], _, _, _, h => by simp at h
  | .mk g b :: cs, f, body, h, hm => by
    simp only [hasClausesC, Bool.and_eq_true] at h
    rcases List.mem_cons.1 hm with h' | h'
    · cases h'; exact h.1
    · exact hasClausesC_mem h.2 h'

theorem spread_eq {C : Type} : ∀ (v : V C) (vs : List (V C)), spread (v :: vs) = (unlist ((v :: vs).getLast (by simp))).map ((v :: vs).dropLast ++ ·)
  | v, [] => by simp [spread]
  | v, w :: vs => by
    rw [spread, spread_eq w vs]
    simp only [List.getLast_cons_cons, List.dropLast_cons_cons, List.cons_append]
    cases unlist ((w :: vs).getLast (by simp)) <;> rfl

theorem spread_rel {C C' : Type} {R : C → C' → Prop} : ∀ {vs : List (V C)} {ws : List (V C')} {as : List (V C)}, List.Forall₂ (VRel R) vs ws →
    spread vs = some as → ∃ bs, spread ws = some bs ∧ List.Forall₂ (VRel R) as bs
  | _, _, _, .nil, h => by simp [spread] at h
  | _, _, as, .cons (l₁ := []) h1 .nil, h => VRel.unlist h1 h
  | _, _, as, .cons (l₁ := v :: vs) h1 (.cons h2 h3), h => by
    rw [spread, Option.map_eq_some_iff] at h
    obtain ⟨bs, hb, rfl⟩ := h
    obtain ⟨cs, hc, hr⟩ := spread_rel (.cons h2 h3) hb
    exact ⟨_, by rw [spread, hc]; rfl, .cons h1 hr⟩

theorem simP_succ {host : Host} {P : Prims} {e0 n : Nat} (hP : host.prim = P.f MC) (hB : SimB host P e0 n) (hA : SimP host P e0 n) : SimP host P e0 (n + 1) := by
  intro f vs σ rs σ' s hap hf hargs hs
  have happ : ∀ {c : MC}, s.cp = .clo c → s.app = .next { s with code := c.code.ins, pc := 0, env := c.env } := by
    intro c h
    rw [St.app, h]
  have hlen := List.Forall₂.length_eq hargs
  match f, hap with
  | .clo (.clo ρ cs), hap =>
    rw [applyR] at hap
    obtain ⟨c, hc, hrel⟩ := hf.clo_inv
    cases hrel with
    | clo fvs bounds is l m tm tm' ar comp asm hcl ok fv fit cells =>
    split at hap
    · cases hap
    next f body hsel =>
    have hne : cs ≠ [] := by rintro rfl; simp [select] at hsel
    obtain ⟨o, ho, hok⟩ := compileClauses_ok cs fvs bounds none 0 tm hcl (by simp)
    rw [comp] at ho
    simp only [Res.ok.injEq] at ho
    subst ho
    have hwf := clauses_wf hne hok
    rw [assemble_ok tm' ar hwf] at asm
    simp only [Res.ok.injEq] at asm
    have hcode : c.code.ins = (instrs (is ++ [.lab l, .ins .doArityError])).map (mapI (labPos (is ++ [.lab l, .ins .doArityError])) (tref tm')) := by
      rw [← asm]; rfl
    have hh : Here (is ++ [.lab l, .ins .doArityError]) tm' c.code.ins 0 (is ++ [.lab l, .ins .doArityError]) :=
      ⟨hcode, hwf.nodup, [], [], by simp, rfl⟩
    have hcl' : c.cells.length = fvs.length := by rw [cells]; simp
    obtain ⟨hx, _⟩ := clauses_exec (host := host) hcl' cs bounds none 0 tm is l m tm' { s with code := c.code.ins, pc := 0, env := c.env } comp hcl (by simp) hh
      (by simp) hc fit
    simp only at hx
    rw [← hlen] at hx
    obtain ⟨v, nb, p, n', bi, m', ta, tb, j1, j2, j3, j4, j5, j6⟩ := hx f body hsel
    have hacc := select_accepts hsel
    have hs1 : SRel e0 σ { s with code := c.code.ins, pc := 0, env := c.env } := hs.congr rfl rfl rfl
    obtain ⟨k1, k2⟩ := entered_sim (p := p) (v := v) (nb := nb) (f := f) hs1 hargs hacc cells
    have hpre : Pre e0 none (clauseScope fvs f) (bindVals ρ σ f.ids (params f vs)).1 (fun x => ∃ e ∈ body, Free x e) (bindVals ρ σ f.ids (params f vs)).2
        false (boundVarsSeq body []).1.length (St.entered { s with code := c.code.ins, pc := 0, env := c.env } p v
          (c.cells ++ newCells s.cells.length f.ids.length ++ List.replicate nb none) (params f s.args)) := by
      refine ⟨?_, ?_, k1, k2, fun _ => rfl⟩
      · rintro x ⟨e, he, hfr⟩
        rw [clauseScope, scopeBind_eq, scopeBind_eq]
        rcases fv f body e x j3 he hfr with h | h <;> simp [h]
      · rw [clauseScope_length]
        simp [St.slots, St.entered, newCells, hcl']
        omega
    obtain ⟨s', q1, q2⟩ := hB body (clauseScope fvs f) true false n' ta bi m' tb none _ _ rs σ' _ _ tm' j1 (hasClausesC_mem hcl j3) (okC_mem ok j3) (fun _ => rfl)
      hap j6 j2 hpre
    refine ⟨_, s', happ hc, j5.trans q1, q2.ret rfl, q2.cont, q2.res, q2.st, ?_⟩
    exact prefix_of_pres (s := s) q2.pres rfl rfl
  | .clo (.prim p k), hap =>
    rw [applyR] at hap
    obtain ⟨c, hc, hrel⟩ := hf.clo_inv
    cases hrel with
    | prim code =>
    split at hap
    next hk =>
      split at hap
      · cases hap
      next v hv =>
        simp only [Res.ok.injEq, Prod.mk.injEq] at hap
        obtain ⟨rfl, rfl⟩ := hap
        have hpar := P.param (CloRel e0) p vs s.args hargs
        rw [hv] at hpar
        cases hw : P.f MC p s.args with
        | none => rw [hw] at hpar; exact hpar.elim
        | some w =>
          rw [hw] at hpar
          have hi : c.code.ins = [.mov .res .ac, .branchne k 4, .ccall p, .ret, .doArityError] := by rw [code]; rfl
          refine ⟨_, { s with code := c.code.ins, pc := 3, env := c.env, res := w }, happ hc, ?_, ?_, rfl, resRel_one hpar, hs.congr rfl rfl rfl, [], by simp⟩
          · rw [hi]
            refine .step (s' := { s with code := [.mov .res .ac, .branchne k 4, .ccall p, .ret, .doArityError], pc := 1, env := c.env, res := .num s.args.length }) rfl ?_
            refine .step (s' := { s with code := [.mov .res .ac, .branchne k 4, .ccall p, .ret, .doArityError], pc := 2, env := c.env, res := .num s.args.length }) ?_ ?_
            · simp only [step, List.getElem?_cons_succ, List.getElem?_cons_zero, St.exec]
              rw [if_neg (by omega)]; rfl
            · refine .one ?_
              simp only [step, List.getElem?_cons_succ, List.getElem?_cons_zero, St.exec, hP, hw]
              rw [if_neg (by omega)]; rfl
          · simp only [hi, List.getElem?_cons_succ, List.getElem?_cons_zero]
    · cases hap
  | .clo .values, hap =>
    simp only [applyR, Res.ok.injEq, Prod.mk.injEq] at hap
    obtain ⟨rfl, rfl⟩ := hap
    obtain ⟨c, hc, hrel⟩ := hf.clo_inv
    cases hrel with
    | values code =>
    have hi : c.code.ins = [.doValues, .ret] := by rw [code]; rfl
    obtain ⟨r, u, h1, h2⟩ := exec_doValues (host := host) (e0 := e0) (s := { s with code := c.code.ins, pc := 0, env := c.env }) hargs
    refine ⟨_, _, happ hc, .one (b := St.adv { s with code := c.code.ins, pc := 0, env := c.env, res := r, vals := u }) ?_, ?_, rfl, h2, hs.congr rfl rfl rfl, [],
      by simp [St.adv]⟩
    · rw [step, hi]
      simp only [List.getElem?_cons_zero]
      rw [hi] at h1
      rw [h1]
    · simp only [St.adv, hi, List.getElem?_cons_succ, List.getElem?_cons_zero]
  | .clo .cwv, hap =>
    obtain ⟨c, hc, hrel⟩ := hf.clo_inv
    nomatch hrel
  | .clo .apply, hap =>
    obtain ⟨c, hc, hrel⟩ := hf.clo_inv
    cases hrel with
    | apply code =>
    have hi : c.code.ins = [.mov .res .ac, .branchlt 2 4, .doApply, .ret, .doArityError] := by rw [code]; rfl
    match vs, hap with
    | [], hap => simp [applyR] at hap
    | [_], hap => simp [applyR] at hap
    | g :: v :: ws, hap =>
      simp only [applyR] at hap
      split at hap
      · cases hap
      next as has =>
        cases hargs' : s.args with
        | nil => rw [hargs'] at hargs; cases hargs
        | cons g' r =>
          cases r with
          | nil => rw [hargs'] at hargs; cases hargs with | cons _ h => cases h
          | cons v' ws' =>
            rw [hargs'] at hargs
            cases hargs with
            | cons hg hr =>
              obtain ⟨bs, hbs, hrel⟩ := spread_rel hr has
              rw [spread_eq, Option.map_eq_some_iff] at hbs
              obtain ⟨us, hus, rfl⟩ := hbs
              have hgc : ∃ gc, g = .clo gc := by
                cases n with
                | zero => simp [applyR] at hap
                | succ n =>
                  cases g with
                  | clo gc => exact ⟨gc, rfl⟩
                  | _ => simp [applyR] at hap
              obtain ⟨gc, rfl⟩ := hgc
              obtain ⟨gm, rfl, hgrel⟩ := hg.clo_inv
              obtain ⟨s1, s', a1, a2, a3, a4, a5, a6, new, a7⟩ := hA (.clo gc) as σ rs σ'
                { s with
                  code := [.mov .res .ac, .branchlt 2 4, .doApply, .ret, .doArityError], pc := 2, env := c.env, res := .num s.args.length
                  cp := .clo gm, args := (v' :: ws').dropLast ++ us } hap (.clo hgrel) hrel (hs.congr rfl rfl rfl)
              refine ⟨_, s', happ hc, ?_, a3, a4, a5, a6, new, a7⟩
              rw [hi]
              refine .step (s' := { s with code := [.mov .res .ac, .branchlt 2 4, .doApply, .ret, .doArityError], pc := 1, env := c.env, res := .num s.args.length }) rfl ?_
              refine .step (s' := { s with code := [.mov .res .ac, .branchlt 2 4, .doApply, .ret, .doArityError], pc := 2, env := c.env, res := .num s.args.length }) ?_ ?_
              · simp only [step, List.getElem?_cons_succ, List.getElem?_cons_zero, St.exec, hargs', List.length_cons]
                rw [if_neg (by omega)]; rfl
              · refine .step ?_ a2
                simp only [step, List.getElem?_cons_succ, List.getElem?_cons_zero, St.exec, hargs', hus]
                rw [hargs'] at a1
                exact a1
  | .null, hap | .sym _, hap | .lit _, hap | .other _, hap | .stx _, hap | .void, hap | .unbound, hap | .values, hap | .tenv _, hap | .num _, hap
  | .cell _, hap | .undef, hap | .cons _ _, hap => simp [applyR] at hap

end Minim.Jit
