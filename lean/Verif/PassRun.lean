import Verif.PassProps

set_option autoImplicit false

/-!
# From programs to machine runs (C82)

`load_file` (system.c:108-112) reads, checks and evaluates one form after the other.  Here: the optimised and compiled forms of a program, run one after the other on
the machine, yield the values the program has in the reference semantics.
-/

namespace Minim.Jit

open Minim.Sx Minim.Core

/-! ## Running code on the machine -/

/-- The state in which `eval_istream` starts to run code (eval.c:453-457): procedure and arguments reset, scratch registers not initialised. -/
def St.enter (s : St) (c : Code) : St := { s with code := c.ins, pc := 0, res := .undef, t0 := .undef, t1 := .undef, cp := .void, args := [] }

/-- The codes of the forms of a file run one after the other (system.c:108-112, eval.c:707-710); the environment register is restored at the end of each run
(eval.c:460, 676). -/
inductive Session (host : Host) : List Code → St → List MV → St → Prop where
  | nil (s : St) : Session host [] s [] s
  | cons {c : Code} {cs : List Code} {s s1 s2 s3 : St} {w : MV} {ws : List MV} : Steps host (s.enter c) s1 → step host s1 = .done w s2 →
    Session host cs { s2 with env := s.env } ws s3 → Session host (c :: cs) s (w :: ws) s3

/-! ## Specification -/

/-- Specification: the value of a variable or form as the machine shows it: equal data, procedures in the same places. -/
abbrev Obs : RV → MV → Prop := VRel fun _ _ => True

/-- Specification: the values of a form: one value, or a marker of multiple values. -/
def Shows (vs : List RV) (w : MV) : Prop := (∃ v, vs = [v] ∧ Obs v w) ∨ (vs.length ≠ 1 ∧ w = .values)

/-- Specification: the value of a top-level variable; an undefined variable has no cell or an unbound one. -/
def ObsG : Option RV → Option MV → Prop
  | none, w => w = none ∨ w = some .unbound
  | some v, some w => Obs v w
  | some _, none => False

/-- `(lambda (producer consumer) (call-with-values producer consumer))` (prelude.min:727-729), optimised. -/
def cwvClause (a b : Sym) : Cl := .mk (fixed [a, b]) [.mvcall (.app (.var a) []) (.var b)]

/-- `call-with-values` in the compiled system: the closure the prelude defines instead of the procedure of the reference semantics. -/
def boot (a b : Sym) (σ : RS) : RS := { σ with globs := fun x => if x = .callWithValues then some (.clo (.clo REnv.empty [cwvClause a b])) else σ.globs x }

/-- This is what the optimiser makes of the definition in the prelude. -/
theorem boot_prelude (n k : Nat) (a b : Nat) :
    optimise (n + 6) k [.define [.callWithValues] (.lam (fixed [.user a, .user b]) [.app (.var .callWithValues) [.var (.user a), .var (.user b)]])] =
      .ok [.define [.callWithValues] (.lam (fixed [.user a, .user b]) [.mvcall (.app (.var (.user a)) []) (.var (.user b))])] := rfl

section
variable {P : Prims} {host : Host}

theorem optimise_wf {con : Sym → Prop} {n k : Nat} {es es' : List E} (h : optimise n k es = .ok es') (hw : WfL (stdK con) IsGen es) (hs : SCL (stdK con) es) :
    WfL (stdK con) NoF es' := by
  simp only [optimise, Res.bind_eq_ok] at h
  obtain ⟨es1, h1, h2⟩ := h
  have t0 : TrL (stdK con) IsGen es (L0s k es).1 := L0s_tr (fun j => ⟨j, rfl⟩) es k hw
  have w0 := t0.wf (stdK_names _) hw
  have t1 := mapR_steps (L1_steps n) h1 (t0.sc hs)
  have w1 : WfL (stdK con) NoF es1 := by
    clear h1 h2
    induction t1 with
    | refl => exact w0
    | tail _ h ih => exact h.wf (stdK_names' _) ih
  have t2 : TrL (stdK con) NoF es1 es' := L2s_tr es1 h2
  exact t2.wf (stdK_names' _) w1

theorem session {e0 n : Nat} (hP : host.prim = P.f MC) : ∀ {es : List E} {codes : List Code} {σ σ1 : RS} {vss : List (List RV)} {s : St},
    (∀ e ∈ es, hasClauses e = true ∧ okE false (some []) e = true) → List.Forall₂ (fun e c => compileExpr e = .ok c) es codes → SRel e0 σ s → s.cont = [] →
    runs P n es σ = .ok (vss, σ1) →
    ∃ ws s1, Session host codes s ws s1 ∧ List.Forall₂ (fun vs w => (∃ v, vs = [v] ∧ VR e0 v w) ∨ (vs.length ≠ 1 ∧ w = .values)) vss ws ∧ SRel e0 σ1 s1 ∧ s1.cont = [] ∧ s1.env = s.env
  | _, _, σ, σ1, vss, s, _, .nil, hs, hc, h => by
    cases h
    exact ⟨[], s, .nil s, .nil, hs, hc, rfl⟩
  | e :: es, c :: cs, σ, σ1, vss, s, hok, .cons h1 h2, hs, hc, h => by
    rw [runs] at h
    simp only [Res.bind_eq_ok] at h
    obtain ⟨⟨vs, σa⟩, ha, ⟨wss, σb⟩, hb, h⟩ := h
    cases h
    have ho := hok e (by simp)
    obtain ⟨s1, a1, a2, a3, a4, _, a5⟩ := C52_value_partial P host hP e c ho.1 ho.2 h1 n σ σa vs ha (s.enter c) e0 (hs.congr rfl rfl rfl) rfl rfl rfl
    have hc1 : (s.enter c).cont = [] := hc
    rw [Resumes, hc1] at a5
    obtain ⟨ws, s2, b1, b2, b3, b4, b5⟩ := session hP (s := { s1 with env := s.env }) (fun e he => hok e (by simp [he])) h2 (a3.congr rfl rfl rfl) (a4.trans hc) hb
    refine ⟨s1.res :: ws, s2, .cons a1 a5 b1, .cons ?_ b2, b3, b4, b5⟩
    rcases a2 with h | ⟨h, h', _⟩
    · exact .inl h
    · exact .inr ⟨h, h'⟩

theorem boot_sr {K : Kn} {σ : RS} {a b : Sym} (hab : a ≠ b) (h : Initial σ) : SR K NoF [] σ (boot a b σ) := by
  have hs := h.sr (K := K) (F := NoF)
  refine ⟨hs.len, hs.nodup, by simp, by simp, ?_, h.values, h.cwv⟩
  intro x
  show ORel _ _ (if x = .callWithValues then _ else _)
  split
  · next hx => rw [hx, h.cwv]; exact .clo (.cwvClo (fun _ => id) hab)
  · exact hs.glob x

theorem Shows.of {e0 : Nat} {vs us : List RV} {w : MV} (h : List.Forall₂ SameV vs us) (h' : (∃ v, us = [v] ∧ VR e0 v w) ∨ (us.length ≠ 1 ∧ w = .values)) : Shows vs w := by
  rcases h' with ⟨v, rfl, hv⟩ | ⟨h1, h2⟩
  · cases h with
    | cons h t =>
      cases t
      exact .inl ⟨_, rfl, VRel.trans (R := SameC) (S := CloRel e0) (fun _ _ _ _ _ => trivial) h hv⟩
  · exact .inr ⟨by rw [h.length_eq]; exact h1, h2⟩

theorem ObsG.of {e0 : Nat} {v u : Option RV} {w : Option MV} (h : ORel SameV v u) (h' : GRel e0 u w) : ObsG v w := by
  match v, u, w, h, h' with
  | none, none, none, _, _ => exact .inl rfl
  | none, none, some .unbound, _, _ => exact .inr rfl
  | some _, some _, some _, h, h' => exact VRel.trans (R := SameC) (S := CloRel e0) (fun _ _ _ _ _ => trivial) h h'

theorem Shows.all {e0 : Nat} : ∀ {vss uss : List (List RV)} {ws : List MV}, List.Forall₂ (List.Forall₂ SameV) vss uss →
    List.Forall₂ (fun vs w => (∃ v, vs = [v] ∧ VR e0 v w) ∨ (vs.length ≠ 1 ∧ w = .values)) uss ws → List.Forall₂ Shows vss ws
  | _, _, _, .nil, .nil => .nil
  | _, _, _, .cons h t, .cons h' t' => .cons (.of h h') (Shows.all t t')

end

/-- C82 (partial).  Programs as in `C82_optimise_partial`, whose optimised forms satisfy the conditions of `C52_value_partial`: if the program ends without error in the
reference semantics, the machine that runs the compiled forms one after the other ends each without error, with the values of the source forms, and the top-level variables have the
values of those of the source program. -/
theorem C82_machine_partial (P : Prims) (host : Host) (hP : host.prim = P.f MC) (con : Sym → Prop) (n k : Nat) (es es' : List E) (codes : List Code)
    (h : optimise n k es = .ok es') (hw : WfL (stdK con) IsGen es) (hs : SCL (stdK con) es) (hok : ∀ e ∈ es', hasClauses e = true ∧ okE false (some []) e = true)
    (hc : List.Forall₂ (fun e c => compileExpr e = .ok c) es' codes) (a b : Sym) (hab : a ≠ b) (σ σ1 : RS) (hi : Initial σ) (s : St) (e0 : Nat) (hst : SRel e0 (boot a b σ) s)
    (hcont : s.cont = []) (m : Nat) (vss : List (List RV)) (hr : runs P m es σ = .ok (vss, σ1)) :
    ∃ ws s1, Session host codes s ws s1 ∧ List.Forall₂ Shows vss ws ∧ (∀ x, ObsG (σ1.globs x) (s1.globs e0 x)) ∧ s1.cont = [] ∧ s1.env = s.env := by
  obtain ⟨m1, us, σa, r1, v1, g1⟩ := C82_optimise_partial P con n k es es' h hw hs σ m vss σ1 hi hr
  have wf' := optimise_wf h hw hs
  obtain ⟨m2, us', σb, w2, r2, p2, v2⟩ := prog_step (stdK_names' con) r1 (TrL.refl _ _ es') wf' (boot_sr hab hi)
  obtain ⟨ws, s1, r3, v3, g3, c3, e3⟩ := session hP hok hc hst hcont r2
  refine ⟨ws, s1, r3, Shows.all (Forall₂.trans (R := List.Forall₂ SameV) (fun _ _ _ h h' => Forall₂.trans (R := SameV) (fun _ _ _ a b => SameV.trans a b) h h') v1 (v2.imp fun _ _ h => h.imp fun _ _ => VRel.mono fun _ _ => CR.same)) v3, fun x => ObsG.of (ORel.trans (R := SameV) (fun _ _ _ a b => SameV.trans a b) (g1 x) ?_) (g3.globs x), c3, e3⟩
  exact (p2.sr.glob x).mono fun _ _ => VRel.mono fun _ _ => CR.same

/-! ## Starting before the prelude's definition -/

/-- The optimised definition of `call-with-values` in the prelude (`boot_prelude`). -/
def cwvDef (a b : Sym) : E := .define [.callWithValues] (.lam (fixed [a, b]) [.mvcall (.app (.var a) []) (.var b)])

/-- The store before this definition. -/
def RS.pre (σ : RS) : RS := { σ with globs := fun x => if x = .callWithValues then none else σ.globs x }

theorem cwvDef_ev (P : Prims) (n : Nat) (a b : Sym) (σ : RS) : ev P (n + 2) REnv.empty (cwvDef a b) σ.pre = .ok ([.void], boot a b σ) := by
  have : (σ.pre).setGlobs [.callWithValues] [.clo (.clo REnv.empty [cwvClause a b])] = boot a b σ := by
    simp only [RS.setGlobs, RS.setGlob, RS.pre, boot, RS.mk.injEq, true_and]
    funext x
    by_cases h : x = .callWithValues <;> simp [h]
  simp only [cwvDef, ev, Res.ok_bind]
  rw [← this]
  rfl

/-- C82 (partial; missing as in `C82_machine_partial`).  The same for a machine that starts without `call-with-values` and first runs its definition from the prelude. -/
theorem C82_load_partial (P : Prims) (host : Host) (hP : host.prim = P.f MC) (con : Sym → Prop) (n k : Nat) (es es' : List E) (codes : List Code)
    (h : optimise n k es = .ok es') (hw : WfL (stdK con) IsGen es) (hs : SCL (stdK con) es) (hok : ∀ e ∈ es', hasClauses e = true ∧ okE false (some []) e = true)
    (hc : List.Forall₂ (fun e c => compileExpr e = .ok c) es' codes) (a b : Sym) (hab : a ≠ b) (code : Code) (hcode : compileExpr (cwvDef a b) = .ok code)
    (σ σ1 : RS) (hi : Initial σ) (s : St) (e0 : Nat) (hst : SRel e0 σ.pre s)
    (hcont : s.cont = []) (m : Nat) (vss : List (List RV)) (hr : runs P m es σ = .ok (vss, σ1)) :
    ∃ ws s1, Session host (code :: codes) s (.void :: ws) s1 ∧ List.Forall₂ Shows vss ws ∧ ∀ x, ObsG (σ1.globs x) (s1.globs e0 x) := by
  have hd : runs P 2 [cwvDef a b] σ.pre = .ok ([[.void]], boot a b σ) := by
    simp only [runs, cwvDef_ev P 0, Res.ok_bind]
  obtain ⟨ws0, s0, r0, v0, g0, c0, _⟩ := session (codes := [code]) hP (fun e he => by
    simp only [List.mem_singleton] at he
    rw [he]
    exact ⟨rfl, rfl⟩) (.cons hcode .nil) hst hcont hd
  obtain ⟨ws, s1, r1, v1, g1, _⟩ := C82_machine_partial P host hP con n k es es' codes h hw hs hok hc a b hab σ σ1 hi s0 e0 g0 c0 m vss hr
  refine ⟨ws, s1, ?_, v1, g1⟩
  cases v0 with
  | cons hv t =>
    cases t
    rcases hv with ⟨v, hv, hw⟩ | ⟨hv, _⟩
    · cases hv
      cases hw
      cases r0 with
      | cons q1 q2 q3 =>
        cases q3
        exact .cons q1 q2 r1
    · exact absurd rfl hv

/-! ## Examples -/

/-- Example: the machine before `call-with-values` is defined. -/
def passMGlobs : Sym → Option MV
  | .user 100 => some (.clo ⟨primCode 2 0, [], 0⟩)
  | .user 101 => some (.clo ⟨primCode 1 1, [], 0⟩)
  | .user 102 => some (.clo ⟨primCode 1 2, [], 0⟩)
  | .values => some (.clo ⟨valuesCode, [], 0⟩)
  | _ => none

theorem pass_rel (code : Code) : SRel 0 passStore.pre (start code passMGlobs) := by
  refine ⟨rfl, .nil, fun x => ?_⟩
  simp only [start, if_true, passStore, RS.pre]
  unfold passGlobs passMGlobs
  by_cases hx : x = .callWithValues
  · subst hx; trivial
  · rw [if_neg hx]
    split <;> first | exact .clo (.prim rfl) | exact .clo (.values rfl) | exact absurd rfl hx | (split <;> simp_all [GRel])

set_option maxRecDepth 10000 in
/-- The hypotheses of `C82_load_partial` hold for the program `passDemo`. -/
theorem passDemo_load : ∃ es' codes code, optimise 40 0 passDemo = .ok es' ∧ (∀ e ∈ es', hasClauses e = true ∧ okE false (some []) e = true) ∧
    List.Forall₂ (fun e c => compileExpr e = .ok c) es' codes ∧ compileExpr (cwvDef (.user 1) (.user 2)) = .ok code ∧ SRel 0 passStore.pre (start code passMGlobs) := by
  refine ⟨_, _, _, rfl, ?_, .cons rfl (.cons rfl .nil), rfl, pass_rel _⟩
  intro e he
  simp only [List.mem_cons, List.not_mem_nil, or_false] at he
  rcases he with rfl | rfl <;> exact ⟨rfl, rfl⟩

/-- So the second form of the program has the value `(1 . 3)` on the machine, too. -/
example : ∃ codes s s1, Session demoHost codes s [.void, .void, ofX (.cons (.lit (.const 1)) (.lit (.const 3)))] s1 := by
  have hr : ∃ σ1, runs demoPrims 40 passDemo passStore = .ok ([[.void], [ofX (.cons (.lit (.const 1)) (.lit (.const 3)))]], σ1) := ⟨_, rfl⟩
  obtain ⟨σ1, hr⟩ := hr
  obtain ⟨es', codes, code, h1, h2, h3, h4, _⟩ := passDemo_load
  obtain ⟨ws, s1, r, v, _⟩ := C82_load_partial demoPrims demoHost rfl _ 40 0 passDemo es' codes h1 passDemo_wf passDemo_sc h2 h3 (.user 1) (.user 2) (by simp) code h4
    passStore σ1 passStore_initial (start code passMGlobs) 0 (pass_rel _) rfl 40 _ hr
  refine ⟨code :: codes, start code passMGlobs, s1, ?_⟩
  cases v with
  | cons v1 t =>
    cases t with
    | cons v2 t =>
      cases t
      rcases v1 with ⟨_, hv, hw⟩ | ⟨hv, _⟩
      · cases hv
        cases hw
        rcases v2 with ⟨_, hv, hw⟩ | ⟨hv, _⟩
        · cases hv
          rw [VRel.ofX_eq (.cons (.lit (.const 1)) (.lit (.const 3))) hw] at r
          exact r
        · exact absurd rfl hv
      · exact absurd rfl hv

end Minim.Jit
