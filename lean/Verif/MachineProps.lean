import Verif.SimMain
import Verif.CompileProps

set_option autoImplicit false

/-!
# Properties of compiled code on the virtual machine (C51, C52, C76)
-/

namespace Minim.Jit

open Minim.Sx Minim.Core

/-! ## Runs of the machine -/

/-- Specification: the machine, started in `s`, reaches `s'`, where the next instruction ends the run with an error. -/
def Fails (h : Host) (s : St) : Prop := ∃ s', Steps h s s' ∧ step h s' = .err

/-- Specification: the run has undefined behaviour. -/
def Undef (h : Host) (s : St) : Prop := ∃ s', Steps h s s' ∧ step h s' = .ub

/-- Specification: the run ends with the value `v`. -/
def Returns (h : Host) (s : St) (v : MV) : Prop := ∃ s' s'', Steps h s s' ∧ step h s' = .done v s''

/-- At most `n` steps (for computing concrete runs). -/
def run (h : Host) : Nat → St → Ev
  | 0, s => .next s
  | n + 1, s =>
    match step h s with
    | .next s' => run h n s'
    | o => o

theorem run_step {h : Host} : ∀ {n : Nat} {s : St} {o : Ev}, run h n s = o → (∀ s', o ≠ .next s') → ∃ s', Steps h s s' ∧ step h s' = o
  | 0, s, o, h1, h2 => absurd h1.symm (h2 s)
  | n + 1, s, o, h1, h2 => by
    rw [run] at h1
    split at h1
    next s' hs =>
      obtain ⟨t, a, b⟩ := run_step h1 h2
      exact ⟨t, .step hs a, b⟩
    · exact ⟨s, .refl s, h1⟩

theorem fails_of_run {h : Host} {n : Nat} {s : St} (h1 : run h n s = .err) : Fails h s := run_step h1 (by simp)

theorem undef_of_run {h : Host} {n : Nat} {s : St} (h1 : run h n s = .ub) : Undef h s := run_step h1 (by simp)

theorem returns_of_run {h : Host} {n : Nat} {s s' : St} {v : MV} (h1 : run h n s = .done v s') : Returns h s v := by
  obtain ⟨t, a, b⟩ := run_step h1 (by simp)
  exact ⟨t, s', a, b⟩

/-- A run has only one outcome. -/
theorem steps_unique {h : Host} {s a b : St} (h1 : Steps h s a) (h2 : Steps h s b) (ha : ∀ x, step h a ≠ .next x) (hb : ∀ x, step h b ≠ .next x) : a = b := by
  induction h1 with
  | refl =>
    cases h2 with
    | refl => rfl
    | step h _ => exact absurd h (ha _)
  | step h1 _ ih =>
    cases h2 with
    | refl => exact absurd h1 (hb _)
    | step h2 h2' =>
      rw [h1] at h2
      cases h2
      exact ih h2' ha

/-! ## C51: calling procedures -/

/-- Specification: the machine is at the start of the code of a body, whose variables are those captured, then those of the parameter list. -/
def AtBody (s : St) (fvs : List Sym) (f : Formals) (body : List E) : Prop :=
  ∃ items tm n ta bi m tb, compileBody body (clauseScope fvs f) true n ta = .ok (bi, m, tb) ∧ Here items tm s.code s.pc bi

/-- Specification: what a call of a procedure with clauses `cs` has to do, `s0` being the state at the start of its code. -/
structure Dispatches (host : Host) (cs : List Cl) (fvs : List Sym) (c : MC) (s s0 : St) : Prop where
  enter : ∀ f body, select cs s.args.length = some (f, body) → ∃ s1, Steps host s0 s1 ∧ AtBody s1 fvs f body ∧ s1.args = [] ∧ s1.cont = s.cont ∧
    s1.globs = s.globs ∧ s1.tenv = s.tenv ∧ s1.cells = s.cells ++ params f s.args ∧ f.ids.length = (params f s.args).length ∧
    (∀ i l, c.cells[i]? = some l → s1.slot i = l) ∧
    (∀ i v, (params f s.args)[i]? = some v → ∃ l, s1.slot (fvs.length + i) = some l ∧ s1.read l = some v)
  fail : select cs s.args.length = none → Fails host s0

theorem dispatch_core {host : Host} {cs : List Cl} {fvs : List Sym} {bounds : List (List Sym)} {is : List Item} {l m : Nat} {tm tm' : List Code} {ar : Ar}
    {c : MC} {s : St} (comp : compileClauses cs fvs bounds none 0 tm = .ok (is, some l, m, tm'))
    (asm : assemble tm' (is ++ [.lab l, .ins .doArityError]) ar = .ok c.code) (hcl : hasClausesC cs = true) (fit : List.Forall₂ FitCl cs bounds)
    (hne : cs ≠ []) (hcells : c.cells.length = fvs.length) (hcp : s.cp = .clo c) :
    ∃ s0, s.app = .next s0 ∧ Dispatches host cs fvs c s s0 := by
  obtain ⟨o, ho, hok⟩ := compileClauses_ok cs fvs bounds none 0 tm hcl (by simp)
  rw [comp] at ho
  simp only [Res.ok.injEq] at ho
  subst ho
  have hwf := clauses_wf hne hok
  rw [assemble_ok tm' ar hwf] at asm
  simp only [Res.ok.injEq] at asm
  have hcode : c.code.ins = (instrs (is ++ [.lab l, .ins .doArityError])).map (mapI (labPos (is ++ [.lab l, .ins .doArityError])) (tref tm')) := by
    rw [← asm]; rfl
  have hh : Here (is ++ [.lab l, .ins .doArityError]) tm' c.code.ins 0 (is ++ [.lab l, .ins .doArityError]) :=
    ⟨hcode, hwf.nodup, [], [], by simp, rfl⟩
  obtain ⟨hx, hy⟩ := clauses_exec (host := host) hcells cs bounds none 0 tm is l m tm' { s with code := c.code.ins, pc := 0, env := c.env } comp hcl (by simp) hh
    (by simp) hcp fit
  refine ⟨{ s with code := c.code.ins, pc := 0, env := c.env }, by rw [St.app, hcp], fun f body hsel => ?_, hy⟩
  obtain ⟨v, nb, p, n', bi, m', ta, tb, j1, j2, j3, j4, j5, j6⟩ := hx f body hsel
  have hacc := select_accepts hsel
  have hpl := params_length (vs := s.args) hacc
  have henv : (St.entered { s with code := c.code.ins, pc := 0, env := c.env } p v
      (c.cells ++ newCells s.cells.length f.ids.length ++ List.replicate nb none) (params f s.args)).envs[s.envs.length]? =
      some (c.cells ++ newCells s.cells.length f.ids.length ++ List.replicate nb none) := by
    simp [St.entered]
  refine ⟨_, j5, ⟨_, _, _, _, _, _, _, j1, j6⟩, rfl, rfl, rfl, rfl, rfl, hpl.symm, ?_, ?_⟩
  · intro i l hl
    have hi : i < c.cells.length := (List.getElem?_eq_some_iff.1 hl).1
    rw [St.slot]
    show (match (St.entered _ p v _ _).envs[s.envs.length]? with | some f => (f[i]?).getD none | none => none) = l
    rw [henv]
    simp only [List.append_assoc]
    rw [List.getElem?_append_left hi, hl]; rfl
  · intro i w hw
    have hi : i < (params f s.args).length := (List.getElem?_eq_some_iff.1 hw).1
    refine ⟨.cell (s.cells.length + i), ?_, ?_⟩
    · rw [St.slot]
      show (match (St.entered _ p v _ _).envs[s.envs.length]? with | some f => (f[fvs.length + i]?).getD none | none => none) = _
      rw [henv]
      simp only [List.append_assoc]
      rw [List.getElem?_append_right (by omega), List.getElem?_append_left (by simp [newCells]; omega)]
      have : fvs.length + i - c.cells.length = i := by omega
      rw [this, newCells, List.getElem?_map, List.getElem?_range (by omega)]; rfl
    · simp only [St.read, St.entered]
      rw [List.getElem?_append_right (by omega)]
      simpa using hw

/-- C51.  Calling a procedure made by a `case-lambda` expression: the first clause that accepts the number of arguments is entered, its parameters (the required ones in
order, the other arguments as a list) are bound to the arguments behind the captured variables, and nothing else of the state changes; if no clause accepts
the number of arguments, an error is signalled. -/
theorem C51_case_lambda (host : Host) (cs : List Cl) (sc : Scope) (t : Bool) (n n' : Nat) (tm tm' : List Code) (is : List Item) (code : Code) (c : MC) (s : St)
    (hcl : hasClauses (.clam cs) = true) (hc : compile (.clam cs) sc t n tm = .ok (is, n', code :: tm')) (hcode : c.code = code)
    (hcells : c.cells.length = (freeVars (.clam cs) []).1.length) (hcp : s.cp = .clo c) :
    ∃ s0, s.app = .next s0 ∧ Dispatches host cs (freeVars (.clam cs) []).1 c s s0 := by
  simp only [hasClauses, Bool.and_eq_true] at hcl
  rw [compile] at hc
  obtain ⟨⟨bi, last, n1, t1⟩, h1, hc⟩ := Res.bind_eq_ok.1 hc
  simp only at hc h1
  split at hc
  · cases hc
  next l =>
    obtain ⟨code', h2, hc⟩ := Res.bind_eq_ok.1 hc
    simp only [Res.ok.injEq, Prod.mk.injEq, List.cons.injEq] at hc
    obtain ⟨rfl, rfl, rfl, rfl⟩ := hc
    refine dispatch_core h1 (by rw [hcode]; exact h2) hcl.2 (by rw [clauseBounds_clam]; exact fit_clauses cs) ?_ hcells hcp
    rintro rfl
    simp at hcl

/-- C51.  The same for `lambda`. -/
theorem C51_lambda (host : Host) (f : Formals) (body : List E) (sc : Scope) (t : Bool) (n n' : Nat) (tm tm' : List Code) (is : List Item) (code : Code) (c : MC)
    (s : St) (hcl : hasClauses (.lam f body) = true) (hc : compile (.lam f body) sc t n tm = .ok (is, n', code :: tm')) (hcode : c.code = code)
    (hcells : c.cells.length = (freeVars (.lam f body) []).1.length) (hcp : s.cp = .clo c) :
    ∃ s0, s.app = .next s0 ∧ Dispatches host [.mk f body] (freeVars (.lam f body) []).1 c s s0 := by
  simp only [hasClauses] at hcl
  rw [compile] at hc
  obtain ⟨⟨bi, n1, t1⟩, h1, hc⟩ := Res.bind_eq_ok.1 hc
  obtain ⟨code', h2, hc⟩ := Res.bind_eq_ok.1 hc
  simp only [Res.ok.injEq, Prod.mk.injEq, List.cons.injEq] at hc h2
  obtain ⟨rfl, rfl, rfl, rfl⟩ := hc
  rw [clauseBounds_lam] at h2
  refine dispatch_core (bounds := [f.ids ++ (boundVarsSeq body []).1]) (tm := tm) (m := n1) (l := 0) (ar := clausesArity [f])
    (is := clauseEntry none f 0 ++ clauseHead (freeVars (.lam f body) []).1.length (f.ids ++ (boundVarsSeq body []).1).length f ++ bi)
    ?_ (by rw [hcode]; exact h2) (by simp [hasClausesC, hcl]) (.cons ?_ .nil) (by simp) hcells hcp
  · simp only [compileClauses, Nat.zero_add, h1, Res.ok_bind, List.headD_cons, List.append_nil]
  · simp only [FitCl, List.length_append]; omega

/-- A machine about to run `code`, given the top-level variables (an example state). -/
def start (code : Code) (g : Sym → Option MV) : St :=
  { code := code.ins, pc := 0, res := .undef, t0 := .undef, t1 := .undef, cp := .void, args := [], env := 0, envs := [[]], cells := [],
    globs := fun e x => if e = 0 then g x else none, tenv := .tenv 0, vals := [], cont := [], handler := .lit .fls }

/-- `(case-lambda [(a) a] [(a b . r) (list z r)])`. -/
def clamEx : E := .clam [.mk ⟨[.user 1], none⟩ [.var (.user 1)],
  .mk ⟨[.user 1, .user 2], some (.user 3)⟩ [.app (.var (.user 100)) [.var (.user 101), .var (.user 3)]]]

/-- With four arguments the second clause is chosen, with none there is no clause. -/
example : ∃ is n' code tm', hasClauses clamEx = true ∧ compile clamEx [] true 0 [] = .ok (is, n', code :: tm') ∧
    (freeVars clamEx []).1.length = 2 ∧ ∃ c : MC, c.code = code ∧ c.cells.length = 2 :=
  ⟨_, _, _, _, rfl, rfl, rfl, ⟨_, [none, none], 0⟩, rfl, rfl⟩

example : (∃ f body, select [.mk ⟨[.user 1], none⟩ [.var (.user 1)], .mk ⟨[.user 1, .user 2], some (.user 3)⟩ [.unbound]] 4 = some (f, body) ∧
    params f [V.null, .void, .lit .fls, .lit .tru] = ([.null, .void, .cons (.lit .fls) (.cons (.lit .tru) .null)] : List MV)) ∧
    select [.mk ⟨[.user 1], none⟩ [.var (.user 1)], .mk ⟨[.user 1, .user 2], some (.user 3)⟩ [.unbound]] 0 = none :=
  ⟨⟨_, _, rfl, rfl⟩, rfl⟩

example : ∃ is n' code tm', hasClauses (.lam ⟨[.user 1], none⟩ [.var (.user 1)]) = true ∧
    compile (.lam ⟨[.user 1], none⟩ [.var (.user 1)]) [] true 0 [] = .ok (is, n', code :: tm') ∧
    (freeVars (.lam ⟨[.user 1], none⟩ [.var (.user 1)]) []).1.length = 0 := ⟨_, _, _, _, rfl, rfl, rfl⟩

/-! ## C52: compiled code computes the value of the expression -/

/-- The code of an expression, its items and templates. -/
theorem compileExpr_here {e : E} {code : Code} (h : hasClauses e = true) (hc : compileExpr e = .ok code) : ∃ is n tm,
    compile e [] true 0 [] = .ok (is, n, tm) ∧
    Here ((if (boundVars e []).1 = [] then [] else [.ins (.pushEnv (boundVars e []).1.length)]) ++ is) tm code.ins 0
      ((if (boundVars e []).1 = [] then [] else [.ins (.pushEnv (boundVars e []).1.length)]) ++ is) := by
  obtain ⟨⟨is, n, tm⟩, h1, o⟩ := compile_ok e [] true 0 [] h
  have hw : WellFormed ((if (boundVars e []).1 = [] then [] else [.ins (.pushEnv (boundVars e []).1.length)]) ++ is) tm.length := by
    obtain ⟨i, r, hr⟩ := o.head
    have hc := o.closed rfl
    have f := o.frag
    simp only at hr hc f
    have f' : Frag (Btw 0 n) tm.length [] ((if (boundVars e []).1 = [] then [] else [.ins (.pushEnv (boundVars e []).1.length)]) ++ is) := by
      split
      · exact f
      · exact f.cons (by simp [target]) (by simp [tmplOf])
    refine ⟨?_, ?_, f'.nodup, fun i hi l hl => (f'.jumps i hi l hl).elim id (by simp), f'.tmpls⟩
    · split
      · exact ⟨i, r, hr⟩
      · exact ⟨_, _, rfl⟩
    · split
      · exact hc
      · rw [hr] at hc ⊢; exact hc
  have ha := assemble_ok tm (.fix 0) hw
  simp only [compileExpr, h1, Res.ok_bind, ha, Res.ok.injEq] at hc
  refine ⟨is, n, tm, h1, ?_, hw.nodup, [], [], by simp, rfl⟩
  rw [← hc]; rfl

/-- Specification: no local variables. -/
def REnv.empty : REnv := fun _ => none

/-- Specification: what the machine does at the end of the code of an expression: the outermost code ends the run with the result; otherwise the frame that was
saved last is restored: its code at the place to continue, its environment, procedure and arguments. -/
def Resumes (host : Host) (s s' : St) : Prop :=
  match s.cont with
  | [] => step host s' = .done s'.res s'
  | f :: k => step host s' = .next { s' with code := f.code, pc := f.pc, env := f.env, cp := f.cp, args := f.args, cont := k }

theorem resumes_of_ret {host : Host} {s s' : St} (h : s'.code[s'.pc]? = some .ret) (hk : s'.cont = s.cont) : Resumes host s s' := by
  rw [Resumes]
  cases hc : s.cont with
  | nil => simp only [step, h, St.exec, hk, hc]
  | cons f k => simp only [step, h, St.exec, hk, hc]

/-- C52 (partial).  Let an expression evaluate to the values `vs` in the reference semantics, from a store related to the state of the machine.  Then its
bytecode, started in a frame without arguments, computes related values, leaves a related store and unchanged all other environments, and then returns to the frame that was saved last (or ends
the run).

Missing: expressions for which it is false (see the theorems `C52_negated…`), excluded by `okE`: multiple values made while arguments are waiting, assignment of top-level variables outside
procedures; C functions that call back, inspect procedures or have effects; errors and divergence of the reference semantics. -/
theorem C52_value_partial (P : Prims) (host : Host) (hP : host.prim = P.f MC) (e : E) (code : Code) (hcl : hasClauses e = true)
    (hok : okE false (some []) e = true) (hcomp : compileExpr e = .ok code) (n : Nat) (σ σ' : RS) (vs : List RV)
    (hev : ev P n REnv.empty e σ = .ok (vs, σ')) (s : St) (e0 : Nat) (hs : SRel e0 σ s) (hcode : s.code = code.ins) (hpc : s.pc = 0) (hargs : s.args = []) :
    ∃ s', Steps host s s' ∧ ResRel e0 vs s' ∧ SRel e0 σ' s' ∧ s'.cont = s.cont ∧ (∀ i, i < s.envs.length → i ≠ s.env → s'.envs[i]? = s.envs[i]?) ∧ Resumes host s s' := by
  obtain ⟨is, m, tm, h1, hh⟩ := compileExpr_here hcl hcomp
  obtain ⟨hE, _⟩ := sim e0 hP n
  by_cases hb : (boundVars e []).1 = []
  · rw [if_pos hb] at hh
    have hpre : Pre e0 (some []) [] REnv.empty (fun x => Free x e) σ false (boundVars e []).1.length s :=
      ⟨⟨rfl, fun _ _ => rfl⟩, by rw [hb]; exact Nat.zero_le _, fun x i hx => by simp [scopeRef] at hx, hs, fun _ => hargs⟩
    obtain ⟨s', a, b⟩ := hE e [] true false 0 [] is m tm (some []) REnv.empty σ vs σ' s _ tm h1 hcl hok (by simp) hev
      (by rw [hcode, hpc]; simpa using hh) ⟨[], rfl⟩ hpre
    exact ⟨s', a, b.res, b.st, b.cont, b.pres.others, resumes_of_ret (b.ret rfl) b.cont⟩
  · rw [if_neg hb] at hh
    have hh0 : Here ([.ins (.pushEnv (boundVars e []).1.length)] ++ is) tm s.code s.pc (.ins (.pushEnv (boundVars e []).1.length) :: is) := by
      rw [hcode, hpc]; exact hh
    have hst := hh0.step host
    simp only [mapI, St.exec] at hst
    generalize hs1 : St.adv { s with env := s.envs.length, envs := s.envs ++ [List.replicate (boundVars e []).1.length none] } = s1 at hst
    have e1 : s1.envs = s.envs ++ [List.replicate (boundVars e []).1.length none] := by rw [← hs1]; rfl
    have e2 : s1.env = s.envs.length := by rw [← hs1]; rfl
    have hpre : Pre e0 (some []) [] REnv.empty (fun x => Free x e) σ false (boundVars e []).1.length s1 := by
      refine ⟨⟨rfl, fun _ _ => rfl⟩, ?_, fun x i hx => by simp [scopeRef] at hx, hs.congr (by rw [← hs1]; rfl) (by rw [← hs1]; rfl) (by rw [← hs1]; rfl),
        fun _ => by rw [← hs1]; exact hargs⟩
      rw [St.slots, e1, e2]
      simp
    obtain ⟨s', a, b⟩ := hE e [] true false 0 [] is m tm (some []) REnv.empty σ vs σ' s1 _ tm h1 hcl hok (by simp) hev
      (by rw [← hs1]; exact hh0.next) ⟨[], rfl⟩ hpre
    have hk : s'.cont = s.cont := b.cont.trans (by rw [← hs1]; rfl)
    refine ⟨s', .step hst a, b.res, b.st, hk, fun i hi _ => ?_, resumes_of_ret (b.ret rfl) hk⟩
    rw [b.pres.others i (by rw [e1]; simp; omega) (by rw [e2]; omega), e1, List.getElem?_append_left hi]

theorem VRel.ofX_eq {C C' : Type} {R : C → C' → Prop} : ∀ (d : X) {w : V C'}, VRel R (Minim.Jit.ofX d) w → w = Minim.Jit.ofX d
  | .null, _, h => by cases h; rfl
  | .sym _, _, h => by cases h; rfl
  | .lit _, _, h => by cases h; rfl
  | .other _, _, h => by cases h; rfl
  | .cons a d, _, h => by
    cases h with
    | cons h1 h2 => rw [VRel.ofX_eq a h1, VRel.ofX_eq d h2]; rfl

/-- C52 (partial; missing as in `C52_value_partial`).  If an expression evaluates to a datum (made of pairs, symbols, numbers, ...), the run of its bytecode on an idle machine ends with exactly this
datum. -/
theorem C52_datum_partial (P : Prims) (host : Host) (hP : host.prim = P.f MC) (e : E) (code : Code) (hcl : hasClauses e = true)
    (hok : okE false (some []) e = true) (hcomp : compileExpr e = .ok code) (n : Nat) (σ σ' : RS) (d : X)
    (hev : ev P n REnv.empty e σ = .ok ([ofX d], σ')) (s : St) (e0 : Nat) (hs : SRel e0 σ s) (hcode : s.code = code.ins) (hpc : s.pc = 0) (hargs : s.args = [])
    (hcont : s.cont = []) : Returns host s (ofX d) := by
  obtain ⟨s', h1, h2, _, _, _, h3⟩ := C52_value_partial P host hP e code hcl hok hcomp n σ σ' _ hev s e0 hs hcode hpc hargs
  rw [Resumes, hcont] at h3
  refine ⟨s', s', h1, ?_⟩
  have : s'.res = ofX d := by
    rcases h2 with ⟨v, hv, h⟩ | ⟨h, _⟩
    · cases hv; exact VRel.ofX_eq d h
    · exact absurd rfl h
  rw [← this]; exact h3

/-- Example: the C functions `cons`, `car` and `null?`. -/
def demoPrims : Prims where
  f := fun _ p as =>
    match p with
    | 0 => match as with | [a, b] => some (.cons a b) | _ => none
    | 1 => match as with | [v] => (match v with | .cons a _ => some a | _ => none) | _ => none
    | 2 => match as with | [v] => (match v with | .null => some (.lit .tru) | _ => some (.lit .fls)) | _ => none
    | _ => none
  param := by
    intro C C' R p as bs h
    match p, as, bs, h with
    | 0, [a, b], [a', b'], .cons h1 (.cons h2 .nil) => exact .cons h1 h2
    | 1, [_], [_], .cons h1 .nil =>
      cases h1 with
      | cons h _ => exact h
      | _ => trivial
    | 2, [_], [_], .cons h1 .nil =>
      cases h1 with
      | null => exact .lit _
      | _ => exact .lit _
    | 0, [], [], .nil | 1, [], [], .nil | 2, [], [], .nil => trivial
    | 0, [_], [_], .cons _ .nil => trivial
    | 0, _ :: _ :: _ :: _, _ :: _ :: _ :: _, .cons _ (.cons _ (.cons _ _)) => trivial
    | 1, _ :: _ :: _, _ :: _ :: _, .cons _ (.cons _ _) | 2, _ :: _ :: _, _ :: _ :: _, .cons _ (.cons _ _) => trivial
    | _ + 3, _, _, _ => trivial

/-- Example: a machine with these functions (and a compiler for `eval` that knows only literals). -/
def demoHost : Host := ⟨demoPrims.f MC, fun v => match v with | .lit l => compileExpr (.lit l) | _ => .err⟩

/-- Example: top-level variables 100 = `cons`, 101 = `car`, 102 = `null?`, 103 = `values`, 104 = 7. -/
def demoGlobs : Sym → Option RV
  | .user 100 => some (.clo (.prim 0 2))
  | .user 101 => some (.clo (.prim 1 1))
  | .user 102 => some (.clo (.prim 2 1))
  | .user 103 => some (.clo .values)
  | .user 104 => some (.lit (.const 7))
  | _ => none

/-- Example: the same in the machine. -/
def demoMGlobs : Sym → Option MV
  | .user 100 => some (.clo ⟨primCode 2 0, [], 0⟩)
  | .user 101 => some (.clo ⟨primCode 1 1, [], 0⟩)
  | .user 102 => some (.clo ⟨primCode 1 2, [], 0⟩)
  | .user 103 => some (.clo ⟨valuesCode, [], 0⟩)
  | .user 104 => some (.lit (.const 7))
  | _ => none

theorem demo_rel (code : Code) : SRel 0 ⟨[], demoGlobs⟩ (start code demoMGlobs) := by
  refine ⟨rfl, .nil, fun x => ?_⟩
  simp only [start, if_true]
  unfold demoGlobs demoMGlobs
  split <;> first | exact .clo (.prim rfl) | exact .clo (.values rfl) | exact .lit _ | trivial

/-- `(mv-let (values 1 '(2)) (x l) (begin (set! x (cons x l)) ((case-lambda [(a) a] [(a . r) (cons seven (cons (if (null? l) a x) r))]) 3 4)))`:
several values, assignment of a captured variable, closures, clause selection, rest arguments, conditionals; the value is `(7 (1 2) 4)`. -/
def demo : E :=
  .mvlet (.mvvals [.lit (.const 1), .quote (.cons (.lit (.const 2)) .null)]) [.user 1, .user 2]
    (.begin [.set (.user 1) (.app (.var (.user 100)) [.var (.user 1), .var (.user 2)]),
      .app (.clam [.mk ⟨[.user 3], none⟩ [.var (.user 3)],
        .mk ⟨[.user 3], some (.user 4)⟩ [.app (.var (.user 100)) [.var (.user 104), .app (.var (.user 100))
          [.ite (.app (.var (.user 102)) [.var (.user 2)]) (.var (.user 3)) (.var (.user 1)), .var (.user 4)]]]])
        [.lit (.const 3), .lit (.const 4)]])

def demoValue : X :=
  .cons (.lit (.const 7)) (.cons (.cons (.lit (.const 1)) (.cons (.lit (.const 2)) .null)) (.cons (.lit (.const 4)) .null))

/-- The hypotheses of the theorems hold for this program. -/
example : ∃ code σ', hasClauses demo = true ∧ okE false (some []) demo = true ∧ compileExpr demo = .ok code ∧
    ev demoPrims 20 REnv.empty demo ⟨[], demoGlobs⟩ = .ok ([ofX demoValue], σ') ∧ SRel 0 ⟨[], demoGlobs⟩ (start code demoMGlobs) :=
  ⟨_, _, rfl, rfl, rfl, rfl, demo_rel _⟩

/-! ### Where compiled code goes wrong -/

/-- `(cons 0 (mv-let (mv-let 1 (x) (mv-values x x)) (a b) a))`, what remains of `(cons 0 (let-values ([(a b) (let ([x 1]) (values x x))]) a))`. -/
def badArg : E :=
  .app (.var (.user 100)) [.lit (.const 0), .mvlet (.mvlet (.lit (.const 1)) [.user 1] (.mvvals [.var (.user 1), .var (.user 1)])) [.user 2, .user 3] (.var (.user 2))]

/-- C52 fails: multiple values made while the arguments of a call are collected take the waiting arguments along: the value is the pair `(0 . 1)`, but the compiled
code signals an error about the number of values. -/
theorem C52_negated_values : ∃ code σ', hasClauses badArg = true ∧ compileExpr badArg = .ok code ∧
    ev demoPrims 20 REnv.empty badArg ⟨[], demoGlobs⟩ = .ok ([ofX (.cons (.lit (.const 0)) (.lit (.const 1)))], σ') ∧
    SRel 0 ⟨[], demoGlobs⟩ (start code demoMGlobs) ∧ Fails demoHost (start code demoMGlobs) :=
  ⟨_, _, rfl, rfl, rfl, demo_rel _, fails_of_run (n := 40) rfl⟩

/-- `(cons 0 (begin (mv-values 1 2) 3))`. -/
def badBegin : E := .app (.var (.user 100)) [.lit (.const 0), .begin [.mvvals [.lit (.const 1), .lit (.const 2)], .lit (.const 3)]]

/-- C52 fails: making multiple values clears the frame, so that the procedure to be called is lost and a null pointer is dereferenced. -/
theorem C52_negated_clear : ∃ code σ', hasClauses badBegin = true ∧ compileExpr badBegin = .ok code ∧
    ev demoPrims 20 REnv.empty badBegin ⟨[], demoGlobs⟩ = .ok ([ofX (.cons (.lit (.const 0)) (.lit (.const 3)))], σ') ∧
    SRel 0 ⟨[], demoGlobs⟩ (start code demoMGlobs) ∧ Undef demoHost (start code demoMGlobs) :=
  ⟨_, _, rfl, rfl, rfl, demo_rel _, undef_of_run (n := 40) rfl⟩

/-- C52 fails: an assignment of a top-level variable outside procedures has the new value as value, not void. -/
theorem C52_negated_set : ∃ code σ', compileExpr (.set (.user 104) (.lit (.const 8))) = .ok code ∧
    ev demoPrims 20 REnv.empty (.set (.user 104) (.lit (.const 8))) ⟨[], demoGlobs⟩ = .ok ([.void], σ') ∧
    SRel 0 ⟨[], demoGlobs⟩ (start code demoMGlobs) ∧ Returns demoHost (start code demoMGlobs) (.lit (.const 8)) :=
  ⟨_, _, rfl, rfl, demo_rel _, returns_of_run (n := 40) (s' := _) rfl⟩

/-- Assigning an undefined top-level variable is an error, but compiled code takes the `cdr` of `#f`. -/
theorem C52_negated_set_undefined : ∃ code, compileExpr (.set (.user 105) (.lit (.const 8))) = .ok code ∧
    ev demoPrims 20 REnv.empty (.set (.user 105) (.lit (.const 8))) ⟨[], demoGlobs⟩ = .err ∧
    SRel 0 ⟨[], demoGlobs⟩ (start code demoMGlobs) ∧ Undef demoHost (start code demoMGlobs) :=
  ⟨_, rfl, rfl, demo_rel _, undef_of_run (n := 40) rfl⟩

/-- A condition without values is an error, but compiled code takes the first branch. -/
theorem C52_negated_if : ∃ code, compileExpr (.ite (.mvvals []) (.lit (.const 1)) (.lit (.const 2))) = .ok code ∧
    ev demoPrims 20 REnv.empty (.ite (.mvvals []) (.lit (.const 1)) (.lit (.const 2))) ⟨[], demoGlobs⟩ = .err ∧
    SRel 0 ⟨[], demoGlobs⟩ (start code demoMGlobs) ∧ Returns demoHost (start code demoMGlobs) (.lit (.const 1)) :=
  ⟨_, rfl, rfl, demo_rel _, returns_of_run (n := 40) (s' := _) rfl⟩

/-! ## C76: `eval` and the top-level environment -/

/-- `compile_eval` (jitprims.c:99-156): labels 0 = `Larity2`, 1 = `Larity_err`, 2 = `Lpop_tenv`. -/
def evalItems : List Item :=
  [.ins (.mov .res .ac), .ins (.branchne 1 0),
   .ins (.getArg .res 0), .ins .doEval, .ins .clearFrame, .ins .setProc, .ins .apply,
   .lab 0, .ins (.branchne 2 1), .ins (.getArg .res 0), .ins (.getArg .t0 1), .ins (.getTenv .t1), .ins (.setArg 1 .t1),
   .ins (.setTenv .t0), .ins .doEval, .ins (.saveCC 2), .ins .setProc, .ins .apply,
   .lab 2, .ins (.getArg .t0 1), .ins (.setTenv .t0), .ins .ret,
   .lab 1, .ins .doArityError]

/-- `compile_eval` (jitprims.c:158-165): the code. -/
def evalCode : Code :=
  .mk [.mov .res .ac, .branchne 1 7, .getArg .res 0, .doEval, .clearFrame, .setProc, .apply,
    .branchne 2 20, .getArg .res 0, .getArg .t0 1, .getTenv .t1, .setArg 1 .t1, .setTenv .t0, .doEval, .saveCC 17, .setProc, .apply,
    .getArg .t0 1, .setTenv .t0, .ret, .doArityError] (.pair 1 (.pair 2 .null))

theorem evalCode_eq : assemble [] evalItems (.pair 1 (.pair 2 .null)) = .ok evalCode := rfl

/-- C76.  `eval` with one argument runs the code of the expression in the current top-level environment, as a tail call. -/
theorem C76_one_arg (host : Host) (s : St) (v : MV) (code : Code) (hcode : s.code = evalCode.ins) (hpc : s.pc = 0) (hargs : s.args = [v])
    (hcomp : host.comp v = .ok code) : ∃ s1, Steps host s s1 ∧ s1.code = code.ins ∧ s1.pc = 0 ∧ s1.args = [] ∧ s1.tenv = s.tenv ∧ s1.cont = s.cont ∧
      s1.cells = s.cells ∧ s1.globs = s.globs ∧ s1.envs = s.envs ++ [[]] ∧ s1.env = s.envs.length := by
  obtain ⟨code0, pc, res, t0, t1, cp, args, env, envs, cells, globs, tenv, vals, cont, handler⟩ := s
  simp only at hcode hpc hargs
  subst hcode hpc hargs
  refine ⟨_, .step rfl (.step rfl (.step rfl (.step (by simp only [step, evalCode, Code.ins, List.getElem?_cons_succ, List.getElem?_cons_zero, St.adv, St.exec, hcomp]; rfl)
    (.step rfl (.step rfl (.step rfl (.refl _))))))), ?_⟩
  exact ⟨rfl, rfl, rfl, rfl, rfl, rfl, rfl, rfl, rfl⟩

/-- The hypotheses hold for `(eval 5)`. -/
example : demoHost.comp (.lit (.const 5)) = .ok (.mk [.literal (.datum (.lit (.const 5))), .ret] (.fix 0)) ∧
    ({ start evalCode demoMGlobs with args := [.lit (.const 5)] } : St).args = [.lit (.const 5)] := ⟨rfl, rfl⟩

/-- C76 (partial; missing as in `C52_value_partial`).  `eval` with one argument returns the values of the expression to its caller. -/
theorem C76_value_partial (P : Prims) (host : Host) (hP : host.prim = P.f MC) (e : E) (code : Code) (hcl : hasClauses e = true)
    (hok : okE false (some []) e = true) (hcomp : compileExpr e = .ok code) (n : Nat) (σ σ' : RS) (vs : List RV)
    (hev : ev P n REnv.empty e σ = .ok (vs, σ')) (s : St) (e0 : Nat) (hs : SRel e0 σ s) (hcode : s.code = evalCode.ins) (hpc : s.pc = 0) (v : MV)
    (hargs : s.args = [v]) (hv : host.comp v = .ok code) :
    ∃ s', Steps host s s' ∧ ResRel e0 vs s' ∧ SRel e0 σ' s' ∧ s'.tenv = s.tenv ∧ s'.cont = s.cont ∧ Resumes host s s' := by
  obtain ⟨s1, a1, a2, a3, a4, a5, a6, a7, a8, _⟩ := C76_one_arg host s v code hcode hpc hargs hv
  obtain ⟨s', b1, b2, b3, b4, _, b6⟩ := C52_value_partial P host hP e code hcl hok hcomp n σ σ' vs hev s1 e0 (hs.congr a5 a7 a8) a2 a3 a4
  refine ⟨s', a1.trans b1, b2, b3, by rw [b3.tenv, hs.tenv], b4.trans a6, ?_⟩
  rw [Resumes, a6] at b6
  exact b6

/-- The frame `eval` saves while it evaluates in another environment: its second argument has been overwritten with the expression. -/
def evalFrame (s : St) (v : MV) : Frame := ⟨evalCode.ins, 17, s.env, s.cp, [v, v]⟩

/-- C76 (partial).  `eval` with two arguments runs the code of the expression with the second argument as top-level environment.  Missing: that afterwards the former
top-level environment is restored, which is false (`C76_negated`). -/
theorem C76_two_args_partial (host : Host) (s : St) (v w : MV) (code : Code) (hcode : s.code = evalCode.ins) (hpc : s.pc = 0) (hargs : s.args = [v, w])
    (hcomp : host.comp v = .ok code) : ∃ s1, Steps host s s1 ∧ s1.code = code.ins ∧ s1.pc = 0 ∧ s1.args = [] ∧ s1.tenv = w ∧
      s1.cont = evalFrame s v :: s.cont ∧ s1.cells = s.cells ∧ s1.globs = s.globs ∧ s1.envs = s.envs ++ [[]] ∧ s1.env = s.envs.length := by
  obtain ⟨code0, pc, res, t0, t1, cp, args, env, envs, cells, globs, tenv, vals, cont, handler⟩ := s
  simp only at hcode hpc hargs
  subst hcode hpc hargs
  refine ⟨_, .step rfl (.step rfl (.step rfl (.step rfl (.step rfl (.step rfl (.step rfl (.step rfl (.step
    (by simp only [step, evalCode, Code.ins, List.getElem?_cons_succ, List.getElem?_cons_zero, St.adv, St.exec, St.load, hcomp]; rfl)
    (.step rfl (.step rfl (.step rfl (.refl _)))))))))))), ?_⟩
  exact ⟨rfl, rfl, rfl, rfl, rfl, rfl, rfl, rfl, rfl⟩

/-- Other numbers of arguments are an error. -/
theorem C76_arity (host : Host) (s : St) (hcode : s.code = evalCode.ins) (hpc : s.pc = 0) (h1 : s.args.length ≠ 1) (h2 : s.args.length ≠ 2) : Fails host s := by
  obtain ⟨code0, pc, res, t0, t1, cp, args, env, envs, cells, globs, tenv, vals, cont, handler⟩ := s
  simp only at hcode hpc h1 h2
  subst hcode hpc
  refine ⟨_, .step rfl (.step (s' := ?_) ?_ (.step (s' := ?_) ?_ (.refl _))), ?_⟩
  rotate_left
  · simp only [step, evalCode, Code.ins, List.getElem?_cons_succ, List.getElem?_cons_zero, St.adv, St.exec, St.load, St.store]
    rw [if_pos h1]
  rotate_left
  · simp only [step, evalCode, Code.ins, List.getElem?_cons_succ, List.getElem?_cons_zero, St.exec]
    rw [if_pos h2]
  · rfl

/-- C76 fails, for every expression and environment: when the code of the expression returns (in any state whose saved frame is the one made by
`eval`), the top-level environment becomes the expression. -/
theorem C76_negated_general (host : Host) (s s' : St) (v : MV) (k : List Frame) (hk : s'.cont = evalFrame s v :: k) (hret : s'.code[s'.pc]? = some .ret) :
    ∃ s2, Steps host s' s2 ∧ s2.tenv = v ∧ s2.res = s'.res ∧ s2.cont = k ∧ s2.code[s2.pc]? = some .ret := by
  have h1 : step host s' = .next { s' with code := evalCode.ins, pc := 17, env := s.env, cp := s.cp, args := [v, v], cont := k } := by
    rw [step, hret]; simp only [St.exec, hk]; rfl
  refine ⟨_, .step h1 (.step rfl (.step rfl (.refl _))), rfl, rfl, rfl, rfl⟩

/-- C76 fails: `(eval 5 env)` in environment 0 returns 5, but leaves 5 as the top-level environment; looking up any top-level variable afterwards has undefined
behaviour. -/
theorem C76_negated : ∃ s s' : St, s.code = evalCode.ins ∧ s.pc = 0 ∧ s.args = [.lit (.const 5), .tenv 1] ∧ s.tenv = .tenv 0 ∧ s.cont = [] ∧
    Steps demoHost s s' ∧ step demoHost s' = .done (.lit (.const 5)) s' ∧ s'.tenv = .lit (.const 5) ∧ ∀ x, s'.exec demoHost (.tlLookup x) = .ub := by
  refine ⟨{ start evalCode demoMGlobs with args := [.lit (.const 5), .tenv 1] }, _, rfl, rfl, rfl, rfl, rfl,
    .step rfl (.step rfl (.step rfl (.step rfl (.step rfl (.step rfl (.step rfl (.step rfl (.step rfl (.step rfl (.step rfl (.step rfl
      (.step rfl (.step rfl (.step rfl (.step rfl (.refl _)))))))))))))))), rfl, rfl, fun _ => rfl⟩

end Minim.Jit
