import Verif.SxCaseMac

set_option autoImplicit false

/-!
# C98: `do`

Model of library/private/do.min: the rule of `do` as a pattern and a template, expanded by the models of `syntax-case` and `syntax`, and an evaluator for the named `let` (let.min:40-58) that it
expands to.

Simplifications: the closure made by the named `let` is a value `clo` that is different from all others; the operands of a call are evaluated from left to right.
-/

namespace Minim.Sc.DoM

open CaseM

abbrev kwDo : Nm := .user 120
abbrev kwLoop : Nm := .user 121
abbrev pVar : Nm := .user 10
abbrev pInit : Nm := .user 11
abbrev pStep : Nm := .user 12
abbrev pTest : Nm := .user 13
abbrev pExpr : Nm := .user 14
abbrev pCmd : Nm := .user 15

/-- `[var init step]` -/
def pBind : Pat := .cons (.var pVar) (.cons (.var pInit) (.cons (.var pStep) .nil))

/-- The rule of `do` (do.min:10-20). -/
def doRules : List Rule := [
  ⟨.cons .wild (.cons (.ell pBind .nil) (.cons (.cons (.var pTest) (.ell (.var pExpr) .nil)) (.ell (.var pCmd) .nil))),
    tl [tc kwLet, tc kwLoop, .ell (tl [.var pVar, .var pInit]) .nil,
      tl [tc kwIf, .var pTest, .cons (tc kwBegin) (.ell (.var pExpr) .nil), .cons (tc kwBegin) (.ell (.var pCmd) (tl [.cons (tc kwLoop) (.ell (.var pStep) .nil)]))]]⟩]

/-- A variable with initial value and step. -/
structure Bd where
  x : Nm
  init : V
  step : V

/-- `[var init step]` as a datum -/
def Bd.dat (b : Bd) : V := listV [.sym b.x, b.init, b.step]

/-- `(do ([var init step] ...) (test expr ...) command ...)` -/
def doForm (bs : List Bd) (test : V) (res cmds : List V) : V := .cons (.sym kwDo) (.cons (listV (bs.map Bd.dat)) (.cons (.cons test (listV res)) (listV cmds)))

/-- `(if test (begin expr ...) (begin command ... (loop step ...)))` -/
def bodyOf (bs : List Bd) (test : V) (res cmds : List V) : V :=
  listV [.sym kwIf, test, .cons (.sym kwBegin) (listV res), .cons (.sym kwBegin) (appV cmds (listV [.cons (.sym kwLoop) (listV (bs.map Bd.step))]))]

/-- `(let loop ([var init] ...) body)` -/
def letForm (bs : List Bd) (body : V) : V := listV [.sym kwLet, .sym kwLoop, listV (bs.map fun b => listV [.sym b.x, b.init]), body]

def Bd.Pure (b : Bd) : Prop := Sc.Pure b.init ∧ Sc.Pure b.step

theorem doRules_wf : ∀ r ∈ doRules, r.WF [] := by
  simp [doRules, pBind, tl, Rule.WF, Sc.WF, TWF, Pat.isVec, Pat.hasEll, Pat.names, Pat.vars, Pat.depth, Tm.last, Tm.names, Tm.ends, isAtom, List.lookup, user_beq]

theorem doRules_calm (a b : V) : ∀ r ∈ doRules, Calm .head r.pat (.cons a b) := by
  simp [doRules, pBind, Calm, CalmAfter]

/-- what the variables of a binding stand for -/
def Bd.asg (b : Bd) : Nm → BV := Sc.asg [(pVar, .leaf (.sym b.x)), (pInit, .leaf b.init), (pStep, .leaf b.step)]

theorem Bd.m (b : Bd) : M pBind b.dat b.asg := ⟨_, _, rfl, rfl, _, _, rfl, rfl, _, _, rfl, rfl, rfl⟩

theorem Bd.i (b : Bd) : I (tl [.var pVar, .var pInit]) b.asg (listV [.sym b.x, b.init]) := ⟨_, _, rfl, rfl, _, _, rfl, rfl, rfl⟩

/-- The expansion of `do`. -/
theorem do_expand (bs : List Bd) (test : V) (res cmds : List V) (hp : Pure (doForm bs test res cmds)) :
    expandBy [] doRules (doForm bs test res cmds) = .ok (letForm bs (bodyOf bs test res cmds)) := by
  refine expandBy_take [] _ _ doRules_wf hp (doRules_calm _ _) (by simp) (σ := asg [(pVar, .many (bs.map fun b => b.asg pVar)), (pInit, .many (bs.map fun b => b.asg pInit)),
    (pStep, .many ((bs.map Bd.step).map .leaf)), (pTest, .leaf test), (pExpr, .many (res.map .leaf)), (pCmd, .many (cmds.map .leaf))]) ?_ ?_
  · refine ⟨_, _, rfl, trivial, _, _, rfl, ?_, _, _, rfl, ⟨_, _, rfl, rfl, M_seq rfl⟩, M_seq rfl⟩
    rw [← appV_null]
    refine M_rows (τ := Bd.asg) (fun a _ => a.m) ?_ rfl rfl
    have h : ∀ {P : Nm → Prop}, P pVar → P pInit → P pStep → ∀ x ∈ pBind.names, P x := fun h1 h2 h3 => by simp [pBind, Pat.names, Pat.vars, h1, h2, h3]
    refine h rfl rfl ?_
    change BV.many ((bs.map Bd.step).map BV.leaf) = _
    rw [List.map_map]; rfl
  · refine ⟨_, _, rfl, rfl, _, _, rfl, rfl, _, _, rfl, ?_, _, _, rfl, ⟨_, _, rfl, rfl, _, _, rfl, rfl, _, _, rfl, ⟨_, _, rfl, rfl, appV_null res ▸ I_seq rfl rfl⟩, _, _, rfl,
      ⟨_, _, rfl, rfl, I_seq rfl ⟨_, _, rfl, ⟨_, _, rfl, rfl, appV_null (bs.map Bd.step) ▸ I_seq rfl rfl⟩, rfl⟩⟩, rfl⟩, rfl⟩
    rw [← appV_null]
    refine I_rows (τ := Bd.asg) (fun a _ => a.i) ?_ (by simp [tl, Tm.names]) rfl
    have h : ∀ {P : Nm → Prop}, P pVar → P pInit → ∀ x ∈ (tl [.var pVar, .var pInit]).names, P x := fun h1 h2 => by simp [tl, Tm.names, h1, h2]
    exact h rfl rfl

/-! ### evaluation -/

section eval

variable {W : Type}

/-- Operands, from left to right. -/
def evList (ev : Ev W) : List V → (Nm → Option V) → W → Res (List V × W)
  | [], _, w => .ok ([], w)
  | e :: es, env, w => do
    let (v, w) ← ev e env w
    let (vs, w) ← evList ev es env w
    .ok (v :: vs, w)

/-- Commands, in order. -/
def evAll (ev : Ev W) : List V → (Nm → Option V) → W → Res W
  | [], _, w => .ok w
  | e :: es, env, w => do
    let (_, w) ← ev e env w
    evAll ev es env w

/-- Several variables. -/
def updL (env : Nm → Option V) : List Nm → List V → Nm → Option V
  | x :: xs, v :: vs => upd (updL env xs vs) x v
  | _, _ => env

/-- The value of the name of a named `let`. -/
def clo : V := .other 99

/-- A call of the procedure that a named `let` binds to `f`: the parameters are bound, the body is evaluated.  A begin form without expressions is undefined behaviour (C45). -/
def call (ev : Ev W) (f : Nm) (xs : List Nm) (body : V) (env : Nm → Option V) : Nat → List V → W → Res (V × W)
  | 0, _, _ => .oof
  | n + 1, vals, w =>
    let env' := updL (upd env f clo) xs vals
    match body with
    | .cons (.sym i) (.cons t (.cons (.cons (.sym b1) es) (.cons (.cons (.sym b2) cs) .null))) =>
      if i = kwIf ∧ b1 = kwBegin ∧ b2 = kwBegin then
        match rawList es, rawList cs with
        | some es, some cs => do
          let (v, w) ← ev t env' w
          if v = .fls then
            let w ← evAll ev cs.dropLast env' w
            match cs.getLast? with
            | some (.cons (.sym g) as) =>
              if env' g = some clo then
                match rawList as with
                | some as => do
                  let (vals, w) ← evList ev as env' w
                  call ev f xs body env n vals w
                | none => .err
              else .err
            | _ => .err
          else evSeq ev es env' w
        | _, _ => .err
      else .err
    | _ => .err

/-- The variables and the initial values of a named `let` (`splice-bindings`, let.min:20-36). -/
def splice : List V → Option (List Nm × List V)
  | [] => some ([], [])
  | .cons (.sym x) (.cons e .null) :: bs => (splice bs).map fun p => (x :: p.1, e :: p.2)
  | _ => none

/-- The begin forms of the body have expressions. -/
def beginsOk : V → Bool
  | .cons _ (.cons _ (.cons (.cons _ es) (.cons (.cons _ cs) .null))) => es ≠ .null && cs ≠ .null
  | _ => false

/-- Evaluation of a `do` form: it is expanded, the named `let` is a `letrec-values` with a call of the procedure (let.min:49-57). -/
def evalD (ev : Ev W) (n : Nat) (d : V) (env : Nm → Option V) (w : W) : Res (V × W) := do
  let r ← expandBy [] doRules d
  match r with
  | .cons (.sym l) (.cons (.sym f) (.cons bs (.cons body .null))) =>
    if l = kwLet then
      if beginsOk body then
        match (rawList bs).bind splice with
        | some (xs, es) => do
          let (vals, w) ← evList ev es (upd env f clo) w
          call ev f xs body env n vals w
        | none => .err
      else .ub
    else .err
  | _ => .err

/-- What the iterations of `do` mean (R7RS 4.2.4): with the variables bound to their values, the result if the test is true, and otherwise the commands, the steps, and the next iteration. -/
def iterate (ev : Ev W) (bs : List Bd) (test : V) (res cmds : List V) (env : Nm → Option V) : Nat → List V → W → Res (V × W)
  | 0, _, _ => .oof
  | n + 1, vals, w => do
    let env' := updL env (bs.map Bd.x) vals
    let (v, w) ← ev test env' w
    if v = .fls then
      let w ← evAll ev cmds env' w
      let (vals, w) ← evList ev (bs.map Bd.step) env' w
      iterate ev bs test res cmds env n vals w
    else evSeq ev res env' w

/-- What `do` means: the initial values, then the iterations. -/
def doSpec (ev : Ev W) (bs : List Bd) (test : V) (res cmds : List V) (n : Nat) (env : Nm → Option V) (w : W) : Res (V × W) := do
  let (vals, w) ← evList ev (bs.map Bd.init) env w
  iterate ev bs test res cmds env n vals w

variable {ev : Ev W}

theorem updL_upd {xs : List Nm} {y : Nm} (h : y ∉ xs) (env : Nm → Option V) (u : V) (vs : List V) : updL (upd env y u) xs vs = upd (updL env xs vs) y u := by
  induction xs generalizing vs with
  | nil => cases vs <;> rfl
  | cons x xs ih =>
    cases vs with
    | nil => rfl
    | cons v vs =>
      have h1 : y ≠ x := fun e => h (by simp [e])
      have h2 : y ∉ xs := fun e => h (by simp [e])
      simp only [updL, ih h2]
      funext z
      simp only [upd]
      by_cases hz : z = x
      · subst hz; rw [if_pos rfl, if_neg (Ne.symm h1), if_pos rfl]
      · rw [if_neg hz, if_neg hz]

/-- An expression whose meaning does not depend on `loop`. -/
def Blind (ev : Ev W) (e : V) : Prop := ∀ env u w, ev e (upd env kwLoop u) w = ev e env w

theorem evSeq_blind {es : List V} (h : ∀ e ∈ es, Blind ev e) (env : Nm → Option V) (u : V) (w : W) : evSeq ev es (upd env kwLoop u) w = evSeq ev es env w := by
  induction es generalizing w with
  | nil => rfl
  | cons e es ih =>
    cases es with
    | nil => exact h e (by simp) env u w
    | cons e' es =>
      simp only [evSeq, h e (by simp) env u]
      congr 1
      funext p
      exact ih (fun q hq => h q (List.mem_cons_of_mem _ hq)) p.2

theorem evAll_blind {es : List V} (h : ∀ e ∈ es, Blind ev e) (env : Nm → Option V) (u : V) (w : W) : evAll ev es (upd env kwLoop u) w = evAll ev es env w := by
  induction es generalizing w with
  | nil => rfl
  | cons e es ih =>
    simp only [evAll, h e (by simp) env u]
    congr 1
    funext p
    exact ih (fun q hq => h q (List.mem_cons_of_mem _ hq)) p.2

theorem evList_blind {es : List V} (h : ∀ e ∈ es, Blind ev e) (env : Nm → Option V) (u : V) (w : W) : evList ev es (upd env kwLoop u) w = evList ev es env w := by
  induction es generalizing w with
  | nil => rfl
  | cons e es ih =>
    simp only [evList, h e (by simp) env u]
    congr 1
    funext p
    simp only [ih fun q hq => h q (List.mem_cons_of_mem _ hq)]

theorem call_iterate (bs : List Bd) (test : V) (res cmds : List V) (hl : kwLoop ∉ bs.map Bd.x) (ht : Blind ev test) (hr : ∀ e ∈ res, Blind ev e) (hc : ∀ e ∈ cmds, Blind ev e)
    (hs : ∀ b ∈ bs, Blind ev b.step) (env : Nm → Option V) (n : Nat) (vals : List V) (w : W) :
    call ev kwLoop (bs.map Bd.x) (bodyOf bs test res cmds) env n vals w = iterate ev bs test res cmds env n vals w := by
  induction n generalizing vals w with
  | zero => rfl
  | succ n ih =>
    have hs' : ∀ e ∈ bs.map Bd.step, Blind ev e := fun e he => by
      obtain ⟨b, hb, rfl⟩ := List.mem_map.1 he
      exact hs b hb
    have e1 : bodyOf bs test res cmds = .cons (.sym kwIf) (.cons test (.cons (.cons (.sym kwBegin) (listV res)) (.cons (.cons (.sym kwBegin)
      (listV (cmds ++ [.cons (.sym kwLoop) (listV (bs.map Bd.step))]))) .null))) := by rw [← appV_listV]; rfl
    rw [e1] at ih ⊢
    simp only [call, iterate, and_self, if_true, rawList_listV, updL_upd hl, ht _ clo, evSeq_blind hr, List.dropLast_concat, evAll_blind hc, List.getLast?_append, List.getLast?_singleton,
      Option.some_or, evList_blind hs']
    congr 1
    funext ⟨v, w⟩
    simp only [upd, if_true, ih]

theorem splice_map (bs : List Bd) : splice (bs.map fun b => .cons (.sym b.x) (.cons b.init .null)) = some (bs.map Bd.x, bs.map Bd.init) := by
  induction bs with
  | nil => rfl
  | cons b bs ih => simp [splice, ih]

theorem doForm_pure {bs : List Bd} {test : V} {res cmds : List V} (hb : ∀ b ∈ bs, b.Pure) (ht : Pure test) (hr : ∀ e ∈ res, Pure e) (hc : ∀ e ∈ cmds, Pure e) :
    Pure (doForm bs test res cmds) := by
  refine ⟨trivial, Pure_listV.2 ?_, ⟨ht, Pure_listV.2 hr⟩, Pure_listV.2 hc⟩
  intro a ha
  obtain ⟨b, hm, rfl⟩ := List.mem_map.1 ha
  exact ⟨trivial, (hb b hm).1, (hb b hm).2, trivial⟩

/-- **C98 (`do`)**: `do` iterates as R7RS says, for every number of iterations.  Only for forms with a result expression in which nothing depends on a variable `loop`. -/
theorem C98_do_partial (ev : Ev W) (bs : List Bd) (test : V) (res cmds : List V) (hb : ∀ b ∈ bs, b.Pure) (ht : Pure test) (hr : ∀ e ∈ res, Pure e) (hc : ∀ e ∈ cmds, Pure e) (hne : res ≠ [])
    (hl : kwLoop ∉ bs.map Bd.x) (hbl : ∀ b ∈ bs, Blind ev b.init ∧ Blind ev b.step) (htl : Blind ev test) (hrl : ∀ e ∈ res, Blind ev e) (hcl : ∀ e ∈ cmds, Blind ev e)
    (env : Nm → Option V) (w : W) (n : Nat) : evalD ev n (doForm bs test res cmds) env w = doSpec ev bs test res cmds n env w := by
  have hi : ∀ e ∈ bs.map Bd.init, Blind ev e := fun e he => by
    obtain ⟨b, hb, rfl⟩ := List.mem_map.1 he
    exact (hbl b hb).1
  have hbg : beginsOk (bodyOf bs test res cmds) = true := by
    obtain ⟨r, rs, rfl⟩ := List.exists_cons_of_ne_nil hne
    cases cmds <;> simp [beginsOk, bodyOf, listV]
  simp only [evalD, do_expand bs test res cmds (doForm_pure hb ht hr hc), ok_bind, letForm, listV.eq_1, listV.eq_2, if_true, hbg]
  simp only [rawList_listV, Option.bind_some, splice_map, evList_blind hi, doSpec]
  congr 1
  funext ⟨vals, w⟩
  exact call_iterate bs test res cmds hl htl hrl hcl (fun b hb => (hbl b hb).2) env n vals w

/-- **C98 fails** for `do` without result expressions, which R7RS allows: such a form is undefined behaviour even if its test is never true. -/
theorem C98_negated_do_result (ev : Ev W) (bs : List Bd) (test : V) (cmds : List V) (hb : ∀ b ∈ bs, b.Pure) (ht : Pure test) (hc : ∀ e ∈ cmds, Pure e) (env : Nm → Option V) (w : W) (n : Nat) :
    evalD ev n (doForm bs test [] cmds) env w = .ub := by
  simp only [evalD, do_expand bs test [] cmds (doForm_pure hb ht (by simp) hc), ok_bind, letForm, listV.eq_1, listV.eq_2, if_true]
  simp [beginsOk, bodyOf, listV]

end eval

/-- Numbers, variables, `(= x y)`, `(add1 x)` and counting of commands, for examples. -/
def exEv : Ev Nat := fun d env w => match d with
  | .sym s => match env s with
    | some v => .ok (v, w)
    | none => .err
  | .num k => .ok (.num k, w)
  | .fls => .ok (.fls, w)
  | .tru => .ok (.tru, w)
  | .cons (.num 1) (.cons (.sym s) (.cons (.num k) .null)) => .ok (if env s = some (.num k) then .tru else .fls, w)
  | .cons (.num 2) (.cons (.sym s) .null) => match env s with
    | some (.num k) => .ok (.num (k + 1), w)
    | _ => .err
  | _ => .ok (.other 0, w + 1)

/-- `(do ([i 0 (add1 i)]) ((= i 3) i) (command))` -/
example : evalD exEv 10 (doForm [⟨.user 50, .num 0, listV [.num 2, .sym (.user 50)]⟩] (listV [.num 1, .sym (.user 50), .num 3]) [.sym (.user 50)] [.null]) (fun _ => none) 0 = .ok (.num 3, 3) := by
  decide

/-- **C98 fails** for `do` in the scope of a variable `loop`: `(let ([loop 5]) (do () (#t loop)))` is a procedure. -/
theorem C98_negated_do_capture : ∃ env res, evalD exEv 10 (doForm [] .tru res []) env 0 = .ok (clo, 0) ∧ doSpec exEv [] .tru res [] 10 env 0 = .ok (.num 5, 0) :=
  ⟨upd (fun _ => none) kwLoop (.num 5), [.sym kwLoop], by decide, by decide⟩

/-- **C98 fails** for `do` with a variable `loop`: `(do ([loop #f #t]) (loop 7))` applies `#f`. -/
theorem C98_negated_do_variable : ∃ bs test res, evalD exEv 10 (doForm bs test res []) (fun _ => none) 0 = .err ∧ doSpec exEv bs test res [] 10 (fun _ => none) 0 = .ok (.num 7, 0) :=
  ⟨[⟨kwLoop, .fls, .tru⟩], .sym kwLoop, [.num 7], by decide, by decide⟩

end Minim.Sc.DoM
