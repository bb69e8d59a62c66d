import Verif.ExpStep

set_option autoImplicit false

/-!
# C87: derived forms mean what they should mean

The expander turns a program with `and`, `or`, `cond`, `when`, `unless`, `let`, `let*`, `letrec`, named `let` and internal definitions into a program of the core language; evaluating this program has the results
that the semantics of the language with derived forms (`sev`, specification) gives.
-/

namespace Minim.Exp

open Minim.Sx Minim.Core Minim.Jit

/-- Specification: no local variables. -/
def REnv.none : REnv := fun _ => .none

/-- Specification: the procedures that are no closures, one-to-one. -/
inductive Basic : SC → RC → Prop where
  | prim (p n : Nat) : Basic (.prim p n) (.prim p n)
  | values : Basic .values .values
  | apply : Basic .apply .apply
  | cwv : Basic .cwv .cwv

/-- Specification: the stores a program is started in: the same top-level variables on both sides, among them `void` and `values`; no closures. -/
structure Start (P : Prims) (σ : SS) (σ' : RS) : Prop where
  cells : σ.cells = [] ∧ σ'.cells = []
  globs : ∀ x, ORel (VRel Basic) (σ.globs x) (σ'.globs x)
  void : ∃ v, σ'.globs sVoid = some v ∧ v ≠ .unbound ∧ ∀ σ, EvP P v [] σ [.void] σ
  values : σ'.globs .values = some (.clo .values)

theorem Basic.cr {c : SC} {c' : RC} (h : Basic c c') : CR c c' := by
  cases h with
  | prim p n => exact .prim p n
  | values => exact .values
  | apply => exact .apply
  | cwv => exact .cwv

theorem vrel_mono {C C' : Type} {R R' : C → C' → Prop} (h : ∀ c c', R c c' → R' c c') {v : V C} {w : V C'} (hv : VRel R v w) : VRel R' v w := by
  induction hv with
  | null => exact .null
  | sym s => exact .sym s
  | lit l => exact .lit l
  | other n => exact .other n
  | stx d => exact .stx d
  | void => exact .void
  | unbound => exact .unbound
  | tenv n => exact .tenv n
  | cons _ _ h1 h2 => exact .cons h1 h2
  | clo hc => exact .clo (h _ _ hc)

theorem Start.sr {P : Prims} {σ : SS} {σ' : RS} (h : Start P σ σ') : SR P σ σ' := by
  refine ⟨by rw [h.cells.1, h.cells.2]; exact .nil, fun x => ?_, h.void, h.values⟩
  have := h.globs x
  cases ha : σ.globs x <;> cases hb : σ'.globs x <;> rw [ha, hb] at this
  · trivial
  · exact this.elim
  · exact this.elim
  · exact vrel_mono (fun _ _ => Basic.cr) this

theorem Agree.none {N : Sym → Prop} : Agree N REnv.none REnv.none := ⟨fun _ _ => rfl, rfl, rfl⟩

theorem vx_datum : ∀ {d : X} {w : RV}, VX (ofX d) w → w = ofX d
  | .null, _, h => by cases h; rfl
  | .sym s, _, h => by cases h; rfl
  | .lit l, _, h => by cases h; rfl
  | .other n, _, h => by cases h; rfl
  | .cons a d, _, h => by
    cases h with
    | cons h1 h2 => rw [vx_datum h1, vx_datum h2]; rfl

/-- C87, expressions: the expansion of a well-formed expression succeeds, with a core expression; whatever the expression evaluates to, in corresponding stores and environments, its expansion evaluates to. -/
theorem C87_expr_partial (ex : T → Res (List (T → Res T))) {N : Sym → Prop} (hN : Names N) {xs : Xforms} (hx : Scope N xs) (rb : Bool) (s : S) (ho : Ok N s) (hd : defn s = none) :
    ∃ m e, expandExpr ex m xs rb (syn (dat s)) = .ok (syn (enc e)) ∧
      ∀ (P : Prims) (n : Nat) (ρ ρ' : REnv) (σ σ1 : SS) (σ' : RS) (vs : List SV), Agree N ρ ρ' → SR P σ σ' → sev P n ρ s σ = .ok (vs, σ1) →
        ∃ vs' σ1', Evs P ρ' e σ' vs' σ1' ∧ List.Forall₂ VX vs vs' ∧ SR P σ1 σ1' := by
  obtain ⟨m, hm⟩ := (exp_xp (ex := ex) hN s ho).1 hd xs hx rb
  refine ⟨m, xp rb s, hm, ?_⟩
  intro P n ρ ρ' σ σ1 σ' vs ha hs h
  obtain ⟨vs', σ1', h1, h2, h3⟩ := (sim_all P n).e h hN ho ha hs rb
  exact ⟨vs', σ1', h1.1, h2, h3⟩

/-- C87, programs: a program whose result is a datum has the same result after expansion. -/
theorem C87_datum_partial (ex : T → Res (List (T → Res T))) {N : Sym → Prop} (hN : Names N) {xs : Xforms} (hx : Scope N xs) (s : S) (ho : Ok N s) (hd : defn s = none) :
    ∃ m t e, expandExpr ex m xs true (syn (dat s)) = .ok t ∧ strip t = enc e ∧
      ∀ (P : Prims) (n : Nat) (σ σ1 : SS) (σ' : RS) (d : X), Start P σ σ' → sev P n REnv.none s σ = .ok ([ofX d], σ1) → ∃ σ1', Evs P REnv.none e σ' [ofX d] σ1' := by
  obtain ⟨m, e, h1, h2⟩ := C87_expr_partial ex hN hx true s ho hd
  refine ⟨m, _, e, h1, strip_syn _, ?_⟩
  intro P n σ σ1 σ' d hs h
  obtain ⟨vs', σ1', k1, k2, _⟩ := h2 P n _ _ _ _ _ _ Agree.none hs.sr h
  obtain ⟨v', rfl, hv⟩ := Forall₂.one_inv k2
  rw [vx_datum hv] at k1
  exact ⟨σ1', k1⟩

/-! ### examples -/

/-- Example: `cons`, `car`, `cdr`, `null?` and `void`. -/
def exPrims : Prims where
  f := fun C p as =>
    match p with
    | 0 => match as with | [a, b] => some (.cons a b) | _ => none
    | 1 => match as with | [v] => (match v with | .cons a _ => some a | _ => none) | _ => none
    | 2 => match as with | [v] => (match v with | .cons _ d => some d | _ => none) | _ => none
    | 3 => match as with | [v] => (match v with | .null => some (.lit .tru) | _ => some (.lit .fls)) | _ => none
    | 4 => some .void
    | _ => none
  param := by
    intro C C' R p as bs h
    match p, as, bs, h with
    | 0, [a, b], [a', b'], .cons h1 (.cons h2 .nil) => exact .cons h1 h2
    | 1, [_], [_], .cons h1 .nil =>
      cases h1 with
      | cons h _ => exact h
      | _ => trivial
    | 2, [_], [_], .cons h1 .nil =>
      cases h1 with
      | cons _ h => exact h
      | _ => trivial
    | 3, [_], [_], .cons h1 .nil =>
      cases h1 with
      | null => exact .lit _
      | _ => exact .lit _
    | 0, [], [], .nil | 1, [], [], .nil | 2, [], [], .nil | 3, [], [], .nil => trivial
    | 0, [_], [_], .cons _ .nil => trivial
    | 0, _ :: _ :: _ :: _, _ :: _ :: _ :: _, .cons _ (.cons _ (.cons _ _)) => trivial
    | 1, _ :: _ :: _, _ :: _ :: _, .cons _ (.cons _ _) | 2, _ :: _ :: _, _ :: _ :: _, .cons _ (.cons _ _) | 3, _ :: _ :: _, _ :: _ :: _, .cons _ (.cons _ _) => trivial
    | 4, _, _, _ => exact .void
    | _ + 5, _, _, _ => trivial

/-- Example: the macros of the library, defined without any other macro in scope. -/
def exScope : Xforms := macros.map fun p => (p.1, .mk p.2 [])

/-- Example: no user-defined macros. -/
def exEval : T → Res (List (T → Res T)) := fun _ => .err

/-- Example: names: 100 `cons`, 101 `car`, 102 `cdr`, 103 `null?`, 104 ... variables. -/
def exNames (x : Sym) : Prop := x ∈ [Sym.user 100, .user 101, .user 102, .user 103, .user 104, .user 105, .user 106, .user 107]

/-- Example: the top-level variables. -/
def exGlobs {C : Type} (prim : Nat → Nat → C) (values : C) : Sym → Option (V C)
  | .user 100 => some (.clo (prim 0 2))
  | .user 101 => some (.clo (prim 1 1))
  | .user 102 => some (.clo (prim 2 1))
  | .user 103 => some (.clo (prim 3 1))
  | .user 12 => some (.clo (prim 4 0))
  | .user 13 => some (.other 5)
  | .user 108 => some (.other 5)
  | .values => some (.clo values)
  | _ => none

def exS : SS := ⟨[], exGlobs .prim .values⟩
def exR : RS := ⟨[], exGlobs .prim .values⟩

theorem exStart : Start exPrims exS exR := by
  refine ⟨⟨rfl, rfl⟩, fun x => ?_, ⟨_, rfl, by simp, fun σ => EvP.prim ⟨rfl, by omega⟩ rfl⟩, rfl⟩
  simp only [exS, exR]
  unfold exGlobs
  split <;> first | exact .clo (.prim _ _) | exact .clo .values | exact .other _ | trivial

theorem exNames_ok : Names exNames := by
  refine ⟨?_, ?_⟩ <;> intro x hx <;> simp only [exNames, List.mem_cons, List.not_mem_nil, or_false] at hx <;>
    rcases hx with rfl | rfl | rfl | rfl | rfl | rfl | rfl | rfl <;> decide

theorem exScope_ok : Scope exNames exScope := by
  refine ⟨fun p hp => ?_, fun p hp => ?_, fun p hp => ?_⟩
  · simp only [macros, List.mem_cons, List.not_mem_nil, or_false] at hp
    rcases hp with rfl | rfl | rfl | rfl | rfl | rfl | rfl | rfl | rfl | rfl <;> exact ⟨[], rfl⟩
  · simp only [exScope, List.mem_map, macros, List.mem_cons, List.not_mem_nil, or_false] at hp
    obtain ⟨q, hq, rfl⟩ := hp
    rcases hq with rfl | rfl | rfl | rfl | rfl | rfl | rfl | rfl | rfl | rfl <;> simp [Vis, exNames]
  · simp only [exScope, List.mem_map] at hp
    obtain ⟨q, hq, rfl⟩ := hp
    exact .mk (by simp) (by simp)

/-- Example: `(let loop ([l '(1 2 3)] [acc '()]) (cond [(null? l) acc] [else (define x (car l)) (when (or #f x) (loop (cdr l) (cons x acc)))]))`. -/
def exProg : S :=
  .nlet (.user 104) [.user 105, .user 106] [.quote (ofList [.other 1, .other 2, .other 3]), .quote .null]
    [.cond [.app (.var (.user 103)) [.var (.user 105)]] [[.var (.user 106)]]
      [.def1 (.user 107) (.app (.var (.user 101)) [.var (.user 105)]),
       .when (.or [.lit .fls, .var (.user 107)]) [.app (.var (.user 104)) [.app (.var (.user 102)) [.var (.user 105)], .app (.var (.user 100)) [.var (.user 107), .var (.user 106)]]]]]

/-- the example is well-formed, and evaluates to the reversed list -/
example : Names exNames ∧ Scope exNames exScope ∧ Ok exNames exProg ∧ defn exProg = none ∧ Start exPrims exS exR ∧
    ∃ σ1, sev exPrims 60 REnv.none exProg exS = .ok ([ofX (ofList [.other 3, .other 2, .other 1])], σ1) :=
  ⟨exNames_ok, exScope_ok, by simp [exProg, Ok, OkL, OkI, OkBs, Bindable, exNames, defn, endsExpr, defIds, sVoid], rfl, exStart, _, rfl⟩

/-- and so does the expansion, by the theorem -/
example : ∃ m t e σ1, expandExpr exEval m exScope true (syn (dat exProg)) = .ok t ∧ strip t = enc e ∧ Evs exPrims REnv.none e exR [ofX (ofList [.other 3, .other 2, .other 1])] σ1 := by
  obtain ⟨m, t, e, h1, h2, h3⟩ := C87_datum_partial exEval exNames_ok exScope_ok exProg (by simp [exProg, Ok, OkL, OkI, OkBs, Bindable, exNames, defn, endsExpr, defIds, sVoid]) rfl
  obtain ⟨σ1, h⟩ := h3 exPrims 60 exS _ exR (ofList [.other 3, .other 2, .other 1]) exStart rfl
  exact ⟨m, t, e, σ1, h1, h2, h⟩

/-! ### where the code disagrees -/

/-- Example: `(or #f or-t)`. -/
def badOr : S := .or [.lit .fls, .var sOrT]

/-- C87 fails for programs with a variable `or-t`: the expansion of `or` captures it. -/
theorem C87_negated_capture : ∃ e σ1 σ1', expandExpr exEval 20 exScope true (syn (dat badOr)) = .ok (syn (enc e)) ∧ Start exPrims exS exR ∧
    sev exPrims 20 REnv.none badOr exS = .ok ([.other 5], σ1) ∧ ev exPrims 20 REnv.none e exR = .ok ([.lit .fls], σ1') :=
  ⟨xp true badOr, _, _, rfl, exStart, rfl, rfl⟩

/-- Example: `(let ([when (lambda (a b) a)]) (when '1 '2))`. -/
def badShadow : S := .let1 [sWhen] [.lam ⟨[.user 105, .user 106], none⟩ [.var (.user 105)]] [.app (.var sWhen) [.quote (.other 1), .quote (.other 2)]]

/-- C87 fails for programs that bind a variable named like a macro: `(let ([when (lambda (a b) a)]) (when '1 '2))` is 2, not 1. -/
theorem C87_negated_shadow : ∃ e σ1 σ1', expandExpr exEval 20 exScope true (syn (dat badShadow)) = .ok (syn (enc e)) ∧ Start exPrims exS exR ∧
    sev exPrims 20 REnv.none badShadow exS = .ok ([.other 1], σ1) ∧ ev exPrims 20 REnv.none e exR = .ok ([.other 2], σ1') :=
  ⟨.letv [.mk [sWhen] (.lam ⟨[.user 105, .user 106], none⟩ [.var (.user 105)])] [.ite (.quote (.other 1)) (.letv [] [.quote (.other 2)]) voidE], _, _, rfl, exStart, rfl, rfl⟩

/-- Example: `(let ([void (lambda () '7)]) (when #f '1))`. -/
def badVoid : S := .let1 [sVoid] [.lam ⟨[], none⟩ [.quote (.other 7)]] [.when (.lit .fls) [.quote (.other 1)]]

/-- C87 fails for programs that bind `void`: the expansion of `when` calls whatever `void` is in the program. -/
theorem C87_negated_void : ∃ e σ1 σ1', expandExpr exEval 20 exScope true (syn (dat badVoid)) = .ok (syn (enc e)) ∧ Start exPrims exS exR ∧
    sev exPrims 20 REnv.none badVoid exS = .ok ([.void], σ1) ∧ ev exPrims 20 REnv.none e exR = .ok ([.other 7], σ1') :=
  ⟨xp true badVoid, _, _, rfl, exStart, rfl, rfl⟩

/-- Example: `(let f ([x f]) x)`. -/
def badNamed : S := .nlet (.user 108) [.user 105] [.var (.user 108)] [.var (.user 105)]

/-- C87 fails for a named `let` whose initial values mention a variable with the name of the loop: they see the loop instead. -/
theorem C87_negated_named : ∃ e σ1 σ1' c, expandExpr exEval 20 exScope true (syn (dat badNamed)) = .ok (syn (enc e)) ∧ Start exPrims exS exR ∧
    sev exPrims 20 REnv.none badNamed exS = .ok ([.other 5], σ1) ∧ ev exPrims 20 REnv.none e exR = .ok ([.clo c], σ1') :=
  ⟨xp true badNamed, _, _, _, rfl, exStart, rfl, rfl⟩

end Minim.Exp
