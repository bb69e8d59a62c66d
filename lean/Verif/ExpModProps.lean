import Verif.ExpModSim
import Verif.ExpProps

set_option autoImplicit false

/-!
# C88: modules are expanded form by form
-/

namespace Minim.Exp

open Minim.Sx Minim.Core Minim.Jit

/-- C88: a module of definitions and expressions, possibly grouped with `begin`, is expanded to core forms; whatever the module does, evaluating these in order does. -/
theorem C88_module_partial (ex : T → Res (List (T → Res T))) {N : Sym → Prop} (hN : Names N) {xs : Xforms} (hx : Scope N xs) (hk : NoKwX xs) (ss : List S) (ho : OkTops N ss) (hd : (topIds ss).Nodup) :
    ∃ es : List E, (∃ n0, ∀ n, n0 ≤ n → expandModule ex n xs (ss.map fun s => syn (dat s)) = .ok (es.map fun e => syn (enc e), xs)) ∧
      ∀ (P : Prims) (n : Nat) (σ σ1 : SS) (σ' : RS), SR P σ σ' → sTop P n ss σ = .ok σ1 → ∃ σ1', EvM P es σ' σ1' ∧ SR P σ1 σ1' :=
  ⟨xtops ss, mod_exp hN ho hd ⟨hx, hk⟩, fun _ n _ _ _ hs h => mod_sim hN n h ho hs⟩

/-- C88: variables of the module that hold data hold the same data after expansion. -/
theorem C88_globals_partial (ex : T → Res (List (T → Res T))) {N : Sym → Prop} (hN : Names N) {xs : Xforms} (hx : Scope N xs) (hk : NoKwX xs) (ss : List S) (ho : OkTops N ss) (hd : (topIds ss).Nodup) :
    ∃ es : List E, (∃ n0, ∀ n, n0 ≤ n → expandModule ex n xs (ss.map fun s => syn (dat s)) = .ok (es.map fun e => syn (enc e), xs)) ∧
      ∀ (P : Prims) (n : Nat) (σ σ1 : SS) (σ' : RS), Start P σ σ' → sTop P n ss σ = .ok σ1 → ∃ σ1', EvM P es σ' σ1' ∧ ∀ x d, σ1.globs x = some (ofX d) → σ1'.globs x = some (ofX d) := by
  obtain ⟨es, h1, h2⟩ := C88_module_partial ex hN hx hk ss ho hd
  refine ⟨es, h1, fun P n σ σ1 σ' hs h => ?_⟩
  obtain ⟨σ1', k1, k2⟩ := h2 P n σ σ1 σ' hs.sr h
  refine ⟨σ1', k1, fun x d hxd => ?_⟩
  have := k2.globs x
  rw [hxd] at this
  cases hb : σ1'.globs x with
  | none => rw [hb] at this; exact this.elim
  | some v => rw [hb] at this; rw [vx_datum this]

/-! ### example -/

theorem exScope_kw : NoKwX exScope := by
  refine ⟨fun p hp => ?_, fun p hp => ?_⟩
  · simp only [exScope, List.mem_map] at hp
    obtain ⟨q, hq, rfl⟩ := hp
    exact macros_kw hq
  · simp only [exScope, List.mem_map] at hp
    obtain ⟨q, hq, rfl⟩ := hp
    exact .mk (by simp) (by simp)

/-- Example: `(begin (define (f x) (cons x l)) (define l '(2 3)))`, `(and (begin (f l)))`, `(define-values (a b) (let () (values '7 (f '1))))`, `(when a (set! a '8))`. -/
def exMod : List S :=
  [.begin [.fn (.user 104) ⟨[.user 107], none⟩ [.app (.var (.user 100)) [.var (.user 107), .var (.user 105)]], .def1 (.user 105) (.quote (ofList [.other 2, .other 3]))],
   .and [.begin [.app (.var (.user 104)) [.var (.user 105)], .lit .fls]],
   .def1 (.user 106) (.let1 [.user 107] [.quote (.other 1)] [.app (.var (.user 104)) [.var (.user 107)]]),
   .when (.app (.var (.user 103)) [.quote .null]) [.set (.user 105) (.app (.var (.user 102)) [.var (.user 106)])]]

theorem exMod_ok : OkTops exNames exMod ∧ (topIds exMod).Nodup := by
  constructor
  · simp [exMod, OkTops, OkTop, Ok, OkL, OkI, Bindable, exNames, defn, endsExpr, defIds, sVoid, Formals.ids]
  · decide +kernel

/-- the example meets the conditions, and leaves `(1 2 3)` in a variable -/
example : Names exNames ∧ Scope exNames exScope ∧ NoKwX exScope ∧ OkTops exNames exMod ∧ (topIds exMod).Nodup ∧ Start exPrims exS exR ∧
    ∃ σ1, sTop exPrims 40 exMod exS = .ok σ1 ∧ σ1.globs (.user 106) = some (ofX (ofList [.other 1, .other 2, .other 3])) :=
  ⟨exNames_ok, exScope_ok, exScope_kw, exMod_ok.1, exMod_ok.2, exStart, _, rfl, rfl⟩

/-! ### where the code disagrees -/

/-- `expand` (expander.min:754-758): one form of the read-eval-print loop; the first form of its expansion. -/
def expandOne (ex : T → Res (List (T → Res T))) (n : Nat) (xs : Xforms) (e : T) : Res (T × Xforms) := do
  let (es, xs) ← expandModule ex n xs [e]
  match es with
  | [] => .ok (syn (ofList [.sym sVoid]), xs)
  | e :: _ => .ok (e, xs)

/-- Example: `(begin (define-values (x) '1) (define-values (y) '2))`. -/
def badBegin : S := .begin [.define [.user 105] (.quote (.other 1)), .define [.user 106] (.quote (.other 2))]

/-- C88 fails at the prompt: all forms of a `begin` but the first one are dropped; the variable `y` is not defined. -/
theorem C88_negated_prompt : ∃ e σ1 σ1', expandOne exEval 20 exScope (syn (dat badBegin)) = .ok (syn (enc e), exScope) ∧ OkTop exNames badBegin ∧ Start exPrims exS exR ∧
    sTop exPrims 20 [badBegin] exS = .ok σ1 ∧ σ1.globs (.user 106) = some (.other 2) ∧ ev exPrims 20 (fun _ => none) e exR = .ok ([.void], σ1') ∧ σ1'.globs (.user 106) = none :=
  ⟨.define [.user 105] (.quote (.other 1)), _, _, rfl, by simp [badBegin, OkTop, OkTops, Ok, Bindable, exNames, defn, sVoid], exStart, rfl, rfl, rfl, rfl⟩

/-- Example: a transformer that returns the datum. -/
def const (n : Nat) : T → Res T := fun _ => .ok (syn (ofList [.sym .quote, .other n]))

/-- Example: `(name)`. -/
def use (s : Sym) : T := syn (ofList [.sym s])

/-- Example: `(define-syntaxes (name) '2)`; `exTwo` evaluates every right-hand side to a transformer that returns 2. -/
def defMac (s : Sym) : T := syn (ofList [.sym sDefineSyntaxes, ids [s], ofList [.sym .quote, .other 2]])

def exTwo : T → Res (List (T → Res T)) := fun _ => .ok [const 2]

/-- Example: the module imports the macro `m`, which returns 1. -/
def impM : Xforms := [(.user 200, .mk (const 1) [])]

/-- A module that defines a macro it also imports: right after the definition the imported macro is still used, after the definition of another macro the one of the module. -/
theorem C88_negated_redefine : ∃ xs1 xs2,
    expandModule exTwo 20 impM [defMac (.user 200), use (.user 200)] = .ok ([syn (ofList [.sym .quote, .other 1])], xs1) ∧
    expandModule exTwo 20 impM [defMac (.user 200), defMac (.user 201), use (.user 200)] = .ok ([syn (ofList [.sym .quote, .other 2])], xs2) ∧
    expandModule exTwo 20 [] [defMac (.user 200), use (.user 200)] = .ok ([syn (ofList [.sym .quote, .other 2])], [(.user 200, .mk (const 2) [(.user 200, .mk (const 2) [])])]) :=
  ⟨_, _, rfl, rfl, rfl⟩

/-- Example: a macro of another module, defined with the help of the macro 202 of that module: `(m)` is `(begin (help) (help))`. -/
def impTwice : Xforms := [(.user 200, .mk (fun _ => .ok (syn (ofList [.sym .begin, ofList [.sym (.user 202)], ofList [.sym (.user 202)]]))) [(.user 202, .mk (const 1) [])])]

/-- A macro that expands to several forms of a module: the macros of its own module are known in the first one only. -/
theorem C88_negated_begin :
    expandModule exEval 20 impTwice [use (.user 200)] = .ok ([syn (ofList [.sym .quote, .other 1]), use (.user 202)], impTwice) := rfl

end Minim.Exp
