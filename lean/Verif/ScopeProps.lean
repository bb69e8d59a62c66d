import Verif.Scope
import Verif.FailProps
import Verif.LibPrelude
import Verif.LibBoot
import Mathlib.Data.List.Dedup

set_option autoImplicit false

/-!
# Programs and libraries whose variables are all defined (C104)
-/

namespace Minim.Lib

open Minim.Sx Minim.Core Minim.Jit

/-- Specification: the names bound by the C code (`init_envs`, env.c:186-194; `init_prims`, prim.c:17-229). -/
def inKernel : Sym → Bool
  | .user n => decide (n < kernel)
  | .values => true
  | _ => false

/-- Specification: the names bound by the C code or defined in prelude.min. -/
def inPrelude : Sym → Bool
  | .user n => decide (n < preludeGlobals)
  | .values | .callWithValues => true
  | _ => false

/-- Specification: the names bound by the C code or defined in prelude.min or boot.min. -/
def inLib : Sym → Bool
  | .user n => decide (n < globals)
  | .values | .callWithValues => true
  | _ => false

/-- Specification: the variables used by the expressions of a file that are not in a set of names, with the number of the expression. -/
def missing (G : Sym → Bool) : Nat → List E → List (Nat × Sym)
  | _, [] => []
  | k, e :: es => (((outer e).filter (fun x => !G x)).dedup).map (fun x => (k, x)) ++ missing G (k + 1) es

theorem missing_iff {G : Sym → Bool} {x : Sym} : ∀ {es : List E} {k : Nat}, (∃ i, (i, x) ∈ missing G k es) ↔ ∃ e ∈ es, x ∈ outer e ∧ G x = false
  | [], k => by simp [missing]
  | e :: es, k => by
    have ih := @missing_iff G x es (k + 1)
    simp only [missing, List.mem_append, List.mem_map, List.mem_dedup, List.mem_filter, Prod.mk.injEq, List.mem_cons, exists_eq_or_imp]
    constructor
    · rintro ⟨i, ⟨y, ⟨h1, h2⟩, _, rfl⟩ | h⟩
      · exact .inl ⟨h1, by simpa using h2⟩
      · exact .inr (ih.1 ⟨i, h⟩)
    · rintro (⟨h1, h2⟩ | h)
      · exact ⟨k, .inl ⟨x, ⟨h1, by simpa using h2⟩, rfl, rfl⟩⟩
      · obtain ⟨i, hi⟩ := ih.2 h
        exact ⟨i, .inr hi⟩

/-- C104 (partial; missing: C functions with effects, see `Prims`).  A program whose variables exist uses and assigns no unknown variable, whatever it computes: if every variable it uses without binding it exists at top level, and the
same holds of the procedures in the store, no part of its evaluation is the use or assignment of a variable that does not exist. -/
theorem C104_expression_partial (P : Prims) (G : Sym → Prop) (e : E) (σ : RS) (he : ∀ x ∈ outer e, G x) (hg : GoodV G σ) (hd : ∀ x, G x → σ.globs x ≠ none)
    (t : Task) (σ' : RS) (h : Intos P (.e REnv.empty e) σ t σ') (x : Sym) : ¬ Unknown x t σ' := by
  intro hu
  obtain ⟨h1, h2⟩ := intos_known h (fun x hx => .inr (he x hx)) hg hu
  exact hd x h1 h2

/-- C104 (partial; missing: C functions with effects, see `Prims`).  Loading a file that uses only names known before and names it defines gives a state in which programs using these names meet no unknown variables. -/
theorem C104_library_partial (P : Prims) (K : Sym → Prop) (es : List E) (hes : ∀ e ∈ es, ∀ x ∈ outer e, K x ∨ x ∈ defines es) (σ σ1 : RS)
    (hg : GoodV (fun x => K x ∨ x ∈ defines es) σ) (hd : ∀ x, K x → σ.globs x ≠ none) (hl : Loads P es σ σ1) (e : E) (he : ∀ x ∈ outer e, K x ∨ x ∈ defines es)
    (t : Task) (σ' : RS) (h : Intos P (.e REnv.empty e) σ1 t σ') (x : Sym) : ¬ Unknown x t σ' := by
  obtain ⟨a, b, c⟩ := loads_keep hl hes hg
  refine C104_expression_partial P _ e σ1 he a (fun x hx => ?_) t σ' h x
  rcases hx with hx | hx
  · exact b x (hd x hx)
  · exact c x hx

/-- The numbers of the names. -/
def nums : List Sym → List Nat
  | [] => []
  | .user n :: xs => n :: nums xs
  | _ :: xs => nums xs

theorem mem_of_nums {n : Nat} : ∀ {xs : List Sym}, n ∈ nums xs → Sym.user n ∈ xs
  | [], h => by simp [nums] at h
  | x :: xs, h => by
    cases x with
    | user m =>
      rw [nums] at h
      rcases List.mem_cons.1 h with rfl | h
      · simp
      · exact List.mem_cons_of_mem _ (mem_of_nums h)
    | _ => exact List.mem_cons_of_mem _ (mem_of_nums (by simpa [nums] using h))

/-- The names called known are those bound by the C code and those defined in the two files. -/
theorem inLib_iff (x : Sym) : inLib x = true ↔ inKernel x = true ∨ x ∈ defines (prelude ++ boot) := by
  have h1 : ∀ x ∈ defines (prelude ++ boot), inLib x = true := by decide +kernel
  have h0 : ∀ n < globals, n < kernel ∨ (nums (defines (prelude ++ boot))).elem n = true := by decide +kernel
  have h2 : ∀ n < globals, n < kernel ∨ Sym.user n ∈ defines (prelude ++ boot) := fun n hn => (h0 n hn).imp_right fun h => mem_of_nums (by simpa using h)
  have h3 : Sym.callWithValues ∈ defines (prelude ++ boot) := by decide +kernel
  constructor
  · intro h
    cases x with
    | user n => simpa [inKernel] using h2 n (by simpa [inLib] using h)
    | values => exact .inl rfl
    | callWithValues => exact .inr h3
    | _ => simp [inLib] at h
  · rintro (h | h)
    · cases x with
      | user n =>
        have : n < kernel := by simpa [inKernel] using h
        have h4 : kernel ≤ globals := by decide
        simp only [inLib, decide_eq_true_eq]
        omega
      | values => rfl
      | _ => simp [inKernel] at h
    · exact h1 x h

/-- C104 (negated).  The expressions of prelude.min use 13 variables that are neither bound by the C code nor defined in prelude.min: fourteen uses in twelve definitions. -/
theorem C104_negated_prelude : missing inPrelude 1 prelude =
    [(50, S.«division-0-error»), (63, S.«init»), (63, S.«len»), (67, S.«s»), (93, S.«name»), (97, S.«fields»), (97, S.«field»), (109, S.«v_»), (112, S.«v_»), (114, S.«hashtable->list»),
     (117, S.«str»), (119, S.«$write-char»), (122, S.«xs»), (132, S.«raise-arugment-error»)] := by
  decide +kernel

/-- C104.  The expressions of boot.min use only variables bound by the C code or defined in prelude.min or boot.min. -/
theorem C104_boot : missing inLib 1 boot = [] := by decide +kernel

/-- The variables of prelude.min that are not defined anywhere. -/
def strays : List Sym := [S.«division-0-error», S.«init», S.«len», S.«s», S.«name», S.«fields», S.«field», S.«v_», S.«hashtable->list», S.«str», S.«$write-char», S.«xs», S.«raise-arugment-error»]

/-- None of them is defined in boot.min. -/
theorem strays_unknown : ∀ x ∈ strays, inLib x = false := by decide +kernel

/-- C104 (partial; missing: C functions with effects, see `Prims`; and the 13 variables of `C104_negated_prelude`).  After prelude.min and boot.min have been loaded into an
environment with the names bound by the C code, the only unknown variables a program using names of the library can meet are these 13. -/
theorem C104_boot_partial (P : Prims) (σ σ1 : RS) (hg : GoodV (fun x => inLib x = true ∨ x ∈ strays) σ) (hd : ∀ x, inKernel x = true → σ.globs x ≠ none)
    (hl : Loads P (prelude ++ boot) σ σ1) (e : E) (he : ∀ x ∈ outer e, inLib x = true) (t : Task) (σ' : RS) (h : Intos P (.e REnv.empty e) σ1 t σ') (x : Sym)
    (hu : Unknown x t σ') : x ∈ strays := by
  have hp : missing (fun x => inLib x || decide (x ∈ strays)) 1 (prelude ++ boot) = [] := by decide +kernel
  obtain ⟨a, b, c⟩ := loads_keep hl (fun e he x hx => by
    by_contra hn
    obtain ⟨i, hi⟩ := (missing_iff (G := fun x => inLib x || decide (x ∈ strays)) (k := 1)).2 ⟨e, he, hx, by simpa using hn⟩
    rw [hp] at hi
    simp at hi) hg
  obtain ⟨h1, h2⟩ := intos_known h (fun x hx => .inr (.inl (he x hx))) a hu
  rcases h1 with h1 | h1
  · rcases (inLib_iff x).1 h1 with h1 | h1
    · exact absurd h2 (b x (hd x h1))
    · exact absurd h2 (c x h1)
  · exact h1

/-- C104 (negated).  One of the uses goes wrong for every character: after write-char has been defined as in prelude.min, its call with a character gives an error, if char? accepts the
character and nobody has defined $write-char. -/
theorem C104_negated_write_char (P : Prims) (σ : RS) (k : Nat) (hc : σ.globs S.«char?» = some (.clo (.prim k 1))) (hw : σ.globs S.«$write-char» = none) (c : Lit)
    (hp : P.f RC k [.lit c] = some (.lit .tru)) :
    ∃ σ1, Evs P REnv.empty prelude_119 σ [.void] σ1 ∧ ∃ n, ev P n REnv.empty (.app (.var S.«write-char») [.lit c]) σ1 = .err := by
  refine ⟨_, ⟨2, rfl⟩, 10, ?_⟩
  simp [ev, evBody, evArgs, applyR, lookupR, single, select, acceptsN, params, bindVals, RS.setGlobs, RS.setGlob, REnv.set, REnv.empty, hc, hw, hp, Jit.isFalse, Formals.ids]

/-- `C104_negated_prelude` and `C104_expression_partial` are not vacuous: a local variable is not used from outside, an undefined one is met. -/
example : outer (.lam ⟨[S.«xs»], none⟩ [.app (.var S.«car») [.var S.«xs»]]) = [S.«car»] := by decide +kernel

example : Unknown S.«xs» (.e REnv.empty (.var S.«xs»)) ⟨[], fun _ => none⟩ := ⟨_, rfl, rfl, .inl rfl⟩

end Minim.Lib
