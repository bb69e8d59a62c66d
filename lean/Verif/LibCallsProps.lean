import Verif.LibCalls
import Verif.ScopeRun

set_option autoImplicit false

/-!
# The calls in the library (C105)
-/

namespace Minim.Lib

open Minim.Sx Minim.Core Minim.Jit

/-- Specification: the table of arities. -/
def libAr : Sym → Option ArSpec
  | .user n => (globalArities[n]?).join
  | .values => some [(0, true)]
  | .callWithValues => some [(2, false)]
  | _ => none

/-- Specification: the calls with the wrong number of arguments, with the number of the expression. -/
def wrongCalls (T : Sym → Option ArSpec) : Nat → List E → List (Nat × Sym × Nat)
  | _, [] => []
  | k, e :: es => ((marks T [] e).filterMap (fun m => match m with
      | .call x n => if (match T x with | none => true | some a => a.allows n) then none else some (k, x, n)
      | .bind _ _ => none)) ++ wrongCalls T (k + 1) es

/-- Specification: the definitions and assignments that do not agree with the table. -/
def wrongBinds (T : Sym → Option ArSpec) : Nat → List E → List (Nat × Sym)
  | _, [] => []
  | k, e :: es => ((marks T [] e).filterMap (fun m => match m with
      | .call _ _ => none
      | .bind x s => if decide (x ≠ .values) && (T x).all (fun a => decide (s = some a)) then none else some (k, x))) ++ wrongBinds T (k + 1) es

theorem wrong_iff {T : Sym → Option ArSpec} {B : Sym → Nat → Bool} : ∀ {es : List E} {k : Nat},
    ((∀ w ∈ wrongCalls T k es, B w.2.1 w.2.2 = true) ∧ wrongBinds T k es = []) → ∀ e ∈ es, Fine T B (marks T [] e)
  | [], _, _ => by simp
  | e :: es, k, ⟨h, h'⟩ => by
    rw [wrongBinds, List.append_eq_nil_iff] at h'
    intro e' he'
    rcases List.mem_cons.1 he' with rfl | he'
    · intro m hm
      cases m with
      | call x n =>
        rw [fine, Bool.or_eq_true]
        by_cases hc : (match T x with | none => true | some a => a.allows n) = true
        · exact .inl hc
        · refine .inr (h (k, x, n) ?_)
          rw [wrongCalls, List.mem_append, List.mem_filterMap]
          exact .inl ⟨_, hm, by simp only [hc]; simp⟩
      | bind x s =>
        rw [fine]
        have := List.filterMap_eq_nil_iff.1 h'.1 _ hm
        dsimp only at this
        split at this
        · assumption
        · cases this
    · exact wrong_iff (k := k + 1) ⟨fun w hw => h w (by rw [wrongCalls]; simp [hw]), h'.2⟩ e' he'

/-- C105 (partial; missing: C functions with effects, see `Prims`; calls of local variables and of what is no variable).  If the definitions and assignments of a program agree with a
table of arities, and so do its direct calls of top-level variables, the evaluation of the program makes no call of a variable of the table with a wrong number of arguments. -/
theorem C105_calls_partial (P : Prims) (T : Sym → Option ArSpec) (e : E) (σ : RS) (hf : Fine T (fun _ _ => false) (marks T [] e)) (hg : GoodA T (fun _ _ => false) σ)
    (t : Task) (σ' : RS) (h : Intos P (.e REnv.empty e) σ t σ') (x : Sym) (a : ArSpec) (hx : T x = some a) (n : Nat) : ¬ WrongCall x n t σ' := by
  intro hw
  rcases intos_calls h ⟨[], fun x => by simp [REnv.empty], hf⟩ hg hw with h | h
  · rw [hx] at h; cases h
  · cases h

/-- C105.  The table of arities is right about all definitions and assignments in prelude.min and boot.min. -/
theorem C105_table : wrongBinds libAr 1 (prelude ++ boot) = [] := by decide +kernel

/-- C105 (negated).  Of the direct calls of variables of the table in prelude.min and boot.min four have the wrong number of arguments: the calls of raise-argument-error in the hashtable
procedures (expression 105), of $default-record-equal-procedure and $default-record-hash-procedure, and of raise-range-error in substring (expression 62 of boot.min). -/
theorem C105_negated_calls : wrongCalls libAr 1 (prelude ++ boot) =
    [(105, S.«raise-argument-error», 4), (107, S.«$default-record-equal-procedure», 1), (108, S.«$default-record-hash-procedure», 1), (215, S.«raise-range-error», 5)] := by
  decide +kernel

/-- The calls excepted. -/
def botched (x : Sym) (n : Nat) : Bool :=
  decide ((x, n) ∈ [(S.«raise-argument-error», 4), (S.«$default-record-equal-procedure», 1), (S.«$default-record-hash-procedure», 1), (S.«raise-range-error», 5)])

/-- C105 (partial; missing: as in `C105_calls_partial`; and the four calls of `C105_negated_calls`).  After prelude.min and boot.min have been loaded, a program whose own direct calls,
definitions and assignments agree with the table, makes no call of a variable of the table with a wrong number of arguments, except those. -/
theorem C105_library_partial (P : Prims) (σ σ1 : RS) (hg : GoodA libAr botched σ) (hl : Loads P (prelude ++ boot) σ σ1) (e : E) (hf : Fine libAr botched (marks libAr [] e))
    (t : Task) (σ' : RS) (h : Intos P (.e REnv.empty e) σ1 t σ') (x : Sym) (a : ArSpec) (hx : libAr x = some a) (n : Nat) (hw : WrongCall x n t σ') : botched x n = true := by
  have hb : ∀ e ∈ prelude ++ boot, Fine libAr botched (marks libAr [] e) :=
    wrong_iff (k := 1) ⟨by rw [C105_negated_calls]; decide, C105_table⟩
  rcases intos_calls h ⟨[], fun x => by simp [REnv.empty], hf⟩ (loads_keepA hl hb hg) hw with h | h
  · rw [hx] at h; cases h
  · exact h

/-- How much the table covers: 431 of 535 names, 2732 calls. -/
example : (globalArities.filter Option.isSome).length = 431 ∧ globalArities.length = globals := by decide +kernel

/-- `C105_library_partial` is not vacuous: the environment of `loaded` is as required. -/
example : GoodA libAr botched start := by
  refine ⟨by simp [start], fun x v h => ?_⟩
  have hT : ∀ n < kernel, (match arities[n]? with
      | some (some k) => decide (libAr (.user n) = some [(k, false)])
      | _ => decide ((.user n : Sym) = S.apply) || (libAr (.user n)).isNone) = true := by decide +kernel
  have hl : arities.length = kernel := by decide +kernel
  simp only [start] at h
  split at h
  · rename_i hx; cases h; subst hx; exact ⟨trivial, ⟨_, rfl, rfl⟩, fun _ => rfl⟩
  split at h
  · rename_i hx; cases h; subst hx; exact ⟨trivial, trivial, by simp⟩
  split at h
  · rename_i hx; cases h; subst hx; exact ⟨trivial, trivial, by simp⟩
  split at h
  · rename_i hx; cases h; subst hx; exact ⟨trivial, trivial, by simp⟩
  split at h
  · rename_i hx; cases h; subst hx; exact ⟨trivial, trivial, by simp⟩
  split at h
  · rename_i hx; cases h; subst hx; exact ⟨trivial, ⟨_, rfl, rfl⟩, by simp⟩
  split at h
  · rename_i n _ _ _ _ _ hx
    split at h
    · rename_i k hk
      cases h
      have := hT n (by rw [← hl]; exact (List.getElem?_eq_some_iff.1 hk).1)
      simp only [hk, decide_eq_true_eq] at this
      exact ⟨trivial, this ▸ ⟨_, rfl, rfl⟩, by simp⟩
    · rename_i hk
      cases h
      have := hT n (by rw [← hl]; exact (List.getElem?_eq_some_iff.1 hk).1)
      simp only [hk, Bool.or_eq_true, decide_eq_true_eq, Option.isNone_iff_eq_none] at this
      rcases this with h | h
      · exact absurd h hx
      · exact ⟨trivial, h ▸ trivial, by simp⟩
    · cases h
  · cases h

/-- `C105_calls_partial` is not vacuous: a call of car with two arguments is wrong. -/
example : WrongCall S.«car» 2 (.e REnv.empty (.app (.var S.«car») [.lit .tru, .lit .tru])) ⟨[], fun x => if x = S.«car» then some (.clo (.prim 0 1)) else none⟩ :=
  ⟨_, _, .prim 0 1, rfl, rfl, rfl, by simp, rfl⟩

/-- … and a program that makes it does not agree with the table. -/
example : ¬ Fine libAr (fun _ _ => false) (marks libAr [] (.app (.var S.«car») [.lit .tru, .lit .tru])) := by
  intro h
  have := h (.call S.«car» 2) (by decide +kernel)
  revert this
  decide +kernel

/-- C105 (negated).  One of the calls goes wrong for every procedure: the equality procedure used for records by default cannot be set. -/
theorem C105_negated_default (P : Prims) (σ : RS) (k j : Nat) (hp : σ.globs S.«procedure?» = some (.clo (.prim k 1)))
    (hd : σ.globs S.«$default-record-equal-procedure» = some (.clo (.prim j 0))) (hq : ∀ ρ cs, P.f RC k [.clo (.clo ρ cs)] = some (.lit .tru)) (f : Formals) (body : List E) :
    ∃ σ1, Evs P REnv.empty prelude_107 σ [.void] σ1 ∧ ∃ n, ev P n REnv.empty (.app (.var S.«default-record-equal-procedure») [.lam f body]) σ1 = .err := by
  refine ⟨_, ⟨2, rfl⟩, 10, ?_⟩
  simp [ev, evBody, evArgs, applyR, lookupR, single, select, acceptsN, params, bindVals, RS.setGlobs, RS.setGlob, REnv.set, REnv.empty, hp, hd, hq, Jit.isFalse, Formals.ids]

end Minim.Lib
