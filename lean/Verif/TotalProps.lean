import Verif.Trees
import Verif.PassTerm
import Verif.PassRun

set_option autoImplicit false

/-!
# C83: compilation of well-formed programs ends and succeeds
-/

namespace Minim.Jit

open Minim.Sx Minim.Core

/-- C83: the optimiser ends on every program: from some depth of recursion on, more does not matter for whether it ends. -/
theorem C83_terminates (k : Nat) (es : List E) : ∃ N, ∀ n, N ≤ n → optimise n k es ≠ .oof := by
  refine ⟨wtS (L0s k es).1 + 1, fun n hn => ?_⟩
  have h := mapR_good (L1_good n) (L0s k es).1 fun e he => Nat.lt_of_lt_of_le (Nat.lt_succ_of_le (wt_mem_S he)) hn
  have h2 : Tot False (fun _ => True) (optimise n k es) := by
    rw [optimise]
    exact (h.mono (fun hf : False => hf.elim) fun _ => id).bind fun a _ => L2s_ends a
  intro ho
  rw [ho] at h2
  exact h2

/-- C83 (partial).  Compilation succeeds, without undefined behaviour, and gives code whose jumps and slots are in range, for all programs whose bodies are not empty, whose `case-lambda`
expressions have clauses and that call `call-with-values` only directly, with a producer and a consumer without a mix of required and rest parameters.

Missing: `case-lambda` without clauses (false, `C83_negated_clauses`); `call-with-values` with a rest consumer or a missing argument (false, `C47_negated_rest`, `C47_negated_missing`) or as a
value. -/
theorem C83_total_partial (k : Nat) (es : List E) (h : TEL True es) : ∃ N, ∀ n, N ≤ n →
    ∃ es' codes, optimise n k es = .ok es' ∧ es'.length = es.length ∧ List.Forall₂ (fun e c => compileExpr e = .ok c ∧ CodeOK c ∧ SlotOK 0 c) es' codes := by
  refine ⟨wtS (L0s k es).1 + 1, fun n hn => ?_⟩
  have g := mapR_good (L1_good n) (L0s k es).1 fun e he => Nat.lt_of_lt_of_le (Nat.lt_succ_of_le (wt_mem_S he)) hn
  have t0 := L0s_TE es k h
  have hl : ∀ {es es1 : List E}, mapR (L1 n) es = .ok es1 → es1.length = es.length := by
    intro es
    induction es with
    | nil => intro es1 h; cases h; rfl
    | cons e es ih =>
      intro es1 h
      simp only [mapR, Res.bind_eq_ok] at h
      obtain ⟨e1, _, es2, h2, h3⟩ := h
      cases h3
      simp [ih h2]
  cases hm : mapR (L1 n) (L0s k es).1 with
  | oof => rw [hm] at g; exact g.elim
  | err => rw [hm] at g; exact absurd t0 g
  | ub => rw [hm] at g; exact absurd t0 g
  | ok es1 =>
    rw [hm] at g
    obtain ⟨es', h1, h2, h3⟩ := L2s_some es1 (g.2.2.2 t0)
    have hcodes : ∀ fs : List E, hasClausesL fs = true → ∃ codes, List.Forall₂ (fun e c => compileExpr e = .ok c ∧ CodeOK c ∧ SlotOK 0 c) fs codes := by
      intro fs
      induction fs with
      | nil => exact fun _ => ⟨[], .nil⟩
      | cons e fs ih =>
        intro hc
        simp only [hasClausesL, Bool.and_eq_true] at hc
        obtain ⟨codes, hcs⟩ := ih hc.2
        obtain ⟨c, c1, c2⟩ := C50_compiled e hc.1
        exact ⟨c :: codes, .cons ⟨c1, c2, C75_slots e c hc.1 c1⟩ hcs⟩
    obtain ⟨codes, hcs⟩ := hcodes es' h3
    refine ⟨es', codes, by rw [optimise, hm]; exact h1, ?_, hcs⟩
    rw [h2, hl hm, L0s_length]

/-- The hypothesis of C83 holds for the example program of C82, and for `(call-with-values p (lambda r r))`. -/
example : TEL True passDemo ∧ TEL True [.app (.var .callWithValues) [.var (.user 1), .lam ⟨[], some (.user 2)⟩ [.var (.user 2)]]] := by
  constructor
  · simp [passDemo, TEL, TE, TEB, TEC, Con]
  · simp [TEL, TE, Con]

/-- C83 fails: `(case-lambda)` is accepted by the checker and goes through the optimiser, but the compiler fails with an error about its own list of instructions (`list_set_tail`). -/
theorem C83_negated_clauses : Src (.clam []) ∧ Chk.check (enc (.clam [])) = .ok () ∧ ∀ n k, optimise (n + 1) k [.clam []] = .ok [.clam []] ∧ compileExpr (.clam []) = .err :=
  ⟨by simp [Src, SrcC], rfl, fun _ _ => ⟨rfl, rfl⟩⟩

/-- C82 fails: a call of a variable named `mv-values` is a core expression, but the compiler takes it for the form its optimiser makes: the call of an unbound variable has a value. -/
theorem C82_negated_capture : ∃ e e' σ1, Src e ∧ Chk.Core (enc e) ∧ enc e = enc e' ∧ runs demoPrims 10 [e] passStore = .err ∧
    runs demoPrims 10 [e'] passStore = .ok ([[.lit (.const 1), .lit (.const 2)]], σ1) :=
  have h : Src (.app (.var .mvValues) [.lit (.const 1), .lit (.const 2)]) := by simp [Src, SrcL, Chk.isKw]
  ⟨.app (.var .mvValues) [.lit (.const 1), .lit (.const 2)], .mvvals [.lit (.const 1), .lit (.const 2)], _, h, core_of_src _ h, rfl, rfl, rfl⟩

end Minim.Jit
