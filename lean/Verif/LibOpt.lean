import Verif.LibLoad
import Verif.PassFile

set_option autoImplicit false

/-!
# What the optimiser makes of the library (C110)

The conditions of `C82_file_partial` are checked for prelude.min and boot.min, in portions.
-/

namespace Minim.Fix

open Minim.Sx Minim.Core Minim.Jit Minim.Lib

/-- The forms before the definition of `call-with-values`. -/
abbrev early : List E := prelude.take 54

/-- The forms after it. -/
abbrev late : List E := prelude.drop 55 ++ Lib.boot

/-- Does the expression compile? -/
def compiles (e : E) : Bool := match compileExpr e with
  | .ok _ => true
  | _ => false

/-- The conditions of `C82_file_partial` on a portion of a program: it is optimised and compiled, and the optimised forms are covered; generated symbols are numbered from `k` on, and the next number is `k'`. -/
def fine (k : Nat) (es : List E) (k' : Nat) : Bool := decide ((L0s k es).2 = k') && match optimise 200 k es with
  | .ok es => es.all okTop && es.all compiles
  | _ => false

theorem fine_iff {k k' : Nat} {es : List E} : fine k es k' = true ↔ (L0s k es).2 = k' ∧ ∃ es', optimise 200 k es = .ok es' ∧ (∀ e ∈ es', okTop e = true) ∧ ∀ e ∈ es', compiles e = true := by
  unfold fine
  rw [Bool.and_eq_true, decide_eq_true_eq]
  refine and_congr_right fun _ => ?_
  split
  · rename_i es' h
    simp [h]
  · rename_i h
    constructor
    · nofun
    · rintro ⟨es', h', _⟩
      exact absurd h' (h es')

theorem fine_split {k k1 k2 n : Nat} {es : List E} (h1 : fine k (es.take n) k1 = true) (h2 : fine k1 (es.drop n) k2 = true) : fine k es k2 = true := by
  rw [fine_iff] at h1 h2 ⊢
  obtain ⟨rfl, a, ha, a1, a2⟩ := h1
  obtain ⟨rfl, b, hb, b1, b2⟩ := h2
  have hs : es = es.take n ++ es.drop n := (List.take_append_drop n es).symm
  refine ⟨?_, a ++ b, ?_, ?_, ?_⟩
  · conv_lhs => rw [hs, L0s_append]
  · rw [hs]
    exact optimise_append.2 ⟨a, b, ha, hb, rfl⟩
  · intro e he
    rcases List.mem_append.1 he with he | he
    · exact a1 e he
    · exact b1 e he
  · intro e he
    rcases List.mem_append.1 he with he | he
    · exact a2 e he
    · exact b2 e he

theorem fine_early : fine 0 early 9 = true := by decide +kernel

theorem lacks_early : (match optimise 200 0 early with | .ok es => lacksL .callWithValues es | _ => false) = true := by decide +kernel

theorem fine_1 : fine 9 (late.take 40) 29 = true := by decide +kernel

theorem fine_2 : fine 29 ((late.drop 40).take 40) 157 = true := by decide +kernel

theorem fine_3 : fine 157 (((late.drop 40).drop 40).take 40) 181 = true := by decide +kernel

theorem fine_4 : fine 181 ((((late.drop 40).drop 40).drop 40).take 40) 226 = true := by decide +kernel

theorem fine_5 : fine 226 (((((late.drop 40).drop 40).drop 40).drop 40).take 40) 234 = true := by decide +kernel

theorem fine_6 : fine 234 ((((((late.drop 40).drop 40).drop 40).drop 40).drop 40).take 20) 291 = true := by decide +kernel

theorem fine_7 : fine 291 (((((((late.drop 40).drop 40).drop 40).drop 40).drop 40).drop 20).take 2) 376 = true := by decide +kernel

theorem fine_8 : fine 376 ((((((((late.drop 40).drop 40).drop 40).drop 40).drop 40).drop 20).drop 2).take 10) 433 = true := by decide +kernel

theorem fine_9 : fine 433 ((((((((late.drop 40).drop 40).drop 40).drop 40).drop 40).drop 20).drop 2).drop 10) 518 = true := by decide +kernel

theorem fine_late : fine 9 late 518 = true := fine_split fine_1 (fine_split fine_2 (fine_split fine_3 (fine_split fine_4 (fine_split fine_5 (fine_split fine_6 (fine_split fine_7 (fine_split fine_8 fine_9)))))))

theorem wf_library : wfL library = true := by decide +kernel

theorem sc_library : scL library = true := by decide +kernel

end Minim.Fix
