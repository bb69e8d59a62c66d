import Verif.PassMain
import Mathlib.Logic.Relation

set_option autoImplicit false

/-!
# The passes are rewriting steps
-/

namespace Minim.Jit

open Minim.Sx Minim.Core

/-- No temporaries. -/
abbrev NoF : Sym → Prop := fun _ => False

section
variable {K : Kn} {F : Sym → Prop}

/-! ### The conditions hold after a step -/

theorem Wf.asExpr : ∀ {es : List E}, WfL K F es → Wf K F (asExpr es)
  | [], h => by simpa [Minim.Jit.asExpr, Wf] using h
  | [e], h => by rw [WfL] at h; exact h.1
  | _ :: _ :: _, h => by simpa [Minim.Jit.asExpr, Wf] using h

theorem WfL.append : ∀ {es fs : List E}, WfL K F (es ++ fs) ↔ WfL K F es ∧ WfL K F fs
  | [], fs => by simp [WfL]
  | e :: es, fs => by simp [WfL, WfL.append (es := es), and_assoc]

theorem WfL.replicate {e : E} (h : Wf K F e) : ∀ n, WfL K F (List.replicate n e)
  | 0 => by simp [WfL]
  | n + 1 => by simp [List.replicate, WfL, h, WfL.replicate h n]

theorem WfL.vars : ∀ ts : List Sym, WfL K NoF (ts.map .var)
  | [] => by simp [WfL]
  | t :: ts => by simp [WfL, Wf, WfL.vars ts]

theorem tmpIds_wf (hN : Names K F) (hG : ∀ j, F (.gen j)) {k : Nat} {xs : List Sym} : ∀ x ∈ tmpIds k xs, ¬ K x := by
  intro x hx hk
  obtain ⟨j, rfl, _⟩ := mem_tmpIds hx
  exact hN.disj _ hk (hG j)

theorem let2_wf (hN : Names K F) (hG : ∀ j, F (.gen j)) : ∀ {k : Nat} {bs : List Bd} {ids tmps : List Sym} {es : List E}, (∀ x ∈ bdsIds bs, ¬ K x) → (∀ x ∈ ids, ¬ K x) →
    WfB K NoF bs → WfL K NoF es → Wf K NoF (let2 k bs ids tmps es)
  | k, [], ids, tmps, es, _, h2, _, h4 => by
    simp only [let2, Wf, Formals.ids]
    exact ⟨⟨fun x hx => ⟨h2 x (by simpa using hx), id⟩, h4⟩, WfL.vars _⟩
  | k, .mk xs e :: bs, ids, tmps, es, h1, h2, h3, h4 => by
    rw [WfB] at h3
    have h1' : ∀ x ∈ xs, ¬ K x := fun x hx => h1 x (by simp [bdsIds, Bd.ids, hx])
    have := let2_wf hN hG (k := k + xs.length) (bs := bs) (ids := xs ++ ids) (tmps := tmpIds k xs ++ tmps) (es := es) (fun x hx => h1 x (by simp [bdsIds, hx]))
      (fun x hx => (List.mem_append.1 hx).elim (h1' x) (h2 x)) h3.2 h4
    simp only [let2, Wf, WfL, Formals.ids]
    exact ⟨id, ⟨by simp, h3.1, trivial⟩, ⟨fun x hx => ⟨tmpIds_wf hN hG x (by simpa using hx), id⟩, this, trivial⟩, trivial⟩

theorem setBody_wf : ∀ {xs ts : List Sym}, (∀ x ∈ xs, ¬ K.con x) → WfL K NoF (setBody xs ts)
  | [], _, _ => by simp [setBody, WfL]
  | x :: xs, [], _ => by simp [setBody, WfL]
  | x :: xs, t :: ts, h => by
    simp only [setBody, WfL, Wf]
    exact ⟨⟨h x (by simp), id, id⟩, setBody_wf fun y hy => h y (by simp [hy])⟩

theorem setExprs_wf (hN : Names K F) (hG : ∀ j, F (.gen j)) : ∀ {k : Nat} {bs : List Bd}, (∀ x ∈ bdsIds bs, ¬ K.con x) → WfB K NoF bs → WfL K NoF (setExprs k bs)
  | _, [], _, _ => by simp [setExprs, WfL]
  | k, .mk xs e :: bs, h, hw => by
    rw [WfB] at hw
    simp only [setExprs, setExpr, WfL, Wf, Formals.ids]
    refine ⟨⟨id, ⟨by simp, hw.1, trivial⟩, ⟨fun x hx => ⟨tmpIds_wf hN hG x (by simpa using hx), id⟩, ?_⟩, trivial⟩, setExprs_wf hN hG (fun x hx => h x (by simp [bdsIds, hx])) hw.2⟩
    split
    · simp [WfL, Wf]
    · exact setBody_wf fun x hx => h x (by simp [bdsIds, Bd.ids, hx])

mutual

theorem Tr.wf (hN : Names K F) : ∀ {e e' : E}, Tr K F e e' → Wf K F e → Wf K NoF e'
  | _, _, .var _, _ => by rw [Wf]; exact id
  | _, _, .lit _, _ => by simp [Wf]
  | _, _, .quote _, _ => by simp [Wf]
  | _, _, .quoteSyntax _, _ => by simp [Wf]
  | _, _, .unbound, _ => by simp [Wf]
  | _, _, .define h, hw => by rw [Wf] at hw ⊢; exact ⟨fun x hx => ⟨(hw.1 x hx).1, id⟩, h.wf hN hw.2⟩
  | _, _, .set h, hw => by rw [Wf] at hw ⊢; exact ⟨hw.1, id, h.wf hN hw.2.2⟩
  | _, _, .ite h1 h2 h3, hw => by rw [Wf] at hw ⊢; exact ⟨h1.wf hN hw.1, h2.wf hN hw.2.1, h3.wf hN hw.2.2⟩
  | _, _, .letv h1 h2, hw => by
    rw [Wf] at hw ⊢; rw [h1.ids]
    exact ⟨fun x hx => ⟨(hw.1 x hx).1, id⟩, hw.2.1, h1.wf hN hw.2.2.1, h2.wf hN hw.2.2.2⟩
  | _, _, .letrecv h1 h2, hw => by
    rw [Wf] at hw ⊢; rw [h1.ids]
    refine ⟨fun x hx => ⟨(hw.1 x hx).1, id⟩, ?_, h1.wf hN hw.2.2.1, h2.wf hN hw.2.2.2⟩
    rintro rfl
    exact hw.2.1 (List.length_eq_zero_iff.1 h2.length.symm)
  | _, _, .lam h, hw => by rw [Wf] at hw ⊢; exact ⟨fun x hx => ⟨(hw.1 x hx).1, id⟩, h.wf hN hw.2⟩
  | _, _, .clam h, hw => by rw [Wf] at hw ⊢; exact h.wf hN hw
  | _, _, .begin h, hw => by rw [Wf] at hw ⊢; exact h.wf hN hw
  | _, _, .app h1 h2, hw => by rw [Wf] at hw ⊢; exact ⟨h1.wf hN hw.1, h2.wf hN hw.2⟩
  | _, _, .mvcall h1 h2, hw => by rw [Wf] at hw ⊢; exact ⟨h1.wf hN hw.1, h2.wf hN hw.2⟩
  | _, _, .mvlet h1 h2, hw => by rw [Wf] at hw ⊢; exact ⟨fun x hx => ⟨(hw.1 x hx).1, id⟩, h1.wf hN hw.2.1, h2.wf hN hw.2.2⟩
  | _, _, .mvvals h, hw => by rw [Wf] at hw ⊢; exact h.wf hN hw
  | _, _, .let0 h, hw => by simp only [Wf] at hw ⊢; exact h.wf hN hw.2.2.2
  | _, _, .let1 _ h1 h2, hw => by
    rw [Wf, WfB] at hw
    simp only [Wf, WfL, Formals.ids]
    exact ⟨id, ⟨by simp, h1.wf hN hw.2.2.1.1, trivial⟩, ⟨fun x hx => ⟨(hw.1 x (by simpa [bdsIds, Bd.ids] using hx)).1, id⟩, h2.wf hN hw.2.2.2⟩, trivial⟩
  | _, _, .let2 k hG h1 h2, hw => by
    rw [Wf] at hw
    exact let2_wf hN hG (by rw [h1.ids]; exact fun x hx => (hw.1 x hx).1) (by simp) (h1.wf hN hw.2.2.1) (h2.wf hN hw.2.2.2)
  | _, _, .letrec0 h, hw => by simp only [Wf] at hw ⊢; exact h.wf hN hw.2.2.2
  | _, _, .letrec1 k hG h1 h2 _, hw => by
    rw [Wf] at hw
    simp only [Wf, WfL, Formals.ids]
    refine ⟨id, ⟨by simp, ⟨id, WfL.replicate (by simp [Wf]) _⟩, trivial⟩, ⟨fun x hx => ⟨fun hk => (hw.1 x (by simpa using hx)).1 (hN.sub _ hk), id⟩, ?_⟩, trivial⟩
    exact WfL.append.2 ⟨setExprs_wf hN hG (by rw [h1.ids]; exact fun x hx => (hw.1 x hx).1) (h1.wf hN hw.2.2.1), h2.wf hN hw.2.2.2⟩
  | _, _, .clam1 h, hw => by
    rw [Wf, WfC] at hw
    rw [Wf]
    exact ⟨fun x hx => ⟨(hw.1 x hx).1, id⟩, h.wf hN hw.2.1⟩
  | _, _, .values1 h, hw => by rw [Wf, WfL] at hw; exact h.wf hN hw.2.1
  | _, _, .values h, hw => by simp only [Wf] at hw ⊢; exact h.wf hN hw.2
  | _, _, .cwv h1 h2 _, hw => by
    rw [Wf, WfL, WfL] at hw
    rw [Wf, Wf, WfL]
    exact ⟨⟨h1.wf hN hw.2.1, trivial⟩, h2.wf hN hw.2.2.1⟩
  | _, _, .cwvMore h1 h2, hw => by
    rw [Wf, WfL, WfL] at hw
    rw [Wf, Wf, WfL]
    exact ⟨⟨h1.wf hN hw.2.1, trivial⟩, h2.wf hN hw.2.2.1⟩
  | _, _, .mvThunk h1 h2, hw => by
    rw [Wf, Wf, Wf] at hw
    rw [Wf]
    exact ⟨Wf.asExpr (h1.wf hN hw.1.1.2), h2.wf hN hw.2⟩
  | _, _, .mvVals h1 h2 _, hw => by
    rw [Wf, Wf] at hw
    rw [Wf]
    exact ⟨h2.wf hN hw.2, h1.wf hN hw.1⟩
  | _, _, .mvBegin h1 h2 h3, hw => by
    rw [Wf, Wf, WfL.append, WfL] at hw
    rw [Wf, WfL.append, WfL, Wf, WfL]
    exact ⟨h1.wf hN hw.1.1, ⟨h2.wf hN hw.1.2.1, h3.wf hN hw.2⟩, trivial⟩
  | _, _, .mvIf h1 h2 h3 h4, hw => by
    rw [Wf, Wf] at hw
    rw [Wf, Wf, Wf]
    exact ⟨h1.wf hN hw.1.1, ⟨h2.wf hN hw.1.2.1, h4.wf hN hw.2⟩, h3.wf hN hw.1.2.2, h4.wf hN hw.2⟩
  | _, _, .mvAtom h1 h2 _ _, hw => by
    rw [Wf] at hw
    rw [Wf, WfL, WfL]
    exact ⟨h2.wf hN hw.2, h1.wf hN hw.1, trivial⟩
  | _, _, .mvLam h1 h2, hw => by
    rw [Wf, Wf] at hw
    rw [Wf]
    exact ⟨fun x hx => ⟨(hw.2.1 x (by simpa [Formals.ids] using hx)).1, id⟩, h1.wf hN hw.1, Wf.asExpr (h2.wf hN hw.2.2)⟩
  | _, _, .app0 h, hw => by rw [Wf, Wf] at hw; exact Wf.asExpr (h.wf hN hw.1.2)
  | _, _, .app1 h1 h2, hw => by
    rw [Wf, Wf, WfL] at hw
    rw [Wf]
    exact ⟨fun x hx => ⟨(hw.1.1 x (by simpa [Formals.ids] using hx)).1, id⟩, h1.wf hN hw.2.1, Wf.asExpr (h2.wf hN hw.1.2)⟩
  | _, _, .app2 h1 h2, hw => by
    rw [Wf, Wf] at hw
    rw [Wf, Wf, Wf]
    exact ⟨fun x hx => ⟨(hw.1.1 x (by simpa [Formals.ids] using hx)).1, id⟩, ⟨id, h1.wf hN hw.2⟩, Wf.asExpr (h2.wf hN hw.1.2)⟩

theorem TrL.wf (hN : Names K F) : ∀ {e e' : List E}, TrL K F e e' → WfL K F e → WfL K NoF e'
  | _, _, .nil, _ => by simp [WfL]
  | _, _, .cons h1 h2, hw => by rw [WfL] at hw ⊢; exact ⟨h1.wf hN hw.1, h2.wf hN hw.2⟩

theorem TrB.wf (hN : Names K F) : ∀ {e e' : List Bd}, TrB K F e e' → WfB K F e → WfB K NoF e'
  | _, _, .nil, _ => by simp [WfB]
  | _, _, .cons h1 h2, hw => by rw [WfB] at hw ⊢; exact ⟨h1.wf hN hw.1, h2.wf hN hw.2⟩

theorem TrC.wf (hN : Names K F) : ∀ {e e' : List Cl}, TrC K F e e' → WfC K F e → WfC K NoF e'
  | _, _, .nil, _ => by simp [WfC]
  | _, _, .cons h1 h2, hw => by rw [WfC] at hw ⊢; exact ⟨fun x hx => ⟨(hw.1 x hx).1, id⟩, h1.wf hN hw.2.1, h2.wf hN hw.2.2⟩

end

end

end Minim.Jit
