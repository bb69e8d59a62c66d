import Verif.ExpCheck
import Verif.ExpModProps

set_option autoImplicit false

/-!
# C89: modules that refer to unknown variables are refused
-/

namespace Minim.Exp

open Minim.Sx Minim.Core Minim.Jit

/-- C89: an expanded module is accepted if and only if each variable it refers to is bound around the reference, defined somewhere in the module, or known from outside. -/
theorem C89_check_partial {V : Sym → Prop} (hV : NoKw V) (sc : List Sym) (es : List E) (h : ∀ e ∈ es, TopNF V e) :
    ∃ b, (∃ n0, ∀ n, n0 ≤ n → checkModule n sc (es.map fun e => syn (enc e)) = .ok b) ∧ (b = true ↔ ClosedL false (fun x => x ∈ modIds es ∨ x ∈ sc) es) :=
  checkModule_all hV sc es h

/-- C89: a module of definitions and expressions, with derived forms, is expanded and then accepted if and only if each variable its expansion refers to is bound, defined or known. -/
theorem C89_expanded_partial (ex : T → Res (List (T → Res T))) {N : Sym → Prop} (hN : Names N) {xs : Xforms} (hx : Scope N xs) (hk : NoKwX xs) (ss : List S) (ho : OkTops N ss) (hd : (topIds ss).Nodup)
    (sc : List Sym) : ∃ (es : List E) (b : Bool), (∃ n0, ∀ n, n0 ≤ n → ∃ ts, expandModule ex n xs (ss.map fun s => syn (dat s)) = .ok (ts, xs) ∧ ts = (es.map fun e => syn (enc e)) ∧ checkModule n sc ts = .ok b) ∧
      (b = true ↔ ClosedL false (fun x => x ∈ modIds es ∨ x ∈ sc) es) := by
  obtain ⟨b, ⟨n0, h1⟩, h2⟩ := checkModule_all hN.noKw sc (xtops ss) (xtops_nf hN ho hd ⟨hx, hk⟩)
  obtain ⟨n1, h3⟩ := mod_exp (ex := ex) hN ho hd ⟨hx, hk⟩
  exact ⟨xtops ss, b, ⟨max n0 n1, fun n hn => ⟨_, h3 n (by omega), rfl, h1 n (by omega)⟩⟩, h2⟩

/-! ### examples -/

/-- Example: `(define-values (f) (lambda (x . r) (let-values ([(y) (g x)]) (set! y r) y)))`, `(define-values (g) (lambda (z) (letrec-values ([(k) (lambda () (k))]) (f z))))`, `(f 'a)`. -/
def exChk : List E :=
  [.define [.user 100] (.lam ⟨[.user 101], some (.user 102)⟩ [.letv [.mk [.user 103] (.app (.var (.user 104)) [.var (.user 101)])] [.set (.user 103) (.var (.user 102)), .var (.user 103)]]),
   .define [.user 104] (.lam ⟨[.user 105], none⟩ [.letrecv [.mk [.user 106] (.lam ⟨[], none⟩ [.app (.var (.user 106)) []])] [.app (.var (.user 100)) [.var (.user 105)]]]),
   .app (.var (.user 100)) [.quote (.sym (.user 107))]]

theorem exChk_nf : ∀ e ∈ exChk, TopNF (fun x => ∃ n, x = .user n ∧ 100 ≤ n) e := by
  intro e he
  simp only [exChk, List.mem_cons, List.not_mem_nil, or_false] at he
  rcases he with rfl | rfl | rfl
  · exact .df _ _ (by simp [NF, NFl, NFbds, NFbd, isBegin, bdsIds, Bd.ids, Formals.ids])
  · exact .df _ _ (by simp [NF, NFl, NFbds, NFbd, isBegin, bdsIds, Bd.ids, Formals.ids])
  · exact .xpr _ (by simp [NF, NFl])

/-- the example meets the conditions and is accepted, even though `g` is used before its definition; it is not if the definition of `g` is left out -/
example : NoKw (fun x => ∃ n, x = .user n ∧ 100 ≤ n) ∧ (∀ e ∈ exChk, TopNF (fun x => ∃ n, x = .user n ∧ 100 ≤ n) e) ∧
    checkModule 20 [] (exChk.map fun e => syn (enc e)) = .ok true ∧ checkModule 20 [] ((exChk.eraseIdx 1).map fun e => syn (enc e)) = .ok false ∧
    checkModule 20 [.user 104] ((exChk.eraseIdx 1).map fun e => syn (enc e)) = .ok true := by
  refine ⟨?_, exChk_nf, rfl, rfl, rfl⟩
  rintro _ ⟨n, rfl, hn⟩
  simp [keywords, sLetSyntaxes, sDefineSyntaxes]
  omega

/-- the module of C88 meets the conditions -/
example : Names exNames ∧ Scope exNames exScope ∧ NoKwX exScope ∧ OkTops exNames exMod ∧ (topIds exMod).Nodup := ⟨exNames_ok, exScope_ok, exScope_kw, exMod_ok.1, exMod_ok.2⟩

/-! ### where the code disagrees -/

/-- Example: `(set! x '1)` where `x` is unknown. -/
def badSet : E := .set (.user 110) (.quote (.other 1))

/-- C89 fails for assignments: a module that assigns a variable nobody knows is accepted; running it raises an exception. -/
theorem C89_negated : TopNF (fun x => ∃ n, x = .user n ∧ 100 ≤ n) badSet ∧ checkModule 20 [] [syn (enc badSet)] = .ok true ∧ ¬ Closed true (fun x => x ∈ modIds [badSet] ∨ x ∈ ([] : List Sym)) badSet ∧
    ev exPrims 20 (fun _ => none) badSet exR = .err := by
  refine ⟨.xpr _ (by simp [badSet, NF]), rfl, by simp [badSet, Closed, modIds], rfl⟩

end Minim.Exp
