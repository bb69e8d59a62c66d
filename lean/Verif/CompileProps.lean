import Verif.CompileSlots

set_option autoImplicit false

/-!
# Properties of label resolution and of compiled code (C50, C75)
-/

namespace Minim.Jit

open Minim.Sx Minim.Core

/-- Specification: the operation of an instruction, without jump target and template. -/
def shape {L C : Type} (i : I L C) : I Unit Unit := mapI (fun _ => ()) (fun _ => ()) i

theorem shape_mapI {L L' C C' : Type} (f : L → L') (g : C → C') (i : I L C) : shape (mapI f g i) = shape i := by cases i <;> rfl

/-- C50.  Resolving labels and flattening an instruction list succeeds whenever the labels are well formed (no label twice, each jump to a label of the list, an
instruction after each label, templates exist).  The resulting code has the instructions of the list in order, each with the same operation and operands.  Each jump
to a label goes to the position of the first instruction that followed this label, whatever labels stand in between.  Each closure template is the code it
names. -/
theorem C50_resolve (items : List Item) (tm : List Code) (ar : Ar) (hwf : WellFormed items tm.length) :
    ∃ is : List (I Nat Code), assemble tm items ar = .ok (.mk is ar) ∧ is.length = (instrs items).length ∧
      ∀ (k : Nat) (i : I Nat Nat), (instrs items)[k]? = some i → ∃ j : I Nat Code, is[k]? = some j ∧ shape j = shape i ∧
        (∀ l, target i = some l → ∃ pre post next, items = pre ++ .lab l :: post ∧ (instrs post).head? = some next ∧
          target j = some (instrs pre).length ∧ (instrs items)[(instrs pre).length]? = some next ∧
          ∃ next' : I Nat Code, is[(instrs pre).length]? = some next' ∧ shape next' = shape next) ∧
        (target i = none → target j = none) ∧
        (∀ c, tmplOf i = some c → ∃ code, tm.reverse[c]? = some code ∧ tmplOf j = some code) := by
  refine ⟨_, assemble_ok tm ar hwf, by simp, ?_⟩
  intro k i hi
  have hm : i ∈ instrs items := List.mem_of_getElem? hi
  refine ⟨_, by rw [List.getElem?_map, hi]; rfl, shape_mapI _ _ _, ?_, ?_, ?_⟩
  · intro l hl
    have hml := hwf.jumps i hm l hl
    obtain ⟨pre, post, he⟩ := (mem_labs l items).1 hml
    have hlt := labPos_lt hwf.nodup hwf.closed hml
    have hpos := labPos_eq hwf.nodup he
    rw [hpos] at hlt
    have hsome : (instrs items)[(instrs pre).length]? = (instrs post).head? := by
      rw [he, instrs_append, List.getElem?_append_right (Nat.le_refl _), Nat.sub_self, List.head?_eq_getElem?]; rfl
    obtain ⟨next, hn⟩ : ∃ next, (instrs items)[(instrs pre).length]? = some next := ⟨_, List.getElem?_eq_getElem hlt⟩
    refine ⟨pre, post, next, he, by rw [← hsome, hn], ?_, hn, ?_⟩
    · rw [target_mapI, hl, Option.map_some, hpos]
    · exact ⟨_, by rw [List.getElem?_map, hn]; rfl, shape_mapI _ _ _⟩
  · intro hl; rw [target_mapI, hl]; rfl
  · intro c hc
    have hlt := hwf.tmpls i hm c hc
    have : tm.reverse[c]? = some (tm.reverse[c]'(by simpa using hlt)) := List.getElem?_eq_getElem _
    refine ⟨_, this, ?_⟩
    rw [tmplOf_mapI, hc, Option.map_some, this]; rfl

/-- Two consecutive labels, a forward and a backward jump. -/
example : WellFormed [.ins .push, .lab 2, .ins (.branchf 0), .ins (.brancha 2), .lab 0, .lab 1, .ins (.makeClosure 0 3), .ins (.saveCC 1)]
    [Code.mk [] .null].length := by
  refine ⟨⟨_, _, rfl⟩, rfl, by decide, ?_, ?_⟩
  · intro i hi l hl
    simp only [instrs, List.mem_cons, List.not_mem_nil, or_false] at hi
    rcases hi with rfl | rfl | rfl | rfl | rfl <;> simp [target] at hl <;> subst hl <;> decide
  · intro i hi c hc
    simp only [instrs, List.mem_cons, List.not_mem_nil, or_false] at hi
    rcases hi with rfl | rfl | rfl | rfl | rfl <;> simp [tmplOf] at hc <;> subst hc <;> decide

/-- C50, compiled expressions: the compiler's own instruction lists are always well formed, so compiling an expression (where each `case-lambda` has a clause)
succeeds, and every jump of the resulting code, and of the code of all procedures inside it, goes to an instruction of the same code. -/
theorem C50_compiled (e : E) (h : hasClauses e = true) : ∃ code, compileExpr e = .ok code ∧ CodeOK code := by
  obtain ⟨⟨is, n, tm⟩, h1, o⟩ := compile_ok e [] true 0 [] h
  have hw : WellFormed ((if (boundVars e []).1 = [] then [] else [.ins (.pushEnv (boundVars e []).1.length)]) ++ is) tm.length := by
    obtain ⟨i, r, hr⟩ := o.head
    have hc := o.closed rfl
    have f := o.frag
    simp only at hr hc f
    have f' : Frag (Btw 0 n) tm.length [] ((if (boundVars e []).1 = [] then [] else [.ins (.pushEnv (boundVars e []).1.length)]) ++ is) := by
      split
      · exact f
      · exact f.cons (by simp [target]) (by simp [tmplOf])
    refine ⟨?_, ?_, f'.nodup, fun i hi l hl => (f'.jumps i hi l hl).elim id (by simp), f'.tmpls⟩
    · split
      · exact ⟨i, r, hr⟩
      · exact ⟨_, _, rfl⟩
    · split
      · exact hc
      · rw [hr] at hc ⊢; exact hc
  have ha := assemble_ok tm (.fix 0) hw
  refine ⟨_, ?_, assemble_codeOK hw (o.codes (by simp)) ha⟩
  simp only [compileExpr, h1, Res.ok_bind, ha]

/-- `(lambda (x . r) (if x (f (g x)) (mv-let (h x) (a b) (lambda () b))))`. -/
example : hasClauses (.lam ⟨[.user 1], some (.user 2)⟩ [.ite (.var (.user 1)) (.app (.var (.user 10)) [.app (.var (.user 11)) [.var (.user 1)]])
    (.mvlet (.app (.var (.user 12)) [.var (.user 1)]) [.user 3, .user 4] (.lam ⟨[], none⟩ [.var (.user 4)]))]) = true := rfl

/-- C75.  In compiled code, and in the code of all procedures inside it, each instruction that reads or writes a slot of the environment stays within the environment
made last by `push-env` in the same code, and so does the copying of a closure's variables; the code of each procedure is laid out for exactly the number
of variables its closures are made with. -/
theorem C75_slots (e : E) (code : Code) (h : hasClauses e = true) (hc : compileExpr e = .ok code) : SlotOK 0 code := by
  obtain ⟨⟨is, n, tm⟩, h1, o⟩ := compile_ok e [] true 0 [] h
  have p := compile_slots e [] true 0 [] 0 (boundVars e []).1.length h (by simp) _ h1
  have hw : WellFormed ((if (boundVars e []).1 = [] then [] else [.ins (.pushEnv (boundVars e []).1.length)]) ++ is) tm.length := by
    obtain ⟨i, r, hr⟩ := o.head
    have hc := o.closed rfl
    have f := o.frag
    simp only at hr hc f
    have f' : Frag (Btw 0 n) tm.length [] ((if (boundVars e []).1 = [] then [] else [.ins (.pushEnv (boundVars e []).1.length)]) ++ is) := by
      split
      · exact f
      · exact f.cons (by simp [target]) (by simp [tmplOf])
    refine ⟨?_, ?_, f'.nodup, fun i hi l hl => (f'.jumps i hi l hl).elim id (by simp), f'.tmpls⟩
    · split
      · exact ⟨i, r, hr⟩
      · exact ⟨_, _, rfl⟩
    · split
      · exact hc
      · rw [hr] at hc ⊢; exact hc
  simp only [compileExpr, h1, Res.ok_bind] at hc
  refine assemble_slots hw ?_ ?_ hc
  · rw [instrs_append]
    have hb : envOK 0 (boundVars e []).1.length (instrs is) := by
      have := envOK_fits (b := []) p.1 trivial
      simpa using this
    split
    next hnil => rw [hnil] at hb; exact hb
    next => exact hb
  · split
    · exact p.2
    · exact p.2.cons rfl

/-- A procedure with a local binding and a closure over it. -/
example : hasClauses (.lam ⟨[.user 1], some (.user 2)⟩ [.mvlet (.var (.user 1)) [.user 3, .user 4]
    (.clam [.mk ⟨[.user 5], none⟩ [.set (.user 4) (.var (.user 5))], .mk ⟨[], some (.user 6)⟩ [.var (.user 3)]])]) = true := rfl

end Minim.Jit
