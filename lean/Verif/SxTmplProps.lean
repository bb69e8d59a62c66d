import Verif.SxTmplEval
import Verif.SxClauseProps

set_option autoImplicit false

/-!
# C95: templates
-/

namespace Minim.Sc

/-- `(syntax t)`: the program for the template, evaluated. -/
def instantiate (gp : GetPat) (t : Tm) (c : Nat) (env : Env) : Res V := do
  let (code, _) ← doTemplate gp t.size (toSyntax t.dat) c
  runT code env

/-- The pattern variables `xs` are in scope with values that stand for what `σ` says and whose leaves satisfy `Q`; the values are bound to variables that are not going to be made by the template engine. -/
def Known (gp : GetPat) (Q : Nm → V → Prop) (c : Nat) (xs : List Nm) (σ : Nm → BV) (env : Env) : Prop :=
  ∀ x ∈ xs, ∃ k val v, gp x = some (k, val) ∧ env val = some v ∧ ShapeQ (Q x) k v ∧ bv k v = σ x ∧ ∀ m, val = .pv m → m ≤ c

theorem vdsL_mem {is : List Instr} {v : VD} : v ∈ vdsL is ↔ ∃ i ∈ is, v ∈ i.vds := by
  induction is with
  | nil => simp [vdsL]
  | cons i is ih => simp [vdsL, ih]

theorem sbO_vds {is : List Instr} {tl : Option Instr} {v : VD} (h : v ∈ (sbO is tl).vds) : ∃ i ∈ is ++ tl.toList, v ∈ i.vds := by
  unfold sbO at h
  split_ifs at h
  · simp [Instr.vds] at h
  · simp only [Instr.vds] at h
    obtain ⟨i, hi, hv⟩ := vdsL_mem.1 h
    exact ⟨i, List.mem_of_mem_filter hi, hv⟩

theorem famO_vds (gp : GetPat) (t : Tm) (k : Nat) : (∀ v ∈ (famO gp k t).1.vds, v ∈ t.vds gp) ∧ ∀ i ∈ (famO gp k t).2.1 ++ (famO gp k t).2.2.toList, ∀ v ∈ i.vds, v ∈ t.vds gp := by
  have hsub : ∀ (t u : Tm) (f : Tm), f.names = t.names ++ u.names → ∀ v, (v ∈ t.vds gp ∨ v ∈ u.vds gp) → v ∈ f.vds gp := by
    intro t u f hf v hv
    simp only [Tm.vds, hf, List.map_append, List.mem_append]
    exact hv
  induction t generalizing k with
  | var x => simp [fam, Instr.vds, Tm.vds, Tm.names]
  | const a => simp [fam, Instr.vds]
  | nil => simp [fam, Instr.vds]
  | cons t u iht ihu =>
    have h : ∀ i ∈ (famO gp k (.cons t u)).2.1 ++ (famO gp k (.cons t u)).2.2.toList, ∀ v ∈ i.vds, v ∈ (Tm.cons t u).vds gp := by
      intro i hi v hv
      simp only [fam, List.cons_append, List.mem_cons] at hi
      rcases hi with rfl | hi
      · exact hsub t u _ rfl v (.inl ((iht k).1 v hv))
      · exact hsub t u _ rfl v (.inr ((ihu k).2 i hi v hv))
    refine ⟨fun v hv => ?_, h⟩
    obtain ⟨i, hi, hv⟩ := sbO_vds hv
    exact h i hi v hv
  | ell t u iht ihu =>
    have h : ∀ i ∈ (famO gp k (.ell t u)).2.1 ++ (famO gp k (.ell t u)).2.2.toList, ∀ v ∈ i.vds, v ∈ (Tm.ell t u).vds gp := by
      intro i hi v hv
      simp only [fam, List.cons_append, List.mem_cons] at hi
      rcases hi with rfl | hi
      · simp only [apC, Instr.vds, List.mem_append] at hv
        rcases hv with hv | hv
        · exact hsub t u _ rfl v (.inl (List.mem_of_mem_filter hv))
        · exact hsub t u _ rfl v (.inl ((iht (k + 1)).1 v hv))
      · exact hsub t u _ rfl v (.inr ((ihu k).2 i hi v hv))
    refine ⟨fun v hv => ?_, h⟩
    obtain ⟨i, hi, hv⟩ : ∃ i ∈ (famO gp k (.ell t u)).2.1 ++ (famO gp k (.ell t u)).2.2.toList, v ∈ i.vds := by
      simp only [fam] at hv ⊢
      exact sbO_vds hv
    exact h i hi v hv
  | vec t iht =>
    refine ⟨fun v hv => (iht k).1 v hv, fun i hi v hv => ?_⟩
    simp only [fam, List.nil_append, Option.toList, List.mem_singleton] at hi
    subst hi
    exact (iht k).1 v hv

theorem instantiate_out (gp : GetPat) (Q : Nm → V → Prop) (t : Tm) (h : TWF (depths gp) 0 t) (hends : ∀ x ∈ t.ends, ∀ v, Q x v → isList v = true) (c : Nat)
    (σ : Nm → BV) (env : Env) (hk : Known gp Q c t.names σ env) : OutA Q t σ (instantiate gp t c env) := by
  let ρ : Env := fun x => (gp x).bind fun p => env p.2
  have hinv : Inv gp Q 0 t.names σ ρ := by
    intro x hx
    obtain ⟨k, val, v, h1, h2, h3, h4, _⟩ := hk x hx
    exact ⟨v, by simp [ρ, h1, h2], by simpa [dpt, h1] using h3, by simpa [dpt, h1] using h4⟩
  have hag : Agree (famO gp 0 t).1.vds [] c env ρ := by
    intro vd hvd
    have := (famO_vds gp t 0).1 vd hvd
    obtain ⟨x, hx, rfl⟩ := List.mem_map.1 this
    obtain ⟨k, val, v, h1, h2, _, _, h5⟩ := hk x hx
    simp only [refOf, List.lookup, h1, Option.getD_some, ρ, Option.bind_some]
    exact ⟨trivial, h5⟩
  have e : instantiate gp t c env = evalI (famO gp 0 t).1 ρ := by
    rw [instantiate, doTemplate_ok gp t h t.size le_rfl c]
    exact (build_ok _ [] c).2 env ρ hag
  rw [e]
  exact (eval_out gp Q t 0 h hends σ ρ hinv).1

/-- **C95**: a `syntax` form yields the instance of its template, and raises an exception exactly when there is none (sequences of different lengths below one ellipsis).  Missing: templates with the two
restrictions of `TWF` (a list with an ellipsis that ends in a constant; several ellipses in a row), and a variable behind a dot at the end of a list with an ellipsis whose value is not a list. -/
theorem C95_template_partial (gp : GetPat) (t : Tm) (h : TWF (depths gp) 0 t) (c : Nat) (σ : Nm → BV) (env : Env)
    (hk : Known gp (fun x v => x ∈ t.ends → isList v = true) c t.names σ env) :
    (∃ v, instantiate gp t c env = .ok v ∧ I t σ (strip v)) ∨ (instantiate gp t c env = .err ∧ ∀ d, ¬ I t σ d) := by
  rcases instantiate_out gp _ t h (fun x hx v hv => hv hx) c σ env hk with ⟨v, d, h1, h2, rfl, _⟩ | h
  · exact .inl ⟨v, h1, h2⟩
  · exact .inr h

/-- There is only one instance. -/
theorem C95_instance_unique (t : Tm) (σ : Nm → BV) {d d' : V} (h1 : I t σ d) (h2 : I t σ d') : d = d' := by
  have key : ∀ (t : Tm) (σ : Nm → BV) (d d' : V), I t σ d → I t σ d' → d = d' := by
    intro t
    induction t with
    | var x => intro σ d d' h1 h2; simp only [I] at h1 h2; rw [h1] at h2; exact BV.leaf.inj h2
    | const a => intro σ d d' h1 h2; exact h1.trans h2.symm
    | nil => intro σ d d' h1 h2; exact h1.trans h2.symm
    | cons t u iht ihu =>
      rintro σ _ _ ⟨a, b, rfl, h1, h2⟩ ⟨a', b', rfl, h3, h4⟩
      rw [iht σ _ _ h1 h3, ihu σ _ _ h2 h4]
    | vec t iht =>
      rintro σ _ _ ⟨a, rfl, h1⟩ ⟨a', rfl, h3⟩
      rw [iht σ _ _ h1 h3]
    | ell t u iht ihu =>
      rintro σ _ _ ⟨l, r, rfl, h1, τs, h2, h3, x, hx, bs, hbs⟩ ⟨l', r', rfl, h1', τs', h2', h3', _⟩
      rw [ihu σ _ _ h1 h1']
      have hlen : τs.length = τs'.length := by
        rcases h3 x hx with h | ⟨b, h, _⟩
        · rcases h3' x hx with h' | ⟨b, h', _⟩
          · rw [h] at h'
            have := congrArg List.length (BV.many.inj h')
            simpa using this
          · rw [h] at h'; cases h'
        · rw [h] at hbs; cases hbs
      have hag : List.Forall₂ (fun τ τ' => ∀ y ∈ t.names, τ y = τ' y) τs τs' := by
        rw [List.forall₂_iff_get]
        refine ⟨hlen, fun i hi hi' y hy => ?_⟩
        rcases h3 y hy with h | ⟨b, h, hb⟩
        · rcases h3' y hy with h' | ⟨b, h', _⟩
          · rw [h] at h'
            have := BV.many.inj h'
            have e : (τs.map (· y))[i]'(by simpa using hi) = (τs'.map (· y))[i]'(by simpa using hi') := by simp only [this]
            simpa using e
          · rw [h] at h'; cases h'
        · rcases h3' y hy with h' | ⟨b', h', hb'⟩
          · rw [h] at h'; cases h'
          · rw [h] at h'
            cases h'
            rw [hb _ (List.get_mem _ _), hb' _ (List.get_mem _ _)]
      have : l = l' := by
        clear h3 h3' hbs hlen
        induction hag generalizing l l' with
        | nil => cases h2; cases h2'; rfl
        | cons a _ ih =>
          cases h2 with
          | cons b b' =>
            cases h2' with
            | cons c c' => rw [iht _ _ _ (I_congr a b) c, ih _ b' _ c']
      rw [this]
  exact key t σ d d' h1 h2

/-- **C95**, again as input: where the values of the variables are syntax objects as the reader makes them, and those behind a dot are lists of such or data without a tail of their own, the result is
the syntax object that the reader makes for the instance, so that patterns match it (C94). -/
theorem C95_flat_partial (gp : GetPat) (t : Tm) (h : TWF (depths gp) 0 t) (c : Nat) (σ : Nm → BV) (env : Env)
    (hk : Known gp (fun x v => (x ∈ t.ends → isList v = true) ∧ Flat v ∧ (x ∈ t.dotted → FlatT v)) c t.names σ env) :
    (∃ v, instantiate gp t c env = .ok v ∧ I t σ (strip v) ∧ toSyntax v = toSyntax (strip v) ∧ ((∀ x, t ≠ .var x) → v = toSyntax (strip v))) ∨
      (instantiate gp t c env = .err ∧ ∀ d, ¬ I t σ d) := by
  rcases instantiate_out gp _ t h (fun x hx v hv => hv.1 hx) c σ env hk with ⟨v, d, h1, h2, rfl, h4, _, h6⟩ | h
  · have hf : Flat v := h4 ⟨fun x v hv => hv.2.1, fun x hx v hv => hv.2.2 hx⟩
    refine .inl ⟨v, h1, h2, hf, fun hv => ?_⟩
    have := h6 hv
    rw [← hf]
    cases v <;> simp [isStx] at this
    rfl
  · exact .inr h

section examples

/-- `(begin (x y ... z) ...)` -/
def exTm : Tm := .cons (.const (.sym (.user 9))) (.ell (.cons (.var X) (.ell (.var Y) (.cons (.var Z) .nil))) .nil)

/-- the scope after `(_ (x y ...) ... z)` has matched -/
def exScope : GetPat := fun x => if x = X then some (1, .sc 1) else if x = Y then some (2, .sc 2) else if x = Z then some (0, .sc 3) else none

/-- the values -/
def exEnv : Env := fun x =>
  if x = .sc 1 then some (listV [.stx (.num 1), .stx (.num 4)]) else if x = .sc 2 then some (listV [listV [.stx (.num 2), .stx (.num 3)], .null])
  else if x = .sc 3 then some (.stx (.num 5)) else none

/-- The hypotheses of the theorem hold for an example. -/
example : ∃ σ, TWF (depths exScope) 0 exTm ∧ Known exScope (fun x v => (x ∈ exTm.ends → isList v = true) ∧ Flat v ∧ (x ∈ exTm.dotted → FlatT v)) 0 exTm.names σ exEnv := by
  refine ⟨fun x => if x = X then .many [.leaf (.num 1), .leaf (.num 4)] else if x = Y then .many [.many [.leaf (.num 2), .leaf (.num 3)], .many []] else .leaf (.num 5), ?_, ?_⟩
  · simp [exTm, TWF, depths, exScope, X, Y, Z, isAtom, Tm.last, Tm.names]
  · intro x hx
    simp only [exTm, Tm.names, List.nil_append, List.append_nil, List.mem_append, List.mem_singleton] at hx
    rcases hx with rfl | rfl | rfl
    · exact ⟨1, .sc 1, _, rfl, rfl, ⟨[.stx (.num 1), .stx (.num 4)], rfl, by simp [ShapeQ, Flat, toSyntax, strip, exTm, Tm.ends, Tm.last, Tm.dotted, Tm.dottedTail]⟩, rfl, by simp⟩
    · refine ⟨2, .sc 2, _, rfl, rfl, ⟨[listV [.stx (.num 2), .stx (.num 3)], listV []], rfl, ?_⟩, rfl, by simp⟩
      intro a ha
      simp only [List.mem_cons, List.not_mem_nil, or_false] at ha
      rcases ha with rfl | rfl <;> exact ⟨_, rfl, by simp [ShapeQ, Flat, toSyntax, strip, exTm, Tm.ends, Tm.last, Tm.dotted, Tm.dottedTail]⟩
    · exact ⟨0, .sc 3, _, rfl, rfl, by simp [ShapeQ, Flat, toSyntax, strip, exTm, Tm.ends, Tm.last, Tm.dotted, Tm.dottedTail], rfl, by simp⟩

/-- The result: `(begin (1 2 3 5) (4 5))`. -/
example : instantiate exScope exTm 0 exEnv = .ok (toSyntax (listV [.sym (.user 9), listV [.num 1, .num 2, .num 3, .num 5], listV [.num 4, .num 5]])) := by decide

/-- Sequences of different lengths: `((x y) ...)` with `x` for `1 2` and `y` for `3`. -/
example : instantiate (fun x => if x = X then some (1, .sc 1) else some (1, .sc 2)) (.ell (.cons (.var X) (.cons (.var Y) .nil)) .nil) 0
    (fun x => if x = .sc 1 then some (listV [.stx (.num 1), .stx (.num 2)]) else some (listV [.stx (.num 3)])) = .err := by decide

end examples

/-! ### where the code differs -/

/-- A list with an ellipsis that ends in a variable whose value is not a list: `#'(x ... . y)` raises an exception, though `(1 . 2)` is the instance (template-utils.min:339 appends). -/
theorem C95_negated_dotted_end : ∃ (gp : GetPat) (t : Tm) (σ : Nm → BV) (env : Env) (d : V), TWF (depths gp) 0 t ∧ Known gp (fun _ _ => True) 0 t.names σ env ∧ I t σ d ∧
    instantiate gp t 0 env = .err := by
  refine ⟨fun x => if x = X then some (1, .sc 1) else some (0, .sc 2), .ell (.var X) (.var Y), fun x => if x = X then .many [.leaf (.num 1)] else .leaf (.num 2),
    fun x => if x = .sc 1 then some (listV [.stx (.num 1)]) else some (.stx (.num 2)), .cons (.num 1) (.num 2), ?_, ?_, ?_, by decide⟩
  · simp [TWF, depths, Tm.last, Tm.names]
  · intro x hx
    simp only [Tm.names, List.singleton_append, List.mem_cons, List.not_mem_nil, or_false] at hx
    rcases hx with rfl | rfl
    · exact ⟨1, .sc 1, _, rfl, rfl, ⟨[_], rfl, by simp [ShapeQ]⟩, rfl, by simp⟩
    · exact ⟨0, .sc 2, _, rfl, rfl, trivial, rfl, by simp⟩
  · refine ⟨[.num 1], .num 2, rfl, by simp [I], [fun _ => .leaf (.num 1)], .cons rfl .nil, ?_, X, by simp [Tm.names], [.leaf (.num 1)], by simp⟩
    simp [Tm.names]

/-- The same for a constant at the end: `#'(x ... . 5)`. -/
theorem C95_negated_constant_end : ∃ (gp : GetPat) (t : Tm) (σ : Nm → BV) (env : Env) (d : V), Known gp (fun _ _ => True) 0 t.names σ env ∧ I t σ d ∧ instantiate gp t 0 env = .err := by
  refine ⟨fun x => if x = X then some (1, .sc 1) else none, .ell (.var X) (.const (.num 5)), fun _ => .many [.leaf (.num 1)],
    fun _ => some (listV [.stx (.num 1)]), .cons (.num 1) (.num 5), ?_, ?_, by decide⟩
  · intro x hx
    simp only [Tm.names, List.append_nil, List.mem_singleton] at hx
    subst hx
    exact ⟨1, .sc 1, _, rfl, rfl, ⟨[_], rfl, by simp [ShapeQ]⟩, rfl, by simp⟩
  · refine ⟨[.num 1], .num 5, rfl, by simp [I], [fun _ => .leaf (.num 1)], .cons rfl .nil, ?_, X, by simp [Tm.names], [.leaf (.num 1)], rfl⟩
    simp [Tm.names]

/-- Several ellipses in a row, which R6RS allows, are refused: `#'(x ... ...)` with a variable of depth two. -/
theorem C95_negated_double_ellipsis : ∃ gp : GetPat, depths gp X = some 2 ∧ ∀ c fuel, 2 ≤ fuel →
    doTemplate gp fuel (toSyntax (listV [.sym X, .sym .dots, .sym .dots])) c = .err := by
  refine ⟨fun x => if x = X then some (2, .sc 1) else none, by simp [depths], fun c fuel hf => ?_⟩
  obtain ⟨n, rfl⟩ : ∃ n, fuel = n + 2 := ⟨fuel - 2, by omega⟩
  simp [doTemplate, parse, listV, toSyntax, pairTail, stxPair, tmplList, parseElems, isDots, identOf, stxVector]

/-- The escape `(... ...)` of R6RS is refused. -/
theorem C95_negated_escape (gp : GetPat) (h : gp .dots = none) (c fuel : Nat) (hf : 2 ≤ fuel) : doTemplate gp fuel (toSyntax (listV [.sym .dots, .sym .dots])) c = .err := by
  obtain ⟨n, rfl⟩ : ∃ n, fuel = n + 2 := ⟨fuel - 2, by omega⟩
  simp [doTemplate, parse, listV, toSyntax, pairTail, stxPair, tmplList, parseElems, isDots, identOf, stxVector, h, compVars, compVarsL]

/-- An ellipsis with nothing to repeat is found out only when the program runs (template-utils.min:105: `>=`): for `#'(x ...)` with a variable of depth zero there is a program, which raises an exception
whenever it is run. -/
theorem C95_negated_too_many : ∃ gp : GetPat, depths gp X = some 0 ∧ ∃ code, doTemplate gp 2 (toSyntax (listV [.sym X, .sym .dots])) 0 = .ok (code, 0) ∧ ∀ env, runT code env = .err := by
  refine ⟨fun x => if x = X then some (0, .sc 1) else none, by simp [depths], .subst (listV [.sym .under]) [.append 0] [.map [] (.ref (.sc 1)) []], rfl, fun env => ?_⟩
  simp [runT, runTL, lookups, mapCall]

/-- A variable that is the whole template is handed on as it is, and behind a dot in a pattern it stands for a bare list: `(syntax-case #'(m 1 2) () [(_ . x) #'x])` does not yield a syntax object. -/
theorem C95_negated_not_syntax : ∃ v, syntaxCase [] 100 [⟨toSyntax (Pat.cons .wild (.var X)).dat, none, fun sc env => instantiate sc (.var X) 0 env⟩] 0 (fun _ => none)
    (toSyntax (listV [.sym (.user 9), .num 1, .num 2])) (fun _ => none) = .ok v ∧ isStx v = false :=
  ⟨listV [.stx (.num 1), .stx (.num 2)], by decide, rfl⟩

/-- A variable behind a dot that stands for a list gives a list whose tail is a syntax object of its own, and this list is not matched by a pattern with an ellipsis: `#'(m 0 . x)` with `x` for `(1 2)` is
not matched by `(_ y ...)`. -/
theorem C95_negated_wrapped_tail : ∃ v, instantiate (fun x => if x = X then some (0, .sc 1) else none) (.cons (.const (.sym (.user 9))) (.cons (.const (.num 0)) (.var X))) 0
      (fun _ => some (toSyntax (listV [.num 1, .num 2]))) = .ok v ∧ strip v = listV [.sym (.user 9), .num 0, .num 1, .num 2] ∧
    matchOn [] (.cons .wild (.ell (.var Y) .nil)) v = .ok .fls ∧ ∃ σ, M (.cons .wild (.ell (.var Y) .nil)) (strip v) σ := by
  refine ⟨.stx (.cons (.stx (.sym (.user 9))) (.cons (.stx (.num 0)) (toSyntax (listV [.num 1, .num 2])))), by decide, by decide, by decide,
    fun _ => .many [.leaf (.num 0), .leaf (.num 1), .leaf (.num 2)], ?_⟩
  exact ⟨_, _, rfl, trivial, [.num 0, .num 1, .num 2], .null, rfl, rfl, rfl, [fun _ => .leaf (.num 0), fun _ => .leaf (.num 1), fun _ => .leaf (.num 2)], .cons rfl (.cons rfl (.cons rfl .nil)), by simp⟩

end Minim.Sc
