import Verif.SxRules

set_option autoImplicit false

/-!
# C98: `case`

Model of library/private/case.min: the rules of `case`, `case/else` and `case/test` as patterns and templates, expanded by the models of `syntax-case` and `syntax`, and an evaluator for the forms in
the templates.  `do` (library/private/do.min) is a rule macro of the same kind and is treated after it.

Simplifications: the clauses of `case` for malformed forms (case.min:24-40), which raise an exception in every case, are left out: that no rule matches is an error here as well.
-/

namespace Minim.Sc

/-- The expansion of a form by a list of rules, as a datum. -/
def expandBy (lits : List Nm) (rs : List Rule) (d : V) : Res V := do
  let v ← syntaxCase lits (2 * (rs.map fun r => r.pat.size).sum) (rs.map fun r => (r.clause 0).clause) 0 (fun _ => none) (toSyntax d) (fun _ => none)
  .ok (strip v)

theorem rewrites_take {d d' : V} {lits : List Nm} {pre post : List Rule} {r : Rule} {x : Res V} (h : Rewrites d (pre ++ r :: post) x) (hw : r.WF lits) (hd : Pure d)
    (hc : Calm .head r.pat d) (hno : ∀ q ∈ pre, ∀ σ, ¬ M q.pat d σ) {σ : Nm → BV} (hm : M r.pat d σ) (hi : I r.tm σ d') : ∃ v, x = .ok v ∧ strip v = d' := by
  induction pre with
  | nil =>
    have hs : ∀ y ∈ r.tm.names, y ∈ r.pat.names := fun y hy => by
      obtain ⟨n, hn⟩ := TWF_names hw.2.2.1 y hy
      exact List.mem_map_of_mem (f := Prod.fst) (lookup_mem hn)
    have hI : ∀ τ, M r.pat d τ → I r.tm τ d' := fun τ hτ => I_congr (fun y hy => C94_match_unique hw.1 hw.2.1 hd hc hm hτ y (hs y hy)) hi
    cases h with
    | skip hn _ => exact absurd hm (hn σ)
    | take h1 h2 _ => exact ⟨_, rfl, C95_instance_unique _ _ h2 (hI _ h1)⟩
    | bad h1 h2 => exact absurd (hI _ h1) (h2 _)
  | cons q pre ih =>
    obtain ⟨h1, h2⟩ := List.forall_mem_cons.1 hno
    cases h with
    | skip _ h => exact ih h h2
    | take h3 _ _ => exact absurd h3 (h1 _)
    | bad h3 _ => exact absurd h3 (h1 _)

theorem le_sum (l : List Nat) (n : Nat) (h : n ∈ l) : n ≤ l.sum := by
  induction l with
  | nil => simp at h
  | cons a l ih =>
    rw [List.sum_cons]
    rcases List.mem_cons.1 h with rfl | h
    · omega
    · have := ih h; omega

/-- The first rule whose pattern matches is used. -/
theorem expandBy_take {lits : List Nm} (pre : List Rule) (r : Rule) (post : List Rule) (hw : ∀ q ∈ pre ++ r :: post, q.WF lits) {d d' : V} (hd : Pure d)
    (hc : ∀ q ∈ pre ++ r :: post, Calm .head q.pat d) (hno : ∀ q ∈ pre, ∀ σ, ¬ M q.pat d σ) {σ : Nm → BV} (hm : M r.pat d σ) (hi : I r.tm σ d') :
    expandBy lits (pre ++ r :: post) d = .ok d' := by
  have hf : ∀ q ∈ pre ++ r :: post, 2 * q.pat.size ≤ 2 * ((pre ++ r :: post).map fun r => r.pat.size).sum := fun q hq =>
    Nat.mul_le_mul_left 2 (le_sum _ _ (List.mem_map_of_mem hq))
  have h := C96_rules_partial (pre ++ r :: post) hw 0 0 _ hf d hd hc (fun _ => none)
  obtain ⟨v, h1, h2⟩ := rewrites_take h (hw r (by simp)) hd (hc r (by simp)) hno hm hi
  simp only [expandBy, h1, ok_bind, h2]

/-- A sequence of variables. -/
theorem M_seq {x : Nm} {l : List V} {σ : Nm → BV} (h : σ x = .many (l.map .leaf)) : M (.ell (.var x) .nil) (listV l) σ := by
  refine ⟨l, .null, by rw [appV_null], rfl, rfl, l.map fun a _ => .leaf a, ?_, ?_⟩
  · rw [List.forall₂_map_right_iff]
    exact List.forall₂_same.2 fun a _ => rfl
  · intro y hy
    simp only [Pat.names, Pat.vars, List.map_cons, List.map_nil, List.mem_singleton] at hy
    subst hy
    simp [h, Function.comp_def]

theorem M_seqr {x : Nm} {l : List V} {q : Pat} {r : V} {σ : Nm → BV} (h : σ x = .many (l.map .leaf)) (hr : spine r = q.len) (hq : M q r σ) : M (.ell (.var x) q) (appV l r) σ := by
  refine ⟨l, r, rfl, hr, hq, l.map fun a _ => .leaf a, ?_, ?_⟩
  · rw [List.forall₂_map_right_iff]
    exact List.forall₂_same.2 fun a _ => rfl
  · intro y hy
    simp only [Pat.names, Pat.vars, List.map_cons, List.map_nil, List.mem_singleton] at hy
    subst hy
    simp [h, Function.comp_def]

theorem I_seq {x : Nm} {l : List V} {σ : Nm → BV} (h : σ x = .many (l.map .leaf)) {u : Tm} {r : V} (hu : I u σ r) : I (.ell (.var x) u) σ (appV l r) := by
  refine ⟨l, r, rfl, hu, l.map fun a _ => .leaf a, ?_, ?_, x, by simp [Tm.names], _, h⟩
  · rw [List.forall₂_map_left_iff]
    exact List.forall₂_same.2 fun a _ => rfl
  · intro y hy
    simp only [Tm.names, List.mem_singleton] at hy
    subst hy
    exact .inl (by simp [h, Function.comp_def])

/-- A sequence of instances, described by an assignment for each. -/
theorem M_rows {α : Type} {p q : Pat} {l : List α} {f : α → V} {τ : α → Nm → BV} {r : V} {σ : Nm → BV} (h1 : ∀ a ∈ l, M p (f a) (τ a)) (h2 : ∀ x ∈ p.names, σ x = .many (l.map fun a => τ a x))
    (hr : spine r = q.len) (hq : M q r σ) : M (.ell p q) (appV (l.map f) r) σ := by
  refine ⟨_, r, rfl, hr, hq, l.map τ, ?_, ?_⟩
  · rw [List.forall₂_map_right_iff, List.forall₂_map_left_iff]
    exact List.forall₂_same.2 h1
  · intro x hx
    rw [h2 x hx, List.map_map]; rfl

theorem I_rows {α : Type} {t u : Tm} {l : List α} {f : α → V} {τ : α → Nm → BV} {r : V} {σ : Nm → BV} (h1 : ∀ a ∈ l, I t (τ a) (f a))
    (h2 : ∀ x ∈ t.names, σ x = .many (l.map fun a => τ a x)) (h3 : t.names ≠ []) (hq : I u σ r) : I (.ell t u) σ (appV (l.map f) r) := by
  refine ⟨_, r, rfl, hq, l.map τ, ?_, ?_, ?_⟩
  · rw [List.forall₂_map_left_iff, List.forall₂_map_right_iff]
    exact List.forall₂_same.2 h1
  · intro x hx
    exact .inl (by rw [h2 x hx, List.map_map]; rfl)
  · obtain ⟨x, hx⟩ := List.exists_mem_of_ne_nil _ h3
    exact ⟨x, hx, _, h2 x hx⟩

theorem M_ell_listV {p : Pat} {d : V} {σ : Nm → BV} (h : M (.ell p .nil) d σ) : ∃ l, d = listV l ∧ ∀ a ∈ l, ∃ τ, M p a τ := by
  obtain ⟨l, r, rfl, _, hr, τs, h1, h2⟩ := h
  clear h2
  have hr : r = .null := hr
  subst hr
  refine ⟨l, appV_null l, ?_⟩
  intro a ha
  induction h1 with
  | nil => simp at ha
  | cons h1 _ ih =>
    rcases List.mem_cons.1 ha with rfl | ha
    · exact ⟨_, h1⟩
    · exact ih ha

theorem user_beq (a b : Nat) : (Nm.user a == Nm.user b) = (a == b) := by
  by_cases h : a = b
  · subst h; simp
  · have h' : Nm.user a ≠ Nm.user b := fun e => h (Nm.user.inj e)
    rw [beq_eq_false_iff_ne.2 h', beq_eq_false_iff_ne.2 h]

/-- An assignment. -/
def asg (l : List (Nm × BV)) : Nm → BV := fun x => (l.lookup x).getD (.leaf .null)

namespace CaseM

/-- identifiers: keywords and procedures -/
abbrev kwCase : Nm := .user 100
abbrev kwElse : Nm := .user 101
abbrev kwCaseElse : Nm := .user 102
abbrev kwCaseTest : Nm := .user 103
abbrev kwBegin : Nm := .user 104
abbrev kwVoid : Nm := .user 105
abbrev kwLet : Nm := .user 106
abbrev kwLetValues : Nm := .user 107
abbrev kwIf : Nm := .user 108
abbrev kwEqual : Nm := .user 109
abbrev kwQuote : Nm := .user 110
abbrev kwTmp : Nm := .user 111
/-- pattern variables -/
abbrev pV : Nm := .user 0
abbrev pK : Nm := .user 1
abbrev pE : Nm := .user 2
abbrev pES : Nm := .user 3
abbrev pX : Nm := .user 4
abbrev pXS : Nm := .user 5
abbrev pKS : Nm := .user 6
abbrev pR : Nm := .user 7

/-- lists of templates and patterns -/
def tl : List Tm → Tm
  | [] => .nil
  | t :: ts => .cons t (tl ts)

/-- an identifier in a template -/
abbrev tc (s : Nm) : Tm := .const (.sym s)

/-- `[(k ...) e es ...]` -/
def pClause : Pat := .cons (.ell (.var pK) .nil) (.cons (.var pE) (.ell (.var pES) .nil))
def tClause : Tm := .cons (.ell (.var pK) .nil) (.cons (.var pE) (.ell (.var pES) .nil))

/-- `[else x xs ...]` -/
def pElse (x xs : Nm) : Pat := .cons (.atom (.sym kwElse)) (.cons (.var x) (.ell (.var xs) .nil))

/-- `(let-values () e ...)` -/
def tBody (u : Tm) : Tm := .cons (tc kwLetValues) (.cons .nil u)

/-- The rules of `case` (case.min:13-22). -/
def caseRules : List Rule := [
  ⟨.cons .wild (.cons (.var pV) .nil), tl [tc kwBegin, .var pV, tl [tc kwVoid]]⟩,
  ⟨.cons .wild (.cons (.var pV) (.cons (pElse pE pES) .nil)), tl [tc kwBegin, .var pV, tBody (.cons (.var pE) (.ell (.var pES) .nil))]⟩,
  ⟨.cons .wild (.cons (.var pV) (.ell pClause .nil)), .cons (tc kwCase) (.cons (.var pV) (.ell tClause (tl [tl [tc kwElse, tl [tc kwVoid]]])))⟩,
  ⟨.cons .wild (.cons (.var pV) (.ell pClause (.cons (pElse pX pXS) .nil))),
    tl [tc kwLet, tl [tl [tc kwTmp, .var pV]],
      .cons (tc kwCaseElse) (.cons (tc kwTmp) (.ell tClause (tl [.cons (tc kwElse) (.cons (.var pX) (.ell (.var pXS) .nil))])))]⟩]

/-- `[(k ...) es ...]`, `[else xs ...]` and the test in `case/else` -/
def pClause2 : Pat := .cons (.ell (.var pK) .nil) (.ell (.var pES) .nil)
def pElse2 : Pat := .cons (.atom (.sym kwElse)) (.ell (.var pXS) .nil)
def tTest : Tm := tl [tc kwCaseTest, .var pV, .ell (.var pK) .nil]

/-- The rules of `case/else` (case.min:42-53). -/
def elseRules : List Rule := [
  ⟨.cons .wild (.cons (.var pV) (.cons pClause2 (.cons pElse2 .nil))), tl [tc kwIf, tTest, tBody (.ell (.var pES) .nil), tBody (.ell (.var pXS) .nil)]⟩,
  ⟨.cons .wild (.cons (.var pV) (.cons pClause2 (.ell (.var pR) (.cons pElse2 .nil)))),
    tl [tc kwIf, tTest, tBody (.ell (.var pES) .nil), .cons (tc kwCaseElse) (.cons (.var pV) (.ell (.var pR) (tl [.cons (tc kwElse) (.ell (.var pXS) .nil)])))]⟩,
  ⟨.cons .wild (.cons (.var pV) (.cons pElse2 .nil)), tBody (.ell (.var pXS) .nil)⟩]

/-- The rules of `case/test` (case.min:55-62). -/
def testRules : List Rule := [
  ⟨.cons .wild (.cons (.var pV) (.cons .nil .nil)), .const .fls⟩,
  ⟨.cons .wild (.cons (.var pV) (.cons (.cons (.var pK) .nil) .nil)), tl [tc kwEqual, .var pV, tl [tc kwQuote, .var pK]]⟩,
  ⟨.cons .wild (.cons (.var pV) (.cons (.cons (.var pK) (.ell (.var pKS) .nil)) .nil)),
    tl [tc kwIf, tl [tc kwEqual, .var pV, tl [tc kwQuote, .var pK]], .const .tru, tl [tc kwCaseTest, .var pV, .ell (.var pKS) .nil]]⟩]

/-! ### forms -/

/-- A clause `[(k ...) e es ...]`. -/
structure Cl where
  ks : List V
  e : V
  es : List V

/-- A clause as a datum. -/
def Cl.dat (c : Cl) : V := .cons (listV c.ks) (.cons c.e (listV c.es))

/-- The `else` clause. -/
def elseDat (xs : List V) : V := .cons (.sym kwElse) (listV xs)

/-- `(case v clause ... [else x xs ...])` -/
def caseForm (kw v : V) (cls : List Cl) : Option (List V) → V
  | none => .cons kw (.cons v (listV (cls.map Cl.dat)))
  | some xs => .cons kw (.cons v (appV (cls.map Cl.dat) (listV [elseDat xs])))

/-- `(case/else v clause ... [else xs ...])` -/
def elseForm (v : V) (cls : List Cl) (xs : List V) : V := .cons (.sym kwCaseElse) (.cons v (appV (cls.map Cl.dat) (listV [elseDat xs])))

/-- `(case/test v (k ...))` -/
def testForm (v : V) (ks : List V) : V := listV [.sym kwCaseTest, v, listV ks]

/-- `(let-values () e ...)` -/
def bodyForm (es : List V) : V := .cons (.sym kwLetValues) (.cons .null (listV es))

/-- plain clauses -/
def Cl.Pure (c : Cl) : Prop := (∀ k ∈ c.ks, Sc.Pure k) ∧ Sc.Pure c.e ∧ ∀ e ∈ c.es, Sc.Pure e

theorem Cl.dat_pure {c : Cl} (h : c.Pure) : Sc.Pure c.dat := ⟨Pure_listV.2 h.1, h.2.1, Pure_listV.2 h.2.2⟩

theorem caseRules_wf : ∀ r ∈ caseRules, r.WF [kwElse] := by
  simp [caseRules, pClause, tClause, pElse, tBody, tl, Rule.WF, Sc.WF, TWF, Pat.isVec, Pat.hasEll, Pat.names, Pat.vars, Pat.depth, Tm.last, Tm.names, Tm.ends, isAtom, List.lookup, user_beq]

theorem elseRules_wf : ∀ r ∈ elseRules, r.WF [kwElse] := by
  simp [elseRules, pClause2, pElse2, tTest, tBody, tl, Rule.WF, Sc.WF, TWF, Pat.isVec, Pat.hasEll, Pat.names, Pat.vars, Pat.depth, Tm.last, Tm.names, Tm.ends, isAtom, List.lookup, user_beq]

theorem testRules_wf : ∀ r ∈ testRules, r.WF [] := by
  simp [testRules, tl, Rule.WF, Sc.WF, TWF, Pat.isVec, Pat.hasEll, Pat.names, Pat.vars, Pat.depth, Tm.last, Tm.names, Tm.ends, isAtom, List.lookup, user_beq]

theorem caseRules_calm (a b : V) : ∀ r ∈ caseRules, Calm .head r.pat (.cons a b) := by
  simp [caseRules, pClause, pElse, Calm, CalmAfter]

theorem elseRules_calm (a b : V) : ∀ r ∈ elseRules, Calm .head r.pat (.cons a b) := by
  simp [elseRules, pClause2, pElse2, Calm, CalmAfter]

theorem testRules_calm (a b : V) : ∀ r ∈ testRules, Calm .head r.pat (.cons a b) := by
  simp [testRules, Calm, CalmAfter]

theorem elseDat_pure {xs : List V} (h : ∀ x ∈ xs, Sc.Pure x) : Sc.Pure (elseDat xs) := ⟨trivial, Pure_listV.2 h⟩

/-! ### the expansions -/

theorem case_empty (kw v : V) (hp : Pure (caseForm kw v [] none)) : expandBy [kwElse] caseRules (caseForm kw v [] none) = .ok (listV [.sym kwBegin, v, listV [.sym kwVoid]]) := by
  refine expandBy_take [] _ _ caseRules_wf hp (caseRules_calm _ _) (by simp) (σ := asg [(pV, .leaf v)]) ?_ ?_
  · exact ⟨_, _, rfl, trivial, _, _, rfl, rfl, rfl⟩
  · exact ⟨_, _, rfl, rfl, _, _, rfl, rfl, _, _, rfl, ⟨_, _, rfl, rfl, rfl⟩, rfl⟩

theorem case_else_only (kw v x : V) (xs : List V) (hp : Pure (caseForm kw v [] (some (x :: xs)))) :
    expandBy [kwElse] caseRules (caseForm kw v [] (some (x :: xs))) = .ok (listV [.sym kwBegin, v, bodyForm (x :: xs)]) := by
  refine expandBy_take [_] _ _ caseRules_wf hp (caseRules_calm _ _) ?_ (σ := asg [(pV, .leaf v), (pE, .leaf x), (pES, .many (xs.map .leaf))]) ?_ ?_
  · simp [M, caseForm, listV]
  · exact ⟨_, _, rfl, trivial, _, _, rfl, rfl, _, _, rfl, ⟨_, _, rfl, rfl, _, _, rfl, rfl, M_seq rfl⟩, rfl⟩
  · exact ⟨_, _, rfl, rfl, _, _, rfl, rfl, _, _, rfl, ⟨_, _, rfl, rfl, _, _, rfl, rfl, _, _, rfl, rfl, appV_null xs ▸ I_seq rfl rfl⟩, rfl⟩

theorem listV_ne_sym {l : List V} {s : Nm} : listV l ≠ .sym s := by
  cases l <;> simp [listV]

theorem pClause_names {P : Nm → Prop} (h1 : P pK) (h2 : P pE) (h3 : P pES) : ∀ x ∈ pClause.names, P x := by
  simp [pClause, Pat.names, Pat.vars, h1, h2, h3]

theorem tClause_names {P : Nm → Prop} (h1 : P pK) (h2 : P pE) (h3 : P pES) : ∀ x ∈ tClause.names, P x := by
  simp [tClause, Tm.names, h1, h2, h3]

/-- what the variables of a clause stand for -/
def Cl.asg (c : Cl) : Nm → BV := Sc.asg [(pK, .many (c.ks.map .leaf)), (pE, .leaf c.e), (pES, .many (c.es.map .leaf))]

theorem Cl.m (c : Cl) : M pClause c.dat c.asg := ⟨_, _, rfl, M_seq rfl, _, _, rfl, rfl, M_seq rfl⟩

theorem Cl.i (c : Cl) : I tClause c.asg c.dat := ⟨_, _, rfl, appV_null c.ks ▸ I_seq rfl rfl, _, _, rfl, rfl, appV_null c.es ▸ I_seq rfl rfl⟩

theorem not_seq_sym {p : Pat} {s : Nm} {σ : Nm → BV} : ¬ M (.ell p .nil) (.sym s) σ := by
  intro h
  obtain ⟨l, h, _⟩ := M_ell_listV h
  exact listV_ne_sym h.symm

/-- `else` is no list of data -/
theorem not_clause_else {xs : List V} {σ : Nm → BV} : ¬ M pClause (elseDat xs) σ := by
  rintro ⟨a, b, h, h1, _⟩
  simp only [elseDat, V.cons.injEq] at h
  exact not_seq_sym (h.1 ▸ h1)

theorem not_else_clause {c : Cl} {x y : Nm} {σ : Nm → BV} : ¬ M (pElse x y) c.dat σ := by
  rintro ⟨a, b, h, h1, _⟩
  have h1 : a = .sym kwElse := h1
  subst h1
  simp only [Cl.dat, V.cons.injEq] at h
  exact listV_ne_sym h.1

theorem case_no_else (kw v : V) (c : Cl) (cls : List Cl) (hp : Pure (caseForm kw v (c :: cls) none)) :
    expandBy [kwElse] caseRules (caseForm kw v (c :: cls) none) = .ok (caseForm (.sym kwCase) v (c :: cls) (some [listV [.sym kwVoid]])) := by
  refine expandBy_take [_, _] _ _ caseRules_wf hp (caseRules_calm _ _) ?_ (σ := asg [(pV, .leaf v), (pK, .many ((c :: cls).map fun c => c.asg pK)), (pE, .many ((c :: cls).map fun c => c.asg pE)),
    (pES, .many ((c :: cls).map fun c => c.asg pES))]) ?_ ?_
  · intro q hq σ h
    rcases List.mem_cons.1 hq with rfl | hq
    · simp [M, caseForm, listV] at h
    · rw [List.mem_singleton] at hq
      subst hq
      obtain ⟨_, _, h1, _, _, _, h2, _, _, _, h3, h4, _⟩ := h
      simp only [caseForm, V.cons.injEq] at h1
      obtain ⟨_, rfl⟩ := h1
      simp only [V.cons.injEq] at h2
      obtain ⟨_, rfl⟩ := h2
      simp only [List.map_cons, listV, V.cons.injEq] at h3
      exact not_else_clause (h3.1 ▸ h4)
  · refine ⟨_, _, rfl, trivial, _, _, rfl, rfl, ?_⟩
    rw [← appV_null]
    exact M_rows (τ := Cl.asg) (fun a _ => a.m) (pClause_names rfl rfl rfl) rfl rfl
  · refine ⟨_, _, rfl, rfl, _, _, rfl, rfl, ?_⟩
    exact I_rows (τ := Cl.asg) (fun a _ => a.i) (tClause_names rfl rfl rfl) (by simp [tClause, Tm.names])
      ⟨_, _, rfl, ⟨_, _, rfl, rfl, _, _, rfl, ⟨_, _, rfl, rfl, rfl⟩, rfl⟩, rfl⟩

theorem case_general (kw v x : V) (xs : List V) (c : Cl) (cls : List Cl) (hp : Pure (caseForm kw v (c :: cls) (some (x :: xs)))) :
    expandBy [kwElse] caseRules (caseForm kw v (c :: cls) (some (x :: xs))) =
      .ok (listV [.sym kwLet, listV [listV [.sym kwTmp, v]], elseForm (.sym kwTmp) (c :: cls) (x :: xs)]) := by
  refine expandBy_take [_, _, _] _ _ caseRules_wf hp (caseRules_calm _ _) ?_ (σ := asg [(pV, .leaf v), (pK, .many ((c :: cls).map fun c => c.asg pK)), (pE, .many ((c :: cls).map fun c => c.asg pE)),
    (pES, .many ((c :: cls).map fun c => c.asg pES)), (pX, .leaf x), (pXS, .many (xs.map .leaf))]) ?_ ?_
  · intro q hq σ h
    rcases List.mem_cons.1 hq with rfl | hq
    · simp [M, caseForm, listV] at h
    rcases List.mem_cons.1 hq with rfl | hq
    · obtain ⟨_, _, h1, _, _, _, h2, _, _, _, h3, h4, _⟩ := h
      simp only [caseForm, V.cons.injEq] at h1
      obtain ⟨_, rfl⟩ := h1
      simp only [V.cons.injEq] at h2
      obtain ⟨_, rfl⟩ := h2
      simp only [List.map_cons, appV_cons, V.cons.injEq] at h3
      exact not_else_clause (h3.1 ▸ h4)
    · rw [List.mem_singleton] at hq
      subst hq
      obtain ⟨_, _, h1, _, _, _, h2, _, h3⟩ := h
      simp only [caseForm, V.cons.injEq] at h1
      obtain ⟨_, rfl⟩ := h1
      simp only [V.cons.injEq] at h2
      obtain ⟨_, rfl⟩ := h2
      obtain ⟨l, h4, h5⟩ := M_ell_listV h3
      rw [appV_listV] at h4
      have h6 := listV_inj h4
      obtain ⟨τ, hτ⟩ := h5 (elseDat (x :: xs)) (by rw [← h6]; simp)
      exact not_clause_else hτ
  · refine ⟨_, _, rfl, trivial, _, _, rfl, rfl, ?_⟩
    exact M_rows (τ := Cl.asg) (fun a _ => a.m) (pClause_names rfl rfl rfl) rfl
      ⟨_, _, rfl, ⟨_, _, rfl, rfl, _, _, rfl, rfl, M_seq rfl⟩, rfl⟩
  · refine ⟨_, _, rfl, rfl, _, _, rfl, ⟨_, _, rfl, ⟨_, _, rfl, rfl, _, _, rfl, rfl, rfl⟩, rfl⟩, _, _, rfl, ⟨_, _, rfl, rfl, _, _, rfl, rfl, ?_⟩, rfl⟩
    exact I_rows (τ := Cl.asg) (fun a _ => a.i) (tClause_names rfl rfl rfl) (by simp [tClause, Tm.names])
      ⟨_, _, rfl, ⟨_, _, rfl, rfl, _, _, rfl, rfl, appV_null xs ▸ I_seq rfl rfl⟩, rfl⟩

theorem else_last (v : V) (c : Cl) (xs : List V) (hp : Pure (elseForm v [c] xs)) :
    expandBy [kwElse] elseRules (elseForm v [c] xs) = .ok (listV [.sym kwIf, testForm v c.ks, bodyForm (c.e :: c.es), bodyForm xs]) := by
  refine expandBy_take [] _ _ elseRules_wf hp (elseRules_calm _ _) (by simp)
    (σ := asg [(pV, .leaf v), (pK, .many (c.ks.map .leaf)), (pES, .many ((c.e :: c.es).map .leaf)), (pXS, .many (xs.map .leaf))]) ?_ ?_
  · exact ⟨_, _, rfl, trivial, _, _, rfl, rfl, _, _, rfl, ⟨_, _, rfl, M_seq rfl, M_seq (l := c.e :: c.es) rfl⟩, _, _, rfl, ⟨_, _, rfl, rfl, M_seq rfl⟩, rfl⟩
  · exact ⟨_, _, rfl, rfl, _, _, rfl, ⟨_, _, rfl, rfl, _, _, rfl, rfl, _, _, rfl, appV_null c.ks ▸ I_seq rfl rfl, rfl⟩, _, _, rfl,
      ⟨_, _, rfl, rfl, _, _, rfl, rfl, appV_null (c.e :: c.es) ▸ I_seq rfl rfl⟩, _, _, rfl, ⟨_, _, rfl, rfl, _, _, rfl, rfl, appV_null xs ▸ I_seq rfl rfl⟩, rfl⟩

theorem else_more (v : V) (c c' : Cl) (cls : List Cl) (xs : List V) (hp : Pure (elseForm v (c :: c' :: cls) xs)) :
    expandBy [kwElse] elseRules (elseForm v (c :: c' :: cls) xs) = .ok (listV [.sym kwIf, testForm v c.ks, bodyForm (c.e :: c.es), elseForm v (c' :: cls) xs]) := by
  refine expandBy_take [_] _ _ elseRules_wf hp (elseRules_calm _ _) ?_
    (σ := asg [(pV, .leaf v), (pK, .many (c.ks.map .leaf)), (pES, .many ((c.e :: c.es).map .leaf)), (pXS, .many (xs.map .leaf)), (pR, .many (((c' :: cls).map Cl.dat).map .leaf))]) ?_ ?_
  · intro q hq σ h
    rw [List.mem_singleton] at hq
    subst hq
    obtain ⟨_, _, h1, _, _, _, h2, _, _, _, h3, _, _, _, h4, ⟨_, _, h5, h6, _⟩, h7⟩ := h
    simp only [elseForm, V.cons.injEq] at h1
    obtain ⟨_, rfl⟩ := h1
    simp only [V.cons.injEq] at h2
    obtain ⟨_, rfl⟩ := h2
    simp only [List.map_cons, appV_cons, V.cons.injEq] at h3
    obtain ⟨_, rfl⟩ := h3
    simp only [V.cons.injEq] at h4
    obtain ⟨rfl, _⟩ := h4
    have h6 : _ = V.sym kwElse := h6
    subst h6
    simp only [Cl.dat, V.cons.injEq] at h5
    exact listV_ne_sym h5.1
  · refine ⟨_, _, rfl, trivial, _, _, rfl, rfl, _, _, rfl, ⟨_, _, rfl, M_seq rfl, M_seq (l := c.e :: c.es) rfl⟩, ?_⟩
    exact M_seqr (l := (c' :: cls).map Cl.dat) rfl rfl ⟨_, _, rfl, ⟨_, _, rfl, rfl, M_seq rfl⟩, rfl⟩
  · exact ⟨_, _, rfl, rfl, _, _, rfl, ⟨_, _, rfl, rfl, _, _, rfl, rfl, _, _, rfl, appV_null c.ks ▸ I_seq rfl rfl, rfl⟩, _, _, rfl,
      ⟨_, _, rfl, rfl, _, _, rfl, rfl, appV_null (c.e :: c.es) ▸ I_seq rfl rfl⟩, _, _, rfl,
      ⟨_, _, rfl, rfl, _, _, rfl, rfl, I_seq rfl ⟨_, _, rfl, ⟨_, _, rfl, rfl, appV_null xs ▸ I_seq rfl rfl⟩, rfl⟩⟩, rfl⟩

theorem test_none (v : V) (hp : Pure (testForm v [])) : expandBy [] testRules (testForm v []) = .ok .fls := by
  refine expandBy_take [] _ _ testRules_wf hp (testRules_calm _ _) (by simp) (σ := asg [(pV, .leaf v)]) ?_ rfl
  exact ⟨_, _, rfl, trivial, _, _, rfl, rfl, _, _, rfl, rfl, rfl⟩

/-- `(equal? v (quote k))` -/
def eqForm (v k : V) : V := listV [.sym kwEqual, v, listV [.sym kwQuote, k]]

theorem test_one (v k : V) (hp : Pure (testForm v [k])) : expandBy [] testRules (testForm v [k]) = .ok (eqForm v k) := by
  refine expandBy_take [_] _ _ testRules_wf hp (testRules_calm _ _) ?_ (σ := asg [(pV, .leaf v), (pK, .leaf k)]) ?_ ?_
  · simp [M, testForm, listV]
  · exact ⟨_, _, rfl, trivial, _, _, rfl, rfl, _, _, rfl, ⟨_, _, rfl, rfl, rfl⟩, rfl⟩
  · exact ⟨_, _, rfl, rfl, _, _, rfl, rfl, _, _, rfl, ⟨_, _, rfl, rfl, _, _, rfl, rfl, rfl⟩, rfl⟩

theorem test_more (v k k' : V) (ks : List V) (hp : Pure (testForm v (k :: k' :: ks))) :
    expandBy [] testRules (testForm v (k :: k' :: ks)) = .ok (listV [.sym kwIf, eqForm v k, .tru, testForm v (k' :: ks)]) := by
  refine expandBy_take [_, _] _ _ testRules_wf hp (testRules_calm _ _) ?_ (σ := asg [(pV, .leaf v), (pK, .leaf k), (pKS, .many ((k' :: ks).map .leaf))]) ?_ ?_
  · simp [M, testForm, listV]
  · exact ⟨_, _, rfl, trivial, _, _, rfl, rfl, _, _, rfl, ⟨_, _, rfl, rfl, M_seq (l := k' :: ks) rfl⟩, rfl⟩
  · exact ⟨_, _, rfl, rfl, _, _, rfl, ⟨_, _, rfl, rfl, _, _, rfl, rfl, _, _, rfl, ⟨_, _, rfl, rfl, _, _, rfl, rfl, rfl⟩, rfl⟩, _, _, rfl, rfl, _, _, rfl,
      ⟨_, _, rfl, rfl, _, _, rfl, rfl, _, _, rfl, appV_null (k' :: ks) ▸ I_seq rfl rfl, rfl⟩, rfl⟩

/-! ### evaluation -/

/-- The evaluation of the user's expressions: with an environment and a state. -/
abbrev Ev (W : Type) := V → (Nm → Option V) → W → Res (V × W)

def upd (env : Nm → Option V) (x : Nm) (v : V) : Nm → Option V := fun y => if y = x then some v else env y

/-- The expressions of a body, in order. -/
def evSeq {W : Type} (ev : Ev W) : List V → (Nm → Option V) → W → Res (V × W)
  | [], _, _ => .err
  | [e], env, w => ev e env w
  | e :: es, env, w => do
    let (_, w) ← ev e env w
    evSeq ev es env w

/-- Evaluation of a form: the macros of case.min are expanded, the forms that they expand to are evaluated, everything else is left to `ev`. -/
def evalC {W : Type} (ev : Ev W) : Nat → V → (Nm → Option V) → W → Res (V × W)
  | 0, _, _, _ => .oof
  | n + 1, d, env, w =>
    match d with
    | .tru => .ok (.tru, w)
    | .fls => .ok (.fls, w)
    | .cons (.sym h) args =>
      if h = kwCase then (do let r ← expandBy [kwElse] caseRules d; evalC ev n r env w)
      else if h = kwCaseElse then (do let r ← expandBy [kwElse] elseRules d; evalC ev n r env w)
      else if h = kwCaseTest then (do let r ← expandBy [] testRules d; evalC ev n r env w)
      else if h = kwLet then
        match args with
        | .cons (.cons (.cons (.sym x) (.cons e .null)) .null) (.cons b .null) => do
          let (v, w) ← ev e env w
          evalC ev n b (upd env x v) w
        | _ => .err
      else if h = kwIf then
        match args with
        | .cons c (.cons a (.cons b .null)) => do
          let (v, w) ← evalC ev n c env w
          if v = .fls then evalC ev n b env w else evalC ev n a env w
        | _ => .err
      else if h = kwBegin then
        match args with
        | .cons a (.cons b .null) => do
          let (_, w) ← ev a env w
          evalC ev n b env w
        | _ => .err
      else if h = kwLetValues then
        match args with
        | .cons .null es => match rawList es with
          | some l => evSeq ev l env w
          | none => .err
        | _ => .err
      else if h = kwEqual then
        match args with
        | .cons (.sym x) (.cons (.cons (.sym q) (.cons k .null)) .null) =>
          if q = kwQuote then
            match env x with
            | some v => .ok (if v = k then .tru else .fls, w)
            | none => .err
          else .err
        | _ => .err
      else ev d env w
    | _ => ev d env w

/-- What `case` means: the value selects the first clause with an equal datum (R7RS 4.2.1). -/
def caseSpec {W : Type} (ev : Ev W) (v : V) (cls : List Cl) (els : List V) (env : Nm → Option V) (w : W) : Res (V × W) := do
  let (x, w) ← ev v env w
  match cls.find? fun c => decide (x ∈ c.ks) with
  | some c => evSeq ev (c.e :: c.es) env w
  | none => evSeq ev els env w

section eval

variable {W : Type} {ev : Ev W}

theorem eval_body (n : Nat) (es : List V) (env : Nm → Option V) (w : W) : evalC ev (n + 1) (bodyForm es) env w = evSeq ev es env w := by
  simp [evalC, bodyForm, rawList_listV]

theorem eval_eq (n : Nat) (k : V) {env : Nm → Option V} {v : V} (hv : env kwTmp = some v) (w : W) : evalC ev (n + 1) (eqForm (.sym kwTmp) k) env w = .ok (if v = k then .tru else .fls, w) := by
  simp [evalC, eqForm, listV, hv]

theorem eval_if (n : Nat) (c a b : V) (env : Nm → Option V) (w : W) : evalC ev (n + 1) (listV [.sym kwIf, c, a, b]) env w = (do
    let (v, w) ← evalC ev n c env w
    if v = .fls then evalC ev n b env w else evalC ev n a env w) := by
  simp [evalC, listV]

/-- The test decides whether the value is one of the data. -/
theorem eval_test (ks : List V) (hp : ∀ k ∈ ks, Pure k) {env : Nm → Option V} {v : V} (hv : env kwTmp = some v) (w : W) (n : Nat) :
    evalC ev (n + 2 * ks.length + 2) (testForm (.sym kwTmp) ks) env w = .ok (if v ∈ ks then .tru else .fls, w) := by
  have step : ∀ m ks, evalC ev (m + 1) (testForm (.sym kwTmp) ks) env w = (do let r ← expandBy [] testRules (testForm (.sym kwTmp) ks); evalC ev m r env w) := fun m ks => by
    simp [evalC, testForm, listV]
  have pure : ∀ ks, (∀ k ∈ ks, Pure k) → Pure (testForm (.sym kwTmp) ks) := fun ks h => by
    simp only [testForm, Pure_listV]
    simp only [List.mem_cons, List.not_mem_nil, or_false, forall_eq_or_imp, forall_eq]
    exact ⟨trivial, trivial, Pure_listV.2 h⟩
  induction ks generalizing n with
  | nil =>
    rw [step, test_none _ (pure _ hp)]
    simp [evalC]
  | cons k ks ih =>
    cases ks with
    | nil =>
      rw [step, test_one _ _ (pure _ hp), ok_bind, show n + 2 * [k].length + 1 = (n + 2) + 1 from by simp]
      rw [eval_eq _ _ hv]
      simp
    | cons k' ks =>
      rw [step, test_more _ _ _ _ (pure _ hp), ok_bind, show n + 2 * (k :: k' :: ks).length + 1 = (n + 2 * (k' :: ks).length + 2) + 1 from by simp; omega, eval_if, eval_eq _ _ hv, ok_bind]
      by_cases h : v = k
      · simp [h, evalC]
      · simp only [h, if_false, if_true, List.mem_cons, false_or]
        have h2 := ih (fun q hq => hp q (List.mem_cons_of_mem _ hq)) n
        simp only [List.mem_cons] at h2
        exact h2

/-- The steps for the clauses. -/
def need : List Cl → Nat
  | [] => 0
  | c :: cls => 2 * c.ks.length + 5 + need cls

theorem elseForm_pure {cls : List Cl} {xs : List V} (hc : ∀ c ∈ cls, c.Pure) (hx : ∀ x ∈ xs, Pure x) : Pure (elseForm (.sym kwTmp) cls xs) := by
  refine ⟨trivial, trivial, Pure_appV.2 ⟨?_, elseDat_pure hx, trivial⟩⟩
  intro a ha
  obtain ⟨c, hm, rfl⟩ := List.mem_map.1 ha
  exact Cl.dat_pure (hc c hm)

/-- The clauses. -/
theorem eval_else (c : Cl) (cls : List Cl) (xs : List V) (hc : ∀ q ∈ c :: cls, q.Pure) (hx : ∀ x ∈ xs, Pure x) {env : Nm → Option V} {v : V} (hv : env kwTmp = some v) (w : W) (n : Nat) :
    evalC ev (n + need (c :: cls)) (elseForm (.sym kwTmp) (c :: cls) xs) env w = (match (c :: cls).find? fun c => decide (v ∈ c.ks) with
      | some c => evSeq ev (c.e :: c.es) env w
      | none => evSeq ev xs env w) := by
  have step : ∀ m d, evalC ev (m + 1) (.cons (.sym kwCaseElse) d) env w = (do let r ← expandBy [kwElse] elseRules (.cons (.sym kwCaseElse) d); evalC ev m r env w) := fun m d => by
    simp [evalC]
  induction cls generalizing c n with
  | nil =>
    rw [show n + need [c] = (n + 2 + 2 * c.ks.length + 2) + 1 from by simp [need]; omega]
    have h0 := else_last (.sym kwTmp) c xs (elseForm_pure hc hx)
    unfold elseForm at h0 ⊢
    rw [step, h0, ok_bind, show n + 2 + 2 * c.ks.length + 2 = (n + 1 + 2 * c.ks.length + 2) + 1 from by omega, eval_if, eval_test c.ks (hc c (by simp)).1 hv, ok_bind]
    by_cases h : v ∈ c.ks
    · simp only [h, if_true, List.find?, decide_true]
      rw [if_neg (by simp), eval_body]
    · simp only [h, if_false, if_true, List.find?, decide_false]
      rw [eval_body]
  | cons c' cls ih =>
    rw [show n + need (c :: c' :: cls) = (n + need (c' :: cls) + 3 + 2 * c.ks.length + 2) from by simp [need]; omega]
    have h0 := else_more (.sym kwTmp) c c' cls xs (elseForm_pure hc hx)
    have h1 : elseForm (.sym kwTmp) (c :: c' :: cls) xs = .cons (.sym kwCaseElse) _ := rfl
    rw [h1] at h0 ⊢
    rw [show n + need (c' :: cls) + 3 + 2 * c.ks.length + 2 = (n + need (c' :: cls) + 3 + 2 * c.ks.length + 1) + 1 from by omega, step, h0, ok_bind,
      show n + need (c' :: cls) + 3 + 2 * c.ks.length + 1 = (n + need (c' :: cls) + 1 + 2 * c.ks.length + 2) + 1 from by omega, eval_if, eval_test c.ks (hc c (by simp)).1 hv, ok_bind]
    by_cases h : v ∈ c.ks
    · simp only [h, if_true, List.find?, decide_true]
      rw [if_neg (by simp), eval_body]
    · simp only [h, if_false, if_true, List.find?, decide_false]
      rw [show n + need (c' :: cls) + 1 + 2 * c.ks.length + 2 = (n + 1 + 2 * c.ks.length + 2) + need (c' :: cls) from by omega]
      exact ih c' (fun q hq => hc q (List.mem_cons_of_mem _ hq)) _

/-- The `else` clause as it is after expansion. -/
def elseOf : Option (V × List V) → List V
  | some (x, xs) => x :: xs
  | none => [listV [.sym kwVoid]]

/-- **C98 (`case`)**: the expression is evaluated once, and its value selects the first clause that has an equal datum, or the `else` clause; without `else` the form gives `(void)`.
Only for bodies whose meaning does not depend on the variable `tmp`. -/
theorem C98_case_partial (ev : Ev W) (v : V) (cls : List Cl) (els : Option (V × List V)) (hv : Pure v) (hc : ∀ c ∈ cls, c.Pure) (hx : ∀ x ∈ elseOf els, Pure x) (env : Nm → Option V)
    (htmp : ∀ e, (e ∈ elseOf els ∨ ∃ c ∈ cls, e ∈ c.e :: c.es) → ∀ x w, ev e (upd env kwTmp x) w = ev e env w) (w : W) (n : Nat) :
    evalC ev (n + need cls + 3) (caseForm (.sym kwCase) v cls (els.map fun p => p.1 :: p.2)) env w = caseSpec ev v cls (elseOf els) env w := by
  have step : ∀ m d, evalC ev (m + 1) (.cons (.sym kwCase) d) env w = (do let r ← expandBy [kwElse] caseRules (.cons (.sym kwCase) d); evalC ev m r env w) := fun m d => by
    simp [evalC]
  have hpn : Pure (caseForm (.sym kwCase) v cls none) := ⟨trivial, hv, Pure_listV.2 fun a ha => by
    obtain ⟨c, hm, rfl⟩ := List.mem_map.1 ha
    exact Cl.dat_pure (hc c hm)⟩
  have hps : Pure (caseForm (.sym kwCase) v cls (some (elseOf els))) := ⟨trivial, hv, Pure_appV.2 ⟨fun a ha => by
    obtain ⟨c, hm, rfl⟩ := List.mem_map.1 ha
    exact Cl.dat_pure (hc c hm), elseDat_pure hx, trivial⟩⟩
  have hseq : ∀ l, (∀ e ∈ l, ∀ x w, ev e (upd env kwTmp x) w = ev e env w) → ∀ x w, evSeq ev l (upd env kwTmp x) w = evSeq ev l env w := by
    intro l hl x
    induction l with
    | nil => intro w; rfl
    | cons e l ih =>
      intro w
      cases l with
      | nil => exact hl e (by simp) x w
      | cons e' l =>
        simp only [evSeq, hl e (by simp)]
        congr 1
        funext p
        exact ih (fun q hq => hl q (List.mem_cons_of_mem _ hq)) p.2
  -- the general form
  have gen : ∀ m c cs, c :: cs = cls → evalC ev (m + need cls + 2) (caseForm (.sym kwCase) v cls (some (elseOf els))) env w = caseSpec ev v cls (elseOf els) env w := by
    intro m c cs he
    subst he
    have h0 : ∃ x xs, elseOf els = x :: xs := by
      cases els with
      | none => exact ⟨_, _, rfl⟩
      | some p => exact ⟨_, _, rfl⟩
    obtain ⟨x, xs, h0⟩ := h0
    rw [h0] at hps
    have h1 := case_general (.sym kwCase) v x xs c cs hps
    rw [h0]
    have h2 : caseForm (.sym kwCase) v (c :: cs) (some (x :: xs)) = .cons (.sym kwCase) _ := rfl
    rw [h2] at h1 ⊢
    rw [step, h1, ok_bind]
    have h3 : ∀ k b, evalC ev (k + 1) (listV [.sym kwLet, listV [listV [.sym kwTmp, v]], b]) env w = (do let (y, w) ← ev v env w; evalC ev k b (upd env kwTmp y) w) := by
      intro k b; simp [evalC, listV]
    rw [h3]
    unfold caseSpec
    congr 1
    funext ⟨y, w⟩
    have h4 := eval_else (ev := ev) c cs (x :: xs) hc (by rw [← h0]; exact hx) (env := upd env kwTmp y) (v := y) (by simp [upd]) w m
    simp only
    rw [h4]
    cases hf : (c :: cs).find? fun c => decide (y ∈ c.ks) with
    | none => exact hseq _ (fun e he => htmp e (.inl (by rw [h0]; exact he))) y w
    | some b => exact hseq _ (fun e he => htmp e (.inr ⟨b, List.mem_of_find?_eq_some hf, he⟩)) y w
  have hbeg : ∀ k b, evalC ev (k + 1) (listV [.sym kwBegin, v, b]) env w = (do let (_, w) ← ev v env w; evalC ev k b env w) := by
    intro k b; simp [evalC, listV]
  cases els with
  | none =>
    cases cls with
    | nil =>
      have h1 := case_empty (.sym kwCase) v hpn
      have h2 : caseForm (.sym kwCase) v [] none = .cons (.sym kwCase) _ := rfl
      simp only [Option.map_none]
      rw [h2] at h1 ⊢
      rw [step, h1, ok_bind, show n + need [] + 2 = (n + 1) + 1 from rfl, hbeg]
      unfold caseSpec
      simp [evalC, elseOf, listV, evSeq]
    | cons c cs =>
      have h1 := case_no_else (.sym kwCase) v c cs hpn
      have h2 : caseForm (.sym kwCase) v (c :: cs) none = .cons (.sym kwCase) _ := rfl
      simp only [Option.map_none]
      rw [h2] at h1 ⊢
      rw [step, h1, ok_bind]
      exact gen n c cs rfl
  | some p =>
    obtain ⟨x, xs⟩ := p
    cases cls with
    | nil =>
      have h1 := case_else_only (.sym kwCase) v x xs hps
      have h2 : caseForm (.sym kwCase) v [] (some (x :: xs)) = .cons (.sym kwCase) _ := rfl
      simp only [Option.map_some]
      rw [h2] at h1 ⊢
      rw [step, h1, ok_bind, show n + need [] + 2 = (n + 1) + 1 from rfl, hbeg]
      unfold caseSpec
      congr 1
      funext ⟨y, w⟩
      simp [eval_body, elseOf]
    | cons c cs =>
      have h3 := gen (n + 1) c cs rfl
      rw [show n + 1 + need (c :: cs) + 2 = n + need (c :: cs) + 3 from by omega] at h3
      exact h3

end eval

/-- Numbers, variables and `(void)`, for examples; the state counts evaluations. -/
def exEv : Ev Nat := fun d env w => match d with
  | .sym s => match env s with
    | some v => .ok (v, w + 1)
    | none => .err
  | .num k => .ok (.num k, w + 1)
  | _ => .ok (.other 0, w + 1)

/-- `(case x [(1 2) 10] [(3 2) 20 21] [else 30])` -/
example : evalC exEv 30 (caseForm (.sym kwCase) (.sym (.user 50)) [⟨[.num 1, .num 2], .num 10, []⟩, ⟨[.num 3, .num 2], .num 20, [.num 21]⟩] (some [.num 30])) (upd (fun _ => none) (.user 50) (.num 3)) 0 =
      .ok (.num 21, 3) ∧
    evalC exEv 30 (caseForm (.sym kwCase) (.sym (.user 50)) [⟨[.num 1, .num 2], .num 10, []⟩, ⟨[.num 3, .num 2], .num 20, [.num 21]⟩] (some [.num 30])) (upd (fun _ => none) (.user 50) (.num 2)) 0 =
      .ok (.num 10, 2) := by decide

/-- **C98 fails** for bodies that use a variable `tmp`: `(let ([tmp 1]) (case 2 [(2) tmp]))` is 2. -/
theorem C98_negated_capture : ∃ env v cls, evalC exEv 100 (caseForm (.sym kwCase) v cls none) env 0 = .ok (.num 2, 2) ∧ caseSpec exEv v cls (elseOf none) env 0 = .ok (.num 1, 2) :=
  ⟨upd (fun _ => none) kwTmp (.num 1), .num 2, [⟨[.num 2], .sym kwTmp, []⟩], by decide, by decide⟩

end CaseM

end Minim.Sc
