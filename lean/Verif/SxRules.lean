import Verif.SxTmplProps

set_option autoImplicit false

/-!
# C96: rule macros

`syntax-case` with templates as results, `syntax-rules` and `with-syntax` (library/private/stxcase-extra.min).
-/

namespace Minim.Sc

/-- A rule: a pattern and a template. -/
structure Rule where
  pat : Pat
  tm : Tm

/-- The clause `[pattern #'template]`. -/
def Rule.clause (c : Nat) (r : Rule) : PClause := ⟨r.pat, none, fun sc env => instantiate sc r.tm c env⟩

/-- The depths of the variables of a pattern. -/
def Pat.depth (p : Pat) (x : Nm) : Option Nat := (p.vars 0).lookup x

/-- What a rule macro has to do with the form `d`: the first rule whose pattern matches rewrites it to the instance of its template, which is given as the reader would give it; if there is no rule or no
instance, an exception is raised. -/
inductive Rewrites (d : V) : List Rule → Res V → Prop
  | none : Rewrites d [] .err
  | skip {r : Rule} {rs : List Rule} {x : Res V} : (∀ σ, ¬ M r.pat d σ) → Rewrites d rs x → Rewrites d (r :: rs) x
  | take {r : Rule} {rs : List Rule} {σ : Nm → BV} {v : V} : M r.pat d σ → I r.tm σ (strip v) → (r.tm.dotted = [] → toSyntax v = toSyntax (strip v)) → Rewrites d (r :: rs) (.ok v)
  | bad {r : Rule} {rs : List Rule} {σ : Nm → BV} : M r.pat d σ → (∀ d', ¬ I r.tm σ d') → Rewrites d (r :: rs) .err

/-- Rules that are covered: patterns as in C94, templates as in C95 that use only variables of the pattern, without a variable at the end of a list with an ellipsis. -/
def Rule.WF (lits : List Nm) (r : Rule) : Prop := Sc.WF lits r.pat ∧ r.pat.names.Nodup ∧ TWF r.pat.depth 0 r.tm ∧ r.tm.ends = []

theorem lookup_mem {xs : List (Nm × Nat)} {x : Nm} {k : Nat} (h : xs.lookup x = some k) : (x, k) ∈ xs := by
  induction xs with
  | nil => simp at h
  | cons y xs ih =>
    obtain ⟨y, n⟩ := y
    simp only [List.lookup_cons] at h
    by_cases e : x = y
    · subst e; simp at h; simp [h]
    · have : (x == y) = false := by simpa using e
      simp only [this] at h
      exact List.mem_cons_of_mem _ (ih h)

theorem lookup_of_mem {xs : List (Nm × Nat)} {x : Nm} (h : x ∈ xs.map Prod.fst) : ∃ k, xs.lookup x = some k := by
  induction xs with
  | nil => simp at h
  | cons y xs ih =>
    obtain ⟨y, n⟩ := y
    simp only [List.lookup_cons]
    by_cases e : x = y
    · subst e; simp
    · have : (x == y) = false := by simpa using e
      simp only [this]
      simp only [List.map_cons, List.mem_cons] at h
      exact ih (h.resolve_left e)

theorem TWF_congr {dp dp' : Nm → Option Nat} {k : Nat} {t : Tm} (h : ∀ x, dp x = dp' x) (ht : TWF dp k t) : TWF dp' k t := by
  have : dp = dp' := funext h
  rwa [← this]

theorem TWF_names {dp : Nm → Option Nat} {k : Nat} {t : Tm} (ht : TWF dp k t) : ∀ x ∈ t.names, ∃ n, dp x = some n := by
  induction t generalizing k with
  | var x => obtain ⟨_, n, hn, _⟩ := ht; simp [Tm.names, hn]
  | const a => simp [Tm.names]
  | nil => simp [Tm.names]
  | cons t u iht ihu =>
    intro x hx
    rcases List.mem_append.1 hx with hx | hx
    · exact iht ht.1 x hx
    · exact ihu ht.2 x hx
  | ell t u iht ihu =>
    intro x hx
    rcases List.mem_append.1 hx with hx | hx
    · exact iht ht.1 x hx
    · exact ihu ht.2.1 x hx
  | vec t iht => exact iht ht.1

theorem shapeQ_of_shape {Q : V → Prop} (h : ∀ v, toSyntax v = toSyntax (strip v) → Q v) (k : Nat) (v : V) (hs : Shape k v) : ShapeQ Q k v := by
  induction k generalizing v with
  | zero => exact h v hs
  | succ k ih =>
    obtain ⟨l, rfl, hl⟩ := hs
    exact ⟨l, rfl, fun a ha => ih a (hl a ha)⟩

theorem sees_depth {p : Pat} {c : Nat} {σ : Nm → BV} {env env' : Env} {sc' : Scope} (hs : Sees p c σ (fun _ => none) env sc' env') (x : Nm) : depths sc' x = p.depth x := by
  by_cases hx : x ∈ p.names
  · obtain ⟨k, hk⟩ := lookup_of_mem hx
    obtain ⟨n, v, h1, _⟩ := hs.vars (x, k) (lookup_mem hk)
    simp only [depths, h1, Option.map_some, Pat.depth, hk]
  · have h1 := hs.scope x hx
    have h2 : p.depth x = none := by
      cases h : p.depth x with
      | none => rfl
      | some k => exact absurd (List.mem_map_of_mem (f := Prod.fst) (lookup_mem h)) hx
    simp [depths, h1, h2]

theorem sees_known {p : Pat} {c c' : Nat} {σ : Nm → BV} {env env' : Env} {sc' : Scope} {Q : Nm → V → Prop} (hs : Sees p c σ (fun _ => none) env sc' env') {xs : List Nm}
    (hx : ∀ x ∈ xs, ∃ n, p.depth x = some n) (hQ : ∀ x v, toSyntax v = toSyntax (strip v) → Q x v) : Known sc' Q c' xs σ env' := by
  intro x hxs
  obtain ⟨k, hk⟩ := hx x hxs
  obtain ⟨n, v, h1, h2, h3, h4⟩ := hs.vars (x, k) (lookup_mem hk)
  exact ⟨k, .sc n, v, h1, h2, shapeQ_of_shape (hQ x) k v h3, h4, by simp⟩

/-- What a rule does where its pattern has matched. -/
theorem rule_out {lits : List Nm} {r : Rule} (hr : r.WF lits) {c c' : Nat} {σ : Nm → BV} {env env' : Env} {sc' : Scope} (hs : Sees r.pat c σ (fun _ => none) env sc' env') :
    (∃ v, instantiate sc' r.tm c' env' = .ok v ∧ I r.tm σ (strip v) ∧ (r.tm.dotted = [] → toSyntax v = toSyntax (strip v))) ∨
      (instantiate sc' r.tm c' env' = .err ∧ ∀ d, ¬ I r.tm σ d) := by
  obtain ⟨_, _, ht, he⟩ := hr
  have ht' : TWF (depths sc') 0 r.tm := TWF_congr (fun x => (sees_depth hs x).symm) ht
  by_cases hd : r.tm.dotted = []
  · rcases C95_flat_partial sc' r.tm ht' c' σ env' (sees_known hs (TWF_names ht) fun x v hv => ⟨by simp [he], hv, by simp [hd]⟩) with ⟨v, h1, h2, h3, _⟩ | h
    · exact .inl ⟨v, h1, h2, fun _ => h3⟩
    · exact .inr h
  · rcases C95_template_partial sc' r.tm ht' c' σ env' (sees_known hs (TWF_names ht) fun x v _ => by simp [he]) with ⟨v, h1, h2⟩ | h
    · exact .inl ⟨v, h1, h2, fun h => absurd h hd⟩
    · exact .inr h

/-- **C96**: a macro made of rules rewrites a form with the first rule whose pattern matches to the instance of the template.  Missing: what is missing in C94 and C95. -/
theorem C96_rules_partial {lits : List Nm} (rs : List Rule) (hw : ∀ r ∈ rs, r.WF lits) (c c' fuel : Nat) (hf : ∀ r ∈ rs, 2 * r.pat.size ≤ fuel) (d : V) (hd : Pure d)
    (hc : ∀ r ∈ rs, Calm .head r.pat d) (env : Env) :
    Rewrites d rs (syntaxCase lits fuel (rs.map fun r => (r.clause c').clause) c (fun _ => none) (toSyntax d) env) := by
  have h := C94_syntax_case_partial (lits := lits) (rs.map (Rule.clause c')) (by simpa [Rule.clause] using fun r hr => ⟨(hw r hr).1, (hw r hr).2.1⟩) c fuel (by simpa [Rule.clause] using hf) d hd
    (by simpa [Rule.clause] using hc) (fun _ => none) env
  rw [List.map_map] at h
  change Chosen d _ env c _ (syntaxCase lits fuel (rs.map fun r => (r.clause c').clause) c (fun _ => none) (toSyntax d) env) at h
  generalize syntaxCase lits fuel (rs.map fun r => (r.clause c').clause) c (fun _ => none) (toSyntax d) env = x at h ⊢
  clear hf hc
  induction rs generalizing c with
  | nil => cases h; exact .none
  | cons r rs ih =>
    obtain ⟨h1, h2⟩ := List.forall_mem_cons.1 hw
    rw [List.map_cons] at h
    cases h with
    | skip hn h => exact .skip hn (ih h2 _ h)
    | take hm hs _ =>
      simp only [Rule.clause]
      rcases rule_out (c' := c') h1 hs with ⟨v, e, a, b⟩ | ⟨e, a⟩
      · rw [e]; exact .take hm a b
      · rw [e]; exact .bad hm a
    | refuse _ _ h => simp [Rule.clause] at h
    | fail _ _ h => simp [Rule.clause] at h

/-! ### `with-syntax` -/

/-- The pattern `(p ...)` for given patterns. -/
def listPat : List Pat → Pat
  | [] => .nil
  | p :: ps => .cons p (listPat ps)

/-- `(with-syntax ((p e) ...) body)`: `(syntax-case (list e ...) () [(p ...) body])` (stxcase-extra.min:20-24), the values of the expressions given. -/
def withSyntax (fuel : Nat) (bs : List (Pat × V)) (body : Body) (c : Nat) (sc : Scope) (env : Env) : Res V :=
  syntaxCase [] fuel [(⟨listPat (bs.map Prod.fst), none, body⟩ : PClause).clause] c sc (listV (bs.map Prod.snd)) env

theorem M_listPat {ps : List Pat} {d : V} {σ : Nm → BV} : M (listPat ps) d σ ↔ ∃ ds, d = listV ds ∧ List.Forall₂ (fun p d => M p d σ) ps ds := by
  induction ps generalizing d with
  | nil =>
    constructor
    · intro h; exact ⟨[], h, .nil⟩
    · rintro ⟨ds, rfl, h⟩; cases h; rfl
  | cons p ps ih =>
    constructor
    · rintro ⟨a, b, rfl, h1, h2⟩
      obtain ⟨ds, rfl, h3⟩ := ih.1 h2
      exact ⟨a :: ds, rfl, .cons h1 h3⟩
    · rintro ⟨ds, rfl, h⟩
      cases h with
      | cons h1 h2 => exact ⟨_, _, rfl, h1, ih.2 ⟨_, rfl, h2⟩⟩

theorem toSyntax_listV_congr {vs ws : List V} (h : List.Forall₂ (fun v w => toSyntax v = toSyntax w) vs ws) : toSyntax (listV vs) = toSyntax (listV ws) := by
  have : vs.map toSyntax = ws.map toSyntax := by
    induction h with
    | nil => rfl
    | cons a _ ih => simp [a, ih]
  cases h with
  | nil => rfl
  | cons a _ =>
    simp only [listV, toSyntax, pairTail_listV]
    simp only [List.map_cons, List.cons.injEq] at this
    rw [this.1, this.2]

/-- **C96**, `with-syntax`: the body is evaluated with the variables of all patterns bound to what they match, and an exception is raised if a pattern does not match.  The values are syntax objects as
the reader or a template makes them (C95).  Missing: what is missing in C94. -/
theorem C96_with_syntax_partial (bs : List (Pat × V)) (ds : List V) (hv : List.Forall₂ (fun b d => toSyntax b.2 = toSyntax d) bs ds) (hp : ∀ d ∈ ds, Pure d)
    (hw : WF [] (listPat (bs.map Prod.fst)) ∧ (listPat (bs.map Prod.fst)).names.Nodup) (hc : Calm .head (listPat (bs.map Prod.fst)) (listV ds)) (c fuel : Nat)
    (hf : 2 * (listPat (bs.map Prod.fst)).size ≤ fuel) (body : Body) (sc : Scope) (env : Env) :
    (∃ σ sc' env', List.Forall₂ (fun b d => M b.1 d σ) bs ds ∧ Sees (listPat (bs.map Prod.fst)) c σ sc env sc' env' ∧ withSyntax fuel bs body c sc env = body sc' env') ∨
      ((∀ σ, ¬ List.Forall₂ (fun b d => M b.1 d σ) bs ds) ∧ withSyntax fuel bs body c sc env = .err) := by
  have hpd : Pure (listV ds) := Pure_listV.2 hp
  have h := C94_syntax_case_partial (lits := []) [⟨listPat (bs.map Prod.fst), none, body⟩] (by simpa using hw) c fuel (by simpa using hf) (listV ds) hpd (by simpa using hc) sc env
  have e : withSyntax fuel bs body c sc env = syntaxCase [] fuel ([(⟨listPat (bs.map Prod.fst), none, body⟩ : PClause)].map PClause.clause) c sc (toSyntax (listV ds)) env := by
    have : toSyntax (listV (bs.map Prod.snd)) = toSyntax (listV ds) := by
      refine toSyntax_listV_congr ?_
      rw [List.forall₂_map_left_iff]
      exact hv
    simp only [withSyntax, syntaxCase, this, toSyntax_idem, List.map_cons, List.map_nil]
  rw [e]
  have hM : ∀ σ, M (listPat (bs.map Prod.fst)) (listV ds) σ ↔ List.Forall₂ (fun b d => M b.1 d σ) bs ds := by
    intro σ
    rw [M_listPat]
    constructor
    · rintro ⟨ds', he, h⟩
      rw [List.forall₂_map_left_iff] at h
      rwa [listV_inj he]
    · intro h
      refine ⟨ds, rfl, ?_⟩
      rw [List.forall₂_map_left_iff]
      exact h
  generalize syntaxCase [] fuel ([(⟨listPat (bs.map Prod.fst), none, body⟩ : PClause)].map PClause.clause) c sc (toSyntax (listV ds)) env = x at h ⊢
  cases h with
  | skip hn h => cases h; exact .inr ⟨fun σ hσ => hn σ ((hM σ).2 hσ), rfl⟩
  | take hm hs _ => exact .inl ⟨_, _, _, (hM _).1 hm, hs, rfl⟩
  | refuse _ _ h => simp at h
  | fail _ _ h => simp at h

/-! ### `syntax-rules` -/

section syntaxRules

/-- the pattern variables of the macro -/
abbrev nLit : Nm := .user 0
abbrev nK : Nm := .user 1
abbrev nP : Nm := .user 2
abbrev nT : Nm := .user 3
/-- identifiers in its template: `lambda`, `stx`, `syntax-case`, `syntax` -/
abbrev nLambda : Nm := .user 10
abbrev nStx : Nm := .user 11
abbrev nCase : Nm := .user 12
abbrev nSyntax : Nm := .user 13

/-- `(_ (lit ...) [(k . p) t] ...)` (stxcase-extra.min:13) -/
def srPat : Pat := .cons .wild (.cons (.ell (.var nLit) .nil) (.ell (.cons (.cons (.var nK) (.var nP)) (.cons (.var nT) .nil)) .nil))

/-- `(lambda (stx) (syntax-case stx (lit ...) [(_ . p) #'t] ...))` (stxcase-extra.min:15-17) -/
def srTm : Tm :=
  .cons (.const (.sym nLambda)) (.cons (.cons (.const (.sym nStx)) .nil) (.cons
    (.cons (.const (.sym nCase)) (.cons (.const (.sym nStx)) (.cons (.ell (.var nLit) .nil)
      (.ell (.cons (.cons (.const (.sym .under)) (.var nP)) (.cons (.cons (.const (.sym nSyntax)) (.cons (.var nT) .nil)) .nil)) .nil)))) .nil))

/-- `(lit ... k ...)` (stxcase-extra.min:14) -/
def srIds : Tm := .ell (.var nLit) (.ell (.var nK) .nil)

/-- the fender `(andmap identifier? (syntax->list #'(lit ... k ...)))` (stxcase-extra.min:14) -/
def srFender (c : Nat) : Body := fun sc env => do
  let v ← instantiate sc srIds c env
  match v with
  | .stx e => match rawList e with
    | some l => .ok (if l.all (fun x => (identOf x).isSome) then .tru else .fls)
    | none => .err
  | _ => .err

/-- The macro `syntax-rules` (stxcase-extra.min:11-17). -/
def syntaxRules (c : Nat) (form : V) (env : Env) : Res V :=
  syntaxCase [] (2 * srPat.size) [(⟨srPat, some (srFender c), fun sc env => instantiate sc srTm c env⟩ : PClause).clause] 0 (fun _ => none) form env

/-- The form `(syntax-rules (lit ...) [(k . p) t] ...)`. -/
def srForm (kw : V) (lits : List V) (rules : List (V × V × V)) : V :=
  .cons kw (.cons (listV lits) (listV (rules.map fun r => listV [.cons r.1 r.2.1, r.2.2])))

/-- The transformer it stands for. -/
def srText (lits : List V) (rules : List (V × V × V)) : V :=
  listV [.sym nLambda, listV [.sym nStx],
    .cons (.sym nCase) (.cons (.sym nStx) (.cons (listV lits) (listV (rules.map fun r => listV [.cons (.sym .under) r.2.1, listV [.sym nSyntax, r.2.2]]))))]

/-- what the pattern variables stand for -/
def srAssign (lits : List V) (rules : List (V × V × V)) : Nm → BV := fun x =>
  if x = nLit then .many (lits.map .leaf) else if x = nK then .many (rules.map fun r => .leaf r.1)
  else if x = nP then .many (rules.map fun r => .leaf r.2.1) else .many (rules.map fun r => .leaf r.2.2)

theorem srPat_wf : WF [] srPat ∧ srPat.names.Nodup := by
  simp [srPat, WF, Pat.isVec, Pat.hasEll, Pat.names, Pat.vars]

theorem srPat_calm (d : V) : (∃ a b, d = .cons a b) → Calm .head srPat d := by
  rintro ⟨a, b, rfl⟩
  simp [srPat, Calm, CalmAfter]

theorem sr_match (kw : V) (lits : List V) (rules : List (V × V × V)) : M srPat (srForm kw lits rules) (srAssign lits rules) := by
  refine ⟨_, _, rfl, trivial, _, _, rfl, ⟨lits, .null, by rw [appV_null], rfl, rfl, lits.map fun a _ => .leaf a, ?_, ?_⟩, ?_⟩
  · rw [List.forall₂_map_right_iff]
    exact List.forall₂_same.2 fun a _ => rfl
  · intro x hx
    simp only [Pat.names, Pat.vars, List.map_cons, List.map_nil, List.mem_singleton] at hx
    subst hx
    simp [srAssign, Function.comp_def]
  · refine ⟨_, .null, by rw [appV_null], rfl, rfl, rules.map fun r x => if x = nK then .leaf r.1 else if x = nP then .leaf r.2.1 else .leaf r.2.2, ?_, ?_⟩
    · rw [List.forall₂_map_right_iff, List.forall₂_map_left_iff]
      exact List.forall₂_same.2 fun r _ => ⟨_, _, rfl, ⟨_, _, rfl, by simp [M], by simp [M]⟩, _, _, rfl, by simp [M], rfl⟩
    · intro x hx
      simp only [Pat.names, Pat.vars, List.map_append, List.map_cons, List.map_nil, List.cons_append, List.nil_append, List.append_nil, List.mem_cons, List.not_mem_nil, or_false] at hx
      rcases hx with rfl | rfl | rfl <;> simp [srAssign, Function.comp_def]

theorem sr_text (lits : List V) (rules : List (V × V × V)) : I srTm (srAssign lits rules) (srText lits rules) := by
  refine ⟨_, _, rfl, rfl, _, _, rfl, ⟨_, _, rfl, rfl, rfl⟩, _, _, rfl, ⟨_, _, rfl, rfl, _, _, rfl, rfl, _, _, rfl, ⟨lits, .null, by rw [appV_null], rfl, lits.map fun a _ => .leaf a, ?_, ?_, ?_⟩, ?_⟩, rfl⟩
  · rw [List.forall₂_map_left_iff]
    exact List.forall₂_same.2 fun a _ => rfl
  · intro x hx
    simp only [Tm.names, List.mem_singleton] at hx
    subst hx
    exact .inl (by simp [srAssign, Function.comp_def])
  · exact ⟨nLit, by simp [Tm.names], _, rfl⟩
  · refine ⟨_, .null, by rw [appV_null], rfl, rules.map fun r x => if x = nP then .leaf r.2.1 else .leaf r.2.2, ?_, ?_, ?_⟩
    · rw [List.forall₂_map_right_iff, List.forall₂_map_left_iff]
      exact List.forall₂_same.2 fun r _ => ⟨_, _, rfl, ⟨_, _, rfl, rfl, by simp [I]⟩, _, _, rfl, ⟨_, _, rfl, rfl, _, _, rfl, by simp [I], rfl⟩, rfl⟩
    · intro x hx
      simp only [Tm.names, List.cons_append, List.nil_append, List.append_nil, List.mem_cons, List.not_mem_nil, or_false] at hx
      rcases hx with rfl | rfl <;> exact .inl (by simp [srAssign, Function.comp_def])
    · exact ⟨nP, by simp [Tm.names], _, rfl⟩

theorem sr_ids (lits : List V) (rules : List (V × V × V)) : I srIds (srAssign lits rules) (listV (lits ++ rules.map Prod.fst)) := by
  refine ⟨lits, listV (rules.map Prod.fst), by rw [appV_listV], ⟨rules.map Prod.fst, .null, by rw [appV_null], rfl, rules.map fun r _ => .leaf r.1, ?_, ?_, ?_⟩, lits.map fun a _ => .leaf a, ?_, ?_, ?_⟩
  · rw [List.forall₂_map_right_iff, List.forall₂_map_left_iff]
    exact List.forall₂_same.2 fun a _ => rfl
  · intro x hx
    simp only [Tm.names, List.mem_singleton] at hx
    subst hx
    exact .inl (by simp [srAssign, Function.comp_def])
  · exact ⟨nK, by simp [Tm.names], _, rfl⟩
  · rw [List.forall₂_map_left_iff]
    exact List.forall₂_same.2 fun a _ => rfl
  · intro x hx
    simp only [Tm.names, List.mem_singleton] at hx
    subst hx
    exact .inl (by simp [srAssign, Function.comp_def])
  · exact ⟨nLit, by simp [Tm.names], _, rfl⟩

theorem sr_depth : srPat.depth = fun x => if x = nLit then some 1 else if x = nK then some 1 else if x = nP then some 1 else if x = nT then some 1 else none := by
  funext x
  simp only [Pat.depth, srPat, Pat.vars, List.nil_append, List.cons_append, List.append_nil, List.lookup_cons, List.lookup_nil, Nat.zero_add]
  split_ifs with h1 h2 h3 h4
  · subst h1; rfl
  · subst h2; rfl
  · subst h3; rfl
  · subst h4; rfl
  · have e : ∀ y : Nm, x ≠ y → (x == y) = false := fun y hy => by simpa using hy
    simp only [e _ h1, e _ h2, e _ h3, e _ h4]

/-- **C96**, `syntax-rules`: the form stands for the transformer that R6RS says, and is accepted if the literals and the keywords of the rules are identifiers.  Missing: that the tails of the patterns
in the result are not syntax objects of their own. -/
theorem C96_syntax_rules_partial (kw : V) (lits : List V) (rules : List (V × V × V)) (hk : Pure kw) (hl : ∀ a ∈ lits, ∃ s, a = .sym s)
    (hr : ∀ r ∈ rules, (∃ s, r.1 = .sym s) ∧ Pure r.2.1 ∧ Pure r.2.2) (c : Nat) (env : Env) :
    ∃ v, syntaxRules c (toSyntax (srForm kw lits rules)) env = .ok v ∧ strip v = srText lits rules := by
  have hpure : Pure (srForm kw lits rules) := by
    refine ⟨hk, Pure_listV.2 fun a ha => ?_, Pure_listV.2 fun a ha => ?_⟩
    · obtain ⟨s, rfl⟩ := hl a ha; trivial
    · obtain ⟨r, hr', rfl⟩ := List.mem_map.1 ha
      obtain ⟨⟨s, hs⟩, h2, h3⟩ := hr r hr'
      rw [hs]
      exact ⟨⟨trivial, h2⟩, h3, trivial⟩
  have h := C94_syntax_case_partial (lits := []) [⟨srPat, some (srFender c), fun sc env => instantiate sc srTm c env⟩] (by simpa using srPat_wf) 0 (2 * srPat.size) (by simp)
    (srForm kw lits rules) hpure (List.forall_mem_singleton.2 (srPat_calm _ ⟨_, _, rfl⟩)) (fun _ => none) env
  have huniq : ∀ σ, M srPat (srForm kw lits rules) σ → ∀ x ∈ srPat.names, σ x = srAssign lits rules x := fun σ hσ =>
    C94_match_unique srPat_wf.1 srPat_wf.2 hpure (srPat_calm _ ⟨_, _, rfl⟩) hσ (sr_match kw lits rules)
  have hfender : ∀ σ sc' env', M srPat (srForm kw lits rules) σ → Sees srPat 0 σ (fun _ => none) env sc' env' → srFender c sc' env' = .ok .tru := by
    intro σ sc' env' hm hs
    have ht : TWF srPat.depth 0 srIds := by simp [srIds, TWF, sr_depth, Tm.last, Tm.names]
    have hI : I srIds σ (listV (lits ++ rules.map Prod.fst)) := I_congr (fun x hx => (huniq σ hm x (by
      simp only [srIds, Tm.names, List.cons_append, List.nil_append, List.append_nil, List.mem_cons, List.not_mem_nil, or_false] at hx
      rcases hx with rfl | rfl <;> simp [srPat, Pat.names, Pat.vars])).symm) (sr_ids lits rules)
    rcases C95_flat_partial sc' srIds (TWF_congr (fun x => (sees_depth hs x).symm) ht) c σ env'
      (sees_known hs (TWF_names ht) fun x v hv => ⟨by simp [srIds, Tm.ends, Tm.last], hv, by simp [srIds, Tm.dotted, Tm.dottedTail]⟩) with ⟨v, h1, h2, _, h3⟩ | ⟨_, h1⟩
    · have h3 := h3 (by simp [srIds])
      rw [C95_instance_unique _ _ h2 hI] at h3
      subst h3
      simp only [srFender, h1, ok_bind]
      have e : ∃ e, toSyntax (listV (lits ++ rules.map Prod.fst)) = .stx e ∧ rawList e = some ((lits ++ rules.map Prod.fst).map toSyntax) := by
        cases hc : lits ++ rules.map Prod.fst with
        | nil => exact ⟨.null, rfl, rfl⟩
        | cons a l => exact ⟨_, rfl, by simp [pairTail_listV, rawList]⟩
      obtain ⟨e, he, hl'⟩ := e
      simp only [he, hl']
      rw [if_pos]
      rw [List.all_eq_true]
      intro x hx
      obtain ⟨a, ha, rfl⟩ := List.mem_map.1 hx
      rcases List.mem_append.1 ha with ha | ha
      · obtain ⟨s, rfl⟩ := hl a ha; rfl
      · obtain ⟨r, hr', rfl⟩ := List.mem_map.1 ha
        obtain ⟨⟨s, hs⟩, _⟩ := hr r hr'
        rw [hs]; rfl
    · exact absurd hI (h1 _)
  change Chosen _ _ _ _ _ (syntaxRules c (toSyntax (srForm kw lits rules)) env) at h
  generalize syntaxRules c (toSyntax (srForm kw lits rules)) env = x at h ⊢
  cases h with
  | skip hn h => exact absurd (sr_match kw lits rules) (hn _)
  | @take _ _ _ σ sc' env' hm hs _ =>
    have hrule : Rule.WF [] ⟨srPat, srTm⟩ := by
      refine ⟨srPat_wf.1, srPat_wf.2, ?_, ?_⟩
      · simp [srTm, TWF, sr_depth, Tm.last, Tm.names, isAtom]
      · simp [srTm, Tm.ends, Tm.last]
    have hI : I srTm σ (srText lits rules) := I_congr (fun x hx => (huniq σ hm x (by
      simp only [srTm, Tm.names, List.cons_append, List.nil_append, List.append_nil, List.mem_cons, List.not_mem_nil, or_false] at hx
      rcases hx with rfl | rfl | rfl <;> simp [srPat, Pat.names, Pat.vars])).symm) (sr_text lits rules)
    rcases rule_out (c' := c) hrule hs with ⟨v, h1, h2, _⟩ | ⟨_, h1⟩
    · exact ⟨v, h1, C95_instance_unique _ _ h2 hI⟩
    · exact absurd hI (h1 _)
  | refuse hm hs h1 h2 _ =>
    cases h1
    rw [hfender _ _ _ hm hs] at h2
    simp at h2
  | fail hm hs h1 h2 =>
    cases h1
    exact absurd (hfender _ _ _ hm hs) (h2 _)

end syntaxRules

section examples

/-- `(my-or)`, `(my-or e)`, `(my-or e r ...)` as rules -/
def exRules : List Rule := [
  ⟨.cons .wild .nil, .const .fls⟩,
  ⟨.cons .wild (.cons (.var X) .nil), .var X⟩,
  ⟨.cons .wild (.cons (.var X) (.ell (.var Y) .nil)), .cons (.const (.sym (.user 7))) (.cons (.cons (.const (.sym (.user 8))) (.ell (.var Y) .nil)) (.cons (.var X) .nil))⟩]

/-- The rules are covered by the theorem, and a form is rewritten by the third. -/
example : (∀ r ∈ exRules, r.WF []) ∧ syntaxCase [] 100 (exRules.map fun r => (r.clause 0).clause) 0 (fun _ => none) (toSyntax (listV [.sym (.user 8), .num 1, .num 2, .num 3])) (fun _ => none) =
    .ok (toSyntax (listV [.sym (.user 7), listV [.sym (.user 8), .num 2, .num 3], .num 1])) := by
  refine ⟨?_, by decide⟩
  have e1 : (Nm.user 7 == X) = false := by decide
  have e2 : (Nm.user 7 == Y) = false := by decide
  have e3 : (Nm.user 8 == X) = false := by decide
  have e4 : (Nm.user 8 == Y) = false := by decide
  have e5 : (Y == X) = false := by decide
  simp [exRules, Rule.WF, Sc.WF, TWF, Pat.isVec, Pat.hasEll, Pat.names, Pat.vars, Pat.depth, Tm.last, Tm.names, Tm.ends, isAtom, List.lookup, e1, e2, e3, e4, e5]

/-- `(with-syntax ([(x y ...) #'(1 2 3)]) #'(y ... x))` -/
example : withSyntax 100 [(.cons (.var X) (.ell (.var Y) .nil), toSyntax (listV [.num 1, .num 2, .num 3]))] (fun sc env => instantiate sc (.ell (.var Y) (.cons (.var X) .nil)) 0 env) 0
    (fun _ => none) (fun _ => none) = .ok (toSyntax (listV [.num 2, .num 3, .num 1])) := by decide

/-- `(syntax-rules (else) [(m x) x])` -/
example : syntaxRules 0 (toSyntax (srForm (.sym (.user 20)) [.sym (.user 21)] [(.sym (.user 22), listV [.sym (.user 23)], .sym (.user 23))])) (fun _ => none) =
    .ok (toSyntax (srText [.sym (.user 21)] [(.sym (.user 22), listV [.sym (.user 23)], .sym (.user 23))])) := by decide

end examples

end Minim.Sc
