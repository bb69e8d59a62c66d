import Verif.SxClause

set_option autoImplicit false

namespace Minim.Sc

/-- In the environment `env'` and the scope `sc'` the variables of `p` have the values that `σ` says; apart from them, from `arg`, `rslt` and numbered temporaries beyond `c` everything is as in `env`, `sc`. -/
structure Sees (p : Pat) (c : Nat) (σ : Nm → BV) (sc : Scope) (env : Env) (sc' : Scope) (env' : Env) : Prop where
  vars : ∀ xk ∈ p.vars 0, ∃ n v, sc' xk.1 = some (xk.2, .sc n) ∧ env' (.sc n) = some v ∧ Shape xk.2 v ∧ bv xk.2 v = σ xk.1
  scope : ∀ y, y ∉ p.names → sc' y = sc y
  env : ∀ y, y ≠ .arg → y ≠ .rslt → (∀ n, y = .sc n → n ≤ c) → env' y = env y

/-- A clause with its pattern as a tree. -/
structure PClause where
  pat : Pat
  fender : Option Body
  result : Body

/-- What `syntax-case` has to do for the datum `d` (R6RS 12.4): the first clause whose pattern matches and whose fender holds gives the result, with the pattern variables bound; if there is none an
exception is raised. -/
inductive Chosen (d : V) (sc : Scope) (env0 : Env) : Nat → List PClause → Res V → Prop
  | none {c : Nat} : Chosen d sc env0 c [] .err
  | skip {c : Nat} {k : PClause} {ks : List PClause} {r : Res V} : (∀ σ, ¬ M k.pat d σ) → Chosen d sc env0 (c + k.pat.names.length) ks r → Chosen d sc env0 c (k :: ks) r
  | take {c : Nat} {k : PClause} {ks : List PClause} {σ : Nm → BV} {sc' : Scope} {env' : Env} :
      M k.pat d σ → Sees k.pat c σ sc env0 sc' env' → (k.fender = .none ∨ ∃ f v, k.fender = some f ∧ f sc' env' = .ok v ∧ v ≠ .fls) →
      Chosen d sc env0 c (k :: ks) (k.result sc' env')
  | refuse {c : Nat} {k : PClause} {ks : List PClause} {σ : Nm → BV} {sc' : Scope} {env' : Env} {f : Body} {r : Res V} :
      M k.pat d σ → Sees k.pat c σ sc env0 sc' env' → k.fender = some f → f sc' env' = .ok .fls → Chosen d sc env0 (c + k.pat.names.length) ks r → Chosen d sc env0 c (k :: ks) r
  | fail {c : Nat} {k : PClause} {ks : List PClause} {σ : Nm → BV} {sc' : Scope} {env' : Env} {f : Body} :
      M k.pat d σ → Sees k.pat c σ sc env0 sc' env' → k.fender = some f → (∀ v, f sc' env' ≠ .ok v) → Chosen d sc env0 c (k :: ks) (f sc' env')

/-- The clause as it is written. -/
def PClause.clause (k : PClause) : Clause := ⟨toSyntax k.pat.dat, k.fender, k.result⟩

theorem scIds_ge {c n : Nat} {t : Nm} (h : t ∈ scIds c n) : ∃ k, t = .sc k ∧ c < k := by
  simp only [scIds, List.mem_map, List.mem_range] at h
  obtain ⟨k, _, rfl⟩ := h
  exact ⟨_, rfl, by omega⟩

theorem bindTemps_ok (env : Env) (ts : List Nm) (vs : List V) (h : ts.length = vs.length) (hn : ts.Nodup) :
    ∃ env', bindTemps env ts (listV vs) = .ok env' ∧ (∀ y, y ∉ ts → env' y = env y) ∧ List.Forall₂ (fun t v => env' t = some v) ts vs := by
  induction ts generalizing vs env with
  | nil =>
    cases vs with
    | nil => exact ⟨env, rfl, fun _ _ => rfl, .nil⟩
    | cons _ _ => simp at h
  | cons t ts ih =>
    cases vs with
    | nil => simp at h
    | cons v vs =>
      simp only [List.nodup_cons] at hn
      obtain ⟨env', h1, h2, h3⟩ := ih (upd env t v) vs (by simpa using h) hn.2
      refine ⟨env', h1, fun y hy => ?_, .cons ?_ h3⟩
      · simp only [List.mem_cons, not_or] at hy
        rw [h2 y hy.2, upd_other _ _ hy.1]
      · rw [h2 t hn.1, upd_same]

theorem forall₂_mem {α β : Type} {R S : α → β → Prop} {xs : List α} {ys : List β} (h : List.Forall₂ R xs ys) (hi : ∀ x ∈ xs, ∀ y, R x y → S x y) : List.Forall₂ S xs ys := by
  induction h with
  | nil => exact .nil
  | cons a _ ih => exact .cons (hi _ (by simp) _ a) (ih fun x hx => hi x (List.mem_cons_of_mem _ hx))

theorem forall₂_right {α β : Type} {R : α → β → Prop} {xs : List α} {ys : List β} (h : List.Forall₂ R xs ys) : List.Forall₂ (fun x y => R x y ∧ y ∈ ys) xs ys := by
  induction h with
  | nil => exact .nil
  | cons a _ ih => exact .cons ⟨a, by simp⟩ (ih.imp fun _ _ h => ⟨h.1, List.mem_cons_of_mem _ h.2⟩)

theorem extend_spec (sc : Scope) (xs : List (Nm × Nat)) (ts : List Nm) (h : ts.length = xs.length) (hn : (xs.map Prod.fst).Nodup) :
    List.Forall₂ (fun xk t => extend sc xs ts xk.1 = some (xk.2, t)) xs ts ∧ ∀ y, y ∉ xs.map Prod.fst → extend sc xs ts y = sc y := by
  induction xs generalizing ts with
  | nil =>
    cases ts with
    | nil => exact ⟨.nil, fun _ _ => rfl⟩
    | cons _ _ => simp at h
  | cons xk xs ih =>
    obtain ⟨x, k⟩ := xk
    cases ts with
    | nil => simp at h
    | cons t ts =>
      simp only [List.map_cons, List.nodup_cons] at hn
      obtain ⟨h1, h2⟩ := ih ts (by simpa using h) hn.2
      refine ⟨.cons (by simp [extend]) ?_, fun y hy => ?_⟩
      · refine forall₂_mem h1 fun yk hy u hu => ?_
        have : yk.1 ≠ x := fun he => hn.1 (he ▸ List.mem_map_of_mem hy)
        simp [extend, this, hu]
      · simp only [List.map_cons, List.mem_cons, not_or] at hy
        simp [extend, hy.1, h2 y hy.2]

theorem forall₂_three {α β γ : Type} {R : α → β → Prop} {S : β → γ → Prop} {T U : α → γ → Prop} {xs : List α} {ys : List β} {zs : List γ}
    (h1 : List.Forall₂ R xs ys) (h2 : List.Forall₂ S ys zs) (h3 : List.Forall₂ T xs zs) (h4 : List.Forall₂ U xs zs) :
    ∀ x ∈ xs, ∃ y z, R x y ∧ S y z ∧ T x z ∧ U x z := by
  induction h1 generalizing zs with
  | nil => simp
  | cons a _ ih =>
    cases h2 with
    | cons b b' =>
      cases h3 with
      | cons c c' =>
        cases h4 with
        | cons d d' => exact List.forall_mem_cons.2 ⟨⟨_, _, a, b, c, d⟩, ih b' c' d'⟩

theorem sees_ok {p : Pat} (hn : p.names.Nodup) {d : V} {vs : List V} (c : Nat) (sc : Scope) (env0 env : Env) (hsh : Shaped (p.vars 0) vs)
    (hM : ∀ σ, M p d σ ↔ Bind (p.vars 0) vs σ) (henv : ∀ y, y ≠ .arg → y ≠ .rslt → env y = env0 y) :
    ∃ env', bindTemps (upd env .rslt (listV vs)) (scIds c (p.vars 0).length) (listV vs) = .ok env' ∧ ∃ σ, M p d σ ∧
      Sees p c σ sc env0 (extend sc (p.vars 0) (scIds c (p.vars 0).length)) env' := by
  have hlen : (scIds c (p.vars 0).length).length = (p.vars 0).length := by simp [scIds]
  have hnd : (scIds c (p.vars 0).length).Nodup := List.pairwise_map.2 (List.nodup_range.imp fun h h' => h (by simpa using h'))
  obtain ⟨env', h1, h2, h3⟩ := bindTemps_ok (upd env .rslt (listV vs)) _ vs (by rw [hlen, hsh.length]) hnd
  obtain ⟨h4, h5⟩ := extend_spec sc (p.vars 0) _ hlen hn
  have hb := rowσ_bind (xs := p.vars 0) hn hsh.length
  refine ⟨env', h1, rowσ (p.vars 0) vs, (hM _).2 hb, ⟨fun xk hx => ?_, h5, fun y hy1 hy2 hy3 => ?_⟩⟩
  · obtain ⟨t, v, ⟨a1, a5⟩, a2, a3, a4⟩ := forall₂_three (forall₂_right h4) h3 hsh hb xk hx
    obtain ⟨n, rfl, _⟩ := scIds_ge a5
    exact ⟨n, v, a1, a2, a3, a4.symm⟩
  · rw [h2 y, upd_other _ _ hy2, henv y hy1 hy2]
    intro hm
    obtain ⟨k, rfl, hk⟩ := scIds_ge hm
    exact absurd (hy3 k rfl) (by omega)

theorem compile_ok {lits : List Nm} (ks : List PClause) (hw : ∀ k ∈ ks, WF lits k.pat ∧ k.pat.names.Nodup) (c fuel : Nat) (hf : ∀ k ∈ ks, 2 * k.pat.size ≤ fuel) :
    ∃ cs, compile lits fuel (ks.map PClause.clause) c = .ok cs ∧
      ∀ (d : V) (sc : Scope) (env0 env : Env), Pure d → env .arg = some (toSyntax d) → (∀ y, y ≠ .arg → y ≠ .rslt → env y = env0 y) →
        Chosen d sc env0 c ks (exec sc cs env) ∨ (exec sc cs env = .err ∧ ∃ k ∈ ks, ¬ Calm .head k.pat d) := by
  induction ks generalizing c with
  | nil => exact ⟨[], rfl, fun d sc env0 env _ _ _ => .inl .none⟩
  | cons k ks ih =>
    obtain ⟨⟨hw1, hn1⟩, hw2⟩ := List.forall_mem_cons.1 hw
    obtain ⟨hf1, hf2⟩ := List.forall_mem_cons.1 hf
    obtain ⟨cs, hc, hcs⟩ := ih hw2 (c + k.pat.names.length) hf2
    obtain ⟨m, hm, hrun⟩ := gen_ok k.pat hw1 hn1 fuel hf1 (.var .arg)
    have hlen : k.pat.names.length = (k.pat.vars 0).length := by simp [Pat.names]
    refine ⟨⟨m, k.pat.vars 0, scIds c (k.pat.vars 0).length, k.fender, k.result⟩ :: cs, ?_, ?_⟩
    · rw [List.map_cons, compile]
      rw [hlen] at hc
      simp only [PClause.clause, getVars_ok hw1 fuel (by omega), ok_bind, List.append_nil, List.reverse_reverse, hm, hc]
      exact if_pos hn1
    · intro d sc env0 env hd harg henv
      have hk := (hrun env).2 d (toSyntax d) .head hd (by simp) IsM.head (by simp [run, harg])
      have next : ∀ r, Chosen d sc env0 (c + k.pat.names.length) ks (exec sc cs (upd env .rslt r)) ∨
          (exec sc cs (upd env .rslt r) = .err ∧ ∃ k ∈ ks, ¬ Calm .head k.pat d) := fun r => by
        refine hcs d sc env0 (upd env .rslt r) hd (by rw [upd_other _ _ (by simp), harg]) fun y h1 h2 => ?_
        rw [upd_other _ _ h2, henv y h1 h2]
      rcases hk with ⟨v, hv, ⟨rfl, hno⟩ | ⟨vs, rfl, hsh, hM⟩⟩ | ⟨hv, hcalm⟩
      · have e : exec sc (⟨m, k.pat.vars 0, scIds c (k.pat.vars 0).length, k.fender, k.result⟩ :: cs) env = exec sc cs (upd env .rslt .fls) := by
          rw [exec]
          simp only [hv, ok_bind]
          cases k.fender <;> simp
        rw [e]
        rcases next .fls with h | ⟨h1, k', h2, h3⟩
        · exact .inl (.skip hno h)
        · exact .inr ⟨h1, k', List.mem_cons_of_mem _ h2, h3⟩
      · obtain ⟨env', hb, σ, hσ, hs⟩ := sees_ok hn1 (d := d) c sc env0 env hsh hM henv
        cases hfd : k.fender with
        | none =>
          left
          have e : exec sc (⟨m, k.pat.vars 0, scIds c (k.pat.vars 0).length, none, k.result⟩ :: cs) env = k.result (extend sc (k.pat.vars 0) (scIds c (k.pat.vars 0).length)) env' := by
            rw [exec]
            simp only [hv, ok_bind, listV_ne_fls, if_false, hb]
          rw [e]
          exact .take hσ hs (.inl hfd)
        | some f =>
          cases hfv : f (extend sc (k.pat.vars 0) (scIds c (k.pat.vars 0).length)) env' with
          | ok w =>
            by_cases hwf : w = .fls
            · subst hwf
              have e : exec sc (⟨m, k.pat.vars 0, scIds c (k.pat.vars 0).length, some f, k.result⟩ :: cs) env = exec sc cs (upd env .rslt (listV vs)) := by
                rw [exec]
                simp only [hv, ok_bind, listV_ne_fls, if_false, hb, hfv, if_true]
              rw [e]
              rcases next (listV vs) with h | ⟨h1, k', h2, h3⟩
              · exact .inl (.refuse hσ hs hfd hfv h)
              · exact .inr ⟨h1, k', List.mem_cons_of_mem _ h2, h3⟩
            · left
              have e : exec sc (⟨m, k.pat.vars 0, scIds c (k.pat.vars 0).length, some f, k.result⟩ :: cs) env = k.result (extend sc (k.pat.vars 0) (scIds c (k.pat.vars 0).length)) env' := by
                rw [exec]
                simp only [hv, ok_bind, listV_ne_fls, if_false, hb, hfv, hwf]
              rw [e]
              exact .take hσ hs (.inr ⟨f, w, hfd, hfv, hwf⟩)
          | _ =>
            left
            have e : exec sc (⟨m, k.pat.vars 0, scIds c (k.pat.vars 0).length, some f, k.result⟩ :: cs) env = f (extend sc (k.pat.vars 0) (scIds c (k.pat.vars 0).length)) env' := by
              rw [exec]
              simp only [hv, ok_bind, listV_ne_fls, if_false, hb, hfv]
              rfl
            rw [e]
            exact .fail hσ hs hfd (by simp [hfv])
      · right
        refine ⟨?_, k, by simp, hcalm⟩
        rw [exec]; simp [hv]

/-! ### properties -/

/-- The matcher made for a pattern, run on an object. -/
def matchOn (lits : List Nm) (p : Pat) (x : V) : Res V := do
  let c ← gen lits (2 * p.size) (toSyntax p.dat) (.var .arg)
  run c (upd (fun _ => none) .arg x)

/-- The matcher for `p` run on `x` decides whether `x` matches and finds what the variables stand for. -/
def Decides (lits : List Nm) (p : Pat) (x : V) : Prop := ∃ v, matchOn lits p x = .ok v ∧ Fit (M p (strip x)) (p.vars 0) v

/-- The patterns that R6RS allows: identifiers are used as what they are, there is at most one ellipsis in a list or vector. -/
def WF0 (lits : List Nm) : Pat → Prop
  | .wild => True
  | .nil => True
  | .var x => x ∉ lits ∧ x ≠ .under ∧ x ≠ .dots
  | .atom a => isAtom a = true ∧ ∀ s, a = .sym s → s ∈ lits ∧ s ≠ .under ∧ s ≠ .dots
  | .cons p q => WF0 lits p ∧ WF0 lits q
  | .ell p q => WF0 lits p ∧ WF0 lits q ∧ q.hasEll = false
  | .vec p => WF0 lits p ∧ p.proper = true

/-- **C94**, the matcher.  For every pattern without the two exceptions of `WF` and without duplicate variables, and every datum, the matcher is right about whether the datum matches and about what the
variables stand for.  Missing: data on which it raises an exception (`¬ Calm`), vector patterns behind a dot or with elements behind an ellipsis. -/
theorem C94_match_partial {lits : List Nm} (p : Pat) (hw : WF lits p) (hn : p.names.Nodup) (d : V) (hd : Pure d) (hc : Calm .head p d) :
    Decides lits p (toSyntax d) := by
  obtain ⟨c, h1, h2⟩ := gen_ok p hw hn (2 * p.size) le_rfl (.var .arg)
  rcases (h2 (upd (fun _ => none) .arg (toSyntax d))).2 d _ .head hd (by simp) IsM.head (by simp [run, upd_same]) with ⟨v, h3, h4⟩ | ⟨_, h4⟩
  · exact ⟨v, by simp [matchOn, h1, h3], by rwa [(strip_both hd).1]⟩
  · exact absurd hc h4

/-- **C94**, never wrong: also without `Calm` the only thing that can go wrong is an exception. -/
theorem C94_never_wrong_partial {lits : List Nm} (p : Pat) (hw : WF lits p) (hn : p.names.Nodup) (d : V) (hd : Pure d) :
    Decides lits p (toSyntax d) ∨ matchOn lits p (toSyntax d) = .err := by
  obtain ⟨c, h1, h2⟩ := gen_ok p hw hn (2 * p.size) le_rfl (.var .arg)
  rcases (h2 (upd (fun _ => none) .arg (toSyntax d))).2 d _ .head hd (by simp) IsM.head (by simp [run, upd_same]) with ⟨v, h3, h4⟩ | ⟨h3, _⟩
  · exact .inl ⟨v, by simp [matchOn, h1, h3], by rwa [(strip_both hd).1]⟩
  · exact .inr (by simp [matchOn, h1, h3])

/-- **C94**, clauses: `syntax-case` gives the result of the first clause whose pattern matches and whose fender holds, with the variables bound to what matched, and raises an exception if there is none. -/
theorem C94_syntax_case_partial {lits : List Nm} (ks : List PClause) (hw : ∀ k ∈ ks, WF lits k.pat ∧ k.pat.names.Nodup) (c fuel : Nat)
    (hf : ∀ k ∈ ks, 2 * k.pat.size ≤ fuel) (d : V) (hd : Pure d) (hc : ∀ k ∈ ks, Calm .head k.pat d) (sc : Scope) (env : Env) :
    Chosen d sc env c ks (syntaxCase lits fuel (ks.map PClause.clause) c sc (toSyntax d) env) := by
  obtain ⟨cs, h1, h2⟩ := compile_ok ks hw c fuel hf
  have := h2 d sc env (upd env .arg (toSyntax d)) hd (upd_same _ _ _) fun y hy _ => upd_other _ _ hy
  simp only [syntaxCase, h1, ok_bind, toSyntax_idem]
  rcases this with h | ⟨_, k, hk, h⟩
  · exact h
  · exact absurd (hc k hk) h

/-- The same without `Calm`: a clause is chosen as it should be, or an exception is raised. -/
theorem C94_syntax_case_never_wrong_partial {lits : List Nm} (ks : List PClause) (hw : ∀ k ∈ ks, WF lits k.pat ∧ k.pat.names.Nodup) (c fuel : Nat)
    (hf : ∀ k ∈ ks, 2 * k.pat.size ≤ fuel) (d : V) (hd : Pure d) (sc : Scope) (env : Env) :
    Chosen d sc env c ks (syntaxCase lits fuel (ks.map PClause.clause) c sc (toSyntax d) env) ∨
      syntaxCase lits fuel (ks.map PClause.clause) c sc (toSyntax d) env = .err := by
  obtain ⟨cs, h1, h2⟩ := compile_ok ks hw c fuel hf
  have := h2 d sc env (upd env .arg (toSyntax d)) hd (upd_same _ _ _) fun y hy _ => upd_other _ _ hy
  simp only [syntaxCase, h1, ok_bind, toSyntax_idem]
  rcases this with h | ⟨h, _⟩
  · exact .inl h
  · exact .inr h

/-- What a pattern's variables stand for is determined by the datum. -/
theorem C94_match_unique {p : Pat} {lits : List Nm} (hw : WF lits p) (hn : p.names.Nodup) {d : V} (hd : Pure d) (hc : Calm .head p d) {σ τ : Nm → BV} (h1 : M p d σ) (h2 : M p d τ) :
    ∀ x ∈ p.names, σ x = τ x := by
  obtain ⟨v, _, h⟩ := C94_match_partial p hw hn d hd hc
  rw [(strip_both hd).1] at h
  rcases h with ⟨_, h⟩ | ⟨vs, _, _, h⟩
  · exact absurd h1 (h σ)
  · intro x hx
    rw [bind_det hn ((h σ).1 h1) x hx, bind_det hn ((h τ).1 h2) x hx]

section examples

/-- identifiers of the examples -/
abbrev X : Nm := .user 0
abbrev Y : Nm := .user 1
abbrev Z : Nm := .user 2

/-- `(_ (x y ...) ... z)` -/
def exPat : Pat := .cons .wild (.ell (.cons (.var X) (.ell (.var Y) .nil)) (.cons (.var Z) .nil))

/-- `(m (1 2 3) (4) 5)` -/
def exDat : V := listV [.sym (.user 9), listV [.num 1, .num 2, .num 3], listV [.num 4], .num 5]

/-- The hypotheses of the theorems hold for an example, and the matcher finds the match. -/
example : WF [] exPat ∧ exPat.names.Nodup ∧ matchOn [] exPat (toSyntax exDat) =
    .ok (listV [listV [.stx (.num 1), .stx (.num 4)], listV [listV [.stx (.num 2), .stx (.num 3)], .null], .stx (.num 5)]) := by
  refine ⟨by simp [WF, exPat, Pat.isVec, Pat.hasEll], by simp [exPat, Pat.names, Pat.vars], by decide⟩

example : ∃ σ, M exPat exDat σ ∧ σ Z = .leaf (.num 5) ∧ σ X = .many [.leaf (.num 1), .leaf (.num 4)] := by
  refine ⟨fun x => if x = Z then .leaf (.num 5) else if x = X then .many [.leaf (.num 1), .leaf (.num 4)] else .many [.many [.leaf (.num 2), .leaf (.num 3)], .many []], ?_, by simp, by simp⟩
  refine ⟨_, _, rfl, trivial, [listV [.num 1, .num 2, .num 3], listV [.num 4]], listV [.num 5], rfl, rfl, ⟨_, _, rfl, by simp [M], rfl⟩,
    [fun x => if x = X then .leaf (.num 1) else .many [.leaf (.num 2), .leaf (.num 3)], fun x => if x = X then .leaf (.num 4) else .many []], ?_, ?_⟩
  · refine .cons ⟨_, _, rfl, by simp [M], ?_⟩ (.cons ⟨_, _, rfl, by simp [M], ?_⟩ .nil)
    · exact ⟨[.num 2, .num 3], .null, rfl, rfl, rfl, [fun _ => .leaf (.num 2), fun _ => .leaf (.num 3)], .cons rfl (.cons rfl .nil), by simp [Pat.names, Pat.vars]⟩
    · exact ⟨[], .null, rfl, rfl, rfl, [], .nil, by simp [Pat.names, Pat.vars]⟩
  · simp [Pat.names, Pat.vars]

/-- A datum that does not match. -/
example : matchOn [] exPat (toSyntax (listV [.sym (.user 9), .num 1, .num 5])) = .ok .fls := by decide

end examples

/-! ### where the code differs -/

/-- A vector pattern with elements behind the ellipsis tries the patterns at the front of the vector on the last elements (`(vector-ref v i)`, stxcase.min:497): `#(1 x ... 2)` does not match
`#(1 7 2)`. -/
theorem C94_negated_vector_tail : ∃ (p : Pat) (d : V), WF0 [] p ∧ p.names.Nodup ∧ Pure d ∧ (∃ σ, M p d σ) ∧ ¬ Decides [] p (toSyntax d) := by
  refine ⟨.vec (.cons (.atom (.num 1)) (.ell (.var (.user 0)) (.cons (.atom (.num 2)) .nil))), .vec (listV [.num 1, .num 7, .num 2]), ?_, by simp [Pat.names, Pat.vars], ?_, ?_, ?_⟩
  · simp [WF0, isAtom, Pat.hasEll, Pat.proper]
  · simp [Pure, listV, isList, rawList]
  · refine ⟨fun _ => .many [.leaf (.num 7)], _, rfl, _, _, rfl, rfl, [.num 7], listV [.num 2], rfl, rfl, ⟨_, _, rfl, rfl, rfl⟩, [fun _ => .leaf (.num 7)], .cons rfl .nil, by simp⟩
  · rintro ⟨v, h1, h2⟩
    have : matchOn [] (.vec (.cons (.atom (.num 1)) (.ell (.var (.user 0)) (.cons (.atom (.num 2)) .nil)))) (toSyntax (.vec (listV [.num 1, .num 7, .num 2]))) = .ok .fls := by decide
    rw [this] at h1
    cases h1
    rcases h2 with ⟨_, h2⟩ | ⟨vs, h2, _⟩
    · refine h2 (fun _ => .many [.leaf (.num 7)]) ⟨_, rfl, _, _, rfl, rfl, [.num 7], listV [.num 2], rfl, rfl, ⟨_, _, rfl, rfl, rfl⟩, [fun _ => .leaf (.num 7)], .cons rfl .nil, by simp⟩
    · exact listV_ne_fls _ h2.symm

/-- A vector pattern behind a dot never matches: `(x . #(y))` does not match `(1 . #(2))`. -/
theorem C94_negated_dotted_vector : ∃ (p : Pat) (d : V), WF0 [] p ∧ p.names.Nodup ∧ Pure d ∧ (∃ σ, M p d σ) ∧ ¬ Decides [] p (toSyntax d) := by
  refine ⟨.cons (.var (.user 0)) (.vec (.cons (.var (.user 1)) .nil)), .cons (.num 1) (.vec (listV [.num 2])), ?_, by simp [Pat.names, Pat.vars], ?_, ?_, ?_⟩
  · simp [WF0, Pat.proper]
  · simp [Pure, listV, isList, rawList]
  · exact ⟨fun x => if x = .user 0 then .leaf (.num 1) else .leaf (.num 2), _, _, rfl, by simp [M], _, rfl, _, _, rfl, by simp [M], rfl⟩
  · rintro ⟨v, h1, h2⟩
    have : matchOn [] (.cons (.var (.user 0)) (.vec (.cons (.var (.user 1)) .nil))) (toSyntax (.cons (.num 1) (.vec (listV [.num 2])))) = .ok .fls := by decide
    rw [this] at h1
    cases h1
    rcases h2 with ⟨_, h2⟩ | ⟨vs, h2, _⟩
    · exact h2 (fun x => if x = .user 0 then .leaf (.num 1) else .leaf (.num 2)) ⟨_, _, rfl, by simp [M, strip, toSyntax], _, rfl, _, _, rfl, by simp [M, strip, toSyntax], rfl⟩
    · exact listV_ne_fls _ h2.symm

/-- An element `_` of a list pattern that meets the end of an improper list raises an exception where the datum just does not match: `(x _)` on `(1 . 2)`. -/
theorem C94_negated_wildcard : ∃ (p : Pat) (d : V), WF [] p ∧ p.names.Nodup ∧ Pure d ∧ (∀ σ, ¬ M p d σ) ∧ matchOn [] p (toSyntax d) = .err := by
  refine ⟨.cons (.var (.user 0)) (.cons .wild .nil), .cons (.num 1) (.num 2), ?_, by simp [Pat.names, Pat.vars], by simp [Pure], ?_, by decide⟩
  · simp [WF, Pat.isVec]
  · rintro σ ⟨a, b, h, _, a', b', h', _⟩
    cases h; cases h'

/-- A literal behind a dot that meets a list raises an exception: `(x . 5)` on `(1 2)`. -/
theorem C94_negated_dotted_literal : ∃ (p : Pat) (d : V), WF [] p ∧ p.names.Nodup ∧ Pure d ∧ (∀ σ, ¬ M p d σ) ∧ matchOn [] p (toSyntax d) = .err := by
  refine ⟨.cons (.var (.user 0)) (.atom (.num 5)), listV [.num 1, .num 2], ?_, by simp [Pat.names, Pat.vars], by simp [Pure, listV], ?_, by decide⟩
  · simp [WF, Pat.isVec, isAtom]
  · rintro σ ⟨a, b, h, _, h'⟩
    simp only [M] at h'; subst h'; simp [listV] at h

/-- So a later clause that matches is not reached. -/
theorem C94_negated_later_clause : ∃ (ks : List PClause) (d : V), (∀ k ∈ ks, WF [] k.pat ∧ k.pat.names.Nodup) ∧ Pure d ∧
    ¬ Chosen d (fun _ => none) (fun _ => none) 0 ks (syntaxCase [] 100 (ks.map PClause.clause) 0 (fun _ => none) (toSyntax d) (fun _ => none)) := by
  refine ⟨[⟨.cons (.var (.user 0)) (.atom (.num 5)), none, fun _ _ => .ok .tru⟩, ⟨.wild, none, fun _ _ => .ok .tru⟩], listV [.num 1, .num 2], ?_, by simp [Pure, listV], ?_⟩
  · simp [WF, Pat.isVec, isAtom, Pat.names, Pat.vars]
  · intro h
    have e : syntaxCase [] 100 ([(⟨.cons (.var (.user 0)) (.atom (.num 5)), none, fun _ _ => .ok .tru⟩ : PClause), ⟨.wild, none, fun _ _ => .ok .tru⟩].map PClause.clause) 0 (fun _ => none)
        (toSyntax (listV [.num 1, .num 2])) (fun _ => none) = .err := by decide
    rw [e] at h
    generalize hr : (Res.err : Res V) = r at h
    cases h with
    | skip _ h =>
      cases h with
      | skip h _ => exact h (fun _ => .leaf .null) trivial
      | take _ _ _ => simp at hr
      | refuse _ _ h => simp at h
      | fail _ _ h => simp at h
    | take _ _ _ => simp at hr
    | refuse _ _ h => simp at h
    | fail _ _ h => simp at h

/-- A list whose tail is wrapped in a syntax object of its own, as templates make them and the reader does for `(m 1 . (2))`, does not match an ellipsis: `(_ x ...)`. -/
theorem C94_negated_wrapped_tail : ∃ (p : Pat) (x : V), WF [] p ∧ p.names.Nodup ∧ Pure (strip x) ∧ (∃ σ, M p (strip x) σ) ∧ ¬ Decides [] p x := by
  refine ⟨.cons .wild (.ell (.var (.user 1)) .nil), .stx (.cons (.stx (.num 0)) (.cons (.stx (.num 1)) (.stx (.cons (.stx (.num 2)) .null)))), ?_, by simp [Pat.names, Pat.vars], ?_, ?_, ?_⟩
  · simp [WF, Pat.isVec, Pat.hasEll]
  · simp [strip, Pure]
  · exact ⟨fun _ => .many [.leaf (.num 1), .leaf (.num 2)], _, _, rfl, trivial, [.num 1, .num 2], .null, rfl, rfl, rfl, [fun _ => .leaf (.num 1), fun _ => .leaf (.num 2)], .cons rfl (.cons rfl .nil), by simp⟩
  · rintro ⟨v, h1, h2⟩
    have : matchOn [] (.cons .wild (.ell (.var (.user 1)) .nil)) (.stx (.cons (.stx (.num 0)) (.cons (.stx (.num 1)) (.stx (.cons (.stx (.num 2)) .null))))) = .ok .fls := by decide
    rw [this] at h1
    cases h1
    rcases h2 with ⟨_, h2⟩ | ⟨vs, h2, _⟩
    · exact h2 (fun _ => .many [.leaf (.num 1), .leaf (.num 2)]) ⟨_, _, rfl, trivial, [.num 1, .num 2], .null, rfl, rfl, rfl, [fun _ => .leaf (.num 1), fun _ => .leaf (.num 2)], .cons rfl (.cons rfl .nil), by simp⟩
    · exact listV_ne_fls _ h2.symm

/-- Expressions in a clause do not see the variable `arg` of the program. -/
theorem C94_negated_capture : ∃ (ks : List PClause) (d v : V) (env : Env), env .arg = some v ∧
    syntaxCase [] 100 (ks.map PClause.clause) 0 (fun _ => none) (toSyntax d) env ≠ .ok v ∧
    ks.map PClause.result = [fun _ env => match env .arg with | some v => .ok v | none => .err] ∧ ∃ σ, ∀ k ∈ ks, M k.pat d σ := by
  refine ⟨[⟨.wild, none, fun _ env => match env .arg with | some v => .ok v | none => .err⟩], .num 1, .num 2, fun _ => some (.num 2), rfl, by decide, rfl, fun _ => .leaf .null, by simp [M]⟩

end Minim.Sc
