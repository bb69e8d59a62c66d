import Verif.JitFv
import Mathlib.Data.List.Nodup

set_option autoImplicit false

/-!
# The free-variable analysis is exact (C49)
-/

namespace Minim.Jit

open Minim.Sx Minim.Core

/-- Specification: `s` occurs free in the expression.  `lambda`, `case-lambda` and `mv-let` bind their identifiers in their bodies,
`define-values` binds its identifiers (at top level) in its own right-hand side. -/
inductive Free (s : Sym) : E → Prop
  | var : Free s (.var s)
  | define (xs : List Sym) (e : E) : s ∉ xs → Free s e → Free s (.define xs e)
  | setTarget (e : E) : Free s (.set s e)
  | setRhs (x : Sym) (e : E) : Free s e → Free s (.set x e)
  | iteC (c t e : E) : Free s c → Free s (.ite c t e)
  | iteT (c t e : E) : Free s t → Free s (.ite c t e)
  | iteE (c t e : E) : Free s e → Free s (.ite c t e)
  | lam (f : Formals) (body : List E) (e : E) : s ∉ f.req → s ∉ f.rest → e ∈ body → Free s e → Free s (.lam f body)
  | clam (cs : List Cl) (f : Formals) (body : List E) (e : E) : Cl.mk f body ∈ cs → s ∉ f.req → s ∉ f.rest → e ∈ body →
      Free s e → Free s (.clam cs)
  | begin (es : List E) (e : E) : e ∈ es → Free s e → Free s (.begin es)
  | appF (f : E) (args : List E) : Free s f → Free s (.app f args)
  | appA (f : E) (args : List E) (a : E) : a ∈ args → Free s a → Free s (.app f args)
  | mvcallP (e c : E) : Free s e → Free s (.mvcall e c)
  | mvcallC (e c : E) : Free s c → Free s (.mvcall e c)
  | mvletP (e : E) (xs : List Sym) (body : E) : Free s e → Free s (.mvlet e xs body)
  | mvletB (e : E) (xs : List Sym) (body : E) : s ∉ xs → Free s body → Free s (.mvlet e xs body)
  | mvvals (es : List E) (e : E) : e ∈ es → Free s e → Free s (.mvvals es)

mutual

/-- Specification: neither `let-values` nor `letrec-values` occurs in the expression. -/
def noLet : E → Bool
  | .var _ | .lit _ | .quote _ | .quoteSyntax _ | .unbound => true
  | .define _ e => noLet e
  | .set _ e => noLet e
  | .ite c t e => noLet c && noLet t && noLet e
  | .letv _ _ => false
  | .letrecv _ _ => false
  | .lam _ body => noLets body
  | .clam cs => noLetCls cs
  | .begin es => noLets es
  | .app f args => noLet f && noLets args
  | .mvcall e c => noLet e && noLet c
  | .mvlet e _ body => noLet e && noLet body
  | .mvvals es => noLets es

/-- Specification: the same for lists of expressions. -/
def noLets : List E → Bool
  | [] => true
  | e :: es => noLet e && noLets es

/-- Specification: the same for lists of clauses. -/
def noLetCls : List Cl → Bool
  | [] => true
  | .mk _ body :: cs => noLets body && noLetCls cs

end

/-- Specification: `l` is a `lambda` or `case-lambda` inside the expression. -/
inductive LamIn (l : E) : E → Prop
  | lamHere (f : Formals) (body : List E) : l = .lam f body → LamIn l (.lam f body)
  | clamHere (cs : List Cl) : l = .clam cs → LamIn l (.clam cs)
  | define (xs : List Sym) (e : E) : LamIn l e → LamIn l (.define xs e)
  | set (x : Sym) (e : E) : LamIn l e → LamIn l (.set x e)
  | iteC (c t e : E) : LamIn l c → LamIn l (.ite c t e)
  | iteT (c t e : E) : LamIn l t → LamIn l (.ite c t e)
  | iteE (c t e : E) : LamIn l e → LamIn l (.ite c t e)
  | lam (f : Formals) (body : List E) (e : E) : e ∈ body → LamIn l e → LamIn l (.lam f body)
  | clam (cs : List Cl) (f : Formals) (body : List E) (e : E) : Cl.mk f body ∈ cs → e ∈ body → LamIn l e → LamIn l (.clam cs)
  | begin (es : List E) (e : E) : e ∈ es → LamIn l e → LamIn l (.begin es)
  | appF (f : E) (args : List E) : LamIn l f → LamIn l (.app f args)
  | appA (f : E) (args : List E) (a : E) : a ∈ args → LamIn l a → LamIn l (.app f args)
  | mvcallP (e c : E) : LamIn l e → LamIn l (.mvcall e c)
  | mvcallC (e c : E) : LamIn l c → LamIn l (.mvcall e c)
  | mvletP (e : E) (xs : List Sym) (body : E) : LamIn l e → LamIn l (.mvlet e xs body)
  | mvletB (e : E) (xs : List Sym) (body : E) : LamIn l body → LamIn l (.mvlet e xs body)
  | mvvals (es : List E) (e : E) : e ∈ es → LamIn l e → LamIn l (.mvvals es)

/-! ## The list operations -/

theorem fold_mem (ks : List Sym) (s : Sym) : ∀ (xs acc : List Sym),
    s ∈ xs.foldl (fun acc x => if x ∈ ks then acc else x :: acc) acc ↔ s ∈ acc ∨ (s ∈ xs ∧ s ∉ ks) := by
  intro xs
  induction xs with
  | nil => simp
  | cons x xs ih =>
    intro acc
    rw [List.foldl_cons, ih]
    by_cases h : x ∈ ks
    · rw [if_pos h]
      constructor
      · rintro (h1 | h1)
        · exact .inl h1
        · exact .inr ⟨by simp [h1.1], h1.2⟩
      · rintro (h1 | ⟨h1, h2⟩)
        · exact .inl h1
        · rcases List.mem_cons.1 h1 with rfl | h1
          · exact absurd h h2
          · exact .inr ⟨h1, h2⟩
    · rw [if_neg h]
      constructor
      · rintro (h1 | h1)
        · rcases List.mem_cons.1 h1 with rfl | h1
          · exact .inr ⟨by simp, h⟩
          · exact .inl h1
        · exact .inr ⟨by simp [h1.1], h1.2⟩
      · rintro (h1 | ⟨h1, h2⟩)
        · exact .inl (by simp [h1])
        · rcases List.mem_cons.1 h1 with rfl | h1
          · exact .inl (by simp)
          · exact .inr ⟨h1, h2⟩

theorem fold_nodup (ks : List Sym) : ∀ (xs acc : List Sym), xs.Nodup → acc.Nodup → (∀ s ∈ xs, s ∉ ks → s ∉ acc) →
    (xs.foldl (fun acc x => if x ∈ ks then acc else x :: acc) acc).Nodup := by
  intro xs
  induction xs with
  | nil => intro acc _ h _; exact h
  | cons x xs ih =>
    intro acc hx ha hd
    rw [List.nodup_cons] at hx
    rw [List.foldl_cons]
    by_cases h : x ∈ ks
    · rw [if_pos h]
      exact ih acc hx.2 ha fun s hs hk => hd s (by simp [hs]) hk
    · rw [if_neg h]
      refine ih _ hx.2 (List.nodup_cons.2 ⟨hd x (by simp) h, ha⟩) fun s hs hk => ?_
      intro hm
      rcases List.mem_cons.1 hm with rfl | hm
      · exact hx.1 hs
      · exact hd s (by simp [hs]) hk hm

theorem mem_mergeFv (xs ys : List Sym) (s : Sym) : s ∈ mergeFv xs ys ↔ s ∈ xs ∨ s ∈ ys := by
  rw [mergeFv, fold_mem]
  by_cases h : s ∈ ys <;> simp [h]

theorem nodup_mergeFv {xs ys : List Sym} (hx : xs.Nodup) (hy : ys.Nodup) : (mergeFv xs ys).Nodup :=
  fold_nodup ys xs ys hx hy fun _ _ h => h

theorem mem_removeFv (ks xs : List Sym) (s : Sym) : s ∈ removeFv ks xs ↔ s ∈ xs ∧ s ∉ ks := by
  rw [removeFv, fold_mem]; simp

theorem nodup_removeFv {ks xs : List Sym} (hx : xs.Nodup) : (removeFv ks xs).Nodup :=
  fold_nodup ks xs [] hx List.nodup_nil fun _ _ _ h => by cases h

theorem mem_ids (f : Formals) (s : Sym) : s ∈ f.ids ↔ s ∈ f.req ∨ s ∈ f.rest := by
  rw [Formals.ids, List.mem_append, Option.mem_toList]; exact Iff.rfl

/-! ## Exactness -/

theorem free_lam (s : Sym) (f : Formals) (body : List E) : Free s (.lam f body) ↔ s ∉ f.ids ∧ ∃ e ∈ body, Free s e := by
  rw [mem_ids]
  constructor
  · intro h
    cases h with
    | lam _ _ e h1 h2 h3 h4 => exact ⟨fun h => h.elim h1 h2, e, h3, h4⟩
  · rintro ⟨h, e, h3, h4⟩
    exact .lam f body e (fun h' => h (.inl h')) (fun h' => h (.inr h')) h3 h4

theorem free_clam (s : Sym) (cs : List Cl) : Free s (.clam cs) ↔ ∃ c ∈ cs, s ∉ c.fs.ids ∧ ∃ e ∈ c.body, Free s e := by
  constructor
  · intro h
    cases h with
    | clam _ f body e h0 h1 h2 h3 h4 => exact ⟨_, h0, by rw [mem_ids]; exact fun h => h.elim h1 h2, e, h3, h4⟩
  · rintro ⟨⟨f, body⟩, h0, h, e, h3, h4⟩
    rw [mem_ids] at h
    exact .clam cs f body e h0 (fun h' => h (.inl h')) (fun h' => h (.inr h')) h3 h4

mutual

theorem freeVars_spec : ∀ (e : E) (t : Tab), noLet e = true → (freeVars e t).1.Nodup ∧ ∀ s, s ∈ (freeVars e t).1 ↔ Free s e
  | .var x, t, _ => by
    refine ⟨by simp [freeVars], fun s => ?_⟩
    simp only [freeVars, List.mem_singleton]
    exact ⟨fun h => h ▸ .var, fun h => by cases h; rfl⟩
  | .lit _, _, _ => ⟨by simp [freeVars], fun s => ⟨fun h => by simp [freeVars] at h, fun h => by cases h⟩⟩
  | .quote _, _, _ => ⟨by simp [freeVars], fun s => ⟨fun h => by simp [freeVars] at h, fun h => by cases h⟩⟩
  | .quoteSyntax _, _, _ => ⟨by simp [freeVars], fun s => ⟨fun h => by simp [freeVars] at h, fun h => by cases h⟩⟩
  | .unbound, _, _ => ⟨by simp [freeVars], fun s => ⟨fun h => by simp [freeVars] at h, fun h => by cases h⟩⟩
  | .define xs e, t, h => by
    obtain ⟨h1, h2⟩ := freeVars_spec e t (by simpa [noLet] using h)
    refine ⟨nodup_removeFv h1, fun s => ?_⟩
    simp only [freeVars, mem_removeFv, h2]
    exact ⟨fun h => .define xs e h.2 h.1, fun h => by cases h with | define _ _ h1 h2 => exact ⟨h2, h1⟩⟩
  | .set x e, t, h => by
    obtain ⟨h1, h2⟩ := freeVars_spec e t (by simpa [noLet] using h)
    refine ⟨nodup_mergeFv h1 (nodup_mergeFv (by simp) (by simp)), fun s => ?_⟩
    simp only [freeVars, mem_mergeFv, h2, List.mem_singleton, List.not_mem_nil, or_false]
    constructor
    · rintro (h | rfl)
      · exact .setRhs x e h
      · exact .setTarget e
    · intro h
      cases h with
      | setTarget => exact .inr rfl
      | setRhs _ _ h => exact .inl h
  | .ite c a b, t, h => by
    simp only [noLet, Bool.and_eq_true] at h
    obtain ⟨h1, h1'⟩ := freeVars_spec c t h.1.1
    obtain ⟨h2, h2'⟩ := freeVars_spec a (freeVars c t).2 h.1.2
    obtain ⟨h3, h3'⟩ := freeVars_spec b (freeVars a (freeVars c t).2).2 h.2
    refine ⟨nodup_mergeFv h3 (nodup_mergeFv h2 (nodup_mergeFv h1 (by simp))), fun s => ?_⟩
    simp only [freeVars, mem_mergeFv, h1', h2', h3', List.not_mem_nil, or_false]
    constructor
    · rintro (h | h | h)
      · exact .iteE c a b h
      · exact .iteT c a b h
      · exact .iteC c a b h
    · intro h
      cases h with
      | iteC _ _ _ h => exact .inr (.inr h)
      | iteT _ _ _ h => exact .inr (.inl h)
      | iteE _ _ _ h => exact .inl h
  | .letv _ _, _, h => by simp [noLet] at h
  | .letrecv _ _, _, h => by simp [noLet] at h
  | .lam f body, t, h => by
    obtain ⟨h1, h2⟩ := freeVarsSeq_spec body [] t (by simpa [noLet] using h) (by simp)
    refine ⟨nodup_removeFv h1, fun s => ?_⟩
    simp only [freeVars, mem_removeFv, h2, List.not_mem_nil, false_or, free_lam]
    exact And.comm
  | .clam cs, t, h => by
    obtain ⟨h1, h2⟩ := freeVarsClauses_spec cs [] t (by simpa [noLet] using h) (by simp)
    refine ⟨h1, fun s => ?_⟩
    simp only [freeVars, h2, List.not_mem_nil, false_or, free_clam]
  | .begin es, t, h => by
    obtain ⟨h1, h2⟩ := freeVarsSeq_spec es [] t (by simpa [noLet] using h) (by simp)
    refine ⟨h1, fun s => ?_⟩
    simp only [freeVars, h2, List.not_mem_nil, false_or]
    exact ⟨fun ⟨e, h1, h2⟩ => .begin es e h1 h2, fun h => by cases h with | begin _ e h1 h2 => exact ⟨e, h1, h2⟩⟩
  | .app f args, t, h => by
    simp only [noLet, Bool.and_eq_true] at h
    obtain ⟨h1, h1'⟩ := freeVars_spec f t h.1
    obtain ⟨h2, h2'⟩ := freeVarsSeq_spec args (freeVars f t).1 (freeVars f t).2 h.2 h1
    refine ⟨h2, fun s => ?_⟩
    simp only [freeVars, h2', h1']
    constructor
    · rintro (h | ⟨a, ha, h⟩)
      · exact .appF f args h
      · exact .appA f args a ha h
    · intro h
      cases h with
      | appF _ _ h => exact .inl h
      | appA _ _ a ha h => exact .inr ⟨a, ha, h⟩
  | .mvcall e c, t, h => by
    simp only [noLet, Bool.and_eq_true] at h
    obtain ⟨h1, h1'⟩ := freeVars_spec e t h.1
    obtain ⟨h2, h2'⟩ := freeVars_spec c (freeVars e t).2 h.2
    refine ⟨nodup_mergeFv h2 (nodup_mergeFv h1 (by simp)), fun s => ?_⟩
    simp only [freeVars, mem_mergeFv, h1', h2', List.not_mem_nil, or_false]
    constructor
    · rintro (h | h)
      · exact .mvcallC e c h
      · exact .mvcallP e c h
    · intro h
      cases h with
      | mvcallP _ _ h => exact .inr h
      | mvcallC _ _ h => exact .inl h
  | .mvlet e xs body, t, h => by
    simp only [noLet, Bool.and_eq_true] at h
    obtain ⟨h1, h1'⟩ := freeVars_spec e t h.1
    obtain ⟨h2, h2'⟩ := freeVars_spec body (freeVars e t).2 h.2
    refine ⟨nodup_mergeFv (nodup_removeFv h2) h1, fun s => ?_⟩
    simp only [freeVars, mem_mergeFv, mem_removeFv, h1', h2']
    constructor
    · rintro (h | h)
      · exact .mvletB e xs body h.2 h.1
      · exact .mvletP e xs body h
    · intro h
      cases h with
      | mvletP _ _ _ h => exact .inr h
      | mvletB _ _ _ h1 h2 => exact .inl ⟨h2, h1⟩
  | .mvvals es, t, h => by
    obtain ⟨h1, h2⟩ := freeVarsSeq_spec es [] t (by simpa [noLet] using h) (by simp)
    refine ⟨h1, fun s => ?_⟩
    simp only [freeVars, h2, List.not_mem_nil, false_or]
    exact ⟨fun ⟨e, h1, h2⟩ => .mvvals es e h1 h2, fun h => by cases h with | mvvals _ e h1 h2 => exact ⟨e, h1, h2⟩⟩

theorem freeVarsSeq_spec : ∀ (es : List E) (acc : List Sym) (t : Tab), noLets es = true → acc.Nodup →
    (freeVarsSeq es acc t).1.Nodup ∧ ∀ s, s ∈ (freeVarsSeq es acc t).1 ↔ s ∈ acc ∨ ∃ e ∈ es, Free s e
  | [], acc, t, _, ha => ⟨ha, fun s => by simp [freeVarsSeq]⟩
  | e :: es, acc, t, h, ha => by
    simp only [noLets, Bool.and_eq_true] at h
    obtain ⟨h1, h1'⟩ := freeVars_spec e t h.1
    obtain ⟨h2, h2'⟩ := freeVarsSeq_spec es (mergeFv (freeVars e t).1 acc) (freeVars e t).2 h.2 (nodup_mergeFv h1 ha)
    refine ⟨h2, fun s => ?_⟩
    simp only [freeVarsSeq, h2', mem_mergeFv, h1', List.mem_cons, exists_eq_or_imp]
    constructor
    · rintro ((h | h) | h)
      · exact .inr (.inl h)
      · exact .inl h
      · exact .inr (.inr h)
    · rintro (h | h | h)
      · exact .inl (.inr h)
      · exact .inl (.inl h)
      · exact .inr h

theorem freeVarsClauses_spec : ∀ (cs : List Cl) (acc : List Sym) (t : Tab), noLetCls cs = true → acc.Nodup →
    (freeVarsClauses cs acc t).1.Nodup ∧
      ∀ s, s ∈ (freeVarsClauses cs acc t).1 ↔ s ∈ acc ∨ ∃ c ∈ cs, s ∉ c.fs.ids ∧ ∃ e ∈ c.body, Free s e
  | [], acc, t, _, ha => ⟨ha, fun s => by simp [freeVarsClauses]⟩
  | .mk f body :: cs, acc, t, h, ha => by
    simp only [noLetCls, Bool.and_eq_true] at h
    obtain ⟨h1, h1'⟩ := freeVarsSeq_spec body [] t h.1 (by simp)
    obtain ⟨h2, h2'⟩ := freeVarsClauses_spec cs (mergeFv (removeFv f.ids (freeVarsSeq body [] t).1) acc) (freeVarsSeq body [] t).2 h.2
      (nodup_mergeFv (nodup_removeFv h1) ha)
    refine ⟨h2, fun s => ?_⟩
    simp only [freeVarsClauses, h2', mem_mergeFv, mem_removeFv, h1', List.mem_cons, exists_eq_or_imp, List.not_mem_nil, false_or,
      Cl.fs, Cl.body]
    constructor
    · rintro ((h | h) | h)
      · exact .inr (.inl ⟨h.2, h.1⟩)
      · exact .inl h
      · exact .inr (.inr h)
    · rintro (h | h | h)
      · exact .inl (.inr h)
      · exact .inl (.inl ⟨h.2, h.1⟩)
      · exact .inr h

end

/-! ## The table of free variables -/

mutual

theorem freeVars_indep : ∀ (e : E) (t t' : Tab), (freeVars e t).1 = (freeVars e t').1
  | .var _, _, _ => rfl
  | .lit _, _, _ => rfl
  | .quote _, _, _ => rfl
  | .quoteSyntax _, _, _ => rfl
  | .unbound, _, _ => rfl
  | .define xs e, t, t' => by simp only [freeVars, freeVars_indep e t t']
  | .set x e, t, t' => by simp only [freeVars, freeVars_indep e t t']
  | .ite c a b, t, t' => by
    simp only [freeVars, freeVars_indep c t t', freeVars_indep a (freeVars c t).2 (freeVars c t').2,
      freeVars_indep b (freeVars a (freeVars c t).2).2 (freeVars a (freeVars c t').2).2]
  | .letv _ _, _, _ => rfl
  | .letrecv _ _, _, _ => rfl
  | .lam f body, t, t' => by simp only [freeVars, freeVarsSeq_indep body [] t t']
  | .clam cs, t, t' => by simp only [freeVars, freeVarsClauses_indep cs [] t t']
  | .begin es, t, t' => freeVarsSeq_indep es [] t t'
  | .app f args, t, t' => by
    simp only [freeVars, freeVars_indep f t t']
    exact freeVarsSeq_indep args _ _ _
  | .mvcall e c, t, t' => by
    simp only [freeVars, freeVars_indep e t t', freeVars_indep c (freeVars e t).2 (freeVars e t').2]
  | .mvlet e xs body, t, t' => by
    simp only [freeVars, freeVars_indep e t t', freeVars_indep body (freeVars e t).2 (freeVars e t').2]
  | .mvvals es, t, t' => freeVarsSeq_indep es [] t t'

theorem freeVarsSeq_indep : ∀ (es : List E) (acc : List Sym) (t t' : Tab), (freeVarsSeq es acc t).1 = (freeVarsSeq es acc t').1
  | [], _, _, _ => rfl
  | e :: es, acc, t, t' => by
    simp only [freeVarsSeq, freeVars_indep e t t']
    exact freeVarsSeq_indep es _ _ _

theorem freeVarsClauses_indep : ∀ (cs : List Cl) (acc : List Sym) (t t' : Tab),
    (freeVarsClauses cs acc t).1 = (freeVarsClauses cs acc t').1
  | [], _, _, _ => rfl
  | .mk f body :: cs, acc, t, t' => by
    simp only [freeVarsClauses, freeVarsSeq_indep body [] t t']
    exact freeVarsClauses_indep cs _ _ _

end

/-- `t'` is `t` with one entry, holding the computed free variables, for each expression described by `P` that has some. -/
def TabOK (P : E → Prop) (t t' : Tab) : Prop :=
  ∃ new : Tab, t' = new ++ t ∧ (∀ l vs, (l, vs) ∈ new → P l ∧ vs ≠ [] ∧ vs = (freeVars l []).1) ∧
    ∀ l, P l → (freeVars l []).1 ≠ [] → ∃ vs, (l, vs) ∈ new

theorem TabOK.iff {P Q : E → Prop} {t t' : Tab} (h : TabOK P t t') (hi : ∀ l, Q l ↔ P l) : TabOK Q t t' := by
  have : Q = P := funext fun l => propext (hi l)
  rw [this]; exact h

theorem TabOK.none {t : Tab} : TabOK (fun _ => False) t t := ⟨[], rfl, by simp, by simp⟩

theorem TabOK.trans {P Q : E → Prop} {t t1 t2 : Tab} (h1 : TabOK P t t1) (h2 : TabOK Q t1 t2) :
    TabOK (fun l => P l ∨ Q l) t t2 := by
  obtain ⟨n1, rfl, a1, b1⟩ := h1
  obtain ⟨n2, rfl, a2, b2⟩ := h2
  refine ⟨n2 ++ n1, by simp, fun l vs hm => ?_, fun l hl hne => ?_⟩
  · rcases List.mem_append.1 hm with hm | hm
    · exact ⟨.inr (a2 l vs hm).1, (a2 l vs hm).2⟩
    · exact ⟨.inl (a1 l vs hm).1, (a1 l vs hm).2⟩
  · rcases hl with hl | hl
    · obtain ⟨vs, h⟩ := b1 l hl hne
      exact ⟨vs, by simp [h]⟩
    · obtain ⟨vs, h⟩ := b2 l hl hne
      exact ⟨vs, by simp [h]⟩

theorem TabOK.note {l : E} {fvs : List Sym} (h : fvs = (freeVars l []).1) (t : Tab) : TabOK (fun l' => l' = l) t (noteFv l fvs t) := by
  rw [noteFv]
  by_cases h0 : fvs = []
  · rw [if_pos h0]
    refine ⟨[], rfl, by simp, ?_⟩
    rintro l' rfl hne
    exact absurd (h ▸ h0) hne
  · rw [if_neg h0]
    refine ⟨[(l, fvs)], rfl, ?_, ?_⟩
    · intro l' vs hm
      simp only [List.mem_singleton, Prod.mk.injEq] at hm
      obtain ⟨rfl, rfl⟩ := hm
      exact ⟨rfl, h0, h⟩
    · rintro l' rfl _
      exact ⟨fvs, by simp⟩

mutual

theorem freeVars_tab : ∀ (e : E) (t : Tab), noLet e = true → TabOK (fun l => LamIn l e) t (freeVars e t).2
  | .var _, t, _ => TabOK.none.iff fun _ => ⟨fun h => (by cases h), False.elim⟩
  | .lit _, t, _ => TabOK.none.iff fun _ => ⟨fun h => (by cases h), False.elim⟩
  | .quote _, t, _ => TabOK.none.iff fun _ => ⟨fun h => (by cases h), False.elim⟩
  | .quoteSyntax _, t, _ => TabOK.none.iff fun _ => ⟨fun h => (by cases h), False.elim⟩
  | .unbound, t, _ => TabOK.none.iff fun _ => ⟨fun h => (by cases h), False.elim⟩
  | .define xs e, t, h => (freeVars_tab e t (by simpa [noLet] using h)).iff fun l =>
      ⟨fun h => by cases h with | define _ _ h => exact h, .define xs e⟩
  | .set x e, t, h => (freeVars_tab e t (by simpa [noLet] using h)).iff fun l =>
      ⟨fun h => by cases h with | set _ _ h => exact h, .set x e⟩
  | .ite c a b, t, h => by
    simp only [noLet, Bool.and_eq_true] at h
    refine (((freeVars_tab c t h.1.1).trans (freeVars_tab a _ h.1.2)).trans (freeVars_tab b _ h.2)).iff fun l => ?_
    constructor
    · intro h
      cases h with
      | iteC _ _ _ h => exact .inl (.inl h)
      | iteT _ _ _ h => exact .inl (.inr h)
      | iteE _ _ _ h => exact .inr h
    · rintro ((h | h) | h)
      · exact .iteC _ _ _ h
      · exact .iteT _ _ _ h
      · exact .iteE _ _ _ h
  | .letv _ _, _, h => by simp [noLet] at h
  | .letrecv _ _, _, h => by simp [noLet] at h
  | .lam f body, t, h => by
    have h1 := freeVarsSeq_tab body [] t (by simpa [noLet] using h)
    have h2 := TabOK.note (l := .lam f body) (fvs := (freeVars (.lam f body) t).1) (freeVars_indep _ _ _) (freeVarsSeq body [] t).2
    refine (h1.trans h2).iff fun l => ?_
    constructor
    · intro h
      cases h with
      | lamHere _ _ h => exact .inr h
      | lam _ _ e he h => exact .inl ⟨e, he, h⟩
    · rintro (⟨e, he, h⟩ | h)
      · exact .lam f body e he h
      · exact .lamHere f body h
  | .clam cs, t, h => by
    have h1 := freeVarsClauses_tab cs [] t (by simpa [noLet] using h)
    have h2 := TabOK.note (l := .clam cs) (fvs := (freeVars (.clam cs) t).1) (freeVars_indep _ _ _) (freeVarsClauses cs [] t).2
    refine (h1.trans h2).iff fun l => ?_
    constructor
    · intro h
      cases h with
      | clamHere _ h => exact .inr h
      | clam _ f body e hc he h => exact .inl ⟨_, hc, e, he, h⟩
    · rintro (⟨⟨f, body⟩, hc, e, he, h⟩ | h)
      · exact .clam cs f body e hc he h
      · exact .clamHere cs h
  | .begin es, t, h => by
    refine (freeVarsSeq_tab es [] t (by simpa [noLet] using h)).iff fun l => ?_
    exact ⟨fun h => by cases h with | begin _ e he h => exact ⟨e, he, h⟩, fun ⟨e, he, h⟩ => .begin es e he h⟩
  | .app f args, t, h => by
    simp only [noLet, Bool.and_eq_true] at h
    refine ((freeVars_tab f t h.1).trans (freeVarsSeq_tab args _ _ h.2)).iff fun l => ?_
    constructor
    · intro h
      cases h with
      | appF _ _ h => exact .inl h
      | appA _ _ a ha h => exact .inr ⟨a, ha, h⟩
    · rintro (h | ⟨a, ha, h⟩)
      · exact .appF f args h
      · exact .appA f args a ha h
  | .mvcall e c, t, h => by
    simp only [noLet, Bool.and_eq_true] at h
    refine ((freeVars_tab e t h.1).trans (freeVars_tab c _ h.2)).iff fun l => ?_
    constructor
    · intro h
      cases h with
      | mvcallP _ _ h => exact .inl h
      | mvcallC _ _ h => exact .inr h
    · rintro (h | h)
      · exact .mvcallP e c h
      · exact .mvcallC e c h
  | .mvlet e xs body, t, h => by
    simp only [noLet, Bool.and_eq_true] at h
    refine ((freeVars_tab e t h.1).trans (freeVars_tab body _ h.2)).iff fun l => ?_
    constructor
    · intro h
      cases h with
      | mvletP _ _ _ h => exact .inl h
      | mvletB _ _ _ h => exact .inr h
    · rintro (h | h)
      · exact .mvletP e xs body h
      · exact .mvletB e xs body h
  | .mvvals es, t, h => by
    refine (freeVarsSeq_tab es [] t (by simpa [noLet] using h)).iff fun l => ?_
    exact ⟨fun h => by cases h with | mvvals _ e he h => exact ⟨e, he, h⟩, fun ⟨e, he, h⟩ => .mvvals es e he h⟩

theorem freeVarsSeq_tab : ∀ (es : List E) (acc : List Sym) (t : Tab), noLets es = true →
    TabOK (fun l => ∃ e ∈ es, LamIn l e) t (freeVarsSeq es acc t).2
  | [], acc, t, _ => TabOK.none.iff fun l => by simp
  | e :: es, acc, t, h => by
    simp only [noLets, Bool.and_eq_true] at h
    refine ((freeVars_tab e t h.1).trans (freeVarsSeq_tab es _ _ h.2)).iff fun l => ?_
    simp only [List.mem_cons, exists_eq_or_imp]

theorem freeVarsClauses_tab : ∀ (cs : List Cl) (acc : List Sym) (t : Tab), noLetCls cs = true →
    TabOK (fun l => ∃ c ∈ cs, ∃ e ∈ c.body, LamIn l e) t (freeVarsClauses cs acc t).2
  | [], acc, t, _ => TabOK.none.iff fun l => by simp
  | .mk f body :: cs, acc, t, h => by
    simp only [noLetCls, Bool.and_eq_true] at h
    refine ((freeVarsSeq_tab body [] t h.1).trans (freeVarsClauses_tab cs _ _ h.2)).iff fun l => ?_
    simp only [List.mem_cons, exists_eq_or_imp, Cl.body]

end

theorem noLets_mem {es : List E} (h : noLets es = true) : ∀ e ∈ es, noLet e = true := by
  induction es with
  | nil => intro e he; cases he
  | cons x xs ih =>
    simp only [noLets, Bool.and_eq_true] at h
    intro e he
    rcases List.mem_cons.1 he with rfl | he
    · exact h.1
    · exact ih h.2 e he

theorem noLetCls_mem {cs : List Cl} (h : noLetCls cs = true) : ∀ f body, Cl.mk f body ∈ cs → noLets body = true := by
  induction cs with
  | nil => intro f b he; cases he
  | cons x xs ih =>
    obtain ⟨f, b⟩ := x
    simp only [noLetCls, Bool.and_eq_true] at h
    intro f' b' he
    rcases List.mem_cons.1 he with he | he
    · cases he; exact h.1
    · exact ih h.2 f' b' he

theorem noLet_lamIn {l e : E} (hl : LamIn l e) : noLet e = true → noLet l = true := by
  induction hl with
  | lamHere f body h => intro h'; rw [h]; exact h'
  | clamHere cs h => intro h'; rw [h]; exact h'
  | define xs e _ ih => intro h; exact ih (by simpa [noLet] using h)
  | set x e _ ih => intro h; exact ih (by simpa [noLet] using h)
  | iteC c t e _ ih => intro h; simp only [noLet, Bool.and_eq_true] at h; exact ih h.1.1
  | iteT c t e _ ih => intro h; simp only [noLet, Bool.and_eq_true] at h; exact ih h.1.2
  | iteE c t e _ ih => intro h; simp only [noLet, Bool.and_eq_true] at h; exact ih h.2
  | lam f body e he _ ih => intro h; exact ih (noLets_mem (by simpa [noLet] using h) e he)
  | clam cs f body e hc he _ ih => intro h; exact ih (noLets_mem (noLetCls_mem (by simpa [noLet] using h) f body hc) e he)
  | begin es e he _ ih => intro h; exact ih (noLets_mem (by simpa [noLet] using h) e he)
  | appF f args _ ih => intro h; simp only [noLet, Bool.and_eq_true] at h; exact ih h.1
  | appA f args a ha _ ih => intro h; simp only [noLet, Bool.and_eq_true] at h; exact ih (noLets_mem h.2 a ha)
  | mvcallP e c _ ih => intro h; simp only [noLet, Bool.and_eq_true] at h; exact ih h.1
  | mvcallC e c _ ih => intro h; simp only [noLet, Bool.and_eq_true] at h; exact ih h.2
  | mvletP e xs body _ ih => intro h; simp only [noLet, Bool.and_eq_true] at h; exact ih h.1
  | mvletB e xs body _ ih => intro h; simp only [noLet, Bool.and_eq_true] at h; exact ih h.2
  | mvvals es e he _ ih => intro h; exact ih (noLets_mem (by simpa [noLet] using h) e he)

/-! ## C49 -/

/-- A sample expression: a curried function with a shadowed and an assigned variable. -/
def sampleFv : E :=
  .lam ⟨[.user 0], some (.user 1)⟩
    [.set (.user 2) (.var (.user 0)),
     .lam ⟨[.user 3], none⟩ [.app (.var (.user 4)) [.var (.user 0), .var (.user 3), .var (.user 4)]],
     .mvlet (.var (.user 0)) [.user 2] (.var (.user 2))]

/-- **C49.** The free-variable analysis returns exactly the identifiers that occur free in the expression, each of them once. -/
theorem C49_exact (e : E) (t : Tab) (h : noLet e = true) :
    (freeVars e t).1.Nodup ∧ ∀ s, s ∈ (freeVars e t).1 ↔ Free s e :=
  freeVars_spec e t h

example : noLet sampleFv = true ∧ (freeVars sampleFv []).1 = [.user 2, .user 4] := by decide +kernel

/-- **C49.** The table that the compiler consults for closures gains entries for the lambda expressions of the program only; the entry of
a lambda expression lists exactly its free variables, each once; and a lambda expression without an entry has none. -/
theorem C49_table (e : E) (h : noLet e = true) :
    (∀ l vs, (l, vs) ∈ (freeVars e []).2 → LamIn l e ∧ vs ≠ [] ∧ vs.Nodup ∧ ∀ s, s ∈ vs ↔ Free s l) ∧
      ∀ l, LamIn l e → (¬ ∃ vs, (l, vs) ∈ (freeVars e []).2) → ∀ s, ¬ Free s l := by
  obtain ⟨new, he, h1, h2⟩ := freeVars_tab e [] h
  rw [List.append_nil] at he
  have hl : ∀ l, LamIn l e → noLet l = true := by
    intro l hl
    exact noLet_lamIn hl h
  constructor
  · intro l vs hm
    rw [he] at hm
    obtain ⟨hp, hne, hv⟩ := h1 l vs hm
    obtain ⟨a, b⟩ := freeVars_spec l [] (hl l hp)
    exact ⟨hp, hne, hv ▸ a, fun s => hv ▸ b s⟩
  · intro l hp hn s hs
    have := (freeVars_spec l [] (hl l hp)).2 s |>.2 hs
    rw [he] at hn
    exact hn (h2 l hp (List.ne_nil_of_mem this))

example : ((freeVars sampleFv []).2.map (·.2)) = [[.user 2, .user 4], [.user 0, .user 4]] := by decide +kernel

/-- **C49.** Looking a lambda expression up in the table gives what analysing it alone gives, whichever of its entries is found. -/
theorem C49_lookup (e : E) (h : noLet e = true) (l : E) (vs : List Sym) (hm : (l, vs) ∈ (freeVars e []).2) :
    vs = (freeVars l []).1 := by
  obtain ⟨new, he, h1, _⟩ := freeVars_tab e [] h
  rw [List.append_nil] at he
  rw [he] at hm
  exact (h1 l vs hm).2.2

example : ((freeVars sampleFv []).2.map fun p => decide ((freeVars p.1 []).1 = p.2)) = [true, true] := by decide +kernel

end Minim.Jit
