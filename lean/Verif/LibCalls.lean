import Verif.Scope

set_option autoImplicit false

/-!
# Calls with the right number of arguments (C105)

Which top-level variables hold procedures of known arity is described by a table.  An expression is looked through for direct calls of top-level variables and for
definitions and assignments of top-level variables; if all of them agree with the table, evaluation keeps the table right, and makes no call with the wrong number of arguments.
-/

namespace Minim.Jit

open Minim.Sx Minim.Core

/-- Specification: the arity of a procedure: for each clause, the number of required arguments, and whether more are accepted. -/
abbrev ArSpec := List (Nat × Bool)

/-- Specification: does the arity allow so many arguments? -/
def ArSpec.allows : ArSpec → Nat → Bool
  | [], _ => false
  | (k, r) :: a, n => (if r then decide (k ≤ n) else decide (k = n)) || ArSpec.allows a n

/-- Specification: the arity of formal parameters. -/
def arF (f : Formals) : Nat × Bool := (f.req.length, f.rest.isSome)

/-- Specification: the arity of clauses. -/
def arC : List Cl → ArSpec
  | [] => []
  | .mk f _ :: cs => arF f :: arC cs

/-- Specification: the arity of a procedure. -/
def arOf : RC → ArSpec
  | .clo _ cs => arC cs
  | .prim _ k => [(k, false)]
  | .values => [(0, true)]
  | .apply => [(2, true)]
  | .cwv => [(2, false)]

/-- Specification: here a top-level variable `x` is called with `n` arguments, and its value is a procedure that does not accept so many. -/
def WrongCall (x : Sym) (n : Nat) (t : Task) (σ : RS) : Prop :=
  ∃ (ρ : REnv) (args : List E) (c : RC), t = .e ρ (.app (.var x) args) ∧ args.length = n ∧ ρ x = none ∧ σ.globs x = some (.clo c) ∧ (arOf c).allows n = false

/-- Specification: what an expression may do to top-level procedures: call a variable with so many arguments; give a variable a value, of this arity if any. -/
inductive Mark where
  | call (x : Sym) (n : Nat)
  | bind (x : Sym) (s : Option ArSpec)
  deriving DecidableEq

/-- Specification: a call of a top-level variable. -/
def markF (loc : List Sym) (f : E) (n : Nat) : List Mark :=
  match f with
  | .var x => if x ∈ loc then [] else [.call x n]
  | _ => []

/-- Specification: the definition of several variables. -/
def markB : List Sym → List (Option ArSpec) → List Mark
  | [], _ => []
  | x :: xs, s :: ss => .bind x s :: markB xs ss
  | x :: xs, [] => .bind x none :: markB xs []

/-- Specification: a single value. -/
def single1 : Option (List (Option ArSpec)) → Option ArSpec
  | some [s] => s
  | _ => none

/-- Specification: the variable `values`. -/
def isValues : E → Bool
  | .var .values => true
  | _ => false

mutual

/-- Specification: the arities of the values of an expression, as far as one can see. -/
def shapes (T : Sym → Option ArSpec) (loc : List Sym) : E → Option (List (Option ArSpec))
  | .var x => if x ∈ loc then some [none] else some [T x]
  | .ite _ a b => if shapes T loc a = shapes T loc b then shapes T loc a else none
  | .letv bs body => shapesB T (bdsIds bs ++ loc) body
  | .letrecv bs body => shapesB T (bdsIds bs ++ loc) body
  | .lam f _ => some [some [arF f]]
  | .clam cs => some [some (arC cs)]
  | .begin es => shapesB T loc es
  | .app f args => if isValues f = true ∧ Sym.values ∉ loc then some (shapesA T loc args) else none
  | _ => none

/-- Specification: the same for the last of several expressions. -/
def shapesB (T : Sym → Option ArSpec) (loc : List Sym) : List E → Option (List (Option ArSpec))
  | [] => none
  | [e] => shapes T loc e
  | _ :: es => shapesB T loc es

/-- Specification: the same for arguments. -/
def shapesA (T : Sym → Option ArSpec) (loc : List Sym) : List E → List (Option ArSpec)
  | [] => []
  | e :: es => single1 (shapes T loc e) :: shapesA T loc es

end

mutual

/-- Specification: what an expression inside these local variables may do to top-level procedures. -/
def marks (T : Sym → Option ArSpec) (loc : List Sym) : E → List Mark
  | .var _ | .lit _ | .quote _ | .quoteSyntax _ | .unbound => []
  | .define xs e => markB xs ((shapes T loc e).getD []) ++ marks T loc e
  | .set x e => (if x ∈ loc then [] else [.bind x (single1 (shapes T loc e))]) ++ marks T loc e
  | .ite c a b => marks T loc c ++ (marks T loc a ++ marks T loc b)
  | .letv bs body => marksD T loc bs ++ markss T (bdsIds bs ++ loc) body
  | .letrecv bs body => marksD T (bdsIds bs ++ loc) bs ++ markss T (bdsIds bs ++ loc) body
  | .lam f body => markss T (f.ids ++ loc) body
  | .clam cs => marksC T loc cs
  | .begin es => markss T loc es
  | .app f args => markF loc f args.length ++ (marks T loc f ++ markss T loc args)
  | .mvcall e c => marks T loc e ++ marks T loc c
  | .mvlet e xs body => marks T loc e ++ marks T (xs ++ loc) body
  | .mvvals es => markss T loc es

/-- Specification: the same for lists of expressions. -/
def markss (T : Sym → Option ArSpec) (loc : List Sym) : List E → List Mark
  | [] => []
  | e :: es => marks T loc e ++ markss T loc es

/-- Specification: the same for right-hand sides of bindings. -/
def marksD (T : Sym → Option ArSpec) (loc : List Sym) : List Bd → List Mark
  | [] => []
  | .mk _ e :: bs => marks T loc e ++ marksD T loc bs

/-- Specification: the same for clauses. -/
def marksC (T : Sym → Option ArSpec) (loc : List Sym) : List Cl → List Mark
  | [] => []
  | .mk f body :: cs => markss T (f.ids ++ loc) body ++ marksC T loc cs

end

/-- Specification: the action agrees with the table; some calls are excepted. -/
def fine (T : Sym → Option ArSpec) (B : Sym → Nat → Bool) : Mark → Bool
  | .call x n => (match T x with | none => true | some a => a.allows n) || B x n
  | .bind x s => decide (x ≠ .values) && (T x).all (fun a => decide (s = some a))

/-- Specification: the local variables are these. -/
def Dom (ρ : REnv) (loc : List Sym) : Prop := ∀ x, ρ x ≠ none ↔ x ∈ loc

/-- Specification: all actions agree with the table. -/
def Fine (T : Sym → Option ArSpec) (B : Sym → Nat → Bool) (ms : List Mark) : Prop := ∀ m ∈ ms, fine T B m = true

/-- Specification: the values made by programs that agree with the table. -/
def VA (T : Sym → Option ArSpec) (B : Sym → Nat → Bool) : RV → Prop
  | .clo (.clo ρ cs) => ∃ loc, Dom ρ loc ∧ Fine T B (marksC T loc cs)
  | .clo _ => True
  | .cons a d => VA T B a ∧ VA T B d
  | .values | .num _ | .cell _ | .undef => False
  | _ => True

/-- Specification: a value of this arity, if one is given. -/
def Shape : Option ArSpec → RV → Prop
  | none, _ => True
  | some a, v => ∃ c, v = .clo c ∧ arOf c = a

/-- Specification: values of these arities. -/
def Shapes : List (Option ArSpec) → List RV → Prop
  | [], [] => True
  | s :: ss, v :: vs => Shape s v ∧ Shapes ss vs
  | _, _ => False

/-- Specification: a store with such values, in which the table is right. -/
def GoodA (T : Sym → Option ArSpec) (B : Sym → Nat → Bool) (σ : RS) : Prop :=
  (∀ v ∈ σ.cells, VA T B v) ∧ ∀ x v, σ.globs x = some v → VA T B v ∧ Shape (T x) v ∧ (x = .values → v = .clo .values)

/-- Specification: a part of an evaluation that agrees with the table. -/
def TaskA (T : Sym → Option ArSpec) (B : Sym → Nat → Bool) : Task → Prop
  | .e ρ e => ∃ loc, Dom ρ loc ∧ Fine T B (marks T loc e)
  | .b ρ es => ∃ loc, Dom ρ loc ∧ Fine T B (markss T loc es)
  | .a ρ es => ∃ loc, Dom ρ loc ∧ Fine T B (markss T loc es)
  | .d ρ bs => ∃ loc, Dom ρ loc ∧ Fine T B (marksD T loc bs)
  | .r ρ bs => ∃ loc, Dom ρ loc ∧ Fine T B (marksD T loc bs) ∧ ∀ x ∈ bdsIds bs, x ∈ loc
  | .p f vs => VA T B f ∧ ∀ v ∈ vs, VA T B v

/-! ### Lemmas -/

variable {T : Sym → Option ArSpec} {B : Sym → Nat → Bool}

theorem Fine.append {xs ys : List Mark} : Fine T B (xs ++ ys) ↔ Fine T B xs ∧ Fine T B ys := by
  simp only [Fine, List.mem_append]
  exact ⟨fun h => ⟨fun x hx => h x (.inl hx), fun x hx => h x (.inr hx)⟩, fun h x hx => hx.elim (h.1 x) (h.2 x)⟩

theorem Fine.cons {m : Mark} {xs : List Mark} : Fine T B (m :: xs) ↔ fine T B m = true ∧ Fine T B xs := by
  simp [Fine]

/-- The relation of values to themselves for which C functions are parametric. -/
def RSa (T : Sym → Option ArSpec) (B : Sym → Nat → Bool) (c c' : RC) : Prop := c = c' ∧ VA T B (.clo c)

theorem va_iff : ∀ {v : RV}, VA T B v ↔ VRel (RSa T B) v v
  | .null => ⟨fun _ => .null, fun _ => trivial⟩
  | .sym s => ⟨fun _ => .sym s, fun _ => trivial⟩
  | .lit l => ⟨fun _ => .lit l, fun _ => trivial⟩
  | .other n => ⟨fun _ => .other n, fun _ => trivial⟩
  | .stx d => ⟨fun _ => .stx d, fun _ => trivial⟩
  | .void => ⟨fun _ => .void, fun _ => trivial⟩
  | .unbound => ⟨fun _ => .unbound, fun _ => trivial⟩
  | .tenv n => ⟨fun _ => .tenv n, fun _ => trivial⟩
  | .values => ⟨fun h => h.elim, fun h => by cases h⟩
  | .num _ => ⟨fun h => h.elim, fun h => by cases h⟩
  | .cell _ => ⟨fun h => h.elim, fun h => by cases h⟩
  | .undef => ⟨fun h => h.elim, fun h => by cases h⟩
  | .cons a d => by
    have ha := @va_iff a
    have hd := @va_iff d
    constructor
    · intro h
      rw [VA] at h
      exact .cons (ha.1 h.1) (hd.1 h.2)
    · intro h
      cases h with
      | cons h1 h2 => rw [VA]; exact ⟨ha.2 h1, hd.2 h2⟩
  | .clo c => by
    constructor
    · intro h; exact .clo ⟨rfl, h⟩
    · intro h
      cases h with
      | clo h => exact h.2

theorem va_list {vs : List RV} (h : ∀ v ∈ vs, VA T B v) : List.Forall₂ (VRel (RSa T B)) vs vs := by
  induction vs with
  | nil => exact .nil
  | cons v vs ih => exact .cons (va_iff.1 (h v (by simp))) (ih (fun w hw => h w (by simp [hw])))

theorem va_prim {P : Prims} {p : Nat} {vs : List RV} {v : RV} (h : ∀ v ∈ vs, VA T B v) (hp : P.f RC p vs = some v) : VA T B v := by
  have := P.param (RSa T B) p vs vs (va_list h)
  rw [hp] at this
  exact va_iff.2 this

theorem va_ofX : ∀ (d : X), VA T B (ofX d)
  | .null => trivial
  | .sym _ => trivial
  | .lit _ => trivial
  | .other _ => trivial
  | .cons a d => by rw [ofX, VA]; exact ⟨va_ofX a, va_ofX d⟩

theorem va_listV : ∀ {vs : List RV}, (∀ v ∈ vs, VA T B v) → VA T B (listV vs)
  | [], _ => trivial
  | v :: vs, h => by rw [listV, VA]; exact ⟨h v (by simp), va_listV (fun w hw => h w (by simp [hw]))⟩

theorem va_unlist : ∀ {v : RV} {vs : List RV}, VA T B v → unlist v = some vs → ∀ w ∈ vs, VA T B w := by
  intro v
  induction v with
  | null => intro vs _ h w hw; simp only [unlist, Option.some.injEq] at h; subst h; simp at hw
  | cons a d _ ih =>
    intro vs hv h w hw
    rw [VA] at hv
    simp only [unlist, Option.map_eq_some_iff] at h
    obtain ⟨l, h1, rfl⟩ := h
    rcases List.mem_cons.1 hw with rfl | hw
    · exact hv.1
    · exact ih hv.2 h1 w hw
  | _ => intro vs _ h; simp [unlist] at h

theorem va_spread : ∀ {vs as : List RV}, (∀ v ∈ vs, VA T B v) → spread vs = some as → ∀ w ∈ as, VA T B w
  | [], _, _, h => by simp [spread] at h
  | [l], as, hv, h => va_unlist (hv l (by simp)) h
  | v :: w :: vs, as, hv, h => by
    simp only [spread, Option.map_eq_some_iff] at h
    obtain ⟨l, h1, rfl⟩ := h
    intro u hu
    rcases List.mem_cons.1 hu with rfl | hu
    · exact hv _ (by simp)
    · exact va_spread (fun x hx => hv x (by simp at hx ⊢; tauto)) h1 u hu

theorem va_params {f : Formals} {vs : List RV} (h : ∀ v ∈ vs, VA T B v) : ∀ v ∈ params f vs, VA T B v := by
  rw [params]
  split
  · intro v hv
    rcases List.mem_append.1 hv with hv | hv
    · exact h v (List.mem_of_mem_take hv)
    · rw [List.mem_singleton.1 hv]
      exact va_listV (fun w hw => h w (List.mem_of_mem_drop hw))
  · exact h

theorem goodA_bind : ∀ {xs : List Sym} {vs : List RV} {ρ : REnv} {σ : RS}, GoodA T B σ → (∀ v ∈ vs, VA T B v) → GoodA T B (bindVals ρ σ xs vs).2
  | [], vs, ρ, σ, h, _ => by cases vs <;> exact h
  | _ :: _, [], ρ, σ, h, _ => h
  | x :: xs, v :: vs, ρ, σ, h, hv => by
    rw [bindVals]
    refine goodA_bind ⟨fun w hw => ?_, h.2⟩ (fun w hw => hv w (by simp [hw]))
    rcases List.mem_append.1 hw with hw | hw
    · exact h.1 w hw
    · rw [List.mem_singleton.1 hw]; exact hv v (by simp)


theorem dom_set {ρ : REnv} {loc : List Sym} {x : Sym} {c : Nat} (h : Dom ρ loc) : Dom (ρ.set x c) (x :: loc) := by
  intro y
  simp only [REnv.set, List.mem_cons]
  split
  · simp_all
  · rename_i hy
    rw [h y]
    simp [hy]

theorem dom_perm {ρ : REnv} {l l' : List Sym} (h : Dom ρ l) (hl : ∀ x, x ∈ l ↔ x ∈ l') : Dom ρ l' := fun x => (h x).trans (hl x)

/-- The body of a binding construct. -/
theorem dom_bind : ∀ {xs loc : List Sym} {vs : List RV} {ρ : REnv} {σ : RS}, vs.length = xs.length → Dom ρ loc → Dom (bindVals ρ σ xs vs).1 (xs ++ loc)
  | [], _, vs, ρ, σ, _, h => by cases vs <;> exact h
  | x :: xs, _, [], _, _, hl, _ => by simp at hl
  | x :: xs, loc, v :: vs, ρ, σ, hl, h => by
    rw [bindVals]
    refine dom_perm (dom_bind (by simpa using hl) (dom_set h)) (fun y => ?_)
    simp only [List.mem_append, List.mem_cons]
    tauto

theorem isValues_eq {f : E} (h : isValues f = true) : f = .var .values := by
  rw [isValues.eq_def] at h
  split at h
  · rfl
  · cases h

theorem shapes_length : ∀ {ss : List (Option ArSpec)} {vs : List RV}, Shapes ss vs → ss.length = vs.length
  | [], [], _ => rfl
  | [], _ :: _, h => h.elim
  | _ :: _, [], h => h.elim
  | _ :: _, _ :: _, h => by simp [shapes_length h.2]

theorem goodA_setGlob {σ : RS} {x : Sym} {v : RV} {s : Option ArSpec} (h : GoodA T B σ) (hv : VA T B v) (hf : fine T B (.bind x s) = true) (hs : Shape s v) :
    GoodA T B (σ.setGlob x v) := by
  refine ⟨h.1, fun y w hw => ?_⟩
  simp only [RS.setGlob] at hw
  split at hw
  · rename_i hy
    cases hw
    subst hy
    simp only [fine, Bool.and_eq_true, decide_eq_true_eq] at hf
    refine ⟨hv, ?_, fun hx => absurd hx hf.1⟩
    cases hT : T y with
    | none => trivial
    | some a =>
      rw [hT] at hf
      have := hf.2
      simp only [Option.all_some, decide_eq_true_eq] at this
      rw [this] at hs
      exact hs
  · exact h.2 y w hw

theorem goodA_setGlobs : ∀ {xs : List Sym} {vs : List RV} {ss : List (Option ArSpec)} {σ : RS}, GoodA T B σ → (∀ v ∈ vs, VA T B v) → Fine T B (markB xs ss) →
    (ss = [] ∨ Shapes ss vs) → GoodA T B (σ.setGlobs xs vs)
  | [], vs, _, σ, h, _, _, _ => by cases vs <;> exact h
  | _ :: _, [], _, σ, h, _, _, _ => h
  | x :: xs, v :: vs, [], σ, h, hv, hf, _ => by
    rw [RS.setGlobs]
    rw [markB, Fine.cons] at hf
    exact goodA_setGlobs (goodA_setGlob h (hv v (by simp)) hf.1 trivial) (fun w hw => hv w (by simp [hw])) hf.2 (.inl rfl)
  | x :: xs, v :: vs, s :: ss, σ, h, hv, hf, hs => by
    rw [RS.setGlobs]
    rw [markB, Fine.cons] at hf
    rcases hs with hs | hs
    · cases hs
    · exact goodA_setGlobs (goodA_setGlob h (hv v (by simp)) hf.1 hs.1) (fun w hw => hv w (by simp [hw])) hf.2 (.inr hs.2)

theorem goodA_cell {σ : RS} {c : Nat} {v : RV} (hg : GoodA T B σ) (hv : VA T B v) : GoodA T B { σ with cells := σ.cells.set c v } := by
  refine ⟨fun w hw => ?_, hg.2⟩
  rcases List.mem_or_eq_of_mem_set hw with hw | rfl
  · exact hg.1 w hw
  · exact hv

/-- An assignment of a local variable, or of a top-level variable in agreement with the table. -/
theorem assign_goodA {ρ : REnv} {σ σ' : RS} {x : Sym} {v : RV} (h : assignR ρ σ x v = .ok σ') (hg : GoodA T B σ) (hv : VA T B v)
    (hx : ρ x = none → ∃ s, fine T B (.bind x s) = true ∧ Shape s v) : GoodA T B σ' := by
  rw [assignR] at h
  split at h
  · split at h
    · cases h
      exact goodA_cell hg hv
    · cases h
  · rename_i hn
    split at h
    · cases h
    · cases h
      obtain ⟨s, h1, h2⟩ := hx hn
      exact goodA_setGlob hg hv h1 h2

theorem assigns_goodA : ∀ {xs : List Sym} {vs : List RV} {ρ : REnv} {σ σ' : RS}, assignsR ρ σ xs vs = .ok σ' → GoodA T B σ → (∀ v ∈ vs, VA T B v) →
    (∀ x ∈ xs, ρ x ≠ none) → GoodA T B σ'
  | [], vs, ρ, σ, σ', h, hg, _, _ => by
    cases vs <;> (simp only [assignsR, Res.ok.injEq] at h; subst h; exact hg)
  | _ :: _, [], ρ, σ, σ', h, hg, _, _ => by simp only [assignsR, Res.ok.injEq] at h; subst h; exact hg
  | x :: xs, v :: vs, ρ, σ, σ', h, hg, hv, hx => by
    rw [assignsR] at h
    obtain ⟨σ1, h1, h2⟩ := Res.bind_eq_ok.1 h
    have a := assign_goodA h1 hg (hv v (by simp)) (fun hn => absurd hn (hx x (by simp)))
    exact assigns_goodA h2 a (fun w hw => hv w (by simp [hw])) (fun y hy => hx y (by simp [hy]))

/-- A clause that is selected. -/
theorem select_fine {loc : List Sym} {f : Formals} {body : List E} : ∀ {cs : List Cl} {n : Nat}, select cs n = some (f, body) → Fine T B (marksC T loc cs) →
    Fine T B (markss T (f.ids ++ loc) body) ∧ acceptsN f n = true
  | [], _, h, _ => by simp [select] at h
  | .mk f' body' :: cs, n, h, hk => by
    rw [marksC, Fine.append] at hk
    rw [select] at h
    split at h
    · rename_i ha
      cases h
      exact ⟨hk.1, ha⟩
    · exact select_fine h hk.2

/-- The value of a variable. -/
theorem lookup_va {ρ : REnv} {loc : List Sym} {σ : RS} {x : Sym} {v : RV} (h : lookupR ρ σ x = .ok v) (hd : Dom ρ loc) (hg : GoodA T B σ) :
    VA T B v ∧ (x ∉ loc → Shape (T x) v ∧ (x = .values → v = .clo .values)) := by
  rw [lookupR] at h
  split at h
  · cases h
  · cases h
  · rename_i v' _ hv'
    cases h
    split at hv'
    · rename_i c hc
      refine ⟨hg.1 _ (List.mem_of_getElem? hv'), fun hx => ?_⟩
      exact absurd ((hd x).1 (by rw [hc]; simp)) hx
    · exact ⟨(hg.2 _ _ hv').1, fun _ => (hg.2 _ _ hv').2⟩

theorem shape_single {s : Option (List (Option ArSpec))} {v : RV} (h : ∀ ss, s = some ss → Shapes ss [v]) : Shape (single1 s) v := by
  rw [single1.eq_def]
  split
  · exact (h _ rfl).1
  · trivial

/-- The invariants are kept by evaluation. -/
def KeepsA (T : Sym → Option ArSpec) (B : Sym → Nat → Bool) (P : Prims) (n : Nat) : Prop :=
  (∀ {loc ρ e σ vs σ'}, ev P n ρ e σ = .ok (vs, σ') → Dom ρ loc → Fine T B (marks T loc e) → GoodA T B σ →
    (∀ v ∈ vs, VA T B v) ∧ GoodA T B σ' ∧ ∀ ss, shapes T loc e = some ss → Shapes ss vs) ∧
  (∀ {loc ρ es σ vs σ'}, evBody P n ρ es σ = .ok (vs, σ') → Dom ρ loc → Fine T B (markss T loc es) → GoodA T B σ →
    (∀ v ∈ vs, VA T B v) ∧ GoodA T B σ' ∧ ∀ ss, shapesB T loc es = some ss → Shapes ss vs) ∧
  (∀ {loc ρ es σ vs σ'}, evArgs P n ρ es σ = .ok (vs, σ') → Dom ρ loc → Fine T B (markss T loc es) → GoodA T B σ →
    (∀ v ∈ vs, VA T B v) ∧ GoodA T B σ' ∧ Shapes (shapesA T loc es) vs) ∧
  (∀ {loc ρ bs σ vs σ'}, evBds P n ρ bs σ = .ok (vs, σ') → Dom ρ loc → Fine T B (marksD T loc bs) → GoodA T B σ →
    (∀ v ∈ vs, VA T B v) ∧ GoodA T B σ' ∧ vs.length = (bdsIds bs).length) ∧
  (∀ {loc ρ bs σ σ'}, evRec P n ρ bs σ = .ok σ' → Dom ρ loc → Fine T B (marksD T loc bs) → (∀ x ∈ bdsIds bs, x ∈ loc) → GoodA T B σ → GoodA T B σ') ∧
  (∀ {f as σ vs σ'}, applyR P n f as σ = .ok (vs, σ') → VA T B f → (∀ v ∈ as, VA T B v) → GoodA T B σ →
    (∀ v ∈ vs, VA T B v) ∧ GoodA T B σ' ∧ (f = .clo .values → vs = as))

theorem va_replicate (n : Nat) : ∀ v ∈ (List.replicate n .unbound : List RV), VA T B v := fun v hv => by rw [(List.mem_replicate.1 hv).2]; trivial

theorem keepsA (P : Prims) : ∀ n, KeepsA T B P n
  | 0 => by
    refine ⟨?_, ?_, ?_, ?_, ?_, ?_⟩ <;> intros <;> simp_all [ev, evBody, evArgs, evBds, evRec, applyR]
  | n + 1 => by
    obtain ⟨hE, hB, hA, hD, hR, hP⟩ := keepsA P n
    refine ⟨?_, ?_, ?_, ?_, ?_, ?_⟩
    · intro loc ρ e σ vs σ' h hd hk hg
      cases e with
      | var x =>
        rw [ev] at h
        obtain ⟨v, h1, h2⟩ := Res.bind_eq_ok.1 h
        cases h2
        obtain ⟨a, b⟩ := lookup_va h1 hd hg
        refine ⟨by simpa using a, hg, ?_⟩
        intro ss hs
        rw [shapes] at hs
        split at hs
        · cases hs; exact ⟨trivial, trivial⟩
        · rename_i hx
          cases hs
          exact ⟨(b hx).1, trivial⟩
      | lit l => rw [ev] at h; cases h; exact ⟨by simp [VA], hg, by simp [shapes]⟩
      | quote d => rw [ev] at h; cases h; exact ⟨by simp [va_ofX], hg, by simp [shapes]⟩
      | quoteSyntax d => rw [ev] at h; cases h; exact ⟨by simp [VA], hg, by simp [shapes]⟩
      | unbound => rw [ev] at h; cases h; exact ⟨by simp [VA], hg, by simp [shapes]⟩
      | define xs e =>
        rw [ev] at h
        obtain ⟨⟨ws, σ1⟩, h1, h2⟩ := Res.bind_eq_ok.1 h
        rw [marks, Fine.append] at hk
        obtain ⟨a, b, c⟩ := hE h1 hd hk.2 hg
        dsimp only at h2
        split at h2
        · cases h2
          refine ⟨by simp [VA], goodA_setGlobs b a hk.1 ?_, by simp [shapes]⟩
          cases hs : shapes T loc e with
          | none => exact .inl rfl
          | some ss => exact .inr (c ss hs)
        · cases h2
      | set x e =>
        rw [ev] at h
        obtain ⟨⟨ws, σ1⟩, h1, h2⟩ := Res.bind_eq_ok.1 h
        obtain ⟨v, h3, h4⟩ := Res.bind_eq_ok.1 h2
        obtain ⟨σ2, h5, h6⟩ := Res.bind_eq_ok.1 h4
        cases h6
        rw [marks, Fine.append] at hk
        obtain ⟨a, b, c⟩ := hE h1 hd hk.2 hg
        have := single_eq h3
        subst this
        refine ⟨by simp [VA], assign_goodA h5 b (a v (by simp)) (fun hn => ?_), by simp [shapes]⟩
        have hx : x ∉ loc := fun hx => (hd x).2 hx hn
        have hf := hk.1
        rw [if_neg hx, Fine.cons] at hf
        exact ⟨_, hf.1, shape_single c⟩
      | ite c a b =>
        rw [ev] at h
        obtain ⟨⟨ws, σ1⟩, h1, h2⟩ := Res.bind_eq_ok.1 h
        obtain ⟨v, h3, h4⟩ := Res.bind_eq_ok.1 h2
        rw [marks, Fine.append, Fine.append] at hk
        obtain ⟨_, g1, _⟩ := hE h1 hd hk.1 hg
        split at h4
        · obtain ⟨x, y, z⟩ := hE h4 hd hk.2.2 g1
          refine ⟨x, y, fun ss hs => ?_⟩
          rw [shapes] at hs
          split at hs
          · rename_i he; exact z ss (he ▸ hs)
          · cases hs
        · obtain ⟨x, y, z⟩ := hE h4 hd hk.2.1 g1
          refine ⟨x, y, fun ss hs => ?_⟩
          rw [shapes] at hs
          split at hs
          · exact z ss hs
          · cases hs
      | letv bs body =>
        rw [ev] at h
        obtain ⟨⟨ws, σ1⟩, h1, h2⟩ := Res.bind_eq_ok.1 h
        rw [marks, Fine.append] at hk
        obtain ⟨a, b, d⟩ := hD h1 hd hk.1 hg
        obtain ⟨x, y, z⟩ := hB h2 (dom_bind d hd) hk.2 (goodA_bind b a)
        exact ⟨x, y, fun ss hs => z ss (by rw [shapes] at hs; exact hs)⟩
      | letrecv bs body =>
        rw [ev] at h
        dsimp only at h
        obtain ⟨σ1, h1, h2⟩ := Res.bind_eq_ok.1 h
        rw [marks, Fine.append] at hk
        have hd' := dom_bind (σ := σ) (vs := List.replicate (bdsIds bs).length .unbound) (xs := bdsIds bs) (by simp) hd
        have b := hR h1 hd' hk.1 (fun x hx => by simp [hx]) (goodA_bind hg (va_replicate _))
        obtain ⟨x, y, z⟩ := hB h2 hd' hk.2 b
        exact ⟨x, y, fun ss hs => z ss (by rw [shapes] at hs; exact hs)⟩
      | lam f body =>
        rw [ev] at h
        cases h
        rw [marks] at hk
        refine ⟨?_, hg, ?_⟩
        · intro w hw
          rw [List.mem_singleton.1 hw, VA]
          exact ⟨loc, hd, by simpa [marksC] using hk⟩
        · intro ss hs
          rw [shapes] at hs
          cases hs
          exact ⟨⟨_, rfl, rfl⟩, trivial⟩
      | clam cs =>
        rw [ev] at h
        cases h
        rw [marks] at hk
        refine ⟨?_, hg, ?_⟩
        · intro w hw
          rw [List.mem_singleton.1 hw, VA]
          exact ⟨loc, hd, hk⟩
        · intro ss hs
          rw [shapes] at hs
          cases hs
          exact ⟨⟨_, rfl, rfl⟩, trivial⟩
      | begin es =>
        rw [ev] at h
        rw [marks] at hk
        obtain ⟨x, y, z⟩ := hB h hd hk hg
        exact ⟨x, y, fun ss hs => z ss (by rw [shapes] at hs; exact hs)⟩
      | app f args =>
        rw [ev] at h
        obtain ⟨⟨ws, σ1⟩, h1, h2⟩ := Res.bind_eq_ok.1 h
        obtain ⟨v, h3, h4⟩ := Res.bind_eq_ok.1 h2
        obtain ⟨⟨as, σ2⟩, h5, h6⟩ := Res.bind_eq_ok.1 h4
        rw [marks, Fine.append, Fine.append] at hk
        obtain ⟨a, b, _⟩ := hE h1 hd hk.2.1 hg
        have := single_eq h3
        subst this
        obtain ⟨d, e, sh⟩ := hA h5 hd hk.2.2 b
        obtain ⟨x, y, z⟩ := hP h6 (a v (by simp)) d e
        refine ⟨x, y, fun ss hs => ?_⟩
        rw [shapes] at hs
        split at hs
        · rename_i hf
          cases hs
          obtain ⟨hf, hl⟩ := hf
          have := isValues_eq hf
          subst this
          cases n with
          | zero => rw [ev] at h1; cases h1
          | succ n =>
            rw [ev] at h1
            obtain ⟨w, h7, h8⟩ := Res.bind_eq_ok.1 h1
            cases h8
            have := ((lookup_va h7 hd hg).2 hl).2 rfl
            subst this
            rw [z rfl]
            exact sh
        · cases hs
      | mvcall e c =>
        rw [ev] at h
        obtain ⟨⟨as, σ1⟩, h1, h2⟩ := Res.bind_eq_ok.1 h
        obtain ⟨⟨ws, σ2⟩, h3, h4⟩ := Res.bind_eq_ok.1 h2
        obtain ⟨v, h5, h6⟩ := Res.bind_eq_ok.1 h4
        rw [marks, Fine.append] at hk
        obtain ⟨a, b, _⟩ := hE h1 hd hk.1 hg
        obtain ⟨d, e, _⟩ := hE h3 hd hk.2 b
        have := single_eq h5
        subst this
        obtain ⟨x, y, _⟩ := hP h6 (d v (by simp)) a e
        exact ⟨x, y, by simp [shapes]⟩
      | mvlet e xs body =>
        rw [ev] at h
        obtain ⟨⟨ws, σ1⟩, h1, h2⟩ := Res.bind_eq_ok.1 h
        rw [marks, Fine.append] at hk
        obtain ⟨a, b, _⟩ := hE h1 hd hk.1 hg
        dsimp only at h2
        split at h2
        · rename_i hl
          obtain ⟨x, y, _⟩ := hE h2 (dom_bind hl hd) hk.2 (goodA_bind b a)
          exact ⟨x, y, by simp [shapes]⟩
        · cases h2
      | mvvals es =>
        rw [ev] at h
        rw [marks] at hk
        obtain ⟨x, y, _⟩ := hA h hd hk hg
        exact ⟨x, y, by simp [shapes]⟩
    · intro loc ρ es σ vs σ' h hd hk hg
      match es with
      | [] => rw [evBody] at h; cases h; exact ⟨by simp [VA], hg, by simp [shapesB]⟩
      | [e] =>
        rw [evBody] at h
        rw [markss, markss, List.append_nil] at hk
        obtain ⟨x, y, z⟩ := hE h hd hk hg
        exact ⟨x, y, fun ss hs => z ss (by rw [shapesB] at hs; exact hs)⟩
      | e :: e' :: es =>
        rw [evBody] at h
        obtain ⟨⟨ws, σ1⟩, h1, h2⟩ := Res.bind_eq_ok.1 h
        rw [markss, Fine.append] at hk
        obtain ⟨_, b, _⟩ := hE h1 hd hk.1 hg
        obtain ⟨x, y, z⟩ := hB h2 hd hk.2 b
        exact ⟨x, y, fun ss hs => z ss (by rw [shapesB] at hs; exact hs; simp)⟩
    · intro loc ρ es σ vs σ' h hd hk hg
      match es with
      | [] => rw [evArgs] at h; cases h; exact ⟨by simp, hg, trivial⟩
      | e :: es =>
        rw [evArgs] at h
        obtain ⟨⟨ws, σ1⟩, h1, h2⟩ := Res.bind_eq_ok.1 h
        obtain ⟨v, h3, h4⟩ := Res.bind_eq_ok.1 h2
        obtain ⟨⟨as, σ2⟩, h5, h6⟩ := Res.bind_eq_ok.1 h4
        cases h6
        rw [markss, Fine.append] at hk
        obtain ⟨a, b, c⟩ := hE h1 hd hk.1 hg
        have := single_eq h3
        subst this
        obtain ⟨x, y, z⟩ := hA h5 hd hk.2 b
        refine ⟨?_, y, ?_⟩
        · intro w hw
          rcases List.mem_cons.1 hw with rfl | hw
          · exact a _ (by simp)
          · exact x w hw
        · rw [shapesA]
          exact ⟨shape_single c, z⟩
    · intro loc ρ bs σ vs σ' h hd hk hg
      match bs with
      | [] => rw [evBds] at h; cases h; exact ⟨by simp, hg, rfl⟩
      | .mk xs e :: bs =>
        rw [evBds] at h
        obtain ⟨⟨ws, σ1⟩, h1, h2⟩ := Res.bind_eq_ok.1 h
        rw [marksD, Fine.append] at hk
        obtain ⟨a, b, _⟩ := hE h1 hd hk.1 hg
        dsimp only at h2
        split at h2
        · rename_i hl
          obtain ⟨⟨us, σ2⟩, h3, h4⟩ := Res.bind_eq_ok.1 h2
          cases h4
          obtain ⟨x, y, l⟩ := hD h3 hd hk.2 b
          refine ⟨?_, y, by simp [bdsIds, Bd.ids, l, hl.1]⟩
          intro w hw
          rcases List.mem_append.1 hw with hw | hw
          · exact a w hw
          · exact x w hw
        · cases h2
    · intro loc ρ bs σ σ' h hd hk hl hg
      match bs with
      | [] => rw [evRec] at h; cases h; exact hg
      | .mk xs e :: bs =>
        rw [evRec] at h
        obtain ⟨⟨ws, σ1⟩, h1, h2⟩ := Res.bind_eq_ok.1 h
        rw [marksD, Fine.append] at hk
        obtain ⟨a, b, _⟩ := hE h1 hd hk.1 hg
        dsimp only at h2
        split at h2
        · obtain ⟨σ2, h3, h4⟩ := Res.bind_eq_ok.1 h2
          have p := assigns_goodA h3 b a (fun x hx => (hd x).2 (hl x (by simp [bdsIds, Bd.ids, hx])))
          exact hR h4 hd hk.2 (fun x hx => hl x (by simp [bdsIds, hx])) p
        · cases h2
    · intro f as σ vs σ' h hf ha hg
      cases f with
      | clo c =>
        cases c with
        | clo ρ cs =>
          rw [applyR] at h
          split at h
          · cases h
          · rename_i f body hs
            rw [VA] at hf
            obtain ⟨loc, hd, hf⟩ := hf
            obtain ⟨k1, k2⟩ := select_fine hs hf
            obtain ⟨x, y, _⟩ := hB h (dom_bind (params_len k2) hd) k1 (goodA_bind hg (va_params ha))
            exact ⟨x, y, by simp⟩
        | prim p k =>
          rw [applyR] at h
          split at h
          · split at h
            · cases h
            · rename_i v hv
              cases h
              refine ⟨?_, hg, by simp⟩
              intro w hw
              rw [List.mem_singleton.1 hw]
              exact va_prim ha hv
          · cases h
        | values => rw [applyR] at h; cases h; exact ⟨ha, hg, fun _ => rfl⟩
        | apply =>
          match as with
          | [] | [_] => simp [applyR] at h
          | f :: v :: ws =>
            rw [applyR] at h
            split at h
            · cases h
            · rename_i as hs
              obtain ⟨x, y, _⟩ := hP h (ha f (by simp)) (va_spread (fun w hw => ha w (by simp at hw ⊢; tauto)) hs) hg
              exact ⟨x, y, by simp⟩
        | cwv =>
          match as with
          | [] | [_] | _ :: _ :: _ :: _ => simp [applyR] at h
          | [p, c] =>
            rw [applyR] at h
            obtain ⟨⟨us, σ1⟩, h1, h2⟩ := Res.bind_eq_ok.1 h
            obtain ⟨a, b, _⟩ := hP h1 (ha p (by simp)) (by simp) hg
            obtain ⟨x, y, _⟩ := hP h2 (ha c (by simp)) a b
            exact ⟨x, y, by simp⟩
      | _ => simp [applyR] at h

/-- The invariants are kept from part to part. -/
theorem into_keepsA {P : Prims} {t t' : Task} {σ σ' : RS} (h : Into P t σ t' σ') (ht : TaskA T B t) (hg : GoodA T B σ) : TaskA T B t' ∧ GoodA T B σ' := by
  cases h with
  | define xs e => obtain ⟨loc, hd, ht⟩ := ht; rw [marks] at ht; exact ⟨⟨loc, hd, (Fine.append.1 ht).2⟩, hg⟩
  | set x e => obtain ⟨loc, hd, ht⟩ := ht; rw [marks] at ht; exact ⟨⟨loc, hd, (Fine.append.1 ht).2⟩, hg⟩
  | iteC c a b => obtain ⟨loc, hd, ht⟩ := ht; exact ⟨⟨loc, hd, (Fine.append.1 ht).1⟩, hg⟩
  | iteT h1 _ =>
    obtain ⟨loc, hd, ht⟩ := ht
    obtain ⟨n, h1⟩ := h1
    obtain ⟨k1, k2⟩ := Fine.append.1 ht
    obtain ⟨_, b, _⟩ := (keepsA P n).1 h1 hd k1 hg
    exact ⟨⟨loc, hd, (Fine.append.1 k2).1⟩, b⟩
  | iteE h1 _ =>
    obtain ⟨loc, hd, ht⟩ := ht
    obtain ⟨n, h1⟩ := h1
    obtain ⟨k1, k2⟩ := Fine.append.1 ht
    obtain ⟨_, b, _⟩ := (keepsA P n).1 h1 hd k1 hg
    exact ⟨⟨loc, hd, (Fine.append.1 k2).2⟩, b⟩
  | letvB bs body => obtain ⟨loc, hd, ht⟩ := ht; exact ⟨⟨loc, hd, (Fine.append.1 ht).1⟩, hg⟩
  | letv h1 =>
    obtain ⟨loc, hd, ht⟩ := ht
    obtain ⟨n, h1⟩ := h1
    obtain ⟨k1, k2⟩ := Fine.append.1 ht
    obtain ⟨a, b, d⟩ := (keepsA P n).2.2.2.1 h1 hd k1 hg
    exact ⟨⟨_, dom_bind d hd, k2⟩, goodA_bind b a⟩
  | letrecvB bs body =>
    obtain ⟨loc, hd, ht⟩ := ht
    have hd' := dom_bind (σ := σ) (vs := List.replicate (bdsIds bs).length .unbound) (xs := bdsIds bs) (by simp) hd
    exact ⟨⟨_, hd', (Fine.append.1 ht).1, fun x hx => by simp [hx]⟩, goodA_bind hg (va_replicate _)⟩
  | @letrecv ρ _ _ bs body h1 =>
    obtain ⟨loc, hd, ht⟩ := ht
    obtain ⟨n, h1⟩ := h1
    have hd' := dom_bind (σ := σ) (vs := List.replicate (bdsIds bs).length .unbound) (xs := bdsIds bs) (by simp) hd
    have b := (keepsA P n).2.2.2.2.1 h1 hd' (Fine.append.1 ht).1 (fun x hx => by simp [hx]) (goodA_bind hg (va_replicate _))
    exact ⟨⟨_, hd', (Fine.append.1 ht).2⟩, b⟩
  | begin es => exact ⟨ht, hg⟩
  | appF f args => obtain ⟨loc, hd, ht⟩ := ht; rw [marks, Fine.append, Fine.append] at ht; exact ⟨⟨loc, hd, ht.2.1⟩, hg⟩
  | appA h1 =>
    obtain ⟨loc, hd, ht⟩ := ht
    obtain ⟨n, h1⟩ := h1
    rw [marks, Fine.append, Fine.append] at ht
    obtain ⟨_, b, _⟩ := (keepsA P n).1 h1 hd ht.2.1 hg
    exact ⟨⟨loc, hd, ht.2.2⟩, b⟩
  | app h1 h2 =>
    obtain ⟨loc, hd, ht⟩ := ht
    obtain ⟨n, h1⟩ := h1
    obtain ⟨m, h2⟩ := h2
    rw [marks, Fine.append, Fine.append] at ht
    obtain ⟨a, b, _⟩ := (keepsA P n).1 h1 hd ht.2.1 hg
    obtain ⟨d, e, _⟩ := (keepsA P m).2.2.1 h2 hd ht.2.2 b
    exact ⟨⟨a _ (by simp), d⟩, e⟩
  | mvcallP e c => obtain ⟨loc, hd, ht⟩ := ht; exact ⟨⟨loc, hd, (Fine.append.1 ht).1⟩, hg⟩
  | mvcallC h1 =>
    obtain ⟨loc, hd, ht⟩ := ht
    obtain ⟨n, h1⟩ := h1
    obtain ⟨k1, k2⟩ := Fine.append.1 ht
    obtain ⟨_, b, _⟩ := (keepsA P n).1 h1 hd k1 hg
    exact ⟨⟨loc, hd, k2⟩, b⟩
  | mvcall h1 h2 =>
    obtain ⟨loc, hd, ht⟩ := ht
    obtain ⟨n, h1⟩ := h1
    obtain ⟨m, h2⟩ := h2
    obtain ⟨k1, k2⟩ := Fine.append.1 ht
    obtain ⟨a, b, _⟩ := (keepsA P n).1 h1 hd k1 hg
    obtain ⟨d, e, _⟩ := (keepsA P m).1 h2 hd k2 b
    exact ⟨⟨d _ (by simp), a⟩, e⟩
  | mvletP e xs body => obtain ⟨loc, hd, ht⟩ := ht; exact ⟨⟨loc, hd, (Fine.append.1 ht).1⟩, hg⟩
  | mvlet h1 hl =>
    obtain ⟨loc, hd, ht⟩ := ht
    obtain ⟨n, h1⟩ := h1
    obtain ⟨k1, k2⟩ := Fine.append.1 ht
    obtain ⟨a, b, _⟩ := (keepsA P n).1 h1 hd k1 hg
    exact ⟨⟨_, dom_bind hl hd, k2⟩, goodA_bind b a⟩
  | mvvals es => exact ⟨ht, hg⟩
  | last e => obtain ⟨loc, hd, ht⟩ := ht; exact ⟨⟨loc, hd, (Fine.append.1 ht).1⟩, hg⟩
  | first e e' es => obtain ⟨loc, hd, ht⟩ := ht; exact ⟨⟨loc, hd, (Fine.append.1 ht).1⟩, hg⟩
  | rest h1 =>
    obtain ⟨loc, hd, ht⟩ := ht
    obtain ⟨n, h1⟩ := h1
    obtain ⟨k1, k2⟩ := Fine.append.1 ht
    obtain ⟨_, b, _⟩ := (keepsA P n).1 h1 hd k1 hg
    exact ⟨⟨loc, hd, k2⟩, b⟩
  | arg e es => obtain ⟨loc, hd, ht⟩ := ht; exact ⟨⟨loc, hd, (Fine.append.1 ht).1⟩, hg⟩
  | args h1 =>
    obtain ⟨loc, hd, ht⟩ := ht
    obtain ⟨n, h1⟩ := h1
    obtain ⟨k1, k2⟩ := Fine.append.1 ht
    obtain ⟨_, b, _⟩ := (keepsA P n).1 h1 hd k1 hg
    exact ⟨⟨loc, hd, k2⟩, b⟩
  | bd xs e bs => obtain ⟨loc, hd, ht⟩ := ht; exact ⟨⟨loc, hd, (Fine.append.1 ht).1⟩, hg⟩
  | bds h1 _ _ =>
    obtain ⟨loc, hd, ht⟩ := ht
    obtain ⟨n, h1⟩ := h1
    obtain ⟨k1, k2⟩ := Fine.append.1 ht
    obtain ⟨_, b, _⟩ := (keepsA P n).1 h1 hd k1 hg
    exact ⟨⟨loc, hd, k2⟩, b⟩
  | rd xs e bs => obtain ⟨loc, hd, ht, _⟩ := ht; exact ⟨⟨loc, hd, (Fine.append.1 ht).1⟩, hg⟩
  | rds h1 _ _ h2 =>
    obtain ⟨loc, hd, ht, hl⟩ := ht
    obtain ⟨n, h1⟩ := h1
    obtain ⟨k1, k2⟩ := Fine.append.1 ht
    obtain ⟨a, b, _⟩ := (keepsA P n).1 h1 hd k1 hg
    have p := assigns_goodA h2 b a (fun x hx => (hd x).2 (hl x (by simp [bdsIds, Bd.ids, hx])))
    exact ⟨⟨loc, hd, k2, fun x hx => hl x (by simp [bdsIds, hx])⟩, p⟩
  | clo h1 =>
    obtain ⟨hf, ha⟩ := ht
    rw [VA] at hf
    obtain ⟨loc, hd, hf⟩ := hf
    obtain ⟨k1, k2⟩ := select_fine h1 hf
    exact ⟨⟨_, dom_bind (params_len k2) hd, k1⟩, goodA_bind hg (va_params ha)⟩
  | apply h1 => exact ⟨⟨ht.2 _ (by simp), va_spread (fun w hw => ht.2 w (by simp at hw ⊢; tauto)) h1⟩, hg⟩
  | cwvP p c => exact ⟨⟨ht.2 _ (by simp), by simp⟩, hg⟩
  | cwv h1 =>
    obtain ⟨n, h1⟩ := h1
    obtain ⟨a, b, _⟩ := (keepsA P n).2.2.2.2.2 h1 (ht.2 _ (by simp)) (by simp) hg
    exact ⟨⟨ht.2 _ (by simp), a⟩, b⟩

theorem intos_keepA {P : Prims} {t t' : Task} {σ σ' : RS} (h : Intos P t σ t' σ') (ht : TaskA T B t) (hg : GoodA T B σ) : TaskA T B t' ∧ GoodA T B σ' := by
  induction h with
  | refl => exact ⟨ht, hg⟩
  | step h1 _ ih =>
    obtain ⟨a, b⟩ := into_keepsA h1 ht hg
    exact ih a b

/-- A wrong call that is met is an excepted one, or one of a variable the table does not mention. -/
theorem intos_calls {P : Prims} {t t' : Task} {σ σ' : RS} (h : Intos P t σ t' σ') (ht : TaskA T B t) (hg : GoodA T B σ) {x : Sym} {n : Nat}
    (hw : WrongCall x n t' σ') : T x = none ∨ B x n = true := by
  obtain ⟨a, b⟩ := intos_keepA h ht hg
  obtain ⟨ρ, args, c, rfl, rfl, hρ, hx, hc⟩ := hw
  obtain ⟨loc, hd, hf⟩ := a
  rw [marks, Fine.append] at hf
  have hl : x ∉ loc := fun hx => (hd x).2 hx hρ
  have hm := hf.1
  rw [markF, if_neg hl, Fine.cons] at hm
  have hm := hm.1
  rw [fine, Bool.or_eq_true] at hm
  cases hT : T x with
  | none => exact .inl rfl
  | some ar =>
    right
    rcases hm with hm | hm
    · rw [hT] at hm
      dsimp only at hm
      obtain ⟨_, hs, _⟩ := b.2 x _ hx
      rw [hT] at hs
      obtain ⟨c', h1, h2⟩ := hs
      cases h1
      rw [h2, hm] at hc
      cases hc
    · exact hm

/-- Loading keeps the invariants. -/
theorem loads_keepA {P : Prims} {es : List E} {σ σ' : RS} (h : Loads P es σ σ') (hk : ∀ e ∈ es, Fine T B (marks T [] e)) (hg : GoodA T B σ) : GoodA T B σ' := by
  induction h with
  | nil => exact hg
  | @cons e es σ σ1 σ2 vs h1 h2 ih =>
    obtain ⟨n, h1⟩ := h1
    obtain ⟨_, b, _⟩ := (keepsA P n).1 h1 (loc := []) (fun x => by simp) (hk e (by simp)) hg
    exact ih (fun e he => hk e (by simp [he])) b

end Minim.Jit
