import Verif.ScopeProps

set_option autoImplicit false

/-!
# The library can be loaded (C104)

That the hypotheses of `C104_boot_partial` can be met: a run of the whole of prelude.min and boot.min with C functions that do next to nothing.
-/

namespace Minim.Lib

open Minim.Sx Minim.Core Minim.Jit

/-- The C functions that return #t here. -/
def yes (p : Nat) : Bool := decide ((.user p : Sym) ∈ [S.«record-type-descriptor?», S.«fixnum?», S.«procedure?», S.«symbol?», S.«string?», S.«list?», S.«environment?», S.«$fx2=», S.«$fx2>=», S.«$fx2<»])

/-- C functions that treat lists as they should, and otherwise return #t or #f whatever the arguments. -/
def idleP : Prims where
  f _ p as := match as with
    | [.null] => some (.lit (if yes p || decide ((.user p : Sym) = S.«null?») then .tru else .fls))
    | [.cons a d] => if (.user p : Sym) = S.«$car» then some a else if (.user p : Sym) = S.«$cdr» then some d else some (.lit (if yes p then .tru else .fls))
    | _ => if (.user p : Sym) = S.«$environment-symbols» then some .null else some (.lit (if yes p then .tru else .fls))
  param _ p _ _ h := by
    have h0 : ∀ {C C' : Type} {R : C → C' → Prop} {c : Prop} [Decidable c] (l : Lit), ORel (VRel R) (if c then some V.null else some (.lit l)) (if c then some V.null else some (.lit l)) := by
      intro C C' R c _ l
      split
      exact .null
      exact .lit l
    cases h with
    | nil => exact h0 _
    | cons h h' =>
      cases h' with
      | nil =>
        cases h with
        | cons h1 h2 => dsimp only; split; exact h1; split; exact h2; exact .lit _
        | null => exact .lit _
        | _ => exact h0 _
      | cons _ _ => cases h <;> exact h0 _

/-- The top-level environment the C code makes, with the C functions numbered like their names (env.c:186-194, prim.c:17-229). -/
def start : RS where
  cells := []
  globs x :=
    if x = .values then some (.clo .values) else
    if x = S.null then some .null else
    if x = S.true then some (.lit .tru) else
    if x = S.false then some (.lit .fls) else
    if x = S.eof then some (.other 0) else
    if x = S.apply then some (.clo .apply) else
    match x with
    | .user n => match arities[n]? with
      | some (some k) => some (.clo (.prim n k))
      | some none => some (.clo (.prim n (if x = S.void then 0 else 1)))
      | none => none
    | _ => none

/-- Evaluate expressions one after the other. -/
def loadAll (P : Prims) (n : Nat) : List E → RS → Option RS
  | [], σ => some σ
  | e :: es, σ => match ev P n (fun _ => none) e σ with
    | .ok (_, σ1) => loadAll P n es σ1
    | _ => none

theorem loads_of {P : Prims} {n : Nat} : ∀ {es : List E} {σ σ' : RS}, loadAll P n es σ = some σ' → Loads P es σ σ'
  | [], σ, σ', h => by simp only [loadAll, Option.some.injEq] at h; subst h; exact .nil _
  | e :: es, σ, σ', h => by
    rw [loadAll] at h
    split at h
    · rename_i vs σ1 h1
      exact .cons ⟨n, h1⟩ (loads_of h)
    · cases h

theorem loads_some (P : Prims) (n : Nat) (es : List E) (σ : RS) (h : (loadAll P n es σ).isSome = true) : ∃ σ', Loads P es σ σ' := by
  cases h' : loadAll P n es σ with
  | none => rw [h'] at h; cases h
  | some σ' => exact ⟨σ', loads_of h'⟩

theorem loaded : (loadAll idleP 42 (prelude ++ boot) start).isSome = true := by decide +kernel

/-- `C104_boot_partial` is not vacuous: the whole library can be loaded into an environment as the C code makes it. -/
example : (∀ G, GoodV G start) ∧ (∀ x, inKernel x = true → start.globs x ≠ none) ∧ ∃ σ1, Loads idleP (prelude ++ boot) start σ1 := by
  refine ⟨fun G => ⟨by simp [start], ?_⟩, ?_, ?_⟩
  · intro x v h
    simp only [start] at h
    repeat' split at h
    all_goals first
      | (cases h; done)
      | (simp only [Option.some.injEq] at h; subst h; simp [VS])
  · have h : ∀ n < kernel, start.globs (.user n) ≠ none := by
      have : ∀ n < kernel, (start.globs (.user n)).isSome = true := by decide +kernel
      intro n hn h
      have := this n hn
      rw [h] at this
      cases this
    intro x hx
    cases x with
    | user n => exact h n (by simpa [inKernel] using hx)
    | values => simp [start]
    | _ => simp [inKernel] at hx
  · exact loads_some idleP 42 _ start loaded

end Minim.Lib
