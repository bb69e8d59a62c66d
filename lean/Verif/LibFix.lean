import Verif.Scope

set_option autoImplicit false

/-!
# Variables that a program leaves alone (C108)

A specification of the variables an expression assigns, and what evaluation keeps: a top-level variable that no expression and no closure of the store assigns or defines, and the value of a local variable that none of
them can reach to assign.
-/

namespace Minim.Fix

open Minim.Sx Minim.Core Minim.Jit

/-- Specification: the writes that are not to variables of `xs`; `(true, x)` is a definition of the top-level variable `x`, `(false, x)` an assignment. -/
def free (xs : List Sym) (ps : List (Bool × Sym)) : List (Bool × Sym) := ps.filter fun p => p.1 || decide (p.2 ∉ xs)

mutual

/-- Specification: the variables the expression defines at top level, or assigns and does not bind. -/
def asg : E → List (Bool × Sym)
  | .var _ | .lit _ | .quote _ | .quoteSyntax _ | .unbound => []
  | .define xs e => xs.map (true, ·) ++ asg e
  | .set x e => (false, x) :: asg e
  | .ite c a b => asg c ++ (asg a ++ asg b)
  | .letv bs body => asgD bs ++ free (bdsIds bs) (asgs body)
  | .letrecv bs body => free (bdsIds bs) (asgD bs ++ asgs body)
  | .lam f body => free f.ids (asgs body)
  | .clam cs => asgC cs
  | .begin es => asgs es
  | .app f args => asg f ++ asgs args
  | .mvcall e c => asg e ++ asg c
  | .mvlet e xs body => asg e ++ free xs (asg body)
  | .mvvals es => asgs es

/-- Specification: the same for lists of expressions. -/
def asgs : List E → List (Bool × Sym)
  | [] => []
  | e :: es => asg e ++ asgs es

/-- Specification: the same for right-hand sides of bindings. -/
def asgD : List Bd → List (Bool × Sym)
  | [] => []
  | .mk _ e :: bs => asg e ++ asgD bs

/-- Specification: the same for clauses. -/
def asgC : List Cl → List (Bool × Sym)
  | [] => []
  | .mk f body :: cs => free f.ids (asgs body) ++ asgC cs

end

/-- Specification: assigning `x` in the environment `ρ` changes neither a cell of `F` nor a top-level variable of `Q`; the cell is one of the first `n`. -/
def Ok1 (F : Nat → Prop) (Q : Sym → Prop) (n : Nat) (ρ : REnv) (x : Sym) : Prop :=
  match ρ x with
  | some c => ¬ F c ∧ c < n
  | none => ¬ Q x

/-- Specification: the same for writes. -/
def Wr (F : Nat → Prop) (Q : Sym → Prop) (n : Nat) (ρ : REnv) (ps : List (Bool × Sym)) : Prop := ∀ p ∈ ps, if p.1 then ¬ Q p.2 else Ok1 F Q n ρ p.2

/-- Specification: values whose closures do not write these cells and variables. -/
def VF (F : Nat → Prop) (Q : Sym → Prop) (n : Nat) : RV → Prop
  | .clo (.clo ρ cs) => Wr F Q n ρ (asgC cs)
  | .clo _ => True
  | .cons a d => VF F Q n a ∧ VF F Q n d
  | .values | .num _ | .cell _ | .undef => False
  | _ => True

/-- Specification: a store with such values, which has the cells of `F`. -/
structure GoodF (F : Nat → Prop) (Q : Sym → Prop) (σ : RS) : Prop where
  cells : ∀ v ∈ σ.cells, VF F Q σ.cells.length v
  globs : ∀ x v, σ.globs x = some v → VF F Q σ.cells.length v
  has : ∀ c, F c → c < σ.cells.length

/-- Specification: the cells of `F` and the variables of `Q` are as before. -/
structure Kept (F : Nat → Prop) (Q : Sym → Prop) (σ σ' : RS) : Prop where
  len : σ.cells.length ≤ σ'.cells.length
  cells : ∀ c, F c → σ'.cells[c]? = σ.cells[c]?
  globs : ∀ x, Q x → σ'.globs x = σ.globs x

/-! ### Lemmas -/

variable {F : Nat → Prop} {Q : Sym → Prop}

theorem Kept.refl (σ : RS) : Kept F Q σ σ := ⟨Nat.le_refl _, fun _ _ => rfl, fun _ _ => rfl⟩

theorem Kept.trans {a b c : RS} (h : Kept F Q a b) (h' : Kept F Q b c) : Kept F Q a c :=
  ⟨Nat.le_trans h.len h'.len, fun i hi => (h'.cells i hi).trans (h.cells i hi), fun x hx => (h'.globs x hx).trans (h.globs x hx)⟩

theorem Ok1.mono {n m : Nat} (hn : n ≤ m) {ρ : REnv} {x : Sym} (h : Ok1 F Q n ρ x) : Ok1 F Q m ρ x := by
  unfold Ok1 at h ⊢
  split
  · rename_i c hc
    rw [hc] at h
    exact ⟨h.1, Nat.lt_of_lt_of_le h.2 hn⟩
  · rename_i hc
    rw [hc] at h
    exact h

theorem Wr.mono {n m : Nat} (hn : n ≤ m) {ρ : REnv} {ps : List (Bool × Sym)} (h : Wr F Q n ρ ps) : Wr F Q m ρ ps := by
  intro p hp
  have := h p hp
  split
  · rename_i ht
    rwa [if_pos ht] at this
  · rename_i ht
    rw [if_neg ht] at this
    exact this.mono hn

theorem VF.mono {n m : Nat} (hn : n ≤ m) : ∀ {v : RV}, VF F Q n v → VF F Q m v
  | .clo (.clo ρ cs), h => by rw [VF] at h ⊢; exact h.mono hn
  | .clo (.prim _ _), _ | .clo .values, _ | .clo .apply, _ | .clo .cwv, _ => trivial
  | .cons a d, h => by rw [VF] at h ⊢; exact ⟨h.1.mono hn, h.2.mono hn⟩
  | .null, _ | .sym _, _ | .lit _, _ | .other _, _ | .stx _, _ | .void, _ | .unbound, _ | .tenv _, _ => trivial

theorem Wr.append {n : Nat} {ρ : REnv} {xs ys : List (Bool × Sym)} : Wr F Q n ρ (xs ++ ys) ↔ Wr F Q n ρ xs ∧ Wr F Q n ρ ys := by
  simp only [Wr, List.mem_append]
  exact ⟨fun h => ⟨fun x hx => h x (.inl hx), fun x hx => h x (.inr hx)⟩, fun h x hx => hx.elim (h.1 x) (h.2 x)⟩

theorem wr_nil {n : Nat} {ρ : REnv} : Wr F Q n ρ [] := by simp [Wr]

/-- The relation of values to themselves for which C functions are parametric. -/
def RFc (F : Nat → Prop) (Q : Sym → Prop) (n : Nat) (c c' : RC) : Prop := c = c' ∧ VF F Q n (.clo c)

theorem vf_iff {n : Nat} : ∀ {v : RV}, VF F Q n v ↔ VRel (RFc F Q n) v v
  | .null => ⟨fun _ => .null, fun _ => trivial⟩
  | .sym s => ⟨fun _ => .sym s, fun _ => trivial⟩
  | .lit l => ⟨fun _ => .lit l, fun _ => trivial⟩
  | .other n => ⟨fun _ => .other n, fun _ => trivial⟩
  | .stx d => ⟨fun _ => .stx d, fun _ => trivial⟩
  | .void => ⟨fun _ => .void, fun _ => trivial⟩
  | .unbound => ⟨fun _ => .unbound, fun _ => trivial⟩
  | .tenv n => ⟨fun _ => .tenv n, fun _ => trivial⟩
  | .values => ⟨fun h => h.elim, fun h => by cases h⟩
  | .num _ => ⟨fun h => h.elim, fun h => by cases h⟩
  | .cell _ => ⟨fun h => h.elim, fun h => by cases h⟩
  | .undef => ⟨fun h => h.elim, fun h => by cases h⟩
  | .cons a d => by
    have ha := @vf_iff n a
    have hd := @vf_iff n d
    constructor
    · intro h
      rw [VF] at h
      exact .cons (ha.1 h.1) (hd.1 h.2)
    · intro h
      cases h with
      | cons h1 h2 => rw [VF]; exact ⟨ha.2 h1, hd.2 h2⟩
  | .clo c => by
    constructor
    · intro h; exact .clo ⟨rfl, h⟩
    · intro h
      cases h with
      | clo h => exact h.2

theorem vf_list {n : Nat} {vs : List RV} (h : ∀ v ∈ vs, VF F Q n v) : List.Forall₂ (VRel (RFc F Q n)) vs vs := by
  induction vs with
  | nil => exact .nil
  | cons v vs ih => exact .cons (vf_iff.1 (h v (by simp))) (ih (fun w hw => h w (by simp [hw])))

theorem vf_prim {n : Nat} {P : Prims} {p : Nat} {vs : List RV} {v : RV} (h : ∀ v ∈ vs, VF F Q n v) (hp : P.f RC p vs = some v) : VF F Q n v := by
  have := P.param (RFc F Q n) p vs vs (vf_list h)
  rw [hp] at this
  exact vf_iff.2 this

theorem vf_ofX {n : Nat} : ∀ (d : X), VF F Q n (ofX d)
  | .null => trivial
  | .sym _ => trivial
  | .lit _ => trivial
  | .other _ => trivial
  | .cons a d => by rw [ofX, VF]; exact ⟨vf_ofX a, vf_ofX d⟩

theorem vf_listV {n : Nat} : ∀ {vs : List RV}, (∀ v ∈ vs, VF F Q n v) → VF F Q n (listV vs)
  | [], _ => trivial
  | v :: vs, h => by rw [listV, VF]; exact ⟨h v (by simp), vf_listV (fun w hw => h w (by simp [hw]))⟩

theorem vf_unlist {n : Nat} : ∀ {v : RV} {vs : List RV}, VF F Q n v → unlist v = some vs → ∀ w ∈ vs, VF F Q n w := by
  intro v
  induction v with
  | null => intro vs _ h w hw; simp only [unlist, Option.some.injEq] at h; subst h; simp at hw
  | cons a d _ ih =>
    intro vs hv h w hw
    rw [VF] at hv
    simp only [unlist, Option.map_eq_some_iff] at h
    obtain ⟨l, h1, rfl⟩ := h
    rcases List.mem_cons.1 hw with rfl | hw
    · exact hv.1
    · exact ih hv.2 h1 w hw
  | _ => intro vs _ h; simp [unlist] at h

theorem vf_spread {n : Nat} : ∀ {vs as : List RV}, (∀ v ∈ vs, VF F Q n v) → spread vs = some as → ∀ w ∈ as, VF F Q n w
  | [], _, _, h => by simp [spread] at h
  | [l], as, hv, h => vf_unlist (hv l (by simp)) h
  | v :: w :: vs, as, hv, h => by
    simp only [spread, Option.map_eq_some_iff] at h
    obtain ⟨l, h1, rfl⟩ := h
    intro u hu
    rcases List.mem_cons.1 hu with rfl | hu
    · exact hv _ (by simp)
    · exact vf_spread (fun x hx => hv x (by simp at hx ⊢; tauto)) h1 u hu

theorem vf_params {n : Nat} {f : Formals} {vs : List RV} (h : ∀ v ∈ vs, VF F Q n v) : ∀ v ∈ params f vs, VF F Q n v := by
  rw [params]
  split
  · intro v hv
    rcases List.mem_append.1 hv with hv | hv
    · exact h v (List.mem_of_mem_take hv)
    · rw [List.mem_singleton.1 hv]
      exact vf_listV (fun w hw => h w (List.mem_of_mem_drop hw))
  · exact h

theorem bind_one {σ : RS} {v : RV} (h : GoodF F Q σ) (hv : VF F Q σ.cells.length v) : GoodF F Q { σ with cells := σ.cells ++ [v] } := by
  have hl : σ.cells.length ≤ (σ.cells ++ [v]).length := by simp
  refine ⟨fun w hw => ?_, fun x w hw => (h.globs x w hw).mono hl, fun c hc => Nat.lt_of_lt_of_le (h.has c hc) hl⟩
  rcases List.mem_append.1 hw with hw | hw
  · exact (h.cells w hw).mono hl
  · rw [List.mem_singleton.1 hw]; exact hv.mono hl

theorem keep_one {σ : RS} {v : RV} (h : GoodF F Q σ) : Kept F Q σ { σ with cells := σ.cells ++ [v] } :=
  ⟨by simp, fun c hc => List.getElem?_append_left (h.has c hc), fun _ _ => rfl⟩

theorem good_bind : ∀ {xs : List Sym} {vs : List RV} {ρ : REnv} {σ : RS}, GoodF F Q σ → (∀ v ∈ vs, VF F Q σ.cells.length v) →
    GoodF F Q (bindVals ρ σ xs vs).2 ∧ Kept F Q σ (bindVals ρ σ xs vs).2
  | [], vs, ρ, σ, h, _ => by cases vs <;> exact ⟨h, .refl _⟩
  | _ :: _, [], ρ, σ, h, _ => ⟨h, .refl _⟩
  | x :: xs, v :: vs, ρ, σ, h, hv => by
    rw [bindVals]
    have k := keep_one (v := v) h
    obtain ⟨a, b⟩ := good_bind (xs := xs) (vs := vs) (ρ := ρ.set x σ.cells.length) (bind_one h (hv v (by simp))) (fun w hw => (hv w (by simp [hw])).mono k.len)
    exact ⟨a, k.trans b⟩

/-- A variable that is not bound anew. -/
theorem ok_keep : ∀ {xs : List Sym} {vs : List RV} {ρ : REnv} {σ : RS} {x : Sym}, GoodF F Q σ → (∀ v ∈ vs, VF F Q σ.cells.length v) → Ok1 F Q σ.cells.length ρ x →
    Ok1 F Q (bindVals ρ σ xs vs).2.cells.length (bindVals ρ σ xs vs).1 x
  | [], vs, ρ, σ, x, _, _, h => by cases vs <;> exact h
  | _ :: _, [], ρ, σ, x, _, _, h => h
  | y :: xs, v :: vs, ρ, σ, x, hg, hv, h => by
    rw [bindVals]
    have k := keep_one (v := v) hg
    refine ok_keep (bind_one hg (hv v (by simp))) (fun w hw => (hv w (by simp [hw])).mono k.len) ?_
    by_cases hy : x = y
    · have : (ρ.set y σ.cells.length) x = some σ.cells.length := by rw [REnv.set, if_pos hy]
      rw [Ok1, this]
      exact ⟨fun hF => absurd (hg.has _ hF) (Nat.lt_irrefl _), by simp⟩
    · have : (ρ.set y σ.cells.length) x = ρ x := by rw [REnv.set, if_neg hy]
      have h' := h.mono k.len
      rw [Ok1] at h' ⊢
      rw [this]
      exact h'

/-- A variable that is bound anew. -/
theorem ok_bound : ∀ {xs : List Sym} {vs : List RV} {ρ : REnv} {σ : RS} {x : Sym}, GoodF F Q σ → (∀ v ∈ vs, VF F Q σ.cells.length v) → vs.length = xs.length → x ∈ xs →
    Ok1 F Q (bindVals ρ σ xs vs).2.cells.length (bindVals ρ σ xs vs).1 x
  | [], _, _, _, _, _, _, _, h => by simp at h
  | y :: xs, [], _, _, _, _, _, h, _ => by simp at h
  | y :: xs, v :: vs, ρ, σ, x, hg, hv, h, hx => by
    rw [bindVals]
    have k := keep_one (v := v) hg
    have hg' := bind_one hg (hv v (by simp))
    have hv' : ∀ w ∈ vs, VF F Q (σ.cells ++ [v]).length w := fun w hw => (hv w (by simp [hw])).mono k.len
    by_cases hy : x ∈ xs
    · exact ok_bound hg' hv' (by simpa using h) hy
    · have : x = y := by rcases List.mem_cons.1 hx with h | h; exact h; exact absurd h hy
      refine ok_keep hg' hv' ?_
      have : (ρ.set y σ.cells.length) x = some σ.cells.length := by rw [REnv.set, if_pos this]
      rw [Ok1, this]
      exact ⟨fun hF => absurd (hg.has _ hF) (Nat.lt_irrefl _), by simp⟩

/-- The body of a binding construct. -/
theorem Wr.bind {xs : List Sym} {ps : List (Bool × Sym)} {vs : List RV} {ρ : REnv} {σ : RS} (hg : GoodF F Q σ) (hv : ∀ v ∈ vs, VF F Q σ.cells.length v) (hl : vs.length = xs.length)
    (h : Wr F Q σ.cells.length ρ (free xs ps)) : Wr F Q (bindVals ρ σ xs vs).2.cells.length (bindVals ρ σ xs vs).1 ps := by
  intro p hp
  split
  · rename_i ht
    have := h p (by simp [free, hp, ht])
    rwa [if_pos ht] at this
  · rename_i ht
    by_cases hx : p.2 ∈ xs
    · exact ok_bound hg hv hl hx
    · have := h p (by simp [free, hp, hx])
      rw [if_neg ht] at this
      exact ok_keep hg hv this

theorem good_setGlob {σ : RS} {x : Sym} {v : RV} (h : GoodF F Q σ) (hv : VF F Q σ.cells.length v) : GoodF F Q (σ.setGlob x v) := by
  refine ⟨h.cells, fun y w hw => ?_, h.has⟩
  simp only [RS.setGlob] at hw
  split at hw
  · cases hw; exact hv
  · exact h.globs y w hw

theorem keep_setGlob {σ : RS} {x : Sym} {v : RV} (hx : ¬ Q x) : Kept F Q σ (σ.setGlob x v) := by
  refine ⟨Nat.le_refl _, fun _ _ => rfl, fun y hy => ?_⟩
  simp only [RS.setGlob]
  rw [if_neg]
  rintro rfl
  exact hx hy

theorem good_setGlobs : ∀ {xs : List Sym} {vs : List RV} {σ : RS}, GoodF F Q σ → (∀ v ∈ vs, VF F Q σ.cells.length v) → GoodF F Q (σ.setGlobs xs vs)
  | [], vs, σ, h, _ => by cases vs <;> exact h
  | _ :: _, [], σ, h, _ => h
  | x :: xs, v :: vs, σ, h, hv => by
    rw [RS.setGlobs]
    exact good_setGlobs (good_setGlob h (hv v (by simp))) (fun w hw => hv w (by simp [hw]))

theorem keep_setGlobs : ∀ {xs : List Sym} {vs : List RV} {σ : RS}, (∀ x ∈ xs, ¬ Q x) → Kept F Q σ (σ.setGlobs xs vs)
  | [], vs, σ, _ => by cases vs <;> exact .refl _
  | _ :: _, [], σ, _ => .refl _
  | x :: xs, v :: vs, σ, h => by
    rw [RS.setGlobs]
    exact (keep_setGlob (h x (by simp))).trans (keep_setGlobs fun y hy => h y (by simp [hy]))

theorem assign_keep {ρ : REnv} {σ σ' : RS} {x : Sym} {v : RV} (h : assignR ρ σ x v = .ok σ') (hg : GoodF F Q σ) (hv : VF F Q σ.cells.length v) (hx : Ok1 F Q σ.cells.length ρ x) :
    GoodF F Q σ' ∧ Kept F Q σ σ' := by
  rw [assignR] at h
  rw [Ok1] at hx
  split at h
  · rename_i c hc
    rw [hc] at hx
    split at h
    · cases h
      refine ⟨⟨fun w hw => ?_, fun x w hw => ?_, fun c hc => ?_⟩, ⟨by simp, fun c' hc' => ?_, fun _ _ => rfl⟩⟩
      · simp only [List.length_set]
        rcases List.mem_or_eq_of_mem_set hw with hw | rfl
        · exact hg.cells w hw
        · exact hv
      · simpa using hg.globs x w hw
      · simpa using hg.has c hc
      · have : c ≠ c' := by rintro rfl; exact hx.1 hc'
        simp [this]
    · cases h
  · rename_i hc
    rw [hc] at hx
    split at h
    · cases h
    · cases h
      exact ⟨good_setGlob hg hv, keep_setGlob hx⟩

theorem assigns_keep : ∀ {xs : List Sym} {vs : List RV} {ρ : REnv} {σ σ' : RS}, assignsR ρ σ xs vs = .ok σ' → GoodF F Q σ → (∀ v ∈ vs, VF F Q σ.cells.length v) →
    (∀ x ∈ xs, Ok1 F Q σ.cells.length ρ x) → GoodF F Q σ' ∧ Kept F Q σ σ'
  | [], vs, ρ, σ, σ', h, hg, _, _ => by
    cases vs <;> (simp only [assignsR, Res.ok.injEq] at h; subst h; exact ⟨hg, .refl _⟩)
  | _ :: _, [], ρ, σ, σ', h, hg, _, _ => by simp only [assignsR, Res.ok.injEq] at h; subst h; exact ⟨hg, .refl _⟩
  | x :: xs, v :: vs, ρ, σ, σ', h, hg, hv, hx => by
    rw [assignsR] at h
    obtain ⟨σ1, h1, h2⟩ := Res.bind_eq_ok.1 h
    obtain ⟨a, b⟩ := assign_keep h1 hg (hv v (by simp)) (hx x (by simp))
    obtain ⟨c, d⟩ := assigns_keep h2 a (fun w hw => (hv w (by simp [hw])).mono b.len) (fun y hy => (hx y (by simp [hy])).mono b.len)
    exact ⟨c, b.trans d⟩

/-- A clause that is selected. -/
theorem select_wr {n : Nat} {ρ : REnv} {f : Formals} {body : List E} : ∀ {cs : List Cl} {k : Nat}, select cs k = some (f, body) → Wr F Q n ρ (asgC cs) →
    Wr F Q n ρ (free f.ids (asgs body)) ∧ acceptsN f k = true
  | [], _, h, _ => by simp [select] at h
  | .mk f' body' :: cs, k, h, hk => by
    rw [asgC, Wr.append] at hk
    rw [select] at h
    split at h
    · rename_i ha
      cases h
      exact ⟨hk.1, ha⟩
    · exact select_wr h hk.2

/-- The values are good in a later store. -/
theorem vals_mono {n m : Nat} (hn : n ≤ m) {vs : List RV} (h : ∀ v ∈ vs, VF F Q n v) : ∀ v ∈ vs, VF F Q m v := fun v hv => (h v hv).mono hn

/-- The invariants are kept by evaluation. -/
def KeepsF (F : Nat → Prop) (Q : Sym → Prop) (P : Prims) (n : Nat) : Prop :=
  (∀ {ρ e σ vs σ'}, ev P n ρ e σ = .ok (vs, σ') → Wr F Q σ.cells.length ρ (asg e) → GoodF F Q σ → (∀ v ∈ vs, VF F Q σ'.cells.length v) ∧ GoodF F Q σ' ∧ Kept F Q σ σ') ∧
  (∀ {ρ es σ vs σ'}, evBody P n ρ es σ = .ok (vs, σ') → Wr F Q σ.cells.length ρ (asgs es) → GoodF F Q σ → (∀ v ∈ vs, VF F Q σ'.cells.length v) ∧ GoodF F Q σ' ∧ Kept F Q σ σ') ∧
  (∀ {ρ es σ vs σ'}, evArgs P n ρ es σ = .ok (vs, σ') → Wr F Q σ.cells.length ρ (asgs es) → GoodF F Q σ → (∀ v ∈ vs, VF F Q σ'.cells.length v) ∧ GoodF F Q σ' ∧ Kept F Q σ σ') ∧
  (∀ {ρ bs σ vs σ'}, evBds P n ρ bs σ = .ok (vs, σ') → Wr F Q σ.cells.length ρ (asgD bs) → GoodF F Q σ →
    (∀ v ∈ vs, VF F Q σ'.cells.length v) ∧ GoodF F Q σ' ∧ Kept F Q σ σ' ∧ vs.length = (bdsIds bs).length) ∧
  (∀ {ρ bs σ σ'}, evRec P n ρ bs σ = .ok σ' → Wr F Q σ.cells.length ρ (asgD bs) → (∀ x ∈ bdsIds bs, Ok1 F Q σ.cells.length ρ x) → GoodF F Q σ → GoodF F Q σ' ∧ Kept F Q σ σ') ∧
  (∀ {f as σ vs σ'}, applyR P n f as σ = .ok (vs, σ') → VF F Q σ.cells.length f → (∀ v ∈ as, VF F Q σ.cells.length v) → GoodF F Q σ →
    (∀ v ∈ vs, VF F Q σ'.cells.length v) ∧ GoodF F Q σ' ∧ Kept F Q σ σ')

theorem keepsF (P : Prims) : ∀ n, KeepsF F Q P n
  | 0 => by
    refine ⟨?_, ?_, ?_, ?_, ?_, ?_⟩ <;> intros <;> simp_all [ev, evBody, evArgs, evBds, evRec, applyR]
  | n + 1 => by
    obtain ⟨hE, hB, hA, hD, hR, hP⟩ := keepsF P n
    refine ⟨?_, ?_, ?_, ?_, ?_, ?_⟩
    · intro ρ e σ vs σ' h hk hg
      cases e with
      | var x =>
        rw [ev] at h
        obtain ⟨v, h1, h2⟩ := Res.bind_eq_ok.1 h
        cases h2
        refine ⟨?_, hg, .refl _⟩
        intro w hw
        rw [List.mem_singleton.1 hw]
        rw [lookupR] at h1
        split at h1
        · cases h1
        · cases h1
        · rename_i v' _ hv'
          cases h1
          split at hv'
          · exact hg.cells _ (List.mem_of_getElem? hv')
          · exact hg.globs _ _ hv'
      | lit l => rw [ev] at h; cases h; exact ⟨by simp [VF], hg, .refl _⟩
      | quote d => rw [ev] at h; cases h; exact ⟨by simp [vf_ofX], hg, .refl _⟩
      | quoteSyntax d => rw [ev] at h; cases h; exact ⟨by simp [VF], hg, .refl _⟩
      | unbound => rw [ev] at h; cases h; exact ⟨by simp [VF], hg, .refl _⟩
      | define xs e =>
        rw [ev] at h
        obtain ⟨⟨ws, σ1⟩, h1, h2⟩ := Res.bind_eq_ok.1 h
        rw [asg, Wr.append] at hk
        obtain ⟨a, b, c⟩ := hE h1 hk.2 hg
        dsimp only at h2
        split at h2
        · cases h2
          refine ⟨by simp [VF], good_setGlobs b a, c.trans (keep_setGlobs fun x hx => ?_)⟩
          have := hk.1 (true, x) (by simpa using hx)
          simpa using this
        · cases h2
      | set x e =>
        rw [ev] at h
        obtain ⟨⟨ws, σ1⟩, h1, h2⟩ := Res.bind_eq_ok.1 h
        obtain ⟨v, h3, h4⟩ := Res.bind_eq_ok.1 h2
        obtain ⟨σ2, h5, h6⟩ := Res.bind_eq_ok.1 h4
        cases h6
        rw [asg] at hk
        obtain ⟨a, b, c⟩ := hE h1 (fun p hp => hk p (by simp [hp])) hg
        have := single_eq h3
        subst this
        have hx : Ok1 F Q σ.cells.length ρ x := by simpa using hk (false, x) (by simp)
        obtain ⟨p, q⟩ := assign_keep h5 b (a v (by simp)) (hx.mono c.len)
        exact ⟨by simp [VF], p, c.trans q⟩
      | ite c a b =>
        rw [ev] at h
        obtain ⟨⟨ws, σ1⟩, h1, h2⟩ := Res.bind_eq_ok.1 h
        obtain ⟨v, h3, h4⟩ := Res.bind_eq_ok.1 h2
        rw [asg, Wr.append, Wr.append] at hk
        obtain ⟨_, g1, g2⟩ := hE h1 hk.1 hg
        split at h4
        · obtain ⟨x, y, z⟩ := hE h4 (hk.2.2.mono g2.len) g1
          exact ⟨x, y, g2.trans z⟩
        · obtain ⟨x, y, z⟩ := hE h4 (hk.2.1.mono g2.len) g1
          exact ⟨x, y, g2.trans z⟩
      | letv bs body =>
        rw [ev] at h
        obtain ⟨⟨ws, σ1⟩, h1, h2⟩ := Res.bind_eq_ok.1 h
        rw [asg, Wr.append] at hk
        obtain ⟨a, b, c, d⟩ := hD h1 hk.1 hg
        obtain ⟨g, k⟩ := good_bind (xs := bdsIds bs) (ρ := ρ) b a
        obtain ⟨x, y, z⟩ := hB h2 (Wr.bind b a d (hk.2.mono c.len)) g
        exact ⟨x, y, c.trans (k.trans z)⟩
      | letrecv bs body =>
        rw [ev] at h
        dsimp only at h
        obtain ⟨σ1, h1, h2⟩ := Res.bind_eq_ok.1 h
        rw [asg] at hk
        have hu : ∀ v ∈ List.replicate (bdsIds bs).length (V.unbound : RV), VF F Q σ.cells.length v := fun v hv => by rw [(List.mem_replicate.1 hv).2]; trivial
        have hk' := Wr.bind (σ := σ) (vs := List.replicate (bdsIds bs).length .unbound) hg hu (by simp) hk
        rw [Wr.append] at hk'
        obtain ⟨g, k⟩ := good_bind (xs := bdsIds bs) (ρ := ρ) hg hu
        obtain ⟨b, c⟩ := hR h1 hk'.1 (fun x hx => ok_bound hg hu (by simp) hx) g
        obtain ⟨x, y, z⟩ := hB h2 (hk'.2.mono c.len) b
        exact ⟨x, y, k.trans (c.trans z)⟩
      | lam f body =>
        rw [ev] at h
        cases h
        rw [asg] at hk
        refine ⟨?_, hg, .refl _⟩
        intro w hw
        rw [List.mem_singleton.1 hw, VF]
        simpa [asgC] using hk
      | clam cs =>
        rw [ev] at h
        cases h
        rw [asg] at hk
        refine ⟨?_, hg, .refl _⟩
        intro w hw
        rw [List.mem_singleton.1 hw, VF]
        exact hk
      | begin es =>
        rw [ev] at h
        rw [asg] at hk
        exact hB h hk hg
      | app f args =>
        rw [ev] at h
        obtain ⟨⟨ws, σ1⟩, h1, h2⟩ := Res.bind_eq_ok.1 h
        obtain ⟨v, h3, h4⟩ := Res.bind_eq_ok.1 h2
        obtain ⟨⟨as, σ2⟩, h5, h6⟩ := Res.bind_eq_ok.1 h4
        rw [asg, Wr.append] at hk
        obtain ⟨a, b, c⟩ := hE h1 hk.1 hg
        have := single_eq h3
        subst this
        obtain ⟨d, e, f⟩ := hA h5 (hk.2.mono c.len) b
        obtain ⟨x, y, z⟩ := hP h6 ((a v (by simp)).mono f.len) d e
        exact ⟨x, y, c.trans (f.trans z)⟩
      | mvcall e c =>
        rw [ev] at h
        obtain ⟨⟨as, σ1⟩, h1, h2⟩ := Res.bind_eq_ok.1 h
        obtain ⟨⟨ws, σ2⟩, h3, h4⟩ := Res.bind_eq_ok.1 h2
        obtain ⟨v, h5, h6⟩ := Res.bind_eq_ok.1 h4
        rw [asg, Wr.append] at hk
        obtain ⟨a, b, c⟩ := hE h1 hk.1 hg
        obtain ⟨d, e, f⟩ := hE h3 (hk.2.mono c.len) b
        have := single_eq h5
        subst this
        obtain ⟨x, y, z⟩ := hP h6 (d v (by simp)) (vals_mono f.len a) e
        exact ⟨x, y, c.trans (f.trans z)⟩
      | mvlet e xs body =>
        rw [ev] at h
        obtain ⟨⟨ws, σ1⟩, h1, h2⟩ := Res.bind_eq_ok.1 h
        rw [asg, Wr.append] at hk
        obtain ⟨a, b, c⟩ := hE h1 hk.1 hg
        dsimp only at h2
        split at h2
        · rename_i hl
          obtain ⟨g, k⟩ := good_bind (xs := xs) (ρ := ρ) b a
          obtain ⟨x, y, z⟩ := hE h2 (Wr.bind b a hl (hk.2.mono c.len)) g
          exact ⟨x, y, c.trans (k.trans z)⟩
        · cases h2
      | mvvals es =>
        rw [ev] at h
        rw [asg] at hk
        exact hA h hk hg
    · intro ρ es σ vs σ' h hk hg
      match es with
      | [] => rw [evBody] at h; cases h; exact ⟨by simp [VF], hg, .refl _⟩
      | [e] =>
        rw [evBody] at h
        rw [asgs, asgs, List.append_nil] at hk
        exact hE h hk hg
      | e :: e' :: es =>
        rw [evBody] at h
        obtain ⟨⟨ws, σ1⟩, h1, h2⟩ := Res.bind_eq_ok.1 h
        rw [asgs, Wr.append] at hk
        obtain ⟨_, b, c⟩ := hE h1 hk.1 hg
        obtain ⟨x, y, z⟩ := hB h2 (hk.2.mono c.len) b
        exact ⟨x, y, c.trans z⟩
    · intro ρ es σ vs σ' h hk hg
      match es with
      | [] => rw [evArgs] at h; cases h; exact ⟨by simp, hg, .refl _⟩
      | e :: es =>
        rw [evArgs] at h
        obtain ⟨⟨ws, σ1⟩, h1, h2⟩ := Res.bind_eq_ok.1 h
        obtain ⟨v, h3, h4⟩ := Res.bind_eq_ok.1 h2
        obtain ⟨⟨as, σ2⟩, h5, h6⟩ := Res.bind_eq_ok.1 h4
        cases h6
        rw [asgs, Wr.append] at hk
        obtain ⟨a, b, c⟩ := hE h1 hk.1 hg
        have := single_eq h3
        subst this
        obtain ⟨x, y, z⟩ := hA h5 (hk.2.mono c.len) b
        refine ⟨?_, y, c.trans z⟩
        intro w hw
        rcases List.mem_cons.1 hw with rfl | hw
        · exact (a _ (by simp)).mono z.len
        · exact x w hw
    · intro ρ bs σ vs σ' h hk hg
      match bs with
      | [] => rw [evBds] at h; cases h; exact ⟨by simp, hg, .refl _, rfl⟩
      | .mk xs e :: bs =>
        rw [evBds] at h
        obtain ⟨⟨ws, σ1⟩, h1, h2⟩ := Res.bind_eq_ok.1 h
        rw [asgD, Wr.append] at hk
        obtain ⟨a, b, c⟩ := hE h1 hk.1 hg
        dsimp only at h2
        split at h2
        · rename_i hl
          obtain ⟨⟨us, σ2⟩, h3, h4⟩ := Res.bind_eq_ok.1 h2
          cases h4
          obtain ⟨x, y, z, l⟩ := hD h3 (hk.2.mono c.len) b
          refine ⟨?_, y, c.trans z, by simp [bdsIds, Bd.ids, l, hl.1]⟩
          intro w hw
          rcases List.mem_append.1 hw with hw | hw
          · exact (a w hw).mono z.len
          · exact x w hw
        · cases h2
    · intro ρ bs σ σ' h hk hx hg
      match bs with
      | [] => rw [evRec] at h; cases h; exact ⟨hg, .refl _⟩
      | .mk xs e :: bs =>
        rw [evRec] at h
        obtain ⟨⟨ws, σ1⟩, h1, h2⟩ := Res.bind_eq_ok.1 h
        rw [asgD, Wr.append] at hk
        obtain ⟨a, b, c⟩ := hE h1 hk.1 hg
        dsimp only at h2
        split at h2
        · obtain ⟨σ2, h3, h4⟩ := Res.bind_eq_ok.1 h2
          obtain ⟨p, q⟩ := assigns_keep h3 b a (fun x hx' => (hx x (by simp [bdsIds, Bd.ids, hx'])).mono c.len)
          obtain ⟨y, z⟩ := hR h4 (hk.2.mono (c.trans q).len) (fun x hx' => (hx x (by simp [bdsIds, hx'])).mono (c.trans q).len) p
          exact ⟨y, c.trans (q.trans z)⟩
        · cases h2
    · intro f as σ vs σ' h hf ha hg
      cases f with
      | clo c =>
        cases c with
        | clo ρ cs =>
          rw [applyR] at h
          split at h
          · cases h
          · rename_i f body hs
            rw [VF] at hf
            obtain ⟨k1, k2⟩ := select_wr hs hf
            obtain ⟨g, k⟩ := good_bind (xs := f.ids) (ρ := ρ) hg (vf_params (f := f) ha)
            obtain ⟨x, y, z⟩ := hB h (Wr.bind hg (vf_params ha) (params_len k2) k1) g
            exact ⟨x, y, k.trans z⟩
        | prim p k =>
          rw [applyR] at h
          split at h
          · split at h
            · cases h
            · rename_i v hv
              cases h
              refine ⟨?_, hg, .refl _⟩
              intro w hw
              rw [List.mem_singleton.1 hw]
              exact vf_prim ha hv
          · cases h
        | values => rw [applyR] at h; cases h; exact ⟨ha, hg, .refl _⟩
        | apply =>
          match as with
          | [] | [_] => simp [applyR] at h
          | f :: v :: ws =>
            rw [applyR] at h
            split at h
            · cases h
            · rename_i as hs
              exact hP h (ha f (by simp)) (vf_spread (fun w hw => ha w (by simp at hw ⊢; tauto)) hs) hg
        | cwv =>
          match as with
          | [] | [_] | _ :: _ :: _ :: _ => simp [applyR] at h
          | [p, c] =>
            rw [applyR] at h
            obtain ⟨⟨us, σ1⟩, h1, h2⟩ := Res.bind_eq_ok.1 h
            obtain ⟨a, b, c'⟩ := hP h1 (ha p (by simp)) (by simp) hg
            obtain ⟨x, y, z⟩ := hP h2 ((ha c (by simp)).mono c'.len) a b
            exact ⟨x, y, c'.trans z⟩
      | _ => simp [applyR] at h

/-- An expression at top level. -/
theorem evs_keep {P : Prims} {e : E} {σ σ' : RS} {vs : List RV} (h : Evs P (fun _ => none) e σ vs σ') (he : ∀ p ∈ asg e, ¬ Q p.2) (hg : GoodF F Q σ) :
    (∀ v ∈ vs, VF F Q σ'.cells.length v) ∧ GoodF F Q σ' ∧ Kept F Q σ σ' := by
  obtain ⟨n, h⟩ := h
  refine (keepsF P n).1 h (fun p hp => ?_) hg
  have := he p hp
  split
  · exact this
  · exact this

/-- The expressions of a file. -/
theorem loads_keep {P : Prims} {es : List E} {σ σ' : RS} (h : Loads P es σ σ') (he : ∀ e ∈ es, ∀ p ∈ asg e, ¬ Q p.2) (hg : GoodF F Q σ) : GoodF F Q σ' ∧ Kept F Q σ σ' := by
  induction h with
  | nil σ => exact ⟨hg, .refl _⟩
  | cons h1 h2 ih =>
    obtain ⟨_, b, c⟩ := evs_keep h1 (he _ (by simp)) hg
    obtain ⟨d, e⟩ := ih (fun e h => he e (by simp [h])) b
    exact ⟨d, c.trans e⟩

end Minim.Fix
