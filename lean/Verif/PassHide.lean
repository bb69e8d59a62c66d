import Verif.PassTop
import Verif.Scope

set_option autoImplicit false

/-!
# Variables that do not occur do not matter (C110)

prelude.min defines `call-with-values` by its 55th form.  The forms before it do not use it, so they run in an environment without it as they do in one with it.
-/

namespace Minim.Jit

open Minim.Sx Minim.Core

mutual

/-- Specification: the variable does not occur in the expression (other than as a parameter). -/
def lacks (x : Sym) : E → Bool
  | .var y => !decide (y = x)
  | .lit _ | .quote _ | .quoteSyntax _ | .unbound => true
  | .define ys e => !decide (x ∈ ys) && lacks x e
  | .set y e => !decide (y = x) && lacks x e
  | .ite c a b => lacks x c && lacks x a && lacks x b
  | .letv bs body => lacksD x bs && lacksL x body
  | .letrecv bs body => lacksD x bs && lacksL x body
  | .lam _ body => lacksL x body
  | .clam cs => lacksC x cs
  | .begin es => lacksL x es
  | .app f args => lacks x f && lacksL x args
  | .mvcall e c => lacks x e && lacks x c
  | .mvlet e _ body => lacks x e && lacks x body
  | .mvvals es => lacksL x es

/-- Specification: the same for lists of expressions. -/
def lacksL (x : Sym) : List E → Bool
  | [] => true
  | e :: es => lacks x e && lacksL x es

/-- Specification: the same for bindings. -/
def lacksD (x : Sym) : List Bd → Bool
  | [] => true
  | .mk ys e :: bs => !decide (x ∈ ys) && lacks x e && lacksD x bs

/-- Specification: the same for clauses. -/
def lacksC (x : Sym) : List Cl → Bool
  | [] => true
  | .mk _ body :: cs => lacksL x body && lacksC x cs

end

/-- Specification: the variable does not occur in the procedures that are part of the value. -/
def VH (x : Sym) : RV → Prop
  | .clo (.clo _ cs) => lacksC x cs = true
  | .clo _ => True
  | .cons a d => VH x a ∧ VH x d
  | .values | .num _ | .cell _ | .undef => False
  | _ => True

/-- Specification: a store with such values. -/
def GoodH (x : Sym) (σ : RS) : Prop := (∀ v ∈ σ.cells, VH x v) ∧ ∀ y v, σ.globs y = some v → VH x v

/-- Specification: another value, or none, for the variable. -/
def RS.hide (σ : RS) (x : Sym) (v : Option RV) : RS := { σ with globs := fun y => if y = x then v else σ.globs y }

/-! ### Lemmas -/

variable {x : Sym}

/-- The relation of values to themselves for which C functions are parametric. -/
def RH (x : Sym) (c c' : RC) : Prop := c = c' ∧ VH x (.clo c)

theorem vh_iff : ∀ {v : RV}, VH x v ↔ VRel (RH x) v v
  | .null => ⟨fun _ => .null, fun _ => trivial⟩
  | .sym s => ⟨fun _ => .sym s, fun _ => trivial⟩
  | .lit l => ⟨fun _ => .lit l, fun _ => trivial⟩
  | .other n => ⟨fun _ => .other n, fun _ => trivial⟩
  | .stx d => ⟨fun _ => .stx d, fun _ => trivial⟩
  | .void => ⟨fun _ => .void, fun _ => trivial⟩
  | .unbound => ⟨fun _ => .unbound, fun _ => trivial⟩
  | .tenv n => ⟨fun _ => .tenv n, fun _ => trivial⟩
  | .values => ⟨fun h => h.elim, fun h => by cases h⟩
  | .num _ => ⟨fun h => h.elim, fun h => by cases h⟩
  | .cell _ => ⟨fun h => h.elim, fun h => by cases h⟩
  | .undef => ⟨fun h => h.elim, fun h => by cases h⟩
  | .cons a d => by
    have ha := @vh_iff a
    have hd := @vh_iff d
    constructor
    · intro h
      rw [VH] at h
      exact .cons (ha.1 h.1) (hd.1 h.2)
    · intro h
      cases h with
      | cons h1 h2 => rw [VH]; exact ⟨ha.2 h1, hd.2 h2⟩
  | .clo c => by
    constructor
    · intro h; exact .clo ⟨rfl, h⟩
    · intro h
      cases h with
      | clo h => exact h.2

theorem vh_list {vs : List RV} (h : ∀ v ∈ vs, VH x v) : List.Forall₂ (VRel (RH x)) vs vs := by
  induction vs with
  | nil => exact .nil
  | cons v vs ih => exact .cons (vh_iff.1 (h v (by simp))) (ih (fun w hw => h w (by simp [hw])))

theorem vh_prim {P : Prims} {p : Nat} {vs : List RV} {v : RV} (h : ∀ v ∈ vs, VH x v) (hp : P.f RC p vs = some v) : VH x v := by
  have := P.param (RH x) p vs vs (vh_list h)
  rw [hp] at this
  exact vh_iff.2 this

theorem vh_ofX : ∀ (d : X), VH x (ofX d)
  | .null => trivial
  | .sym _ => trivial
  | .lit _ => trivial
  | .other _ => trivial
  | .cons a d => by rw [ofX, VH]; exact ⟨vh_ofX a, vh_ofX d⟩

theorem vh_listV : ∀ {vs : List RV}, (∀ v ∈ vs, VH x v) → VH x (listV vs)
  | [], _ => trivial
  | v :: vs, h => by rw [listV, VH]; exact ⟨h v (by simp), vh_listV (fun w hw => h w (by simp [hw]))⟩

theorem vh_unlist : ∀ {v : RV} {vs : List RV}, VH x v → unlist v = some vs → ∀ w ∈ vs, VH x w := by
  intro v
  induction v with
  | null => intro vs _ h w hw; simp only [unlist, Option.some.injEq] at h; subst h; simp at hw
  | cons a d _ ih =>
    intro vs hv h w hw
    rw [VH] at hv
    simp only [unlist, Option.map_eq_some_iff] at h
    obtain ⟨l, h1, rfl⟩ := h
    rcases List.mem_cons.1 hw with rfl | hw
    · exact hv.1
    · exact ih hv.2 h1 w hw
  | _ => intro vs _ h; simp [unlist] at h

theorem vh_spread : ∀ {vs as : List RV}, (∀ v ∈ vs, VH x v) → spread vs = some as → ∀ w ∈ as, VH x w
  | [], _, _, h => by simp [spread] at h
  | [l], as, hv, h => vh_unlist (hv l (by simp)) h
  | v :: w :: vs, as, hv, h => by
    simp only [spread, Option.map_eq_some_iff] at h
    obtain ⟨l, h1, rfl⟩ := h
    intro u hu
    rcases List.mem_cons.1 hu with rfl | hu
    · exact hv _ (by simp)
    · exact vh_spread (fun y hy => hv y (by simp at hy ⊢; tauto)) h1 u hu

theorem vh_params {f : Formals} {vs : List RV} (h : ∀ v ∈ vs, VH x v) : ∀ v ∈ params f vs, VH x v := by
  rw [params]
  split
  · intro v hv
    rcases List.mem_append.1 hv with hv | hv
    · exact h v (List.mem_of_mem_take hv)
    · rw [List.mem_singleton.1 hv]
      exact vh_listV (fun w hw => h w (List.mem_of_mem_drop hw))
  · exact h

theorem goodH_bind : ∀ {xs : List Sym} {vs : List RV} {ρ : REnv} {σ : RS}, GoodH x σ → (∀ v ∈ vs, VH x v) → GoodH x (bindVals ρ σ xs vs).2
  | [], vs, ρ, σ, h, _ => by cases vs <;> exact h
  | _ :: _, [], ρ, σ, h, _ => h
  | _ :: xs, v :: vs, ρ, σ, h, hv => by
    rw [bindVals]
    refine goodH_bind ⟨fun w hw => ?_, h.2⟩ (fun w hw => hv w (by simp [hw]))
    rcases List.mem_append.1 hw with hw | hw
    · exact h.1 w hw
    · rw [List.mem_singleton.1 hw]; exact hv v (by simp)

theorem goodH_setGlob {σ : RS} {y : Sym} {v : RV} (h : GoodH x σ) (hv : VH x v) : GoodH x (σ.setGlob y v) := by
  refine ⟨h.1, fun z w hw => ?_⟩
  simp only [RS.setGlob] at hw
  split at hw
  · cases hw; exact hv
  · exact h.2 z w hw

theorem goodH_setGlobs : ∀ {xs : List Sym} {vs : List RV} {σ : RS}, GoodH x σ → (∀ v ∈ vs, VH x v) → GoodH x (σ.setGlobs xs vs)
  | [], vs, σ, h, _ => by cases vs <;> exact h
  | _ :: _, [], σ, h, _ => h
  | y :: xs, v :: vs, σ, h, hv => by
    rw [RS.setGlobs]
    exact goodH_setGlobs (goodH_setGlob h (hv v (by simp))) (fun w hw => hv w (by simp [hw]))

theorem hide_setGlob {σ : RS} {y : Sym} {v : RV} {o : Option RV} (h : y ≠ x) : (σ.hide x o).setGlob y v = (σ.setGlob y v).hide x o := by
  simp only [RS.setGlob, RS.hide, RS.mk.injEq, true_and]
  funext z
  by_cases h1 : z = y
  · subst h1; simp [h]
  · by_cases h2 : z = x
    · subst h2; simp [Ne.symm h]
    · simp [h1, h2]

theorem hide_setGlobs {o : Option RV} : ∀ {xs : List Sym} {vs : List RV} {σ : RS}, x ∉ xs → (σ.hide x o).setGlobs xs vs = (σ.setGlobs xs vs).hide x o
  | [], vs, σ, _ => by cases vs <;> rfl
  | _ :: _, [], σ, _ => rfl
  | y :: xs, v :: vs, σ, h => by
    rw [RS.setGlobs, hide_setGlob (by rintro rfl; simp at h), hide_setGlobs (by simp at h; exact h.2), RS.setGlobs]

theorem hide_bind {o : Option RV} : ∀ {xs : List Sym} {vs : List RV} {ρ : REnv} {σ : RS}, bindVals ρ (σ.hide x o) xs vs = ((bindVals ρ σ xs vs).1, (bindVals ρ σ xs vs).2.hide x o)
  | [], vs, ρ, σ => by cases vs <;> rfl
  | _ :: _, [], ρ, σ => rfl
  | y :: xs, v :: vs, ρ, σ => by
    rw [bindVals, bindVals]
    exact hide_bind (xs := xs) (vs := vs) (ρ := ρ.set y σ.cells.length) (σ := { σ with cells := σ.cells ++ [v] })

theorem hide_assign {o : Option RV} {ρ : REnv} {σ σ' : RS} {y : Sym} {v : RV} (hy : y ≠ x) (h : assignR ρ σ y v = .ok σ') (hg : GoodH x σ) (hv : VH x v) :
    assignR ρ (σ.hide x o) y v = .ok (σ'.hide x o) ∧ GoodH x σ' := by
  rw [assignR] at h ⊢
  split at h
  · rename_i c _
    split at h
    · rename_i hc
      cases h
      refine ⟨?_, fun w hw => ?_, hg.2⟩
      · rw [if_pos (by exact hc)]
        rfl
      · rcases List.mem_or_eq_of_mem_set hw with hw | rfl
        · exact hg.1 w hw
        · exact hv
    · cases h
  · split at h
    · cases h
    · rename_i u hu
      cases h
      refine ⟨?_, goodH_setGlob hg hv⟩
      have : (σ.hide x o).globs y = some u := by simp [RS.hide, hy, hu]
      simp only [this]
      rw [hide_setGlob hy]

theorem hide_assigns {o : Option RV} : ∀ {xs : List Sym} {vs : List RV} {ρ : REnv} {σ σ' : RS}, x ∉ xs → assignsR ρ σ xs vs = .ok σ' → GoodH x σ → (∀ v ∈ vs, VH x v) →
    assignsR ρ (σ.hide x o) xs vs = .ok (σ'.hide x o) ∧ GoodH x σ'
  | [], vs, ρ, σ, σ', _, h, hg, _ => by
    cases vs <;> (simp only [assignsR, Res.ok.injEq] at h ⊢; subst h; exact ⟨rfl, hg⟩)
  | _ :: _, [], ρ, σ, σ', _, h, hg, _ => by simp only [assignsR, Res.ok.injEq] at h ⊢; subst h; exact ⟨rfl, hg⟩
  | y :: xs, v :: vs, ρ, σ, σ', hx, h, hg, hv => by
    rw [assignsR] at h ⊢
    obtain ⟨σ1, h1, h2⟩ := Res.bind_eq_ok.1 h
    simp only [List.mem_cons, not_or] at hx
    obtain ⟨a, b⟩ := hide_assign (o := o) (Ne.symm hx.1) h1 hg (hv v (by simp))
    obtain ⟨c, d⟩ := hide_assigns (o := o) hx.2 h2 b (fun w hw => hv w (by simp [hw]))
    rw [a]
    exact ⟨c, d⟩

/-- A clause that is selected. -/
theorem select_lacks {f : Formals} {body : List E} : ∀ {cs : List Cl} {n : Nat}, select cs n = some (f, body) → lacksC x cs = true → lacksL x body = true
  | [], _, h, _ => by simp [select] at h
  | .mk f' body' :: cs, n, h, hk => by
    rw [lacksC, Bool.and_eq_true] at hk
    rw [select] at h
    split at h
    · cases h; exact hk.1
    · exact select_lacks h hk.2

/-- Evaluation with another value of the variable. -/
def HideAt (x : Sym) (o : Option RV) (P : Prims) (n : Nat) : Prop :=
  (∀ {ρ e σ vs σ'}, ev P n ρ e σ = .ok (vs, σ') → lacks x e = true → GoodH x σ → (∀ v ∈ vs, VH x v) ∧ GoodH x σ' ∧ ev P n ρ e (σ.hide x o) = .ok (vs, σ'.hide x o)) ∧
  (∀ {ρ es σ vs σ'}, evBody P n ρ es σ = .ok (vs, σ') → lacksL x es = true → GoodH x σ → (∀ v ∈ vs, VH x v) ∧ GoodH x σ' ∧ evBody P n ρ es (σ.hide x o) = .ok (vs, σ'.hide x o)) ∧
  (∀ {ρ es σ vs σ'}, evArgs P n ρ es σ = .ok (vs, σ') → lacksL x es = true → GoodH x σ → (∀ v ∈ vs, VH x v) ∧ GoodH x σ' ∧ evArgs P n ρ es (σ.hide x o) = .ok (vs, σ'.hide x o)) ∧
  (∀ {ρ bs σ vs σ'}, evBds P n ρ bs σ = .ok (vs, σ') → lacksD x bs = true → GoodH x σ → (∀ v ∈ vs, VH x v) ∧ GoodH x σ' ∧ evBds P n ρ bs (σ.hide x o) = .ok (vs, σ'.hide x o)) ∧
  (∀ {ρ bs σ σ'}, evRec P n ρ bs σ = .ok σ' → lacksD x bs = true → GoodH x σ → GoodH x σ' ∧ evRec P n ρ bs (σ.hide x o) = .ok (σ'.hide x o)) ∧
  (∀ {f as σ vs σ'}, applyR P n f as σ = .ok (vs, σ') → VH x f → (∀ v ∈ as, VH x v) → GoodH x σ → (∀ v ∈ vs, VH x v) ∧ GoodH x σ' ∧ applyR P n f as (σ.hide x o) = .ok (vs, σ'.hide x o))

theorem hides (x : Sym) (o : Option RV) (P : Prims) : ∀ n, HideAt x o P n
  | 0 => by
    refine ⟨?_, ?_, ?_, ?_, ?_, ?_⟩ <;> intros <;> simp_all [ev, evBody, evArgs, evBds, evRec, applyR]
  | n + 1 => by
    obtain ⟨hE, hB, hA, hD, hR, hP⟩ := hides x o P n
    refine ⟨?_, ?_, ?_, ?_, ?_, ?_⟩
    · intro ρ e σ vs σ' h hk hg
      cases e with
      | var y =>
        rw [ev] at h
        obtain ⟨v, h1, h2⟩ := Res.bind_eq_ok.1 h
        cases h2
        simp only [lacks, Bool.not_eq_true', decide_eq_false_iff_not] at hk
        have hl : lookupR ρ (σ.hide x o) y = lookupR ρ σ y := by simp only [lookupR, RS.hide, if_neg hk]
        refine ⟨?_, hg, by rw [ev, hl, h1]; rfl⟩
        intro w hw
        rw [List.mem_singleton.1 hw]
        rw [lookupR] at h1
        split at h1
        · cases h1
        · cases h1
        · rename_i v' _ hv'
          cases h1
          split at hv'
          · exact hg.1 _ (List.mem_of_getElem? hv')
          · exact hg.2 _ _ hv'
      | lit l => rw [ev] at h; cases h; exact ⟨by simp [VH], hg, by rw [ev]⟩
      | quote d => rw [ev] at h; cases h; exact ⟨by simp [vh_ofX], hg, by rw [ev]⟩
      | quoteSyntax d => rw [ev] at h; cases h; exact ⟨by simp [VH], hg, by rw [ev]⟩
      | unbound => rw [ev] at h; cases h; exact ⟨by simp [VH], hg, by rw [ev]⟩
      | define xs e =>
        rw [ev] at h
        obtain ⟨⟨ws, σ1⟩, h1, h2⟩ := Res.bind_eq_ok.1 h
        simp only [lacks, Bool.and_eq_true, Bool.not_eq_true', decide_eq_false_iff_not] at hk
        obtain ⟨a, b, c⟩ := hE h1 hk.2 hg
        dsimp only at h2
        split at h2
        · rename_i hl
          cases h2
          refine ⟨by simp [VH], goodH_setGlobs b a, ?_⟩
          rw [ev, c]
          simp only [Res.ok_bind]
          rw [if_pos hl, hide_setGlobs hk.1]
        · cases h2
      | set y e =>
        rw [ev] at h
        obtain ⟨⟨ws, σ1⟩, h1, h2⟩ := Res.bind_eq_ok.1 h
        obtain ⟨v, h3, h4⟩ := Res.bind_eq_ok.1 h2
        obtain ⟨σ2, h5, h6⟩ := Res.bind_eq_ok.1 h4
        cases h6
        simp only [lacks, Bool.and_eq_true, Bool.not_eq_true', decide_eq_false_iff_not] at hk
        obtain ⟨a, b, c⟩ := hE h1 hk.2 hg
        have := single_eq h3
        subst this
        obtain ⟨p, q⟩ := hide_assign (o := o) hk.1 h5 b (a v (by simp))
        refine ⟨by simp [VH], q, ?_⟩
        rw [ev, c]
        simp only [Res.ok_bind, h3]
        rw [p]
        rfl
      | ite c a b =>
        rw [ev] at h
        obtain ⟨⟨ws, σ1⟩, h1, h2⟩ := Res.bind_eq_ok.1 h
        obtain ⟨v, h3, h4⟩ := Res.bind_eq_ok.1 h2
        simp only [lacks, Bool.and_eq_true] at hk
        obtain ⟨_, g1, g2⟩ := hE h1 hk.1.1 hg
        rw [ev, g2]
        simp only [Res.ok_bind, h3]
        split at h4
        · rename_i hf
          rw [if_pos hf]
          exact hE h4 hk.2 g1
        · rename_i hf
          rw [if_neg hf]
          exact hE h4 hk.1.2 g1
      | letv bs body =>
        rw [ev] at h
        obtain ⟨⟨ws, σ1⟩, h1, h2⟩ := Res.bind_eq_ok.1 h
        simp only [lacks, Bool.and_eq_true] at hk
        obtain ⟨a, b, c⟩ := hD h1 hk.1 hg
        obtain ⟨y, z, u⟩ := hB h2 hk.2 (goodH_bind b a)
        refine ⟨y, z, ?_⟩
        rw [ev, c]
        simp only [Res.ok_bind]
        rw [hide_bind]
        exact u
      | letrecv bs body =>
        rw [ev] at h
        dsimp only at h
        obtain ⟨σ1, h1, h2⟩ := Res.bind_eq_ok.1 h
        simp only [lacks, Bool.and_eq_true] at hk
        have hg0 : GoodH x (bindVals ρ σ (bdsIds bs) (List.replicate (bdsIds bs).length .unbound)).2 :=
          goodH_bind hg (fun v hv => by rw [(List.mem_replicate.1 hv).2]; trivial)
        obtain ⟨b, c⟩ := hR h1 hk.1 hg0
        obtain ⟨y, z, u⟩ := hB h2 hk.2 b
        refine ⟨y, z, ?_⟩
        rw [ev, hide_bind]
        dsimp only
        rw [c]
        exact u
      | lam f body =>
        rw [ev] at h
        cases h
        simp only [lacks] at hk
        refine ⟨?_, hg, by rw [ev]⟩
        intro w hw
        rw [List.mem_singleton.1 hw, VH]
        simp [lacksC, hk]
      | clam cs =>
        rw [ev] at h
        cases h
        simp only [lacks] at hk
        refine ⟨?_, hg, by rw [ev]⟩
        intro w hw
        rw [List.mem_singleton.1 hw, VH]
        exact hk
      | begin es =>
        rw [ev] at h ⊢
        rw [lacks] at hk
        exact hB h hk hg
      | app f args =>
        rw [ev] at h
        obtain ⟨⟨ws, σ1⟩, h1, h2⟩ := Res.bind_eq_ok.1 h
        obtain ⟨v, h3, h4⟩ := Res.bind_eq_ok.1 h2
        obtain ⟨⟨as, σ2⟩, h5, h6⟩ := Res.bind_eq_ok.1 h4
        simp only [lacks, Bool.and_eq_true] at hk
        obtain ⟨a, b, c⟩ := hE h1 hk.1 hg
        have := single_eq h3
        subst this
        obtain ⟨d, e, f⟩ := hA h5 hk.2 b
        obtain ⟨y, z, u⟩ := hP h6 (a v (by simp)) d e
        refine ⟨y, z, ?_⟩
        rw [ev, c]
        simp only [Res.ok_bind, h3]
        rw [f]
        exact u
      | mvcall e c =>
        rw [ev] at h
        obtain ⟨⟨as, σ1⟩, h1, h2⟩ := Res.bind_eq_ok.1 h
        obtain ⟨⟨ws, σ2⟩, h3, h4⟩ := Res.bind_eq_ok.1 h2
        obtain ⟨v, h5, h6⟩ := Res.bind_eq_ok.1 h4
        simp only [lacks, Bool.and_eq_true] at hk
        obtain ⟨a, b, c⟩ := hE h1 hk.1 hg
        obtain ⟨d, e, f⟩ := hE h3 hk.2 b
        have := single_eq h5
        subst this
        obtain ⟨y, z, u⟩ := hP h6 (d v (by simp)) a e
        refine ⟨y, z, ?_⟩
        rw [ev, c]
        simp only [Res.ok_bind]
        rw [f]
        simp only [Res.ok_bind, h5]
        exact u
      | mvlet e xs body =>
        rw [ev] at h
        obtain ⟨⟨ws, σ1⟩, h1, h2⟩ := Res.bind_eq_ok.1 h
        simp only [lacks, Bool.and_eq_true] at hk
        obtain ⟨a, b, c⟩ := hE h1 hk.1 hg
        dsimp only at h2
        split at h2
        · rename_i hl
          obtain ⟨y, z, u⟩ := hE h2 hk.2 (goodH_bind b a)
          refine ⟨y, z, ?_⟩
          rw [ev, c]
          simp only [Res.ok_bind]
          rw [if_pos hl, hide_bind]
          exact u
        · cases h2
      | mvvals es =>
        rw [ev] at h ⊢
        rw [lacks] at hk
        exact hA h hk hg
    · intro ρ es σ vs σ' h hk hg
      match es with
      | [] => rw [evBody] at h; cases h; exact ⟨by simp [VH], hg, by rw [evBody]⟩
      | [e] =>
        rw [evBody] at h ⊢
        simp only [lacksL, Bool.and_true] at hk
        exact hE h hk hg
      | e :: e' :: es =>
        rw [evBody] at h
        obtain ⟨⟨ws, σ1⟩, h1, h2⟩ := Res.bind_eq_ok.1 h
        rw [lacksL, Bool.and_eq_true] at hk
        obtain ⟨_, b, c⟩ := hE h1 hk.1 hg
        obtain ⟨y, z, u⟩ := hB h2 hk.2 b
        refine ⟨y, z, ?_⟩
        rw [evBody, c]
        exact u
    · intro ρ es σ vs σ' h hk hg
      match es with
      | [] => rw [evArgs] at h; cases h; exact ⟨by simp, hg, by rw [evArgs]⟩
      | e :: es =>
        rw [evArgs] at h
        obtain ⟨⟨ws, σ1⟩, h1, h2⟩ := Res.bind_eq_ok.1 h
        obtain ⟨v, h3, h4⟩ := Res.bind_eq_ok.1 h2
        obtain ⟨⟨as, σ2⟩, h5, h6⟩ := Res.bind_eq_ok.1 h4
        cases h6
        rw [lacksL, Bool.and_eq_true] at hk
        obtain ⟨a, b, c⟩ := hE h1 hk.1 hg
        have := single_eq h3
        subst this
        obtain ⟨y, z, u⟩ := hA h5 hk.2 b
        refine ⟨?_, z, ?_⟩
        · intro w hw
          rcases List.mem_cons.1 hw with rfl | hw
          · exact a _ (by simp)
          · exact y w hw
        · rw [evArgs, c]
          simp only [Res.ok_bind, h3]
          rw [u]
          rfl
    · intro ρ bs σ vs σ' h hk hg
      match bs with
      | [] => rw [evBds] at h; cases h; exact ⟨by simp, hg, by rw [evBds]⟩
      | .mk xs e :: bs =>
        rw [evBds] at h
        obtain ⟨⟨ws, σ1⟩, h1, h2⟩ := Res.bind_eq_ok.1 h
        simp only [lacksD, Bool.and_eq_true] at hk
        obtain ⟨a, b, c⟩ := hE h1 hk.1.2 hg
        dsimp only at h2
        split at h2
        · rename_i hl
          obtain ⟨⟨us, σ2⟩, h3, h4⟩ := Res.bind_eq_ok.1 h2
          cases h4
          obtain ⟨y, z, u⟩ := hD h3 hk.2 b
          refine ⟨?_, z, ?_⟩
          · intro w hw
            rcases List.mem_append.1 hw with hw | hw
            · exact a w hw
            · exact y w hw
          · rw [evBds, c]
            simp only [Res.ok_bind]
            rw [if_pos hl, u]
            rfl
        · cases h2
    · intro ρ bs σ σ' h hk hg
      match bs with
      | [] => rw [evRec] at h; cases h; exact ⟨hg, by rw [evRec]⟩
      | .mk xs e :: bs =>
        rw [evRec] at h
        obtain ⟨⟨ws, σ1⟩, h1, h2⟩ := Res.bind_eq_ok.1 h
        simp only [lacksD, Bool.and_eq_true, Bool.not_eq_true', decide_eq_false_iff_not] at hk
        obtain ⟨a, b, c⟩ := hE h1 hk.1.2 hg
        dsimp only at h2
        split at h2
        · rename_i hl
          obtain ⟨σ2, h3, h4⟩ := Res.bind_eq_ok.1 h2
          obtain ⟨p, q⟩ := hide_assigns (o := o) hk.1.1 h3 b a
          obtain ⟨z, u⟩ := hR h4 hk.2 q
          refine ⟨z, ?_⟩
          rw [evRec, c]
          simp only [Res.ok_bind]
          rw [if_pos hl, p]
          exact u
        · cases h2
    · intro f as σ vs σ' h hf ha hg
      cases f with
      | clo c =>
        cases c with
        | clo ρ cs =>
          rw [applyR] at h ⊢
          split at h
          · cases h
          · rename_i f body hs
            rw [VH] at hf
            obtain ⟨y, z, u⟩ := hB h (select_lacks hs hf) (goodH_bind hg (vh_params ha))
            refine ⟨y, z, ?_⟩
            dsimp only
            rw [hide_bind]
            exact u
        | prim p k =>
          rw [applyR] at h ⊢
          split at h
          · rename_i hl
            rw [if_pos hl]
            split at h
            · cases h
            · rename_i v hv
              cases h
              refine ⟨?_, hg, rfl⟩
              intro w hw
              rw [List.mem_singleton.1 hw]
              exact vh_prim ha hv
          · cases h
        | values => rw [applyR] at h ⊢; cases h; exact ⟨ha, hg, rfl⟩
        | apply =>
          match as with
          | [] | [_] => simp [applyR] at h
          | f :: v :: ws =>
            rw [applyR] at h ⊢
            split at h
            · cases h
            · rename_i as hs
              exact hP h (ha f (by simp)) (vh_spread (fun w hw => ha w (by simp at hw ⊢; tauto)) hs) hg
        | cwv =>
          match as with
          | [] | [_] | _ :: _ :: _ :: _ => simp [applyR] at h
          | [p, c] =>
            rw [applyR] at h ⊢
            obtain ⟨⟨us, σ1⟩, h1, h2⟩ := Res.bind_eq_ok.1 h
            obtain ⟨a, b, c'⟩ := hP h1 (ha p (by simp)) (by simp) hg
            obtain ⟨y, z, u⟩ := hP h2 (ha c (by simp)) a b
            refine ⟨y, z, ?_⟩
            rw [c']
            exact u
      | _ => simp [applyR] at h

/-- The forms of a file. -/
theorem runs_hide {o : Option RV} {P : Prims} {n : Nat} : ∀ {es : List E} {σ σ' : RS} {vss : List (List RV)}, runs P n es σ = .ok (vss, σ') → lacksL x es = true → GoodH x σ →
    GoodH x σ' ∧ runs P n es (σ.hide x o) = .ok (vss, σ'.hide x o)
  | [], σ, σ', vss, h, _, hg => by cases h; exact ⟨hg, rfl⟩
  | e :: es, σ, σ', vss, h, hk, hg => by
    rw [runs] at h ⊢
    simp only [Res.bind_eq_ok] at h
    obtain ⟨⟨vs, σa⟩, ha, ⟨wss, σb⟩, hb, h⟩ := h
    cases h
    rw [lacksL, Bool.and_eq_true] at hk
    obtain ⟨_, b, c⟩ := (hides x o P n).1 ha hk.1 hg
    obtain ⟨d, u⟩ := runs_hide (o := o) hb hk.2 b
    refine ⟨d, ?_⟩
    rw [c]
    simp only [Res.ok_bind]
    rw [u]
    rfl

end Minim.Jit
