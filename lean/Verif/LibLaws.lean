import Verif.LibCtx

set_option autoImplicit false

/-!
# C functions that satisfy the laws (C108)

That the hypotheses of the theorems in LibRunProps.lean can be met: C functions that compute what `Laws` says, with which the whole library can be loaded.
-/

namespace Minim.Fix

open Minim.Sx Minim.Core Minim.Jit Minim.Lib

/-- A numbering of literals: the literals 0 to 10 of the library have the numbers LibPrelude.lean and LibBoot.lean give them, others larger ones. -/
def lawN (n : Int) : Nat :=
  match n with
  | 0 => 19 | 1 => 21 | 2 => 33 | 3 => 134 | 4 => 55 | 5 => 164 | 6 => 165 | 7 => 166 | 8 => 167 | 9 => 168 | 10 => 169
  | .ofNat k => 1000 + 2 * k
  | .negSucc k => 1001 + 2 * k

/-- The number a literal stands for. -/
def lawI (k : Nat) : Option Int :=
  match k with
  | 19 => some 0 | 21 => some 1 | 33 => some 2 | 134 => some 3 | 55 => some 4 | 164 => some 5 | 165 => some 6 | 166 => some 7 | 167 => some 8 | 168 => some 9 | 169 => some 10
  | k => if 1000 ≤ k then some (if k % 2 = 0 then .ofNat ((k - 1000) / 2) else .negSucc ((k - 1001) / 2)) else none

theorem lawI_N (n : Int) : lawI (lawN n) = some n := by
  unfold lawN
  split
  all_goals try rfl
  · rename_i k _ _ _ _ _ _ _ _ _ _ _
    unfold lawI
    split
    all_goals try omega
    rw [if_pos (by omega), if_pos (by omega)]
    congr 2
    omega
  · rename_i k
    unfold lawI
    split
    all_goals try omega
    rw [if_pos (by omega), if_neg (by omega)]
    congr 2
    omega

/-- A number. -/
def asNum {C : Type} : V C → Option Int
  | .lit (.const k) => lawI k
  | _ => none

/-- Functions of one and two arguments; other calls return false. -/
def on1 {C : Type} (f : V C → V C) : List (V C) → Option (V C)
  | [v] => some (f v)
  | _ => some (.lit .fls)

def on2 {C : Type} (f : V C → V C → V C) : List (V C) → Option (V C)
  | [v, w] => some (f v w)
  | _ => some (.lit .fls)

def bool {C : Type} (b : Bool) : V C := .lit (if b then .tru else .fls)

def arith2 {C : Type} (b : Bool) (f : Int → Int → V C) (v w : V C) : V C :=
  match asNum v, asNum w with
  | some m, some n => f m n
  | _, _ => bool b

def num {C : Type} (n : Int) : V C := .lit (.const (lawN n))

def carOf {C : Type} : V C → V C
  | .cons a _ => a
  | _ => .lit .fls

def cdrOf {C : Type} : V C → V C
  | .cons _ d => d
  | _ => .lit .fls

def revOf {C : Type} (v : V C) : V C :=
  match unlist v with
  | some vs => listV vs.reverse
  | none => .lit .fls

def lenOf {C : Type} (v : V C) : V C :=
  match unlist v with
  | some vs => num vs.length
  | none => .lit .fls

def appOf {C : Type} (v w : V C) : V C :=
  match unlist v, unlist w with
  | some vs, some ws => listV (vs ++ ws)
  | _, _ => .lit .fls

/-- The functions. -/
def lawF (C : Type) (p : Nat) : Option (List (V C) → Option (V C)) :=
  if p = code S.«pair?» then some (on1 fun v => bool (isPair v)) else
  if p = code S.«null?» then some (on1 fun v => bool (isNull v)) else
  if p = code S.«list?» then some (on1 fun v => bool (unlist v).isSome) else
  if p = code S.«procedure?» then some (on1 fun v => bool (isProc v)) else
  if p = code S.«not» then some (on1 fun v => bool (isFalse v)) else
  if p = code S.«fixnum?» then some (on1 fun _ => bool true) else
  if p = code S.«$car» then some (on1 carOf) else
  if p = code S.«$cdr» then some (on1 cdrOf) else
  if p = code S.«cons» then some (on2 .cons) else
  if p = code S.«$reverse» then some (on1 revOf) else
  if p = code S.«$append2» then some (on2 appOf) else
  if p = code S.«$length» then some (on1 lenOf) else
  if p = code S.«void» then some (fun _ => some .void) else
  if p = code S.«$fx2+» then some (on2 (arith2 false fun a b => num (a + b))) else
  if p = code S.«$fx2-» then some (on2 (arith2 false fun a b => num (a - b))) else
  if p = code S.«$fx2*» then some (on2 (arith2 false fun a b => num (a * b))) else
  if p = code S.«$fx2=» then some (on2 (arith2 true fun a b => bool (decide (a = b)))) else
  if p = code S.«$fx2>» then some (on2 (arith2 false fun a b => bool (decide (a > b)))) else
  if p = code S.«$fx2<» then some (on2 (arith2 true fun a b => bool (decide (a < b)))) else
  if p = code S.«$fx2>=» then some (on2 (arith2 true fun a b => bool (decide (a ≥ b)))) else
  if p = code S.«$fx2<=» then some (on2 (arith2 false fun a b => bool (decide (a ≤ b)))) else
  none

variable {C C' : Type} {R : C → C' → Prop}

theorem rel_on1 {f : V C → V C} {g : V C' → V C'} (h : ∀ v w, VRel R v w → VRel R (f v) (g w)) {as : List (V C)} {bs : List (V C')} (hl : List.Forall₂ (VRel R) as bs) : ORel (VRel R) (on1 f as) (on1 g bs) := by
  cases hl with
  | nil => exact .lit _
  | cons h1 h2 =>
    cases h2 with
    | nil => exact h _ _ h1
    | cons _ _ => exact .lit _

theorem rel_on2 {f : V C → V C → V C} {g : V C' → V C' → V C'} (h : ∀ v w v' w', VRel R v v' → VRel R w w' → VRel R (f v w) (g v' w')) {as : List (V C)} {bs : List (V C')} (hl : List.Forall₂ (VRel R) as bs) :
    ORel (VRel R) (on2 f as) (on2 g bs) := by
  cases hl with
  | nil => exact .lit _
  | cons h1 h2 =>
    cases h2 with
    | nil => exact .lit _
    | cons h3 h4 =>
      cases h4 with
      | nil => exact h _ _ _ _ h1 h3
      | cons _ _ => exact .lit _

theorem asNum_rel {v : V C} {w : V C'} (h : VRel R v w) : asNum v = asNum w := by
  cases h with
  | lit l => cases l <;> rfl
  | _ => rfl

theorem rel_arith {b : Bool} {f : Int → Int → V C} {g : Int → Int → V C'} (h : ∀ a b, VRel R (f a b) (g a b)) {v w : V C} {v' w' : V C'} (h1 : VRel R v v') (h2 : VRel R w w') : VRel R (arith2 b f v w) (arith2 b g v' w') := by
  rw [arith2, arith2, asNum_rel h1, asNum_rel h2]
  split
  · exact h _ _
  · exact .lit _

theorem rel_listV : ∀ {vs : List (V C)} {ws : List (V C')}, List.Forall₂ (VRel R) vs ws → VRel R (listV vs) (listV ws)
  | _, _, .nil => .null
  | _, _, .cons h1 h2 => .cons h1 (rel_listV h2)


theorem rel_unlist {v : V C} {w : V C'} (h : VRel R v w) : (∃ vs ws, unlist v = some vs ∧ unlist w = some ws ∧ List.Forall₂ (VRel R) vs ws) ∨ unlist v = none ∧ unlist w = none := by
  induction h with
  | null => exact .inl ⟨[], [], rfl, rfl, .nil⟩
  | cons h1 _ _ ih =>
    rcases ih with ⟨vs, ws, a, b, c⟩ | ⟨a, b⟩
    · exact .inl ⟨_, _, by simp [unlist, a], by simp [unlist, b], .cons h1 c⟩
    · exact .inr ⟨by simp [unlist, a], by simp [unlist, b]⟩
  | _ => exact .inr ⟨rfl, rfl⟩

/-- Related functions. -/
def FRel (R : C → C' → Prop) (f : List (V C) → Option (V C)) (g : List (V C') → Option (V C')) : Prop := ∀ as bs, List.Forall₂ (VRel R) as bs → ORel (VRel R) (f as) (g bs)

theorem rel_if {c : Prop} [Decidable c] {f : List (V C) → Option (V C)} {g : List (V C') → Option (V C')} {f' : Option (List (V C) → Option (V C))} {g' : Option (List (V C') → Option (V C'))} (h : FRel R f g)
    (h' : ORel (FRel R) f' g') : ORel (FRel R) (if c then some f else f') (if c then some g else g') := by
  split
  · exact h
  · exact h'

theorem lawF_rel (p : Nat) : ORel (FRel R) (lawF C p) (lawF C' p) := by
  unfold lawF
  have b1 : ∀ {f : V C → Bool} {g : V C' → Bool}, (∀ v w, VRel R v w → f v = g w) → FRel R (on1 fun v => bool (f v)) (on1 fun v => bool (g v)) :=
    fun h _ _ hl => rel_on1 (fun v w hv => by rw [h v w hv]; exact .lit _) hl
  have a2 : ∀ {b : Bool} {f : Int → Int → V C} {g : Int → Int → V C'}, (∀ a b, VRel R (f a b) (g a b)) → FRel R (on2 (arith2 b f)) (on2 (arith2 b g)) :=
    fun h _ _ hl => rel_on2 (fun _ _ _ _ h1 h2 => rel_arith h h1 h2) hl
  refine rel_if (b1 fun _ _ h => by cases h <;> rfl) ?_
  refine rel_if (b1 fun _ _ h => by cases h <;> rfl) ?_
  refine rel_if (b1 fun _ _ h => by rcases rel_unlist h with ⟨_, _, a, b, _⟩ | ⟨a, b⟩ <;> rw [a, b] <;> rfl) ?_
  refine rel_if (b1 fun _ _ h => by cases h <;> rfl) ?_
  refine rel_if (b1 fun _ _ h => by
    cases h with
    | lit l => cases l <;> rfl
    | _ => rfl) ?_
  refine rel_if (b1 fun _ _ _ => rfl) ?_
  refine rel_if (fun _ _ hl => rel_on1 (fun _ _ h => by
    cases h with
    | cons h1 _ => exact h1
    | _ => exact .lit _) hl) ?_
  refine rel_if (fun _ _ hl => rel_on1 (fun _ _ h => by
    cases h with
    | cons _ h2 => exact h2
    | _ => exact .lit _) hl) ?_
  refine rel_if (fun _ _ hl => rel_on2 (fun _ _ _ _ h1 h2 => .cons h1 h2) hl) ?_
  refine rel_if (fun _ _ hl => rel_on1 (fun _ _ h => by
    rcases rel_unlist h with ⟨_, _, a, b, c⟩ | ⟨a, b⟩ <;> rw [revOf, revOf, a, b]
    · exact rel_listV (List.rel_reverse c)
    · exact .lit _) hl) ?_
  refine rel_if (fun _ _ hl => rel_on2 (fun _ _ _ _ h h' => by
    rcases rel_unlist h with ⟨_, _, a, b, c⟩ | ⟨a, b⟩ <;> rcases rel_unlist h' with ⟨_, _, a', b', c'⟩ | ⟨a', b'⟩ <;> rw [appOf, appOf, a, b, a', b']
    · exact rel_listV (List.rel_append c c')
    all_goals exact .lit _) hl) ?_
  refine rel_if (fun _ _ hl => rel_on1 (fun _ _ h => by
    rcases rel_unlist h with ⟨_, _, a, b, c⟩ | ⟨a, b⟩ <;> rw [lenOf, lenOf, a, b]
    · dsimp only; rw [c.length_eq]; exact .lit _
    · exact .lit _) hl) ?_
  refine rel_if (fun _ _ _ => .void) ?_
  refine rel_if (a2 fun _ _ => .lit _) ?_
  refine rel_if (a2 fun _ _ => .lit _) ?_
  refine rel_if (a2 fun _ _ => .lit _) ?_
  refine rel_if (a2 fun _ _ => .lit _) ?_
  refine rel_if (a2 fun _ _ => .lit _) ?_
  refine rel_if (a2 fun _ _ => .lit _) ?_
  refine rel_if (a2 fun _ _ => .lit _) ?_
  exact rel_if (a2 fun _ _ => .lit _) trivial

theorem unlistV : ∀ (vs : List RV), unlist (listV vs) = some vs
  | [] => rfl
  | v :: vs => by simp [listV, unlist, unlistV vs]

/-- C functions that satisfy the laws. -/
def lawP : Prims where
  f C p as := match lawF C p with
    | some f => f as
    | none => idleP.f C p as
  param {C C'} R p as bs h := by
    have := lawF_rel (R := R) p
    cases h1 : lawF C p <;> cases h2 : lawF C' p <;> rw [h1, h2] at this
    · exact idleP.param R p as bs h
    · cases this
    · cases this
    · exact this as bs h

theorem asNum_N (n : Int) : asNum (N lawN n) = some n := lawI_N n

theorem lawP_laws : Laws lawP lawN where
  pair _ := rfl
  null _ := rfl
  list _ := rfl
  proc _ := rfl
  not _ := rfl
  fix _ _ := rfl
  car _ _ := rfl
  cdr _ _ := rfl
  cons _ _ := rfl
  rev vs := show some (revOf (listV vs)) = _ by rw [revOf, unlistV]
  app2 vs ws := show some (appOf (listV vs) (listV ws)) = _ by rw [appOf, unlistV, unlistV]
  length vs := show some (lenOf (listV vs)) = _ by rw [lenOf, unlistV]; rfl
  void := rfl
  add a b _ _ _ := show some (arith2 _ _ (N lawN a) (N lawN b)) = _ by rw [arith2, asNum_N, asNum_N]; rfl
  sub a b _ _ _ := show some (arith2 _ _ (N lawN a) (N lawN b)) = _ by rw [arith2, asNum_N, asNum_N]; rfl
  mul a b _ _ _ := show some (arith2 _ _ (N lawN a) (N lawN b)) = _ by rw [arith2, asNum_N, asNum_N]; rfl
  eq a b _ _ := show some (arith2 _ _ (N lawN a) (N lawN b)) = _ by rw [arith2, asNum_N, asNum_N]; rfl
  gt a b _ _ := show some (arith2 _ _ (N lawN a) (N lawN b)) = _ by rw [arith2, asNum_N, asNum_N]; rfl
  lt a b _ _ := show some (arith2 _ _ (N lawN a) (N lawN b)) = _ by rw [arith2, asNum_N, asNum_N]; rfl
  ge a b _ _ := show some (arith2 _ _ (N lawN a) (N lawN b)) = _ by rw [arith2, asNum_N, asNum_N]; rfl
  le a b _ _ := show some (arith2 _ _ (N lawN a) (N lawN b)) = _ by rw [arith2, asNum_N, asNum_N]; rfl
  nm0 := rfl
  nm1 := rfl
  nm2 := rfl
  nm3 := rfl
  nm4 := rfl
  nm5 := rfl
  nm6 := rfl
  nm7 := rfl
  nm8 := rfl
  nm9 := rfl
  nm10 := rfl

end Minim.Fix
