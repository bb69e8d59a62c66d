import Verif.PassL1
import Mathlib.Tactic.Linarith

set_option autoImplicit false

/-!
# The optimiser always ends
-/

namespace Minim.Jit

open Minim.Sx Minim.Core

/-! ## Which expressions the passes can work on -/

/-- Specification: consumers without a mix of required and rest parameters. -/
def Con : E → Prop
  | .lam f _ => f.req = [] ∨ f.rest = none
  | .clam [.mk f _] => f.req = [] ∨ f.rest = none
  | .clam _ | .var _ | .lit _ | .quote _ | .quoteSyntax _ | .unbound => True
  | _ => False

mutual

/-- Specification: bodies and sequences are not empty, `case-lambda` has a clause, `call-with-values` is only called directly, with a producer and a consumer without a mix of required
and rest parameters; `let-values` and `letrec-values` occur only if `src` holds. -/
def TE (src : Prop) : E → Prop
  | .var x => x ≠ .callWithValues
  | .lit _ | .quote _ | .quoteSyntax _ | .unbound => True
  | .define _ e => TE src e
  | .set _ e => TE src e
  | .ite c t e => TE src c ∧ TE src t ∧ TE src e
  | .letv bs es => src ∧ es ≠ [] ∧ TEB src bs ∧ TEL src es
  | .letrecv bs es => src ∧ es ≠ [] ∧ TEB src bs ∧ TEL src es
  | .lam _ es => es ≠ [] ∧ TEL src es
  | .clam cs => cs ≠ [] ∧ TEC src cs
  | .begin es => es ≠ [] ∧ TEL src es
  | .app f es => TEL src es ∧ (TE src f ∨ (f = .var .callWithValues ∧ ∃ p c r, es = p :: c :: r ∧ Con c))
  | .mvcall e c => TE src e ∧ TE src c ∧ Con c
  | .mvlet e _ b => TE src e ∧ TE src b
  | .mvvals es => TEL src es

/-- Specification: the same for lists. -/
def TEL (src : Prop) : List E → Prop
  | [] => True
  | e :: es => TE src e ∧ TEL src es

/-- Specification: the same for bindings. -/
def TEB (src : Prop) : List Bd → Prop
  | [] => True
  | .mk _ e :: bs => TE src e ∧ TEB src bs

/-- Specification: the same for clauses. -/
def TEC (src : Prop) : List Cl → Prop
  | [] => True
  | .mk _ es :: cs => (es ≠ [] ∧ TEL src es) ∧ TEC src cs

end

/-! ## A weight the second pass reduces -/

mutual

/-- A weight every rewriting of the second pass makes smaller. -/
def wt : E → Nat
  | .var _ | .lit _ | .quote _ | .quoteSyntax _ | .unbound => 2
  | .define _ e => wt e + 1
  | .set _ e => wt e + 1
  | .ite c t e => wt c + wt t + wt e + 1
  | .letv _ _ => 2
  | .letrecv _ _ => 2
  | .lam _ es => wtS es + 2
  | .clam cs => wtC cs + 2
  | .begin es => wtS es + 1
  | .app f es => (wt f + 1) * wtP es
  | .mvcall e c => (wt e + 1) * (wt c + 2)
  | .mvlet e _ b => wt e + wt b + 1
  | .mvvals es => wtP es + 1

/-- Sum. -/
def wtS : List E → Nat
  | [] => 0
  | e :: es => wt e + wtS es

/-- Product. -/
def wtP : List E → Nat
  | [] => 1
  | e :: es => (wt e + 1) * wtP es

/-- Sum over clauses. -/
def wtC : List Cl → Nat
  | [] => 0
  | .mk _ es :: cs => wtS es + wtC cs

end

theorem wtP_pos : ∀ es, 0 < wtP es
  | [] => by simp [wtP]
  | e :: es => by rw [wtP]; exact Nat.mul_pos (by omega) (wtP_pos es)

theorem wt_pos (e : E) : 0 < wt e := by
  cases e <;> simp only [wt] <;> first | omega | exact Nat.mul_pos (by omega) (wtP_pos _) | exact Nat.mul_pos (by omega) (by omega)

theorem wtP_append : ∀ es fs, wtP (es ++ fs) = wtP es * wtP fs
  | [], fs => by simp [wtP]
  | e :: es, fs => by simp [wtP, wtP_append es fs, Nat.mul_assoc]

theorem wtS_append : ∀ es fs, wtS (es ++ fs) = wtS es + wtS fs
  | [], fs => by simp [wtS]
  | e :: es, fs => by simp [wtS, wtS_append es fs, Nat.add_assoc]

/-- A computation that ends, without error or undefined behaviour if `p` holds, with a result satisfying `Q`. -/
def Tot {α : Type} (p : Prop) (Q : α → Prop) : Res α → Prop
  | .ok a => Q a
  | .oof => False
  | .err => ¬ p
  | .ub => ¬ p

section
variable {α β : Type} {p q : Prop} {Q R : α → Prop}

theorem Tot.mono {r : Res α} (h : Tot p Q r) (hp : q → p) (hQ : ∀ a, Q a → R a) : Tot q R r := by
  cases r with
  | ok a => exact hQ a h
  | oof => exact h
  | err => exact fun hq => h (hp hq)
  | ub => exact fun hq => h (hp hq)

theorem Tot.bind {S : β → Prop} {r : Res α} {k : α → Res β} (h : Tot p Q r) (hk : ∀ a, Q a → Tot p S (k a)) : Tot p S (r >>= k) := by
  cases r with
  | ok a => exact hk a h
  | oof => exact h
  | err => exact h
  | ub => exact h

end

/-- What a recursive call does to one expression. -/
def Good (e e' : E) : Prop := wt e' ≤ wt e ∧ (TE False e → TE False e' ∧ (Con e → Con e'))

/-- What recursive calls on expressions of weight less than `N` do. -/
def Shrinks (rec : E → Res E) (N : Nat) : Prop := ∀ e, wt e < N → Tot (TE False e) (Good e) (rec e)

section
variable {rec : E → Res E} {N : Nat}

/-- The same for lists. -/
def GoodL (es es' : List E) : Prop := wtS es' ≤ wtS es ∧ wtP es' ≤ wtP es ∧ (es ≠ [] → es' ≠ []) ∧ (TEL False es → TEL False es')

/-- The same for clauses. -/
def GoodC (cs cs' : List Cl) : Prop := wtC cs' ≤ wtC cs ∧ (cs ≠ [] → cs' ≠ []) ∧ (TEC False cs → TEC False cs') ∧ (Con (.clam cs) → Con (.clam cs'))

theorem mapR_good (h : Shrinks rec N) : ∀ es : List E, (∀ e ∈ es, wt e < N) → Tot (TEL False es) (GoodL es) (mapR rec es)
  | [], _ => ⟨Nat.le_refl _, Nat.le_refl _, id, id⟩
  | e :: es, hl => by
    rw [mapR]
    refine ((h e (hl e (by simp))).mono (fun hp : TEL False (e :: es) => by rw [TEL] at hp; exact hp.1) fun _ => id).bind fun e1 h1 => ?_
    refine ((mapR_good h es fun x hx => hl x (by simp [hx])).mono (fun hp : TEL False (e :: es) => by rw [TEL] at hp; exact hp.2) fun _ => id).bind fun es1 h2 => ?_
    refine ⟨?_, ?_, fun _ => by simp, fun hp => ?_⟩
    · rw [wtS, wtS]; exact Nat.add_le_add h1.1 h2.1
    · rw [wtP, wtP]; exact Nat.mul_le_mul (by have := h1.1; omega) h2.2.1
    · rw [TEL] at hp ⊢; exact ⟨(h1.2 hp.1).1, h2.2.2.2 hp.2⟩

theorem wt_mem_S : ∀ {es : List E} {e : E}, e ∈ es → wt e ≤ wtS es
  | e :: es, x, h => by
    rw [wtS]
    rcases List.mem_cons.1 h with rfl | h
    · omega
    · have := wt_mem_S h; omega

theorem wt_mem_P : ∀ {es : List E} {e : E}, e ∈ es → wt e < wtP es
  | e :: es, x, h => by
    rw [wtP]
    rcases List.mem_cons.1 h with rfl | h
    · have := wtP_pos es
      calc wt x < (wt x + 1) * 1 := by omega
        _ ≤ _ := Nat.mul_le_mul (Nat.le_refl _) this
    · have := wt_mem_P h
      calc wt x < 1 * wtP es := by omega
        _ ≤ _ := Nat.mul_le_mul (by omega) (Nat.le_refl _)

theorem mapC_good (h : Shrinks rec N) : ∀ cs : List Cl, wtC cs < N → Tot (TEC False cs) (GoodC cs) (mapC rec cs)
  | [], _ => ⟨Nat.le_refl _, id, id, id⟩
  | .mk f es :: cs, hl => by
    rw [wtC] at hl
    rw [mapC]
    refine ((mapR_good h es fun x hx => by have := wt_mem_S hx; omega).mono (fun hp : TEC False (.mk f es :: cs) => by rw [TEC] at hp; exact hp.1.2) fun _ => id).bind fun es1 h1 => ?_
    refine ((mapC_good h cs (by omega)).mono (fun hp : TEC False (.mk f es :: cs) => by rw [TEC] at hp; exact hp.2) fun _ => id).bind fun cs1 h2 => ?_
    refine ⟨?_, fun _ => by simp, fun hp => ?_, fun hp => ?_⟩
    · rw [wtC, wtC]; exact Nat.add_le_add h1.1 h2.1
    · rw [TEC] at hp ⊢; exact ⟨⟨h1.2.2.1 hp.1.1, h1.2.2.2 hp.1.2⟩, h2.2.2.1 hp.2⟩
    · cases cs with
      | nil =>
        cases cs1 with
        | nil => exact hp
        | cons => trivial
      | cons c cs =>
        cases cs1 with
        | nil => exact absurd rfl (h2.2.1 (by simp))
        | cons => trivial

theorem bodyExpr_good {es : List E} : Tot (es ≠ []) (fun b => wt b ≤ wtS es + 1 ∧ (TEL False es → TE False b)) (bodyExpr es) := by
  match es with
  | [] => exact fun h => h rfl
  | [e] => exact ⟨by simp [wtS], fun h => by rw [TEL] at h; exact h.1⟩
  | a :: b :: es => exact ⟨by rw [wt], fun h => by rw [TE]; exact ⟨by simp, h⟩⟩

theorem Good.via {e e1 e2 : E} (hw : wt e1 ≤ wt e) (ht : TE False e → TE False e1) (hc : ¬ Con e) (h : Good e1 e2) : Good e e2 :=
  ⟨Nat.le_trans h.1 hw, fun hp => ⟨(h.2 (ht hp)).1, fun h => absurd h hc⟩⟩

theorem Shrinks.via (h : Shrinks rec N) {e e1 : E} (hw : wt e1 < wt e) (hN : wt e ≤ N) (ht : TE False e → TE False e1) (hc : ¬ Con e) : Tot (TE False e) (Good e) (rec e1) :=
  (h e1 (by omega)).mono ht fun _ => Good.via (Nat.le_of_lt hw) ht hc

theorem l1Consumer_good (h : Shrinks rec N) {e c : E} (hN : wt (.mvcall e c) ≤ N) : Tot (TE False (.mvcall e c)) (Good (.mvcall e c)) (l1Consumer rec e c) := by
  have triv : Good (.mvcall e c) (.mvcall e c) := ⟨Nat.le_refl _, fun h => ⟨h, id⟩⟩
  unfold l1Consumer
  split
  next f body =>
    split
    · exact triv
    next hreq =>
      split
      next hrest =>
        intro hp
        rw [TE] at hp
        rcases hp.2.2 with h | h
        · exact hreq (by rw [h]; rfl)
        · rw [h] at hrest; cases hrest
      next hrest =>
        refine (bodyExpr_good (es := body)).mono (fun hp => by rw [TE, TE] at hp; exact hp.2.1.1) (fun _ => id) |>.bind fun b hb => ?_
        refine h.via ?_ hN (fun hp => ?_) id
        · rw [wt, wt, wt]
          have := hb.1
          nlinarith [wt_pos e]
        · rw [TE, TE] at hp
          rw [TE]
          exact ⟨hp.1, hb.2 hp.2.1.2⟩
  · exact triv

theorem TEL.append {src : Prop} : ∀ {es fs : List E}, TEL src (es ++ fs) ↔ TEL src es ∧ TEL src fs
  | [], fs => by simp [TEL]
  | e :: es, fs => by simp [TEL, TEL.append (es := es), and_assoc]

theorem pushCall_good {c : E} : ∀ es : List E, Tot (es ≠ []) (fun es' => ∃ init l, es = init ++ [l] ∧ es' = init ++ [.mvcall l c]) (pushCall c es)
  | [] => fun h => h rfl
  | [e] => ⟨[], e, rfl, rfl⟩
  | e :: e1 :: es => by
    rw [pushCall]
    refine ((pushCall_good (e1 :: es)).mono (fun _ => by simp) fun _ => id).bind fun es' h => ?_
    obtain ⟨init, l, h1, rfl⟩ := h
    exact ⟨e :: init, l, by rw [h1]; rfl, rfl⟩

theorem app_TE {c : E} {es : List E} (hc : TE False c) (hes : TEL False es) : TE False (.app c es) := by
  rw [TE]; exact ⟨hes, .inl hc⟩

theorem l1Mvcall_good (h : Shrinks rec N) {e c : E} (hN : wt (.mvcall e c) ≤ N) : Tot (TE False (.mvcall e c)) (Good (.mvcall e c)) (l1Mvcall rec e c) := by
  have atom : wt (.app c [e]) < wt (.mvcall e c) := by
    simp only [wt, wtP]
    nlinarith [wt_pos e, wt_pos c]
  have atomT : TE False (.mvcall e c) → TE False (.app c [e]) := fun hp => by
    rw [TE] at hp
    exact app_TE hp.2.1 (by rw [TEL]; exact ⟨hp.1, trivial⟩)
  unfold l1Mvcall
  split
  next f body args =>
    split
    next hf =>
      refine (bodyExpr_good (es := body)).mono (fun hp => ?_) (fun _ => id) |>.bind fun b hb => ?_
      · rw [TE, TE] at hp
        rcases hp.1.2 with hp | hp
        · rw [TE] at hp; exact hp.1
        · exact absurd hp.1 (by simp)
      · refine h.via ?_ hN (fun hp => ?_) id
        · simp only [wt]
          have := hb.1
          have := wtP_pos args
          have : wtS body + 3 ≤ (wtS body + 2 + 1) * wtP args := by nlinarith
          nlinarith [wt_pos c]
        · rw [TE, TE] at hp
          rw [TE]
          rcases hp.1.2 with hp1 | hp1
          · rw [TE] at hp1; exact ⟨hb.2 hp1.2, hp.2⟩
          · exact absurd hp1.1 (by simp)
    · exact l1Consumer_good h hN
  next es =>
    refine h.via ?_ hN (fun hp => ?_) id
    · simp only [wt]
      nlinarith [wtP_pos es, wt_pos c]
    · rw [TE, TE] at hp
      exact app_TE hp.2.1 hp.1
  next es =>
    refine (pushCall_good es).mono (fun hp => by rw [TE, TE] at hp; exact hp.1.1) (fun _ => id) |>.bind fun es' hb => ?_
    obtain ⟨init, l, rfl, rfl⟩ := hb
    refine h.via ?_ hN (fun hp => ?_) id
    · simp only [wt, wtS_append, wtS]
      nlinarith [wt_pos c, wt_pos l, Nat.zero_le (wtS init)]
    · rw [TE, TE, TEL.append, TEL] at hp
      rw [TE, TEL.append, TEL, TE]
      exact ⟨by simp, hp.1.2.1, ⟨hp.1.2.2.1, hp.2⟩, by rw [TEL]; trivial⟩
  next a t f =>
    refine h.via ?_ hN (fun hp => ?_) id
    · simp only [wt]
      nlinarith [wt_pos c, wt_pos a]
    · rw [TE, TE] at hp
      rw [TE, TE, TE]
      exact ⟨hp.1.1, ⟨hp.1.2.1, hp.2⟩, ⟨hp.1.2.2, hp.2⟩⟩
  · exact h.via atom hN atomT id
  · exact h.via atom hN atomT id
  · exact h.via atom hN atomT id
  · exact h.via atom hN atomT id
  · exact h.via atom hN atomT id
  · exact l1Consumer_good h hN

theorem l1Step_good (h : Shrinks rec N) : Shrinks (l1Step rec) (N + 1) := by
  intro e hN
  cases e with
  | var | lit | quote | quoteSyntax | unbound => exact ⟨Nat.le_refl _, fun h => ⟨h, id⟩⟩
  | define xs e =>
    rw [wt] at hN
    refine ((h e (by omega)).mono (fun hp => by rw [TE] at hp; exact hp) fun _ => id).bind fun e1 h1 => ?_
    refine ⟨by rw [wt, wt]; have := h1.1; omega, fun hp => ?_⟩
    rw [TE] at hp ⊢
    exact ⟨(h1.2 hp).1, False.elim⟩
  | set x e =>
    rw [wt] at hN
    refine ((h e (by omega)).mono (fun hp => by rw [TE] at hp; exact hp) fun _ => id).bind fun e1 h1 => ?_
    refine ⟨by rw [wt, wt]; have := h1.1; omega, fun hp => ?_⟩
    rw [TE] at hp ⊢
    exact ⟨(h1.2 hp).1, False.elim⟩
  | lam f es =>
    rw [wt] at hN
    refine ((mapR_good h es fun x hx => by have := wt_mem_S hx; omega).mono (fun hp => by rw [TE] at hp; exact hp.2) fun _ => id).bind fun es1 h1 => ?_
    refine ⟨by rw [wt, wt]; have := h1.1; omega, fun hp => ?_⟩
    rw [TE] at hp ⊢
    exact ⟨⟨h1.2.2.1 hp.1, h1.2.2.2 hp.2⟩, id⟩
  | clam cs =>
    rw [wt] at hN
    refine ((mapC_good h cs (by omega)).mono (fun hp => by rw [TE] at hp; exact hp.2) fun _ => id).bind fun es1 h1 => ?_
    refine ⟨by rw [wt, wt]; have := h1.1; omega, fun hp => ?_⟩
    rw [TE] at hp ⊢
    exact ⟨⟨h1.2.1 hp.1, h1.2.2.1 hp.2⟩, h1.2.2.2⟩
  | begin es =>
    rw [wt] at hN
    refine ((mapR_good h es fun x hx => by have := wt_mem_S hx; omega).mono (fun hp => by rw [TE] at hp; exact hp.2) fun _ => id).bind fun es1 h1 => ?_
    refine ⟨by rw [wt, wt]; have := h1.1; omega, fun hp => ?_⟩
    rw [TE] at hp ⊢
    exact ⟨⟨h1.2.2.1 hp.1, h1.2.2.2 hp.2⟩, False.elim⟩
  | mvvals es =>
    rw [wt] at hN
    refine ((mapR_good h es fun x hx => by have := wt_mem_P hx; omega).mono (fun hp => by rw [TE] at hp; exact hp) fun _ => id).bind fun es1 h1 => ?_
    refine ⟨by rw [wt, wt]; have := h1.2.1; omega, fun hp => ?_⟩
    rw [TE] at hp ⊢
    exact ⟨h1.2.2.2 hp, False.elim⟩
  | ite a b c =>
    rw [wt] at hN
    refine ((h a (by omega)).mono (fun hp => by rw [TE] at hp; exact hp.1) fun _ => id).bind fun a1 h1 => ?_
    refine ((h b (by omega)).mono (fun hp => by rw [TE] at hp; exact hp.2.1) fun _ => id).bind fun b1 h2 => ?_
    refine ((h c (by omega)).mono (fun hp => by rw [TE] at hp; exact hp.2.2) fun _ => id).bind fun c1 h3 => ?_
    refine ⟨by rw [wt, wt]; have := h1.1; have := h2.1; have := h3.1; omega, fun hp => ?_⟩
    rw [TE] at hp ⊢
    exact ⟨⟨(h1.2 hp.1).1, (h2.2 hp.2.1).1, (h3.2 hp.2.2).1⟩, False.elim⟩
  | mvlet a xs b =>
    rw [wt] at hN
    refine ((h a (by omega)).mono (fun hp => by rw [TE] at hp; exact hp.1) fun _ => id).bind fun a1 h1 => ?_
    refine ((h b (by omega)).mono (fun hp => by rw [TE] at hp; exact hp.2) fun _ => id).bind fun b1 h2 => ?_
    refine ⟨by rw [wt, wt]; have := h1.1; have := h2.1; omega, fun hp => ?_⟩
    rw [TE] at hp ⊢
    exact ⟨⟨(h1.2 hp.1).1, (h2.2 hp.2).1⟩, False.elim⟩
  | mvcall e c => exact l1Mvcall_good h (by omega)
  | letv => exact fun hp => by rw [TE] at hp; exact hp.1
  | letrecv => exact fun hp => by rw [TE] at hp; exact hp.1
  | app f es =>
    by_cases hv : f = .var .values
    · subst hv
      show Tot _ _ (l1Values rec es)
      rw [wt, wt] at hN
      match es with
      | [] => exact ⟨by simp [wt, wtP], fun hp => by rw [TE] at hp; rw [TE]; exact ⟨hp.1, False.elim⟩⟩
      | [e] =>
        simp only [wtP] at hN
        rw [l1Values]
        refine (h e (by omega)).mono (fun hp => ?_) fun e1 h1 => ⟨?_, fun hp => ?_⟩
        · rw [TE, TEL] at hp; exact hp.1.1
        · simp only [wt, wtP]; have := h1.1; omega
        · rw [TE, TEL] at hp; exact ⟨(h1.2 hp.1.1).1, False.elim⟩
      | a :: b :: es =>
        rw [l1Values]
        · refine ((mapR_good h (a :: b :: es) fun x hx => by have := wt_mem_P hx; omega).mono (fun hp => by rw [TE] at hp; exact hp.1) fun _ => id).bind fun es1 h1 => ?_
          refine ⟨by rw [wt, wt, wt]; have := h1.2.1; have := wtP_pos (a :: b :: es); omega, fun hp => ?_⟩
          simp only [TE] at hp ⊢
          exact ⟨h1.2.2.2 hp.1, False.elim⟩
        · simp
        · simp
    · by_cases hc : f = .var .callWithValues
      · subst hc
        match es with
        | [] => exact fun hp => by rw [TE] at hp; rcases hp.2 with h | ⟨_, p, c, r, h, _⟩; exacts [h rfl, by cases h]
        | [_] => exact fun hp => by rw [TE] at hp; rcases hp.2 with h | ⟨_, p, c, r, h, _⟩; exacts [h rfl, by cases h]
        | p :: c :: r =>
          simp only [wt, wtP] at hN
          have hr := wtP_pos r
          have hb : (wt p + 1) * (wt c + 1) ≤ (wt p + 1) * ((wt c + 1) * wtP r) := Nat.mul_le_mul (Nat.le_refl _) (by nlinarith)
          have hp1 := wt_pos p
          have hc1 := wt_pos c
          have hpc : TE False (.app (.var .callWithValues) (p :: c :: r)) → TE False p ∧ TE False c ∧ Con c := fun hp => by
            rw [TE, TEL, TEL] at hp
            refine ⟨hp.1.1, hp.1.2.1, ?_⟩
            rcases hp.2 with h | ⟨_, p, c, r, h, hc⟩
            · exact absurd rfl h
            · cases h; exact hc
          show Tot _ _ (do let p ← rec p; let c ← rec c; l1Mvcall rec (.app p []) c)
          refine ((h p (by nlinarith)).mono (fun hp => (hpc hp).1) fun _ => id).bind fun p1 h1 => ?_
          refine ((h c (by nlinarith)).mono (fun hp => (hpc hp).2.1) fun _ => id).bind fun c1 h2 => ?_
          have hle : wt (.mvcall (.app p1 []) c1) < wt (.app (.var .callWithValues) (p :: c :: r)) := by
            simp only [wt, wtP]
            have g1 := h1.1
            have g2 := h2.1
            have : (wt p1 + 1) * 1 + 1 ≤ wt p + 2 := by omega
            calc ((wt p1 + 1) * 1 + 1) * (wt c1 + 2) ≤ (wt p + 2) * (wt c + 2) := Nat.mul_le_mul this (by omega)
              _ < 3 * ((wt p + 1) * (wt c + 1)) := by nlinarith
              _ ≤ _ := Nat.mul_le_mul (Nat.le_refl _) hb
          have hT : TE False (.app (.var .callWithValues) (p :: c :: r)) → TE False (.mvcall (.app p1 []) c1) := fun hp => by
            obtain ⟨a, b, d⟩ := hpc hp
            rw [TE]
            exact ⟨app_TE (h1.2 a).1 (by rw [TEL]; trivial), (h2.2 b).1, (h2.2 b).2 d⟩
          refine (l1Mvcall_good h (e := .app p1 []) (c := c1) ?_).mono hT fun _ => Good.via (Nat.le_of_lt hle) hT id
          have : wt (.app (.var .callWithValues) (p :: c :: r)) ≤ N := by simp only [wt, wtP]; omega
          omega
      · have h' : l1Step rec (.app f es) = (do let f ← rec f; let args ← mapR rec es; .ok (.app f args) : Res E) := by
          rw [l1Step]
          · intro h; exact hv h
          · intro p c r h; exact absurd h hc
          · intro h; exact hc h
        rw [h']
        rw [wt] at hN
        have hP := wtP_pos es
        have hpp : TE False (.app f es) → TE False f ∧ TEL False es := fun hp => by
          rw [TE] at hp
          rcases hp.2 with h | h
          · exact ⟨h, hp.1⟩
          · exact absurd h.1 hc
        refine ((h f (by nlinarith)).mono (fun hp => (hpp hp).1) fun _ => id).bind fun f1 h1 => ?_
        refine ((mapR_good h es fun x hx => by have := wt_mem_P hx; nlinarith).mono (fun hp => (hpp hp).2) fun _ => id).bind fun es1 h2 => ?_
        refine ⟨?_, fun hp => ⟨app_TE (h1.2 (hpp hp).1).1 (h2.2.2.2 (hpp hp).2), False.elim⟩⟩
        rw [wt, wt]
        exact Nat.mul_le_mul (by have := h1.1; omega) h2.2.1

theorem L1_good : ∀ n, Shrinks (L1 n) n
  | 0 => fun e h => absurd h (by omega)
  | n + 1 => l1Step_good (L1_good n)

end

/-! ## The first pass -/

theorem TEL.vars {src : Prop} : ∀ {ts : List Sym}, (∀ t ∈ ts, ∃ j, t = .gen j) → TEL src (ts.map .var)
  | [], _ => by simp [TEL]
  | t :: ts, h => by
    obtain ⟨j, rfl⟩ := h t (by simp)
    simp only [List.map_cons, TEL, TE]
    exact ⟨by simp, TEL.vars fun t ht => h t (List.mem_cons_of_mem _ ht)⟩

theorem cwvLam_TE {src : Prop} {xs : List Sym} {e : E} {body : List E} (h : TE src e) (hne : body ≠ []) (hb : TEL src body) :
    TE src (.app (.var .callWithValues) [.lam (fixed []) [e], .lam (fixed xs) body]) := by
  simp only [TE, TEL]
  exact ⟨⟨⟨by simp, h, trivial⟩, ⟨hne, hb⟩, trivial⟩, .inr ⟨trivial, _, _, _, rfl, .inr rfl⟩⟩

theorem tmpIds_isGen : ∀ (xs : List Sym) (k : Nat), ∀ t ∈ tmpIds k xs, ∃ j, t = .gen j
  | [], _, t, h => by simp [tmpIds] at h
  | _ :: xs, k, t, h => by
    rw [tmpIds] at h
    rcases List.mem_cons.1 h with rfl | h
    · exact ⟨k, rfl⟩
    · exact tmpIds_isGen xs _ t h

theorem let2_TE {src : Prop} {body : List E} (hne : body ≠ []) (hb : TEL src body) : ∀ (bs : List Bd) (k : Nat) (ids tmps : List Sym), (∀ t ∈ tmps, ∃ j, t = .gen j) → TEB src bs →
    TE src (let2 k bs ids tmps body)
  | [], k, ids, tmps, ht, _ => by
    rw [let2, TE, TE]
    exact ⟨TEL.vars ht, .inl ⟨hne, hb⟩⟩
  | .mk xs e :: bs, k, ids, tmps, ht, h => by
    rw [TEB] at h
    rw [let2]
    refine cwvLam_TE h.1 (by simp) ?_
    rw [TEL]
    refine ⟨let2_TE hne hb bs _ _ _ (fun t h => ?_) h.2, by rw [TEL]; trivial⟩
    rcases List.mem_append.1 h with h | h
    · exact tmpIds_isGen xs k t h
    · exact ht t h

theorem letExpr_TE {src : Prop} {body : List E} {bs : List Bd} (k : Nat) (hne : body ≠ []) (hb : TEL src body) (h : TEB src bs) : TE src (letExpr k bs body) := by
  match bs with
  | [] => rw [letExpr, TE]; exact ⟨hne, hb⟩
  | [.mk xs e] => rw [TEB] at h; exact cwvLam_TE h.1 hne hb
  | .mk xs e :: b :: bs => exact let2_TE hne hb _ k [] [] (by simp) h

theorem setBody_TE {src : Prop} : ∀ (xs ts : List Sym), (∀ t ∈ ts, ∃ j, t = .gen j) → TEL src (setBody xs ts)
  | [], _, _ => by simp [setBody, TEL]
  | _ :: _, [], _ => by simp [setBody, TEL]
  | x :: xs, t :: ts, h => by
    obtain ⟨j, rfl⟩ := h t (by simp)
    simp only [setBody, TEL, TE]
    exact ⟨by simp, setBody_TE xs ts fun t ht => h t (List.mem_cons_of_mem _ ht)⟩

theorem setExpr_TE {src : Prop} (k : Nat) (xs : List Sym) (e : E) (h : TE src e) : TE src (setExpr k (.mk xs e)) := by
  rw [setExpr]
  refine cwvLam_TE h ?_ ?_
  · cases xs <;> simp [setBody, tmpIds]
  · split
    · simp [TEL, TE]
    · exact setBody_TE _ _ (tmpIds_isGen xs k)

theorem setExprs_TE {src : Prop} : ∀ (bs : List Bd) (k : Nat), TEB src bs → TEL src (setExprs k bs)
  | [], _, _ => by simp [setExprs, TEL]
  | .mk xs e :: bs, k, h => by
    rw [TEB] at h
    rw [setExprs, TEL]
    exact ⟨setExpr_TE k xs e h.1, setExprs_TE bs _ h.2⟩

theorem TEL.replicate {src : Prop} {e : E} (h : TE src e) : ∀ n, TEL src (List.replicate n e)
  | 0 => by simp [TEL]
  | n + 1 => by simp [List.replicate, TEL, h, TEL.replicate h n]

theorem letrecExpr_TE {src : Prop} {body : List E} {bs : List Bd} (k : Nat) (hne : body ≠ []) (hb : TEL src body) (h : TEB src bs) : TE src (letrecExpr k bs body) := by
  rw [letrecExpr]
  split
  · rw [TE]; exact ⟨hne, hb⟩
  · refine cwvLam_TE ?_ (by simp [hne]) (TEL.append.2 ⟨setExprs_TE bs k h, hb⟩)
    rw [TE, TE]
    exact ⟨TEL.replicate (by simp [TE]) _, .inl (by simp)⟩

theorem L0s_length : ∀ (es : List E) (k : Nat), (L0s k es).1.length = es.length
  | [], _ => by simp [L0s]
  | e :: es, k => by rw [L0s]; simp [L0s_length es]

theorem L0C_length : ∀ (cs : List Cl) (k : Nat), (L0C k cs).1.length = cs.length
  | [], _ => by simp [L0C]
  | .mk _ es :: cs, k => by rw [L0C]; simp [L0C_length cs]

theorem L0s_ne {es : List E} (k : Nat) (h : es ≠ []) : (L0s k es).1 ≠ [] := by
  intro h'
  have := L0s_length es k
  rw [h'] at this
  cases es with
  | nil => exact h rfl
  | cons => simp at this

theorem L0_con {e : E} {k : Nat} (h : Con e) : Con (L0 k e).1 := by
  cases e with
  | var | lit | quote | quoteSyntax | unbound => rw [L0]; exact h
  | lam f es => rw [L0]; exact h
  | clam cs =>
    rw [L0]
    match cs with
    | [] => rw [L0C, clamExpr]; trivial; simp
    | [.mk f es] => rw [L0C, L0C, clamExpr]; exact h
    | .mk f es :: .mk g fs :: cs => rw [L0C, L0C, clamExpr]; trivial; simp
  | _ => exact h.elim

mutual

theorem L0_TE : ∀ (e : E) (k : Nat), TE True e → TE False (L0 k e).1
  | .var _, _, h => by rw [L0]; rw [TE] at h ⊢; exact h
  | .lit _, _, h => by simp [L0, TE]
  | .quote _, _, h => by simp [L0, TE]
  | .quoteSyntax _, _, h => by simp [L0, TE]
  | .unbound, _, h => by simp [L0, TE]
  | .define _ e, k, h => by rw [TE] at h; rw [L0, TE]; exact L0_TE e k h
  | .set _ e, k, h => by rw [TE] at h; rw [L0, TE]; exact L0_TE e k h
  | .ite a b c, k, h => by rw [TE] at h; rw [L0, TE]; exact ⟨L0_TE a _ h.1, L0_TE b _ h.2.1, L0_TE c _ h.2.2⟩
  | .letv bs es, k, h => by rw [TE] at h; rw [L0]; exact letExpr_TE k (L0s_ne _ h.2.1) (L0s_TE es _ h.2.2.2) (L0B_TE bs _ h.2.2.1)
  | .letrecv bs es, k, h => by rw [TE] at h; rw [L0]; exact letrecExpr_TE k (L0s_ne _ h.2.1) (L0s_TE es _ h.2.2.2) (L0B_TE bs _ h.2.2.1)
  | .lam _ es, k, h => by rw [TE] at h; rw [L0, TE]; exact ⟨L0s_ne _ h.1, L0s_TE es _ h.2⟩
  | .clam cs, k, h => by
    rw [TE] at h
    rw [L0]
    have h1 := L0C_TE cs k h.2
    have h2 := L0C_length cs k
    cases hcs : (L0C k cs).1 with
    | nil =>
      rw [hcs] at h2
      cases cs with
      | nil => exact absurd rfl h.1
      | cons => simp at h2
    | cons c cs' =>
      rw [hcs] at h1
      obtain ⟨f, es⟩ := c
      cases cs' with
      | nil => rw [TEC] at h1; rw [clamExpr, TE]; exact h1.1
      | cons c' cs' => rw [clamExpr, TE]; exact ⟨by simp, h1⟩; simp
  | .begin es, k, h => by rw [TE] at h; rw [L0, TE]; exact ⟨L0s_ne _ h.1, L0s_TE es _ h.2⟩
  | .app f es, k, h => by
    rw [TE] at h
    rw [L0, TE]
    refine ⟨L0s_TE es _ h.1, ?_⟩
    rcases h.2 with h' | ⟨h', p, c, r, h1, h2⟩
    · exact .inl (L0_TE f k h')
    · subst h' h1
      refine .inr ⟨by rw [L0], ?_⟩
      simp only [L0s]
      exact ⟨_, _, _, rfl, L0_con h2⟩
  | .mvcall e c, k, h => by rw [TE] at h; rw [L0, TE]; exact ⟨L0_TE e _ h.1, L0_TE c _ h.2.1, L0_con h.2.2⟩
  | .mvlet e _ c, k, h => by rw [TE] at h; rw [L0, TE]; exact ⟨L0_TE e _ h.1, L0_TE c _ h.2⟩
  | .mvvals es, k, h => by rw [TE] at h; rw [L0, TE]; exact L0s_TE es _ h

theorem L0s_TE : ∀ (es : List E) (k : Nat), TEL True es → TEL False (L0s k es).1
  | [], _, _ => by simp [L0s, TEL]
  | e :: es, k, h => by rw [TEL] at h; rw [L0s, TEL]; exact ⟨L0_TE e k h.1, L0s_TE es _ h.2⟩

theorem L0B_TE : ∀ (bs : List Bd) (k : Nat), TEB True bs → TEB False (L0B k bs).1
  | [], _, _ => by simp [L0B, TEB]
  | .mk _ e :: bs, k, h => by rw [TEB] at h; rw [L0B, TEB]; exact ⟨L0_TE e k h.1, L0B_TE bs _ h.2⟩

theorem L0C_TE : ∀ (cs : List Cl) (k : Nat), TEC True cs → TEC False (L0C k cs).1
  | [], _, _ => by simp [L0C, TEC]
  | .mk _ es :: cs, k, h => by rw [TEC] at h; rw [L0C, TEC]; exact ⟨⟨L0s_ne _ h.1.1, L0s_TE es k h.1.2⟩, L0C_TE cs _ h.2⟩

end

/-! ## The third pass -/

theorem bodyExpr_some {es : List E} (hne : es ≠ []) (h : hasClausesL es = true) : ∃ b, bodyExpr es = .ok b ∧ hasClauses b = true := by
  match es with
  | [] => exact absurd rfl hne
  | [e] => exact ⟨e, rfl, by simpa [hasClausesL] using h⟩
  | a :: b :: es => exact ⟨_, rfl, h⟩

mutual

theorem L2_some : ∀ e : E, TE False e → ∃ e', L2 e = .ok e' ∧ hasClauses e' = true
  | .var _, _ => ⟨_, rfl, rfl⟩
  | .lit _, _ => ⟨_, rfl, rfl⟩
  | .quote _, _ => ⟨_, rfl, rfl⟩
  | .quoteSyntax _, _ => ⟨_, rfl, rfl⟩
  | .unbound, _ => ⟨_, rfl, rfl⟩
  | .define _ e, h => by
    rw [TE] at h
    obtain ⟨a, h1, h2⟩ := L2_some e h
    exact ⟨_, by rw [L2, h1]; rfl, by rw [hasClauses]; exact h2⟩
  | .set _ e, h => by
    rw [TE] at h
    obtain ⟨a, h1, h2⟩ := L2_some e h
    exact ⟨_, by rw [L2, h1]; rfl, by rw [hasClauses]; exact h2⟩
  | .ite a b c, h => by
    rw [TE] at h
    obtain ⟨a', h1, h2⟩ := L2_some a h.1
    obtain ⟨b', h3, h4⟩ := L2_some b h.2.1
    obtain ⟨c', h5, h6⟩ := L2_some c h.2.2
    exact ⟨_, by rw [L2, h1, h3, h5]; rfl, by simp [hasClauses, h2, h4, h6]⟩
  | .letv _ _, h => by rw [TE] at h; exact h.1.elim
  | .letrecv _ _, h => by rw [TE] at h; exact h.1.elim
  | .lam _ es, h => by
    rw [TE] at h
    obtain ⟨a, h1, _, h2⟩ := L2s_some es h.2
    exact ⟨_, by rw [L2, h1]; rfl, by rw [hasClauses]; exact h2⟩
  | .clam cs, h => by
    rw [TE] at h
    obtain ⟨a, h1, h2, h3⟩ := L2C_some cs h.2
    refine ⟨.clam a, by rw [L2, h1]; rfl, ?_⟩
    rw [hasClauses, h3]
    cases a with
    | nil => exact absurd (List.length_eq_zero_iff.1 h2.symm) h.1
    | cons => rfl
  | .begin es, h => by
    rw [TE] at h
    obtain ⟨a, h1, _, h2⟩ := L2s_some es h.2
    exact ⟨_, by rw [L2, h1]; rfl, by rw [hasClauses]; exact h2⟩
  | .mvcall e c, h => by
    rw [TE] at h
    obtain ⟨a, h1, h2⟩ := L2_some e h.1
    obtain ⟨b, h3, h4⟩ := L2_some c h.2.1
    exact ⟨_, by rw [L2, h1, h3]; rfl, by simp [hasClauses, h2, h4]⟩
  | .mvlet e _ c, h => by
    rw [TE] at h
    obtain ⟨a, h1, h2⟩ := L2_some e h.1
    obtain ⟨b, h3, h4⟩ := L2_some c h.2
    exact ⟨_, by rw [L2, h1, h3]; rfl, by simp [hasClauses, h2, h4]⟩
  | .mvvals es, h => by
    rw [TE] at h
    obtain ⟨a, h1, _, h2⟩ := L2s_some es h
    exact ⟨_, by rw [L2, h1]; rfl, by rw [hasClauses]; exact h2⟩
  | .app f es, h => by
    by_cases hl : ∃ g body, f = .lam g body
    · obtain ⟨g, body, rfl⟩ := hl
      rw [TE] at h
      obtain ⟨as, h1, _, h2⟩ := L2s_some es h.1
      have hf : body ≠ [] ∧ TEL False body := by
        rcases h.2 with h | h
        · rw [TE] at h; exact h
        · exact absurd h.1 (by simp)
      obtain ⟨bs, h3, hl, h4⟩ := L2s_some body hf.2
      rw [L2]
      split
      · have hne : bs ≠ [] := fun hb => by rw [hb] at hl; exact hf.1 (List.length_eq_zero_iff.1 hl.symm)
        obtain ⟨b, h5, h6⟩ := bodyExpr_some hne h4
        simp only [l2App, h1, h3, h5, Res.ok_bind]
        match as, h2 with
        | [], _ => exact ⟨_, rfl, h6⟩
        | [a], h2 => exact ⟨_, rfl, by simp only [hasClausesL, Bool.and_true] at h2; simp [hasClauses, h2, h6]⟩
        | a :: a' :: as, h2 => exact ⟨_, rfl, by simp [hasClauses, h2, h6]⟩
      · exact ⟨.app (.lam g bs) as, by rw [h1, h3]; rfl, by simp [hasClauses, h2, h4]⟩
    · rw [TE] at h
      obtain ⟨as, h1, _, h2⟩ := L2s_some es h.1
      obtain ⟨f', h3, h4⟩ : ∃ f', L2 f = .ok f' ∧ hasClauses f' = true := by
        rcases h.2 with h | h
        · exact L2_some f h
        · rw [h.1]; exact ⟨_, rfl, rfl⟩
      refine ⟨.app f' as, ?_, by simp [hasClauses, h2, h4]⟩
      rw [L2]
      · rw [h1, h3]; rfl
      · exact fun g body hg => hl ⟨g, body, hg⟩

theorem L2s_some : ∀ es : List E, TEL False es → ∃ es', L2s es = .ok es' ∧ es'.length = es.length ∧ hasClausesL es' = true
  | [], _ => ⟨[], rfl, rfl, rfl⟩
  | e :: es, h => by
    rw [TEL] at h
    obtain ⟨a, h1, h2⟩ := L2_some e h.1
    obtain ⟨b, h3, hl, h4⟩ := L2s_some es h.2
    exact ⟨a :: b, by rw [L2s, h1, h3]; rfl, by simp [hl], by simp [hasClausesL, h2, h4]⟩

theorem L2C_some : ∀ cs : List Cl, TEC False cs → ∃ cs', L2C cs = .ok cs' ∧ cs'.length = cs.length ∧ hasClausesC cs' = true
  | [], _ => ⟨[], rfl, rfl, rfl⟩
  | .mk f es :: cs, h => by
    rw [TEC] at h
    obtain ⟨a, h1, _, h2⟩ := L2s_some es h.1.2
    obtain ⟨b, h3, hl, h4⟩ := L2C_some cs h.2
    exact ⟨.mk f a :: b, by rw [L2C, h1, h3]; rfl, by simp [hl], by simp [hasClausesC, h2, h4]⟩

end

mutual

theorem L2_ends : ∀ e : E, Tot False (fun _ => True) (L2 e)
  | .var _ => trivial
  | .lit _ => trivial
  | .quote _ => trivial
  | .quoteSyntax _ => trivial
  | .unbound => trivial
  | .define _ e => by rw [L2]; exact (L2_ends e).bind fun _ _ => trivial
  | .set _ e => by rw [L2]; exact (L2_ends e).bind fun _ _ => trivial
  | .ite a b c => by rw [L2]; exact (L2_ends a).bind fun _ _ => (L2_ends b).bind fun _ _ => (L2_ends c).bind fun _ _ => trivial
  | .letv _ _ => id
  | .letrecv _ _ => id
  | .lam _ es => by rw [L2]; exact (L2s_ends es).bind fun _ _ => trivial
  | .clam cs => by rw [L2]; exact (L2C_ends cs).bind fun _ _ => trivial
  | .begin es => by rw [L2]; exact (L2s_ends es).bind fun _ _ => trivial
  | .mvcall a b => by rw [L2]; exact (L2_ends a).bind fun _ _ => (L2_ends b).bind fun _ _ => trivial
  | .mvlet a _ b => by rw [L2]; exact (L2_ends a).bind fun _ _ => (L2_ends b).bind fun _ _ => trivial
  | .mvvals es => by rw [L2]; exact (L2s_ends es).bind fun _ _ => trivial
  | .app f es => by
    by_cases hl : ∃ g body, f = .lam g body
    · obtain ⟨g, body, rfl⟩ := hl
      rw [L2]
      split
      · rw [l2App]
        refine (L2s_ends es).bind fun as _ => (L2s_ends body).bind fun bs _ => (bodyExpr_good.mono (q := False) False.elim fun _ _ => trivial).bind (Q := fun _ => True) fun b _ => ?_
        match as with
        | [] => trivial
        | [_] => trivial
        | _ :: _ :: _ => trivial
      · exact (L2s_ends body).bind fun _ _ => (L2s_ends es).bind fun _ _ => trivial
    · rw [L2]
      · exact (L2_ends f).bind fun _ _ => (L2s_ends es).bind fun _ _ => trivial
      · exact fun g body hg => hl ⟨g, body, hg⟩

theorem L2s_ends : ∀ es : List E, Tot False (fun _ => True) (L2s es)
  | [] => trivial
  | e :: es => by rw [L2s]; exact (L2_ends e).bind fun _ _ => (L2s_ends es).bind fun _ _ => trivial

theorem L2C_ends : ∀ cs : List Cl, Tot False (fun _ => True) (L2C cs)
  | [] => trivial
  | .mk _ es :: cs => by rw [L2C]; exact (L2s_ends es).bind fun _ _ => (L2C_ends cs).bind fun _ _ => trivial

end

end Minim.Jit
