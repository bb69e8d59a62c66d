import Verif.PassHide

set_option autoImplicit false

/-!
# The optimiser on parts of programs, and checks of its conditions (C110)
-/

namespace Minim.Jit

open Minim.Sx Minim.Core

/-! ### More fuel, the same result -/

/-- A computation that ends does not depend on the bound. -/
def Ext {α : Type} (a b : Res α) : Prop := ∀ r, a = .ok r → b = .ok r

theorem Ext.refl {α : Type} (a : Res α) : Ext a a := fun _ h => h

theorem Ext.bind {α β : Type} {a b : Res α} {f g : α → Res β} (h : Ext a b) (h' : ∀ x, Ext (f x) (g x)) : Ext (a >>= f) (b >>= g) := by
  intro r hr
  obtain ⟨x, h1, h2⟩ := Res.bind_eq_ok.1 hr
  exact Res.bind_eq_ok.2 ⟨x, h x h1, h' x r h2⟩

theorem mapR_ext {f g : E → Res E} (h : ∀ e, Ext (f e) (g e)) : ∀ es, Ext (mapR f es) (mapR g es)
  | [] => .refl _
  | e :: es => by
    rw [mapR, mapR]
    exact .bind (h e) fun _ => .bind (mapR_ext h es) fun _ => .refl _

theorem mapC_ext {f g : E → Res E} (h : ∀ e, Ext (f e) (g e)) : ∀ cs, Ext (mapC f cs) (mapC g cs)
  | [] => .refl _
  | .mk fs body :: cs => by
    rw [mapC, mapC]
    exact .bind (mapR_ext h body) fun _ => .bind (mapC_ext h cs) fun _ => .refl _

theorem l1Consumer_ext {f g : E → Res E} (h : ∀ e, Ext (f e) (g e)) (e c : E) : Ext (l1Consumer f e c) (l1Consumer g e c) := by
  unfold l1Consumer
  split
  · split
    · exact .refl _
    · split
      · exact .refl _
      · exact .bind (.refl _) fun _ => h _
  · exact .refl _

theorem l1Mvcall_ext {f g : E → Res E} (h : ∀ e, Ext (f e) (g e)) (e c : E) : Ext (l1Mvcall f e c) (l1Mvcall g e c) := by
  unfold l1Mvcall
  split
  · split
    · exact .bind (.refl _) fun _ => h _
    · exact l1Consumer_ext h _ _
  · exact h _
  · exact .bind (.refl _) fun _ => h _
  all_goals first
    | exact h _
    | exact l1Consumer_ext h _ _

theorem l1Values_ext {f g : E → Res E} (h : ∀ e, Ext (f e) (g e)) (es : List E) : Ext (l1Values f es) (l1Values g es) := by
  unfold l1Values
  split
  · exact .refl _
  · exact h _
  · exact .bind (mapR_ext h _) fun _ => .refl _

theorem l1Step_ext {f g : E → Res E} (h : ∀ e, Ext (f e) (g e)) (e : E) : Ext (l1Step f e) (l1Step g e) := by
  unfold l1Step
  split
  all_goals first
    | exact .refl _
    | exact l1Values_ext h _
    | exact l1Mvcall_ext h _ _
    | exact .bind (mapR_ext h _) fun _ => .refl _
    | exact .bind (mapC_ext h _) fun _ => .refl _
    | exact .bind (h _) fun _ => .refl _
    | exact .bind (h _) fun _ => .bind (h _) fun _ => .refl _
    | exact .bind (h _) fun _ => .bind (h _) fun _ => .bind (h _) fun _ => .refl _
    | exact .bind (h _) fun _ => .bind (h _) fun _ => l1Mvcall_ext h _ _
    | exact .bind (h _) fun _ => .bind (mapR_ext h _) fun _ => .refl _

theorem L1_succ : ∀ n e, Ext (L1 n e) (L1 (n + 1) e)
  | 0, _ => fun _ h => by cases h
  | n + 1, e => l1Step_ext (L1_succ n) e

theorem L1_ext {n m : Nat} (h : n ≤ m) (e : E) : Ext (L1 n e) (L1 m e) := by
  induction h with
  | refl => exact .refl _
  | step _ ih => exact fun r hr => L1_succ _ _ _ (ih r hr)

theorem optimise_ext {n m k : Nat} (h : n ≤ m) (es : List E) : Ext (optimise n k es) (optimise m k es) := by
  rw [optimise, optimise]
  exact .bind (mapR_ext (L1_ext h) _) fun _ => .refl _

/-- The result does not depend on the bound. -/
theorem optimise_det {n m k : Nat} {es a b : List E} (h : optimise n k es = .ok a) (h' : optimise m k es = .ok b) : a = b := by
  have x := optimise_ext (Nat.le_max_left n m) _ _ h
  have y := optimise_ext (Nat.le_max_right n m) _ _ h'
  rw [x] at y
  cases y
  rfl

/-! ### Parts of programs -/

theorem L0s_append : ∀ (k : Nat) (es fs : List E), L0s k (es ++ fs) = ((L0s k es).1 ++ (L0s (L0s k es).2 fs).1, (L0s (L0s k es).2 fs).2)
  | _, [], _ => rfl
  | k, e :: es, fs => by
    rw [List.cons_append, L0s, L0s, L0s_append _ es fs]
    rfl

theorem mapR_append {f : E → Res E} : ∀ (es fs : List E) {r : List E}, mapR f (es ++ fs) = .ok r ↔ ∃ a b, mapR f es = .ok a ∧ mapR f fs = .ok b ∧ r = a ++ b
  | [], fs, r => by simp [mapR]
  | e :: es, fs, r => by
    simp only [List.cons_append, mapR, Res.bind_eq_ok, mapR_append es fs, Res.ok.injEq]
    constructor
    · rintro ⟨x, hx, y, ⟨a, b, ha, hb, rfl⟩, rfl⟩
      exact ⟨x :: a, b, ⟨x, hx, a, ha, rfl⟩, hb, rfl⟩
    · rintro ⟨_, b, ⟨x, hx, a, ha, rfl⟩, hb, rfl⟩
      exact ⟨x, hx, a ++ b, ⟨a, b, ha, hb, rfl⟩, rfl⟩

theorem L2s_append : ∀ (es fs : List E) {r : List E}, L2s (es ++ fs) = .ok r ↔ ∃ a b, L2s es = .ok a ∧ L2s fs = .ok b ∧ r = a ++ b
  | [], fs, r => by simp [L2s]
  | e :: es, fs, r => by
    simp only [List.cons_append, L2s, Res.bind_eq_ok, L2s_append es fs, Res.ok.injEq]
    constructor
    · rintro ⟨x, hx, y, ⟨a, b, ha, hb, rfl⟩, rfl⟩
      exact ⟨x :: a, b, ⟨x, hx, a, ha, rfl⟩, hb, rfl⟩
    · rintro ⟨_, b, ⟨x, hx, a, ha, rfl⟩, hb, rfl⟩
      exact ⟨x, hx, a ++ b, ⟨a, b, ha, hb, rfl⟩, rfl⟩

theorem optimise_append {n k : Nat} {es fs r : List E} : optimise n k (es ++ fs) = .ok r ↔ ∃ a b, optimise n k es = .ok a ∧ optimise n (L0s k es).2 fs = .ok b ∧ r = a ++ b := by
  simp only [optimise, L0s_append, Res.bind_eq_ok, mapR_append]
  constructor
  · rintro ⟨_, ⟨a, b, ha, hb, rfl⟩, h⟩
    obtain ⟨c, d, hc, hd, rfl⟩ := (L2s_append a b).1 h
    exact ⟨c, d, ⟨a, ha, hc⟩, ⟨b, hb, hd⟩, rfl⟩
  · rintro ⟨c, d, ⟨a, ha, hc⟩, ⟨b, hb, hd⟩, rfl⟩
    exact ⟨a ++ b, ⟨a, b, ha, hb, rfl⟩, (L2s_append a b).2 ⟨c, d, hc, hd, rfl⟩⟩

theorem optimise_length {n k : Nat} {es r : List E} (h : optimise n k es = .ok r) : r.length = es.length := by
  induction es generalizing k r with
  | nil => cases h; rfl
  | cons e es ih =>
    rw [← List.singleton_append] at h
    obtain ⟨a, b, ha, hb, rfl⟩ := optimise_append.1 h
    have : a.length = 1 := by
      simp only [optimise, L0s, mapR, Res.bind_eq_ok] at ha
      obtain ⟨_, ⟨x, _, _, hy, hz⟩, h2⟩ := ha
      cases hy
      cases hz
      simp only [L2s, Res.bind_eq_ok] at h2
      obtain ⟨_, _, _, h3, h4⟩ := h2
      cases h3
      cases h4
      rfl
    simp [this, ih hb]
    omega

/-! ### Checks -/

/-- Names that programs may define: not `values`, `call-with-values` or generated. -/
def plainName : Sym → Bool
  | .values | .callWithValues | .gen _ => false
  | _ => true

/-- Not generated. -/
def readName : Sym → Bool
  | .gen _ => false
  | _ => true

mutual

/-- Decides `Wf (stdK fun _ => False) IsGen`. -/
def wfE : E → Bool
  | .var x => readName x
  | .lit _ | .quote _ | .quoteSyntax _ | .unbound => true
  | .define xs e => xs.all plainName && wfE e
  | .set x e => plainName x && wfE e
  | .ite c t e => wfE c && wfE t && wfE e
  | .letv bs es => (bdsIds bs).all plainName && decide (bdsIds bs).Nodup && wfBs bs && wfL es
  | .letrecv bs es => (bdsIds bs).all plainName && !es.isEmpty && wfBs bs && wfL es
  | .lam f es => f.ids.all plainName && wfL es
  | .clam cs => wfCs cs
  | .begin es => wfL es
  | .app f es => wfE f && wfL es
  | .mvcall e c => wfE e && wfE c
  | .mvlet e xs b => xs.all plainName && wfE e && wfE b
  | .mvvals es => wfL es

/-- The same for lists of expressions. -/
def wfL : List E → Bool
  | [] => true
  | e :: es => wfE e && wfL es

/-- The same for bindings. -/
def wfBs : List Bd → Bool
  | [] => true
  | .mk _ e :: bs => wfE e && wfBs bs

/-- The same for clauses. -/
def wfCs : List Cl → Bool
  | [] => true
  | .mk f es :: cs => f.ids.all plainName && wfL es && wfCs cs

end

mutual

/-- Decides a condition that implies `SC`. -/
def scE : E → Bool
  | .var x => !decide (x = .callWithValues)
  | .lit _ | .quote _ | .quoteSyntax _ | .unbound => true
  | .define _ e => scE e
  | .set _ e => scE e
  | .ite c t e => scE c && scE t && scE e
  | .letv bs es => scBs bs && scL es
  | .letrecv bs es => scBs bs && scL es
  | .lam _ es => scL es
  | .clam cs => scCs cs
  | .begin es => scL es
  | .app (.var .callWithValues) (p :: .lam f b :: es) => scL (p :: .lam f b :: es)
  | .app (.var .callWithValues) (p :: .clam cs :: es) => scL (p :: .clam cs :: es)
  | .app f es => scE f && scL es
  | .mvcall _ _ => false
  | .mvlet e _ b => scE e && scE b
  | .mvvals es => scL es

/-- The same for lists of expressions. -/
def scL : List E → Bool
  | [] => true
  | e :: es => scE e && scL es

/-- The same for bindings. -/
def scBs : List Bd → Bool
  | [] => true
  | .mk _ e :: bs => scE e && scBs bs

/-- The same for clauses. -/
def scCs : List Cl → Bool
  | [] => true
  | .mk _ es :: cs => scL es && scCs cs

end

theorem plainName_iff {con : Sym → Prop} (hc : ∀ x, ¬ con x) {x : Sym} (h : plainName x = true) : ¬ (stdK con).con x ∧ ¬ IsGen x ∧ ¬ (stdK con) x := by
  refine ⟨?_, ?_, ?_⟩
  · rintro (rfl | rfl | h')
    · cases h
    · cases h
    · exact hc x h'
  · rintro ⟨j, rfl⟩; cases h
  · rintro (rfl | rfl) <;> cases h

theorem readName_iff {x : Sym} (h : readName x = true) : ¬ IsGen x := by rintro ⟨j, rfl⟩; cases h

mutual

theorem wfE_sound : ∀ e, wfE e = true → Wf (stdK fun _ => False) IsGen e
  | .var x, h => by rw [Wf]; exact readName_iff (by simpa [wfE] using h)
  | .lit _, _ | .quote _, _ | .quoteSyntax _, _ | .unbound, _ => by simp [Wf]
  | .define xs e, h => by
    simp only [wfE, Bool.and_eq_true, List.all_eq_true] at h
    rw [Wf]
    exact ⟨fun x hx => ⟨(plainName_iff (fun _ h => h) (h.1 x hx)).1, (plainName_iff (con := fun _ => False) (fun _ h => h) (h.1 x hx)).2.1⟩, wfE_sound e h.2⟩
  | .set x e, h => by
    simp only [wfE, Bool.and_eq_true] at h
    rw [Wf]
    exact ⟨(plainName_iff (fun _ h => h) h.1).1, (plainName_iff (con := fun _ => False) (fun _ h => h) h.1).2.1, wfE_sound e h.2⟩
  | .ite c t e, h => by
    simp only [wfE, Bool.and_eq_true] at h
    rw [Wf]
    exact ⟨wfE_sound c h.1.1, wfE_sound t h.1.2, wfE_sound e h.2⟩
  | .letv bs es, h => by
    simp only [wfE, Bool.and_eq_true, List.all_eq_true, decide_eq_true_eq] at h
    rw [Wf]
    exact ⟨fun x hx => ⟨(plainName_iff (fun _ h => h) (h.1.1.1 x hx)).2.2, (plainName_iff (con := fun _ => False) (fun _ h => h) (h.1.1.1 x hx)).2.1⟩, h.1.1.2, wfBs_sound bs h.1.2, wfL_sound es h.2⟩
  | .letrecv bs es, h => by
    simp only [wfE, Bool.and_eq_true, List.all_eq_true] at h
    rw [Wf]
    exact ⟨fun x hx => ⟨(plainName_iff (fun _ h => h) (h.1.1.1 x hx)).1, (plainName_iff (con := fun _ => False) (fun _ h => h) (h.1.1.1 x hx)).2.1⟩, by rintro rfl; simp at h, wfBs_sound bs h.1.2, wfL_sound es h.2⟩
  | .lam f es, h => by
    simp only [wfE, Bool.and_eq_true, List.all_eq_true] at h
    rw [Wf]
    exact ⟨fun x hx => ⟨(plainName_iff (fun _ h => h) (h.1 x hx)).2.2, (plainName_iff (con := fun _ => False) (fun _ h => h) (h.1 x hx)).2.1⟩, wfL_sound es h.2⟩
  | .clam cs, h => by rw [Wf]; exact wfCs_sound cs (by simpa [wfE] using h)
  | .begin es, h => by rw [Wf]; exact wfL_sound es (by simpa [wfE] using h)
  | .app f es, h => by
    simp only [wfE, Bool.and_eq_true] at h
    rw [Wf]
    exact ⟨wfE_sound f h.1, wfL_sound es h.2⟩
  | .mvcall e c, h => by
    simp only [wfE, Bool.and_eq_true] at h
    rw [Wf]
    exact ⟨wfE_sound e h.1, wfE_sound c h.2⟩
  | .mvlet e xs b, h => by
    simp only [wfE, Bool.and_eq_true, List.all_eq_true] at h
    rw [Wf]
    exact ⟨fun x hx => ⟨(plainName_iff (fun _ h => h) (h.1.1 x hx)).2.2, (plainName_iff (con := fun _ => False) (fun _ h => h) (h.1.1 x hx)).2.1⟩, wfE_sound e h.1.2, wfE_sound b h.2⟩
  | .mvvals es, h => by rw [Wf]; exact wfL_sound es (by simpa [wfE] using h)

theorem wfL_sound : ∀ es, wfL es = true → WfL (stdK fun _ => False) IsGen es
  | [], _ => by simp [WfL]
  | e :: es, h => by
    rw [wfL, Bool.and_eq_true] at h
    rw [WfL]
    exact ⟨wfE_sound e h.1, wfL_sound es h.2⟩

theorem wfBs_sound : ∀ bs, wfBs bs = true → WfB (stdK fun _ => False) IsGen bs
  | [], _ => by simp [WfB]
  | .mk xs e :: bs, h => by
    rw [wfBs, Bool.and_eq_true] at h
    rw [WfB]
    exact ⟨wfE_sound e h.1, wfBs_sound bs h.2⟩

theorem wfCs_sound : ∀ cs, wfCs cs = true → WfC (stdK fun _ => False) IsGen cs
  | [], _ => by simp [WfC]
  | .mk f es :: cs, h => by
    simp only [wfCs, Bool.and_eq_true, List.all_eq_true] at h
    rw [WfC]
    exact ⟨fun x hx => ⟨(plainName_iff (fun _ h => h) (h.1.1 x hx)).2.2, (plainName_iff (con := fun _ => False) (fun _ h => h) (h.1.1 x hx)).2.1⟩, wfL_sound es h.1.2, wfCs_sound cs h.2⟩

end

section
variable {K : Kn}

mutual

theorem scE_sound : ∀ e, scE e = true → SC K e
  | .var x, h => by rw [SC]; simpa [scE] using h
  | .lit _, _ | .quote _, _ | .quoteSyntax _, _ | .unbound, _ => by simp [SC]
  | .define _ e, h => by rw [SC]; exact scE_sound e (by simpa [scE] using h)
  | .set _ e, h => by rw [SC]; exact scE_sound e (by simpa [scE] using h)
  | .ite c t e, h => by
    simp only [scE, Bool.and_eq_true] at h
    rw [SC]
    exact ⟨scE_sound c h.1.1, scE_sound t h.1.2, scE_sound e h.2⟩
  | .letv bs es, h => by
    simp only [scE, Bool.and_eq_true] at h
    rw [SC]
    exact ⟨scBs_sound bs h.1, scL_sound es h.2⟩
  | .letrecv bs es, h => by
    simp only [scE, Bool.and_eq_true] at h
    rw [SC]
    exact ⟨scBs_sound bs h.1, scL_sound es h.2⟩
  | .lam _ es, h => by rw [SC]; exact scL_sound es (by simpa [scE] using h)
  | .clam cs, h => by rw [SC]; exact scCs_sound cs (by simpa [scE] using h)
  | .begin es, h => by rw [SC]; exact scL_sound es (by simpa [scE] using h)
  | .app f es, h => by
    rw [SC]
    unfold scE at h
    split at h
    all_goals first
      | (rename_i heq; cases heq; done)
      | skip
    · rename_i p g b es' heq
      cases heq
      exact ⟨scL_sound _ h, .inr ⟨rfl, _, _, _, rfl, trivial⟩⟩
    · rename_i p cs es' heq
      cases heq
      exact ⟨scL_sound _ h, .inr ⟨rfl, _, _, _, rfl, trivial⟩⟩
    · rename_i heq
      cases heq
      rw [Bool.and_eq_true] at h
      exact ⟨scL_sound es h.2, .inl (scE_sound f h.1)⟩
  | .mvcall e c, h => by simp [scE] at h
  | .mvlet e _ b, h => by
    simp only [scE, Bool.and_eq_true] at h
    rw [SC]
    exact ⟨scE_sound e h.1, scE_sound b h.2⟩
  | .mvvals es, h => by rw [SC]; exact scL_sound es (by simpa [scE] using h)

theorem scL_sound : ∀ es, scL es = true → SCL K es
  | [], _ => by simp [SCL]
  | e :: es, h => by
    rw [scL, Bool.and_eq_true] at h
    rw [SCL]
    exact ⟨scE_sound e h.1, scL_sound es h.2⟩

theorem scBs_sound : ∀ bs, scBs bs = true → SCB K bs
  | [], _ => by simp [SCB]
  | .mk _ e :: bs, h => by
    rw [scBs, Bool.and_eq_true] at h
    rw [SCB]
    exact ⟨scE_sound e h.1, scBs_sound bs h.2⟩

theorem scCs_sound : ∀ cs, scCs cs = true → SCC K cs
  | [], _ => by simp [SCC]
  | .mk _ es :: cs, h => by
    rw [scCs, Bool.and_eq_true] at h
    rw [SCC]
    exact ⟨scL_sound es h.1, scCs_sound cs h.2⟩

end

end

end Minim.Jit
