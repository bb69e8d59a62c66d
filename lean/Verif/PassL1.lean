import Verif.PassCon

set_option autoImplicit false

/-!
# The second pass is a sequence of rewriting steps
-/

namespace Minim.Jit

open Minim.Sx Minim.Core Relation

section
variable {K : Kn}

/-- Several steps. -/
abbrev Rew (K : Kn) : E → E → Prop := ReflTransGen (Tr K NoF)

/-- The same for lists. -/
abbrev RewL (K : Kn) : List E → List E → Prop := ReflTransGen (TrL K NoF)

/-- The same for clauses. -/
abbrev RewC (K : Kn) : List Cl → List Cl → Prop := ReflTransGen (TrC K NoF)

theorem rlift {α β : Type} {r : α → α → Prop} {p : β → β → Prop} {a b : α} (h : ReflTransGen r a b) (f : α → β) (hf : ∀ a b, r a b → p (f a) (f b)) :
    ReflTransGen p (f a) (f b) := by
  induction h with
  | refl => exact .refl
  | tail _ h ih => exact .tail ih (hf _ _ h)

theorem Rew.sc {e e' : E} (h : Rew K e e') (hs : SC K e) : SC K e' := by
  induction h with
  | refl => exact hs
  | tail _ h ih => exact h.sc ih

theorem Rew.stable {e e' : E} (h : Rew K e e') (hs : Stable K e) : Stable K e' := by
  induction h with
  | refl => exact hs
  | tail _ h ih => exact h.stable ih

theorem RewL.cons {e e' : E} {es es' : List E} (h : Rew K e e') (h' : RewL K es es') : RewL K (e :: es) (e' :: es') :=
  (rlift h (fun x => x :: es) fun _ _ h => .cons h (TrL.refl K NoF es)).trans (rlift h' (fun x => e' :: x) fun _ _ h => .cons (Tr.refl K NoF e') h)

theorem RewC.cons {f : Formals} {es es' : List E} {cs cs' : List Cl} (h : RewL K es es') (h' : RewC K cs cs') : RewC K (.mk f es :: cs) (.mk f es' :: cs') :=
  (rlift h (fun x => Cl.mk f x :: cs) fun _ _ h => .cons h (TrC.refl K NoF cs)).trans (rlift h' (fun x => Cl.mk f es' :: x) fun _ _ h => .cons (TrL.refl K NoF es') h)

theorem Rew.app {f f' : E} {es es' : List E} (h : Rew K f f') (h' : RewL K es es') : Rew K (.app f es) (.app f' es') :=
  (rlift h (fun x => E.app x es) fun _ _ h => Tr.app h (TrL.refl K NoF es)).trans (rlift h' (fun x => E.app f' x) fun _ _ h => Tr.app (Tr.refl K NoF f') h)

theorem Rew.mvcall {f f' e e' : E} (h : Rew K f f') (h' : Rew K e e') : Rew K (.mvcall f e) (.mvcall f' e') :=
  (rlift h (fun x => E.mvcall x e) fun _ _ h => Tr.mvcall h (Tr.refl K NoF e)).trans (rlift h' (fun x => E.mvcall f' x) fun _ _ h => Tr.mvcall (Tr.refl K NoF f') h)

theorem Rew.mvlet {f f' e e' : E} {xs : List Sym} (h : Rew K f f') (h' : Rew K e e') : Rew K (.mvlet f xs e) (.mvlet f' xs e') :=
  (rlift h (fun x => E.mvlet x xs e) fun _ _ h => Tr.mvlet h (Tr.refl K NoF e)).trans (rlift h' (fun x => E.mvlet f' xs x) fun _ _ h => Tr.mvlet (Tr.refl K NoF f') h)

theorem Rew.ite {a b c a' b' c' : E} (h : Rew K a a') (h' : Rew K b b') (h'' : Rew K c c') : Rew K (.ite a b c) (.ite a' b' c') :=
  (rlift h (fun x => E.ite x b c) fun _ _ h => Tr.ite h (Tr.refl K NoF b) (Tr.refl K NoF c)).trans
    ((rlift h' (fun x => E.ite a' x c) fun _ _ h => Tr.ite (Tr.refl K NoF a') h (Tr.refl K NoF c)).trans
      (rlift h'' (fun x => E.ite a' b' x) fun _ _ h => Tr.ite (Tr.refl K NoF a') (Tr.refl K NoF b') h))

/-- A recursive call that is right. -/
def Sound (K : Kn) (rec : E → Res E) : Prop := ∀ e e', rec e = .ok e' → SC K e → Rew K e e'

theorem mapR_steps {rec : E → Res E} (hr : Sound K rec) : ∀ {es es' : List E}, mapR rec es = .ok es' → SCL K es → RewL K es es'
  | [], _, h, _ => by rw [mapR] at h; cases h; exact .refl
  | e :: es, _, h, hs => by
    rw [SCL] at hs
    rw [mapR] at h; simp only [Res.bind_eq_ok] at h
    obtain ⟨a, h1, b, h2, h⟩ := h; cases h
    exact .cons (hr _ _ h1 hs.1) (mapR_steps hr h2 hs.2)

theorem mapC_steps {rec : E → Res E} (hr : Sound K rec) : ∀ {cs cs' : List Cl}, mapC rec cs = .ok cs' → SCC K cs → RewC K cs cs'
  | [], _, h, _ => by rw [mapC] at h; cases h; exact .refl
  | .mk f es :: cs, _, h, hs => by
    rw [SCC] at hs
    rw [mapC] at h; simp only [Res.bind_eq_ok] at h
    obtain ⟨a, h1, b, h2, h⟩ := h; cases h
    exact .cons (mapR_steps hr h1 hs.1) (mapC_steps hr h2 hs.2)

theorem then_rec {rec : E → Res E} (hr : Sound K rec) {e e1 e' : E} (ht : Tr K NoF e e1) (hs : SC K e) (h : rec e1 = .ok e') : Rew K e e' :=
  .head ht (hr _ _ h (ht.sc hs))

theorem l1Values_steps {rec : E → Res E} (hr : Sound K rec) {es : List E} {e' : E} (h : l1Values rec es = .ok e') (hs : SC K (.app (.var .values) es)) :
    Rew K (.app (.var .values) es) e' := by
  match es, h with
  | [], h => cases h; exact .single (.values .nil)
  | [e], h => exact then_rec hr (.values1 (Tr.refl K NoF e)) hs h
  | a :: b :: es, h =>
    simp only [l1Values, Res.bind_eq_ok] at h
    obtain ⟨es', h1, h⟩ := h; cases h
    simp only [SC] at hs
    exact .head (.values (TrL.refl K NoF _)) (rlift (mapR_steps hr h1 hs.1) (fun x => E.mvvals x) fun _ _ h => Tr.mvvals h)

theorem l1Consumer_steps {rec : E → Res E} (hr : Sound K rec) {e c e' : E} (h : l1Consumer rec e c = .ok e') (hs : SC K (.mvcall e c)) : Rew K (.mvcall e c) e' := by
  unfold l1Consumer at h
  split at h
  next f body =>
    split at h
    · cases h; exact .refl
    · split at h
      · cases h
      next hrest =>
        rw [Res.bind_eq_ok] at h
        obtain ⟨b, hb, h⟩ := h
        obtain ⟨_, rfl⟩ := bodyExpr_ok hb
        obtain ⟨req, rest⟩ := f
        cases rest with
        | some r => simp at hrest
        | none => exact then_rec hr (.mvLam (Tr.refl K NoF _) (TrL.refl K NoF _)) hs h
  · cases h; exact .refl

theorem pushCall_ok {c : E} : ∀ {es es' : List E}, pushCall c es = .ok es' → ∃ init l, es = init ++ [l] ∧ es' = init ++ [.mvcall l c]
  | [], _, h => by cases h
  | [e], _, h => by cases h; exact ⟨[], e, rfl, rfl⟩
  | e :: e1 :: es, _, h => by
    simp only [pushCall, Res.bind_eq_ok] at h
    obtain ⟨r, hr, h⟩ := h
    cases h
    obtain ⟨init, l, h1, rfl⟩ := pushCall_ok hr
    exact ⟨e :: init, l, by rw [h1]; rfl, rfl⟩

theorem l1Mvcall_steps {rec : E → Res E} (hr : Sound K rec) {e c e' : E} (h : l1Mvcall rec e c = .ok e') (hs : SC K (.mvcall e c)) : Rew K (.mvcall e c) e' := by
  have hst : Stable K c := by simp only [SC] at hs; exact hs.2.2
  unfold l1Mvcall at h
  split at h
  next f body args =>
    split at h
    next hf =>
      rw [Res.bind_eq_ok] at h
      obtain ⟨b, hb, h⟩ := h
      obtain ⟨_, rfl⟩ := bodyExpr_ok hb
      obtain ⟨req, rest⟩ := f
      cases rest with
      | some r => simp at hf
      | none =>
        cases req with
        | cons => simp at hf
        | nil => exact then_rec hr (.mvThunk (TrL.refl K NoF _) (Tr.refl K NoF _)) hs h
    · exact l1Consumer_steps hr h hs
  · exact then_rec hr (.mvVals (TrL.refl K NoF _) (Tr.refl K NoF _) hst) hs h
  · rw [Res.bind_eq_ok] at h
    obtain ⟨es', h1, h⟩ := h
    obtain ⟨init, l, rfl, rfl⟩ := pushCall_ok h1
    exact then_rec hr (.mvBegin (TrL.refl K NoF _) (Tr.refl K NoF _) (Tr.refl K NoF _)) hs h
  · exact then_rec hr (.mvIf (Tr.refl K NoF _) (Tr.refl K NoF _) (Tr.refl K NoF _) (Tr.refl K NoF _)) hs h
  · exact then_rec hr (.mvAtom (Tr.refl K NoF _) (Tr.refl K NoF _) hst trivial) hs h
  · exact then_rec hr (.mvAtom (Tr.refl K NoF _) (Tr.refl K NoF _) hst trivial) hs h
  · exact then_rec hr (.mvAtom (Tr.refl K NoF _) (Tr.refl K NoF _) hst trivial) hs h
  · exact then_rec hr (.mvAtom (Tr.refl K NoF _) (Tr.refl K NoF _) hst trivial) hs h
  · exact then_rec hr (.mvAtom (Tr.refl K NoF _) (Tr.refl K NoF _) hst trivial) hs h
  · exact l1Consumer_steps hr h hs

theorem cwv_args {es : List E} (h : SC K (.app (.var .callWithValues) es)) : ∃ p c r, es = p :: c :: r ∧ Stable K c ∧ SC K p ∧ SC K c := by
  simp only [SC] at h
  rcases h.2 with h' | ⟨_, p, c, r, rfl, hst⟩
  · exact absurd rfl h'
  · rw [SCL, SCL] at h
    exact ⟨p, c, r, rfl, hst, h.1.1, h.1.2.1⟩

theorem l1Step_steps {rec : E → Res E} (hr : Sound K rec) : Sound K (l1Step rec) := by
  intro e e' h hs
  cases e with
  | var | lit | quote | quoteSyntax | unbound => cases h; exact .refl
  | define xs e =>
    simp only [l1Step, Res.bind_eq_ok] at h
    obtain ⟨a, h1, h⟩ := h; cases h
    simp only [SC] at hs
    exact rlift (hr _ _ h1 hs) (fun x => E.define xs x) fun _ _ h => Tr.define h
  | set x e =>
    simp only [l1Step, Res.bind_eq_ok] at h
    obtain ⟨a, h1, h⟩ := h; cases h
    simp only [SC] at hs
    exact rlift (hr _ _ h1 hs) (fun y => E.set x y) fun _ _ h => Tr.set h
  | lam f es =>
    simp only [l1Step, Res.bind_eq_ok] at h
    obtain ⟨a, h1, h⟩ := h; cases h
    simp only [SC] at hs
    exact rlift (mapR_steps hr h1 hs) (fun y => E.lam f y) fun _ _ h => Tr.lam h
  | clam cs =>
    simp only [l1Step, Res.bind_eq_ok] at h
    obtain ⟨a, h1, h⟩ := h; cases h
    simp only [SC] at hs
    exact rlift (mapC_steps hr h1 hs) (fun y => E.clam y) fun _ _ h => Tr.clam h
  | begin es =>
    simp only [l1Step, Res.bind_eq_ok] at h
    obtain ⟨a, h1, h⟩ := h; cases h
    simp only [SC] at hs
    exact rlift (mapR_steps hr h1 hs) (fun y => E.begin y) fun _ _ h => Tr.begin h
  | mvvals es =>
    simp only [l1Step, Res.bind_eq_ok] at h
    obtain ⟨a, h1, h⟩ := h; cases h
    simp only [SC] at hs
    exact rlift (mapR_steps hr h1 hs) (fun y => E.mvvals y) fun _ _ h => Tr.mvvals h
  | ite a b c =>
    simp only [l1Step, Res.bind_eq_ok] at h
    obtain ⟨a', h1, b', h2, c', h3, h⟩ := h; cases h
    simp only [SC] at hs
    exact .ite (hr _ _ h1 hs.1) (hr _ _ h2 hs.2.1) (hr _ _ h3 hs.2.2)
  | mvlet a xs b =>
    simp only [l1Step, Res.bind_eq_ok] at h
    obtain ⟨a', h1, b', h2, h⟩ := h; cases h
    simp only [SC] at hs
    exact .mvlet (hr _ _ h1 hs.1) (hr _ _ h2 hs.2)
  | mvcall e c => exact l1Mvcall_steps hr h hs
  | letv => cases h
  | letrecv => cases h
  | app f es =>
    by_cases hv : f = .var .values
    · subst hv; exact l1Values_steps hr h hs
    · by_cases hc : f = .var .callWithValues
      · subst hc
        obtain ⟨p, c, r, rfl, hst, hp, hcc⟩ := cwv_args hs
        simp only [l1Step, Res.bind_eq_ok] at h
        obtain ⟨p', h1, c', h2, h⟩ := h
        have s1 := hr _ _ h1 hp
        have s2 := hr _ _ h2 hcc
        have t : Tr K NoF (.app (.var .callWithValues) (p :: c :: r)) (.mvcall (.app p []) c) := by
          cases r with
          | nil => exact .cwv (Tr.refl K NoF _) (Tr.refl K NoF _) hst
          | cons => exact .cwvMore (Tr.refl K NoF _) (Tr.refl K NoF _)
        have s3 : Rew K (.mvcall (.app p []) c) (.mvcall (.app p' []) c') := .mvcall (.app s1 .refl) s2
        exact .head t (s3.trans (l1Mvcall_steps hr h (s3.sc (t.sc hs))))
      · have h' : (do let f ← rec f; let args ← mapR rec es; .ok (.app f args) : Res E) = .ok e' := by
          rw [← h]
          unfold l1Step
          split <;> simp_all
        simp only [Res.bind_eq_ok] at h'
        obtain ⟨f', h1, es', h2, h'⟩ := h'; cases h'
        simp only [SC] at hs
        refine .app (hr _ _ h1 ?_) (mapR_steps hr h2 hs.1)
        rcases hs.2 with h | h
        · exact h
        · exact absurd h.1 hc

theorem L1_steps : ∀ n, Sound K (L1 n)
  | 0 => fun _ _ h _ => by cases h
  | n + 1 => l1Step_steps (L1_steps n)

end

end Minim.Jit
