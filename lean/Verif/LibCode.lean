import Lean.Elab.Tactic
import Verif.LibCtx

set_option autoImplicit false

/-!
# What procedures of the library compute (C108)

The rules of LibEval.lean applied to the code of prelude.min.
-/

namespace Minim.Fix

open Minim.Sx Minim.Core Minim.Jit Minim.Lib

variable {P : Prims} {Q : Sym → Prop} {nm : Int → Nat} {σ : RS} {Γ : List (Sym × RV)}

theorem Ctx.mono {τ : RS} (C : Ctx Q σ) (s : Sub Q σ τ) : Ctx Q τ where
  prim x k h1 h2 := (C.prim x k h1 h2).mono s
  plain i e x h1 h2 h3 := (C.plain i e x h1 h2 h3).mono s
  apply := C.apply.mono s
  number := ⟨C.number.1.mono s, C.number.2.mono s⟩
  let1 i e x o h1 h2 h3 := by
    obtain ⟨g1, g, h1, h2⟩ := C.let1 i e x o h1 h2 h3
    exact ⟨g1, g, h1.mono s, h2.mono s⟩
  arith := by
    obtain ⟨g1, g2, h0, h1, h2, h3, a0, a1, a2, a3, b0, b1, b2, b3⟩ := C.arith
    exact ⟨g1, g2, h0, h1, h2, h3, a0.mono s, a1.mono s, a2.mono s, a3.mono s, b0.mono s, b1.mono s, b2.mono s, b3.mono s⟩
  cmp := by
    obtain ⟨g1, g2, h⟩ := C.cmp
    refine ⟨g1, g2, fun x p hx => ?_⟩
    obtain ⟨h, a, b⟩ := h x p hx
    exact ⟨h, a.mono s, b.mono s⟩
  maps := by
    obtain ⟨g1, g2, g3, g4, g5, h0, h1, h2, h3, a0, a1, a2, a3, b, c⟩ := C.maps
    exact ⟨g1, g2, g3, g4, g5, h0, h1, h2, h3, a0.mono s, a1.mono s, a2.mono s, a3.mono s, fun i g h => (b i g h).mono s, fun i g h => (c i g h).mono s⟩

/-- A call of a C function. -/
theorem ZE.cprim (C : Ctx Q σ) {x : Sym} {k : Nat} {args : List E} {vs : List RV} {v : RV} (hx : Γ.lookup x = none) (hk : start.globs x = some (.clo (.prim (code x) k))) (hp : Prot x)
    (ha : ZA P Q σ Γ args vs) (hl : vs.length = k ∧ k ≤ 6) (hv : P.f RC (code x) vs = some v) : ZE P Q σ Γ (.app (.var x) args) v :=
  .app (.glob hx (C.prim x k hk hp) nofun) ha (.prim hl hv)

/-- A call of a procedure of the library. -/
theorem ZE.cfn (C : Ctx Q σ) (i : Nat) {e : E} {x : Sym} {args : List E} {vs : List RV} {v : RV} (hx : Γ.lookup x = none) (he : (prelude ++ boot)[i]? = some e) (hn : plain e = some x) (hp : Prot x)
    (ha : ZA P Q σ Γ args vs) (hv : ZP P Q σ (fn e) vs v) : ZE P Q σ Γ (.app (.var x) args) v :=
  .app (.glob hx (C.plain i e x he hn hp) nofun) ha hv

theorem listV_ne (vs : List RV) : listV vs ≠ .unbound := by cases vs <;> nofun

@[simp] theorem unlist_listV : ∀ (vs : List RV), unlist (listV vs) = some vs
  | [] => rfl
  | v :: vs => by rw [listV, unlist, unlist_listV vs]; rfl

/-! ### A way to compute values -/

/-- A value, and what has to be shown for it. -/
abbrev Cond := RV × List Prop

/-- What calls of named procedures return, as far as it is known. -/
abbrev Fns := Sym → Option (List RV → Option Cond)

/-- A variable is bound again. -/
def Fns.del (K : Fns) (x : Sym) : Fns := fun y => if y = x then none else K y

/-- One more procedure. -/
def Fns.add (K : Fns) (x : Sym) (F : List RV → Option Cond) : Fns := fun y => if y = x then some F else K y

/-- Specification: not the marker of uninitialised variables. -/
def good {C : Type} : V C → Bool
  | .unbound => false
  | _ => true

theorem good_ne {v : RV} (h : good v = true) : v ≠ .unbound := by
  rintro rfl
  cases h

/-- All propositions of a list. -/
def conj : List Prop → Prop
  | [] => True
  | p :: ps => p ∧ conj ps

theorem conj_append : ∀ {ps qs : List Prop}, conj (ps ++ qs) ↔ conj ps ∧ conj qs
  | [], qs => by simp [conj]
  | p :: ps, qs => by rw [List.cons_append, conj, conj, conj_append (ps := ps), and_assoc]

/-- The value of an expression that is not computed. -/
structure Hole (P : Prims) (Q : Sym → Prop) (σ : RS) (Γ : List (Sym × RV)) (e : E) (r : RV) : Prop where
  get : ZE P Q σ Γ e r

section
variable (P : Prims) (Q : Sym → Prop) (σ : RS) (r : E → Option RV)

mutual

/-- The value of an expression, if calls of known procedures, local variables and branches lead to it.  For other expressions `r` is the value, which has to be shown. -/
def run (n : Nat) (K : Fns) (Γ : List (Sym × RV)) (e : E) : Option Cond :=
  match n with
  | 0 => none
  | n + 1 => match e with
    | .var x => match Γ.lookup x with
      | some v => some (v, [])
      | none => (r e).map fun r => (r, [Hole P Q σ Γ e r])
    | .lit l => some (.lit l, [])
    | .quote d => some (ofX d, [])
    | .ite c a b => (run n K Γ c).bind fun (w, ps) => match isFalse w with
      | true => (run n K Γ b).map fun (v, qs) => (v, ps ++ qs)
      | false => (run n K Γ a).map fun (v, qs) => (v, ps ++ qs)
    | .app (.var x) args => (K x).bind fun F => (runA n K Γ args).bind fun (vs, ps) => (F vs).map fun (v, qs) => (v, ps ++ qs)
    | .begin es => runB n K Γ es
    | .letv [] es => runB n K Γ es
    | .letv [.mk [x] e] es => (run n K Γ e).bind fun (w, ps) => match good w with
      | true => (runB n (K.del x) ((x, w) :: Γ) es).map fun (v, qs) => (v, ps ++ qs)
      | false => none
    | e => (r e).map fun r => (r, [Hole P Q σ Γ e r])

/-- The values of arguments. -/
def runA (n : Nat) (K : Fns) (Γ : List (Sym × RV)) (es : List E) : Option (List RV × List Prop) :=
  match n with
  | 0 => none
  | n + 1 => match es with
    | [] => some ([], [])
    | e :: es => (run n K Γ e).bind fun (v, ps) => (runA n K Γ es).map fun (vs, qs) => (v :: vs, ps ++ qs)

/-- The value of a sequence. -/
def runB (n : Nat) (K : Fns) (Γ : List (Sym × RV)) (es : List E) : Option Cond :=
  match n with
  | 0 => none
  | n + 1 => match es with
    | [] => none
    | [e] => run n K Γ e
    | e :: es => (run n K Γ e).bind fun (_, ps) => (runB n K Γ es).map fun (v, qs) => (v, ps ++ qs)

end

end

/-- Specification: the calls return what they are known to return. -/
def KOk (P : Prims) (Q : Sym → Prop) (σ : RS) (Γ : List (Sym × RV)) (K : Fns) : Prop :=
  ∀ x F, K x = some F → ∃ g, g ≠ .unbound ∧ (Γ.lookup x = some g ∨ Γ.lookup x = none ∧ Gl Q σ x g) ∧ ∀ vs v ps, F vs = some (v, ps) → conj ps → ZP P Q σ g vs v

theorem KOk.mono {τ : RS} {K : Fns} (h : KOk P Q σ Γ K) (s : Sub Q σ τ) : KOk P Q τ Γ K := by
  intro x F hx
  obtain ⟨g, h1, h2, h3⟩ := h x F hx
  exact ⟨g, h1, h2.imp id (fun a => ⟨a.1, a.2.mono s⟩), fun vs v ps hv hp => (h3 vs v ps hv hp).mono s⟩

theorem KOk.del {K : Fns} (h : KOk P Q σ Γ K) (x : Sym) (w : RV) : KOk P Q σ ((x, w) :: Γ) (K.del x) := by
  intro y F hy
  rw [Fns.del] at hy
  split at hy
  · cases hy
  · rename_i hn
    obtain ⟨g, h1, h2, h3⟩ := h y F hy
    have hb : (y == x) = false := by simpa using hn
    exact ⟨g, h1, by rw [List.lookup_cons, hb]; exact h2, h3⟩

/-- A local procedure. -/
theorem KOk.loc {K : Fns} (h : KOk P Q σ Γ K) {x : Sym} {g : RV} {F : List RV → Option Cond} (hx : Γ.lookup x = some g) (hg : g ≠ .unbound) (hF : ∀ vs v ps, F vs = some (v, ps) → conj ps → ZP P Q σ g vs v) : KOk P Q σ Γ (K.add x F) := by
  intro y F' hy
  rw [Fns.add] at hy
  split at hy
  · rename_i hn
    cases hy
    subst hn
    exact ⟨g, hg, .inl hx, hF⟩
  · exact h y F' hy

/-- A procedure of the library. -/
theorem KOk.glob {K : Fns} (h : KOk P Q σ Γ K) {x : Sym} {g : RV} {F : List RV → Option Cond} (hn : Γ.lookup x = none) (hx : Gl Q σ x g) (hg : g ≠ .unbound) (hF : ∀ vs v ps, F vs = some (v, ps) → conj ps → ZP P Q σ g vs v) : KOk P Q σ Γ (K.add x F) := by
  intro y F' hy
  rw [Fns.add] at hy
  split at hy
  · rename_i hn'
    cases hy
    subst hn'
    exact ⟨g, hg, .inr ⟨hn, hx⟩, hF⟩
  · exact h y F' hy

/-- A procedure of which one call is known. -/
def one (ws : List RV) (r : RV) : List RV → Option Cond := fun vs => some (r, [vs = ws])

theorem one_ok {g : RV} {ws : List RV} {r : RV} (h : ZP P Q σ g ws r) : ∀ vs v ps, one ws r vs = some (v, ps) → conj ps → ZP P Q σ g vs v := by
  intro vs v ps hv hp
  cases hv
  rw [hp.1]
  exact h

theorem run_all {r : E → Option RV} : ∀ (n : Nat) (K : Fns) (Γ : List (Sym × RV)), KOk P Q σ Γ K →
    (∀ e v ps, run P Q σ r n K Γ e = some (v, ps) → conj ps → ZE P Q σ Γ e v) ∧ (∀ es vs ps, runA P Q σ r n K Γ es = some (vs, ps) → conj ps → ZA P Q σ Γ es vs) ∧
    (∀ es v ps, runB P Q σ r n K Γ es = some (v, ps) → conj ps → ZB P Q σ Γ es v)
  | 0, K, Γ, hK => by
    refine ⟨?_, ?_, ?_⟩ <;> intro _ _ _ h
    · rw [run] at h; cases h
    · rw [runA] at h; cases h
    · rw [runB] at h; cases h
  | n + 1, K, Γ, hK => by
    obtain ⟨i1, i2, i3⟩ := run_all (r := r) n K Γ hK
    have hole : ∀ (e : E) (v : RV) (ps : List Prop), ((r e).map fun r => (r, [Hole P Q σ Γ e r])) = some (v, ps) → conj ps → ZE P Q σ Γ e v := by
      intro e v ps h hp
      obtain ⟨w, _, h2⟩ := Option.map_eq_some_iff.1 h
      cases h2
      exact hp.1.get
    refine ⟨?_, ?_, ?_⟩
    · intro e v ps h hp
      cases e with
      | var x =>
        rw [run] at h
        split at h
        · rename_i h1; cases h; exact .loc h1
        · exact hole _ _ _ h hp
      | lit l => rw [run] at h; cases h; exact .lit
      | quote d => rw [run] at h; cases h; exact .quote
      | ite c a b =>
        rw [run] at h
        obtain ⟨⟨w, ps1⟩, h1, h2⟩ := Option.bind_eq_some_iff.1 h
        simp only at h2
        split at h2
        · rename_i hw
          obtain ⟨⟨v', ps2⟩, h3, h4⟩ := Option.map_eq_some_iff.1 h2
          cases h4
          have := conj_append.1 hp
          exact .no (i1 _ _ _ h1 this.1) hw (i1 _ _ _ h3 this.2)
        · rename_i hw
          obtain ⟨⟨v', ps2⟩, h3, h4⟩ := Option.map_eq_some_iff.1 h2
          cases h4
          have := conj_append.1 hp
          exact .yes (i1 _ _ _ h1 this.1) hw (i1 _ _ _ h3 this.2)
      | app f args =>
        cases f with
        | var x =>
          rw [run] at h
          obtain ⟨F, h1, h2⟩ := Option.bind_eq_some_iff.1 h
          obtain ⟨⟨vs, ps1⟩, h3, h4⟩ := Option.bind_eq_some_iff.1 h2
          obtain ⟨⟨v', ps2⟩, h5, h6⟩ := Option.map_eq_some_iff.1 h4
          cases h6
          have := conj_append.1 hp
          obtain ⟨g, hg, hl, hF⟩ := hK x F h1
          refine .app ?_ (i2 _ _ _ h3 this.1) (hF _ _ _ h5 this.2)
          rcases hl with hl | ⟨hl, hgl⟩
          · exact .loc hl
          · exact .glob hl hgl hg
        | _ => simp only [run] at h; exact hole _ _ _ h hp
      | begin es => rw [run] at h; exact .begin (i3 _ _ _ h hp)
      | letv bs es =>
        cases bs with
        | nil => rw [run] at h; exact .let0 (i3 _ _ _ h hp)
        | cons b bs =>
          cases bs with
          | cons b' bs => obtain ⟨xs, e⟩ := b; simp only [run] at h; exact hole _ _ _ h hp
          | nil =>
            obtain ⟨xs, e⟩ := b
            match xs with
            | [] => simp only [run] at h; exact hole _ _ _ h hp
            | _ :: _ :: _ => simp only [run] at h; exact hole _ _ _ h hp
            | [x] =>
              rw [run] at h
              obtain ⟨⟨w, ps1⟩, h1, h2⟩ := Option.bind_eq_some_iff.1 h
              simp only at h2
              split at h2
              · rename_i hw
                obtain ⟨⟨v', ps2⟩, h3, h4⟩ := Option.map_eq_some_iff.1 h2
                cases h4
                have := conj_append.1 hp
                exact .let1 (i1 _ _ _ h1 this.1) (good_ne hw) ((run_all (r := r) n _ _ (hK.del x w)).2.2 _ _ _ h3 this.2)
              · cases h2
      | _ => simp only [run] at h; exact hole _ _ _ h hp
    · intro es vs ps h hp
      cases es with
      | nil => rw [runA] at h; cases h; exact .nil
      | cons e es =>
        rw [runA] at h
        obtain ⟨⟨v, ps1⟩, h1, h2⟩ := Option.bind_eq_some_iff.1 h
        obtain ⟨⟨vs', ps2⟩, h3, h4⟩ := Option.map_eq_some_iff.1 h2
        cases h4
        have := conj_append.1 hp
        exact .cons (i1 _ _ _ h1 this.1) (i2 _ _ _ h3 this.2)
    · intro es v ps h hp
      match es with
      | [] => rw [runB] at h; cases h
      | [e] => rw [runB] at h; exact .one (i1 _ _ _ h hp)
      | e :: e' :: es =>
        rw [runB] at h
        · obtain ⟨⟨w, ps1⟩, h1, h2⟩ := Option.bind_eq_some_iff.1 h
          obtain ⟨⟨v', ps2⟩, h3, h4⟩ := Option.map_eq_some_iff.1 h2
          cases h4
          have := conj_append.1 hp
          exact .cons (i1 _ _ _ h1 this.1) (i3 _ _ _ h3 this.2)
        · nofun

/-- The value is `v`, and what has to be shown holds. -/
def VC (o : Option Cond) (v : RV) : Prop :=
  match o with
  | some (w, ps) => w = v ∧ conj ps
  | none => False

theorem VC.get {o : Option Cond} {v : RV} (h : VC o v) : ∃ ps, o = some (v, ps) ∧ conj ps := by
  unfold VC at h
  split at h
  · exact ⟨_, by rw [h.1], h.2⟩
  · exact h.elim

/-- No value is given. -/
def nor : E → Option RV := fun _ => none

/-- The value of a loop is given. -/
def lp (r : RV) : E → Option RV
  | .letrecv _ _ => some r
  | _ => none

/-- The computation finds values of the language. -/
theorem ZE.run {r : E → Option RV} (n : Nat) {K : Fns} {e : E} {v : RV} (hK : KOk P Q σ Γ K) (h : VC (run P Q σ r n K Γ e) v) : ZE P Q σ Γ e v := by
  obtain ⟨ps, h1, h2⟩ := h.get
  exact (run_all n K Γ hK).1 _ _ _ h1 h2

/-- Specification: what the C functions return on pairs and lists. -/
def law (p : Nat) (vs : List RV) : Option RV :=
  match vs with
  | [] => if p = code S.«void» then some .void else none
  | [v] =>
    if p = code S.«pair?» then some (ask (isPair v)) else
    if p = code S.«null?» then some (ask (isNull v)) else
    if p = code S.«not» then some (ask (isFalse v)) else
    if p = code S.«procedure?» then some (ask (isProc v)) else
    if p = code S.«$car» then (match v with | .cons a _ => some a | _ => none) else
    if p = code S.«$cdr» then (match v with | .cons _ d => some d | _ => none) else none
  | [v, w] => if p = code S.«cons» then some (.cons v w) else none
  | _ => none

theorem law_ok (L : Laws P nm) {p : Nat} {vs : List RV} {v : RV} (h : law p vs = some v) : P.f RC p vs = some v := by
  unfold law at h
  split at h
  · split at h <;> [(subst_vars; rw [← h]; exact L.void); cases h]
  · repeat' split at h
    all_goals first | (cases h; done) | skip
    all_goals subst_vars
    all_goals rw [← h]
    · exact L.pair _
    · exact L.null _
    · exact L.not _
    · exact L.proc _
    · exact L.car _ _
    · exact L.cdr _ _
  · split at h <;> [(subst_vars; rw [← h]; exact L.cons _ _); cases h]
  · cases h

/-- The C functions of the library. -/
def base : Fns := fun x =>
  match start.globs x with
  | some (.clo (.prim p k)) => if p = code x ∧ Prot x then some fun vs => if vs.length = k ∧ k ≤ 6 then (law p vs).map fun v => (v, []) else none else none
  | _ => none

theorem base_ok (C : Ctx Q σ) (L : Laws P nm) : KOk P Q σ [] base := by
  intro x F hx
  unfold base at hx
  split at hx
  · rename_i p k hs
    split at hx
    · rename_i hp
      obtain ⟨rfl, hp⟩ := hp
      cases hx
      refine ⟨.clo (.prim (code x) k), nofun, .inr ⟨rfl, C.prim x k hs hp⟩, fun vs v ps hv _ => ?_⟩
      simp only at hv
      split at hv
      · rename_i hl
        obtain ⟨w, h1, h2⟩ := Option.map_eq_some_iff.1 hv
        cases h2
        exact .prim hl (law_ok L h1)
      · cases hv
    · cases hx
  · cases hx

/-- The variables in the body of the chosen clause. -/
def benv (cs : List Cl) (vs : List RV) (Γ : List (Sym × RV)) : List (Sym × RV) :=
  match select cs vs.length with
  | some (f, _) => Fix.binds f.ids (params f vs) Γ
  | none => Γ

/-- The body of the chosen clause. -/
def body (cs : List Cl) (k : Nat) : List E :=
  match select cs k with
  | some (_, b) => b
  | none => []

theorem params_ne {f : Formals} {vs : List RV} (h : ∀ v ∈ vs, v ≠ .unbound) : ∀ v ∈ params f vs, v ≠ .unbound := by
  intro v hv
  unfold params at hv
  split at hv
  · rcases List.mem_append.1 hv with hv | hv
    · exact h v (List.mem_of_mem_take hv)
    · rw [List.mem_singleton.1 hv]; exact listV_ne _
  · exact h v hv

/-- Procedures of the library that no local variable hides. -/
def Fns.hide (K : Fns) (Γ : List (Sym × RV)) : Fns := fun x => match Γ.lookup x with
  | some _ => none
  | none => K x

theorem KOk.hide {K : Fns} (h : KOk P Q σ [] K) : KOk P Q σ Γ (K.hide Γ) := by
  intro x F hx
  unfold Fns.hide at hx
  split at hx
  · cases hx
  · rename_i hn
    obtain ⟨g, h1, h2, h3⟩ := h x F hx
    refine ⟨g, h1, .inr ⟨hn, ?_⟩, h3⟩
    rcases h2 with h2 | h2
    · cases h2
    · exact h2.2

/-- A call of a closure, by computation. -/
theorem ZP.call (n : Nat) (r : E → Option RV) {K : Fns} {cs : List Cl} {g : RV} {vs : List RV} {v : RV} (hg : IsClo σ Γ cs g) (hK : KOk P Q σ (benv cs vs Γ) K) (hv : ∀ v ∈ vs, v ≠ .unbound)
    (h : VC (runB P Q σ r n K (benv cs vs Γ) (body cs vs.length)) v) : ZP P Q σ g vs v := by
  obtain ⟨ps, h1, h2⟩ := h.get
  cases hs : select cs vs.length with
  | none =>
    simp only [body, hs] at h1
    cases n <;> rw [runB] at h1 <;> cases h1
  | some fb =>
    obtain ⟨f, b⟩ := fb
    refine .clo hg hs (params_ne hv) ?_
    have := (run_all n K _ hK).2.2 _ _ _ h1 h2
    simpa only [benv, body, hs] using this

open Lean Elab Tactic Meta in
/-- equality that the kernel checks by computation -/
elab "krfl" : tactic => do
  let g ← getMainGoal
  g.withContext do
  let t ← instantiateMVars (← g.getType)
  match t.eq? with
  | some (_, a, _) => g.assign (← mkEqRefl a)
  | none => throwError "not an equation"

open Lean Elab Tactic Meta in
/-- the goal as the kernel computes it -/
elab "kwhnf" : tactic => do
  let g ← getMainGoal
  g.withContext do
  let t ← instantiateMVars (← g.getType)
  let t' ← ofExceptKernelException (Kernel.whnf (← getEnv) (← getLCtx) t)
  let g' ← mkFreshExprSyntheticOpaqueMVar t' (← g.getTag)
  g.assign g'
  replaceMainGoal [g'.mvarId!]

open Lean Elab Tactic Meta in
/-- the expression of a hole -/
elab "khole" : tactic => do
  let g ← getMainGoal
  g.withContext do
  let t ← instantiateMVars (← g.getType)
  let as := t.getAppArgs
  unless t.getAppFn.isConstOf ``Hole do throwError "not a hole"
  let e ← ofExceptKernelException (Kernel.whnf (← getEnv) (← getLCtx) as[4]!)
  let g' ← mkFreshExprSyntheticOpaqueMVar (mkAppN (mkConst ``ZE) (as.set! 4 e)) (← g.getTag)
  g.assign (mkApp (mkAppN (mkConst ``Hole.mk) as) g')
  replaceMainGoal [g'.mvarId!]

/-- one condition -/
syntax "kleaf" : tactic
macro_rules | `(tactic| kleaf) => `(tactic| first | krfl | exact ⟨_, rfl⟩ | exact ⟨_, by assumption, rfl⟩ | assumption)

/-- what has to be shown, one by one -/
syntax "kvc" : tactic
macro_rules | `(tactic| kvc) => `(tactic| (kwhnf; first | exact trivial | (refine And.intro ?_ ?_; (on_goal 2 => kvc); (on_goal 1 => (kwhnf; try kleaf)))))

/-! ### Accessors -/

/-- Specification: the two parts of a pair. -/
inductive Part where
  | car | cdr

/-- Specification: the part of a value that is reached by taking parts, the last one first. -/
def pick : List Part → RV → Option RV
  | [], v => some v
  | p :: ps, v => match p, pick ps v with
    | .car, some (.cons a _) => some a
    | .cdr, some (.cons _ d) => some d
    | _, _ => none

/-- Specification: the names of the accessors (prelude.min:37-503), and the parts they take. -/
def accessors : List (List Part × Sym) := [
  ([.car], S.car),
  ([.cdr], S.cdr),
  ([.car, .car], S.caar),
  ([.car, .cdr], S.cadr),
  ([.cdr, .car], S.cdar),
  ([.cdr, .cdr], S.cddr),
  ([.car, .car, .car], S.caaar),
  ([.car, .car, .cdr], S.caadr),
  ([.car, .cdr, .car], S.cadar),
  ([.car, .cdr, .cdr], S.caddr),
  ([.cdr, .car, .car], S.cdaar),
  ([.cdr, .car, .cdr], S.cdadr),
  ([.cdr, .cdr, .car], S.cddar),
  ([.cdr, .cdr, .cdr], S.cdddr),
  ([.car, .car, .car, .car], S.caaaar),
  ([.car, .car, .car, .cdr], S.caaadr),
  ([.car, .car, .cdr, .car], S.caadar),
  ([.car, .car, .cdr, .cdr], S.caaddr),
  ([.car, .cdr, .car, .car], S.cadaar),
  ([.car, .cdr, .car, .cdr], S.cadadr),
  ([.car, .cdr, .cdr, .car], S.caddar),
  ([.car, .cdr, .cdr, .cdr], S.cadddr),
  ([.cdr, .car, .car, .car], S.cdaaar),
  ([.cdr, .car, .car, .cdr], S.cdaadr),
  ([.cdr, .car, .cdr, .car], S.cdadar),
  ([.cdr, .car, .cdr, .cdr], S.cdaddr),
  ([.cdr, .cdr, .car, .car], S.cddaar),
  ([.cdr, .cdr, .car, .cdr], S.cddadr),
  ([.cdr, .cdr, .cdr, .car], S.cdddar),
  ([.cdr, .cdr, .cdr, .cdr], S.cddddr)]

theorem pick_car {ps : List Part} {v r : RV} (h : pick (.car :: ps) v = some r) : ∃ d, pick ps v = some (.cons r d) := by
  unfold pick at h
  split at h
  · rename_i hh; cases h; exact ⟨_, hh⟩
  · contradiction
  · cases h

theorem pick_cdr {ps : List Part} {v r : RV} (h : pick (.cdr :: ps) v = some r) : ∃ a, pick ps v = some (.cons a r) := by
  unfold pick at h
  split at h
  · contradiction
  · rename_i hh; cases h; exact ⟨_, hh⟩
  · cases h

theorem z_car (C : Ctx Q σ) (L : Laws P nm) : ∃ g, Gl Q σ S.car g ∧ ∀ v r, pick [.car] v = some r → ZP P Q σ g [v] r := by
  refine ⟨fn prelude_8, C.plain 7 prelude_8 _ rfl rfl (by decide), fun v r h => ?_⟩
  obtain ⟨_, h⟩ := pick_car h
  cases h
  exact .call 30 nor isClo_top (base_ok C L).hide (by simp) (by kvc)

theorem z_cdr (C : Ctx Q σ) (L : Laws P nm) : ∃ g, Gl Q σ S.cdr g ∧ ∀ v r, pick [.cdr] v = some r → ZP P Q σ g [v] r := by
  refine ⟨fn prelude_9, C.plain 8 prelude_9 _ rfl rfl (by decide), fun v r h => ?_⟩
  obtain ⟨_, h⟩ := pick_cdr h
  cases h
  exact .call 30 nor isClo_top (base_ok C L).hide (by simp) (by kvc)

theorem z_caar (C : Ctx Q σ) (L : Laws P nm) : ∃ g, Gl Q σ S.caar g ∧ ∀ v r, pick [.car, .car] v = some r → ZP P Q σ g [v] r := by
  obtain ⟨g1, g, h1, h2⟩ := C.let1 9 prelude_10 S.caar S.«oops!» rfl rfl (by decide)
  refine ⟨g, h1, fun v r h => ?_⟩
  obtain ⟨_, h⟩ := pick_car h
  obtain ⟨_, h⟩ := pick_car h
  cases h
  exact .call 30 nor h2 (base_ok C L).hide (by simp) (by kvc)

theorem z_cadr (C : Ctx Q σ) (L : Laws P nm) : ∃ g, Gl Q σ S.cadr g ∧ ∀ v r, pick [.car, .cdr] v = some r → ZP P Q σ g [v] r := by
  obtain ⟨g1, g, h1, h2⟩ := C.let1 10 prelude_11 S.cadr S.«oops!» rfl rfl (by decide)
  refine ⟨g, h1, fun v r h => ?_⟩
  obtain ⟨_, h⟩ := pick_car h
  obtain ⟨_, h⟩ := pick_cdr h
  cases h
  exact .call 30 nor h2 (base_ok C L).hide (by simp) (by kvc)

theorem z_cdar (C : Ctx Q σ) (L : Laws P nm) : ∃ g, Gl Q σ S.cdar g ∧ ∀ v r, pick [.cdr, .car] v = some r → ZP P Q σ g [v] r := by
  obtain ⟨g1, g, h1, h2⟩ := C.let1 11 prelude_12 S.cdar S.«oops!» rfl rfl (by decide)
  refine ⟨g, h1, fun v r h => ?_⟩
  obtain ⟨_, h⟩ := pick_cdr h
  obtain ⟨_, h⟩ := pick_car h
  cases h
  exact .call 30 nor h2 (base_ok C L).hide (by simp) (by kvc)

theorem z_cddr (C : Ctx Q σ) (L : Laws P nm) : ∃ g, Gl Q σ S.cddr g ∧ ∀ v r, pick [.cdr, .cdr] v = some r → ZP P Q σ g [v] r := by
  obtain ⟨g1, g, h1, h2⟩ := C.let1 12 prelude_13 S.cddr S.«oops!» rfl rfl (by decide)
  refine ⟨g, h1, fun v r h => ?_⟩
  obtain ⟨_, h⟩ := pick_cdr h
  obtain ⟨_, h⟩ := pick_cdr h
  cases h
  exact .call 30 nor h2 (base_ok C L).hide (by simp) (by kvc)

theorem z_caaar (C : Ctx Q σ) (L : Laws P nm) : ∃ g, Gl Q σ S.caaar g ∧ ∀ v r, pick [.car, .car, .car] v = some r → ZP P Q σ g [v] r := by
  obtain ⟨g1, g, h1, h2⟩ := C.let1 13 prelude_14 S.caaar S.«oops!» rfl rfl (by decide)
  refine ⟨g, h1, fun v r h => ?_⟩
  obtain ⟨_, h⟩ := pick_car h
  obtain ⟨_, h⟩ := pick_car h
  obtain ⟨_, h⟩ := pick_car h
  cases h
  exact .call 30 nor h2 (base_ok C L).hide (by simp) (by kvc)

theorem z_caadr (C : Ctx Q σ) (L : Laws P nm) : ∃ g, Gl Q σ S.caadr g ∧ ∀ v r, pick [.car, .car, .cdr] v = some r → ZP P Q σ g [v] r := by
  obtain ⟨g1, g, h1, h2⟩ := C.let1 14 prelude_15 S.caadr S.«oops!» rfl rfl (by decide)
  refine ⟨g, h1, fun v r h => ?_⟩
  obtain ⟨_, h⟩ := pick_car h
  obtain ⟨_, h⟩ := pick_car h
  obtain ⟨_, h⟩ := pick_cdr h
  cases h
  exact .call 30 nor h2 (base_ok C L).hide (by simp) (by kvc)

theorem z_cadar (C : Ctx Q σ) (L : Laws P nm) : ∃ g, Gl Q σ S.cadar g ∧ ∀ v r, pick [.car, .cdr, .car] v = some r → ZP P Q σ g [v] r := by
  obtain ⟨g1, g, h1, h2⟩ := C.let1 15 prelude_16 S.cadar S.«oops!» rfl rfl (by decide)
  refine ⟨g, h1, fun v r h => ?_⟩
  obtain ⟨_, h⟩ := pick_car h
  obtain ⟨_, h⟩ := pick_cdr h
  obtain ⟨_, h⟩ := pick_car h
  cases h
  exact .call 30 nor h2 (base_ok C L).hide (by simp) (by kvc)

theorem z_caddr (C : Ctx Q σ) (L : Laws P nm) : ∃ g, Gl Q σ S.caddr g ∧ ∀ v r, pick [.car, .cdr, .cdr] v = some r → ZP P Q σ g [v] r := by
  obtain ⟨g1, g, h1, h2⟩ := C.let1 16 prelude_17 S.caddr S.«oops!» rfl rfl (by decide)
  refine ⟨g, h1, fun v r h => ?_⟩
  obtain ⟨_, h⟩ := pick_car h
  obtain ⟨_, h⟩ := pick_cdr h
  obtain ⟨_, h⟩ := pick_cdr h
  cases h
  exact .call 30 nor h2 (base_ok C L).hide (by simp) (by kvc)

theorem z_cdaar (C : Ctx Q σ) (L : Laws P nm) : ∃ g, Gl Q σ S.cdaar g ∧ ∀ v r, pick [.cdr, .car, .car] v = some r → ZP P Q σ g [v] r := by
  obtain ⟨g1, g, h1, h2⟩ := C.let1 17 prelude_18 S.cdaar S.«oops!» rfl rfl (by decide)
  refine ⟨g, h1, fun v r h => ?_⟩
  obtain ⟨_, h⟩ := pick_cdr h
  obtain ⟨_, h⟩ := pick_car h
  obtain ⟨_, h⟩ := pick_car h
  cases h
  exact .call 30 nor h2 (base_ok C L).hide (by simp) (by kvc)

theorem z_cdadr (C : Ctx Q σ) (L : Laws P nm) : ∃ g, Gl Q σ S.cdadr g ∧ ∀ v r, pick [.cdr, .car, .cdr] v = some r → ZP P Q σ g [v] r := by
  obtain ⟨g1, g, h1, h2⟩ := C.let1 18 prelude_19 S.cdadr S.«oops!» rfl rfl (by decide)
  refine ⟨g, h1, fun v r h => ?_⟩
  obtain ⟨_, h⟩ := pick_cdr h
  obtain ⟨_, h⟩ := pick_car h
  obtain ⟨_, h⟩ := pick_cdr h
  cases h
  exact .call 30 nor h2 (base_ok C L).hide (by simp) (by kvc)

theorem z_cddar (C : Ctx Q σ) (L : Laws P nm) : ∃ g, Gl Q σ S.cddar g ∧ ∀ v r, pick [.cdr, .cdr, .car] v = some r → ZP P Q σ g [v] r := by
  obtain ⟨g1, g, h1, h2⟩ := C.let1 19 prelude_20 S.cddar S.«oops!» rfl rfl (by decide)
  refine ⟨g, h1, fun v r h => ?_⟩
  obtain ⟨_, h⟩ := pick_cdr h
  obtain ⟨_, h⟩ := pick_cdr h
  obtain ⟨_, h⟩ := pick_car h
  cases h
  exact .call 30 nor h2 (base_ok C L).hide (by simp) (by kvc)

theorem z_cdddr (C : Ctx Q σ) (L : Laws P nm) : ∃ g, Gl Q σ S.cdddr g ∧ ∀ v r, pick [.cdr, .cdr, .cdr] v = some r → ZP P Q σ g [v] r := by
  obtain ⟨g1, g, h1, h2⟩ := C.let1 20 prelude_21 S.cdddr S.«oops!» rfl rfl (by decide)
  refine ⟨g, h1, fun v r h => ?_⟩
  obtain ⟨_, h⟩ := pick_cdr h
  obtain ⟨_, h⟩ := pick_cdr h
  obtain ⟨_, h⟩ := pick_cdr h
  cases h
  exact .call 30 nor h2 (base_ok C L).hide (by simp) (by kvc)

theorem z_caaaar (C : Ctx Q σ) (L : Laws P nm) : ∃ g, Gl Q σ S.caaaar g ∧ ∀ v r, pick [.car, .car, .car, .car] v = some r → ZP P Q σ g [v] r := by
  obtain ⟨g1, g, h1, h2⟩ := C.let1 21 prelude_22 S.caaaar S.«oops!» rfl rfl (by decide)
  refine ⟨g, h1, fun v r h => ?_⟩
  obtain ⟨_, h⟩ := pick_car h
  obtain ⟨_, h⟩ := pick_car h
  obtain ⟨_, h⟩ := pick_car h
  obtain ⟨_, h⟩ := pick_car h
  cases h
  exact .call 30 nor h2 (base_ok C L).hide (by simp) (by kvc)

theorem z_caaadr (C : Ctx Q σ) (L : Laws P nm) : ∃ g, Gl Q σ S.caaadr g ∧ ∀ v r, pick [.car, .car, .car, .cdr] v = some r → ZP P Q σ g [v] r := by
  obtain ⟨g1, g, h1, h2⟩ := C.let1 22 prelude_23 S.caaadr S.«oops!» rfl rfl (by decide)
  refine ⟨g, h1, fun v r h => ?_⟩
  obtain ⟨_, h⟩ := pick_car h
  obtain ⟨_, h⟩ := pick_car h
  obtain ⟨_, h⟩ := pick_car h
  obtain ⟨_, h⟩ := pick_cdr h
  cases h
  exact .call 30 nor h2 (base_ok C L).hide (by simp) (by kvc)

theorem z_caadar (C : Ctx Q σ) (L : Laws P nm) : ∃ g, Gl Q σ S.caadar g ∧ ∀ v r, pick [.car, .car, .cdr, .car] v = some r → ZP P Q σ g [v] r := by
  obtain ⟨g1, g, h1, h2⟩ := C.let1 23 prelude_24 S.caadar S.«oops!» rfl rfl (by decide)
  refine ⟨g, h1, fun v r h => ?_⟩
  obtain ⟨_, h⟩ := pick_car h
  obtain ⟨_, h⟩ := pick_car h
  obtain ⟨_, h⟩ := pick_cdr h
  obtain ⟨_, h⟩ := pick_car h
  cases h
  exact .call 30 nor h2 (base_ok C L).hide (by simp) (by kvc)

theorem z_caaddr (C : Ctx Q σ) (L : Laws P nm) : ∃ g, Gl Q σ S.caaddr g ∧ ∀ v r, pick [.car, .car, .cdr, .cdr] v = some r → ZP P Q σ g [v] r := by
  obtain ⟨g1, g, h1, h2⟩ := C.let1 24 prelude_25 S.caaddr S.«oops!» rfl rfl (by decide)
  refine ⟨g, h1, fun v r h => ?_⟩
  obtain ⟨_, h⟩ := pick_car h
  obtain ⟨_, h⟩ := pick_car h
  obtain ⟨_, h⟩ := pick_cdr h
  obtain ⟨_, h⟩ := pick_cdr h
  cases h
  exact .call 30 nor h2 (base_ok C L).hide (by simp) (by kvc)

theorem z_cadaar (C : Ctx Q σ) (L : Laws P nm) : ∃ g, Gl Q σ S.cadaar g ∧ ∀ v r, pick [.car, .cdr, .car, .car] v = some r → ZP P Q σ g [v] r := by
  obtain ⟨g1, g, h1, h2⟩ := C.let1 25 prelude_26 S.cadaar S.«oops!» rfl rfl (by decide)
  refine ⟨g, h1, fun v r h => ?_⟩
  obtain ⟨_, h⟩ := pick_car h
  obtain ⟨_, h⟩ := pick_cdr h
  obtain ⟨_, h⟩ := pick_car h
  obtain ⟨_, h⟩ := pick_car h
  cases h
  exact .call 30 nor h2 (base_ok C L).hide (by simp) (by kvc)

theorem z_cadadr (C : Ctx Q σ) (L : Laws P nm) : ∃ g, Gl Q σ S.cadadr g ∧ ∀ v r, pick [.car, .cdr, .car, .cdr] v = some r → ZP P Q σ g [v] r := by
  obtain ⟨g1, g, h1, h2⟩ := C.let1 26 prelude_27 S.cadadr S.«oops!» rfl rfl (by decide)
  refine ⟨g, h1, fun v r h => ?_⟩
  obtain ⟨_, h⟩ := pick_car h
  obtain ⟨_, h⟩ := pick_cdr h
  obtain ⟨_, h⟩ := pick_car h
  obtain ⟨_, h⟩ := pick_cdr h
  cases h
  exact .call 30 nor h2 (base_ok C L).hide (by simp) (by kvc)

theorem z_caddar (C : Ctx Q σ) (L : Laws P nm) : ∃ g, Gl Q σ S.caddar g ∧ ∀ v r, pick [.car, .cdr, .cdr, .car] v = some r → ZP P Q σ g [v] r := by
  obtain ⟨g1, g, h1, h2⟩ := C.let1 27 prelude_28 S.caddar S.«oops!» rfl rfl (by decide)
  refine ⟨g, h1, fun v r h => ?_⟩
  obtain ⟨_, h⟩ := pick_car h
  obtain ⟨_, h⟩ := pick_cdr h
  obtain ⟨_, h⟩ := pick_cdr h
  obtain ⟨_, h⟩ := pick_car h
  cases h
  exact .call 30 nor h2 (base_ok C L).hide (by simp) (by kvc)

theorem z_cadddr (C : Ctx Q σ) (L : Laws P nm) : ∃ g, Gl Q σ S.cadddr g ∧ ∀ v r, pick [.car, .cdr, .cdr, .cdr] v = some r → ZP P Q σ g [v] r := by
  obtain ⟨g1, g, h1, h2⟩ := C.let1 28 prelude_29 S.cadddr S.«oops!» rfl rfl (by decide)
  refine ⟨g, h1, fun v r h => ?_⟩
  obtain ⟨_, h⟩ := pick_car h
  obtain ⟨_, h⟩ := pick_cdr h
  obtain ⟨_, h⟩ := pick_cdr h
  obtain ⟨_, h⟩ := pick_cdr h
  cases h
  exact .call 30 nor h2 (base_ok C L).hide (by simp) (by kvc)

theorem z_cdaaar (C : Ctx Q σ) (L : Laws P nm) : ∃ g, Gl Q σ S.cdaaar g ∧ ∀ v r, pick [.cdr, .car, .car, .car] v = some r → ZP P Q σ g [v] r := by
  obtain ⟨g1, g, h1, h2⟩ := C.let1 29 prelude_30 S.cdaaar S.«oops!» rfl rfl (by decide)
  refine ⟨g, h1, fun v r h => ?_⟩
  obtain ⟨_, h⟩ := pick_cdr h
  obtain ⟨_, h⟩ := pick_car h
  obtain ⟨_, h⟩ := pick_car h
  obtain ⟨_, h⟩ := pick_car h
  cases h
  exact .call 30 nor h2 (base_ok C L).hide (by simp) (by kvc)

theorem z_cdaadr (C : Ctx Q σ) (L : Laws P nm) : ∃ g, Gl Q σ S.cdaadr g ∧ ∀ v r, pick [.cdr, .car, .car, .cdr] v = some r → ZP P Q σ g [v] r := by
  obtain ⟨g1, g, h1, h2⟩ := C.let1 30 prelude_31 S.cdaadr S.«oops!» rfl rfl (by decide)
  refine ⟨g, h1, fun v r h => ?_⟩
  obtain ⟨_, h⟩ := pick_cdr h
  obtain ⟨_, h⟩ := pick_car h
  obtain ⟨_, h⟩ := pick_car h
  obtain ⟨_, h⟩ := pick_cdr h
  cases h
  exact .call 30 nor h2 (base_ok C L).hide (by simp) (by kvc)

theorem z_cdadar (C : Ctx Q σ) (L : Laws P nm) : ∃ g, Gl Q σ S.cdadar g ∧ ∀ v r, pick [.cdr, .car, .cdr, .car] v = some r → ZP P Q σ g [v] r := by
  obtain ⟨g1, g, h1, h2⟩ := C.let1 31 prelude_32 S.cdadar S.«oops!» rfl rfl (by decide)
  refine ⟨g, h1, fun v r h => ?_⟩
  obtain ⟨_, h⟩ := pick_cdr h
  obtain ⟨_, h⟩ := pick_car h
  obtain ⟨_, h⟩ := pick_cdr h
  obtain ⟨_, h⟩ := pick_car h
  cases h
  exact .call 30 nor h2 (base_ok C L).hide (by simp) (by kvc)

theorem z_cdaddr (C : Ctx Q σ) (L : Laws P nm) : ∃ g, Gl Q σ S.cdaddr g ∧ ∀ v r, pick [.cdr, .car, .cdr, .cdr] v = some r → ZP P Q σ g [v] r := by
  obtain ⟨g1, g, h1, h2⟩ := C.let1 32 prelude_33 S.cdaddr S.«oops!» rfl rfl (by decide)
  refine ⟨g, h1, fun v r h => ?_⟩
  obtain ⟨_, h⟩ := pick_cdr h
  obtain ⟨_, h⟩ := pick_car h
  obtain ⟨_, h⟩ := pick_cdr h
  obtain ⟨_, h⟩ := pick_cdr h
  cases h
  exact .call 30 nor h2 (base_ok C L).hide (by simp) (by kvc)

theorem z_cddaar (C : Ctx Q σ) (L : Laws P nm) : ∃ g, Gl Q σ S.cddaar g ∧ ∀ v r, pick [.cdr, .cdr, .car, .car] v = some r → ZP P Q σ g [v] r := by
  obtain ⟨g1, g, h1, h2⟩ := C.let1 33 prelude_34 S.cddaar S.«oops!» rfl rfl (by decide)
  refine ⟨g, h1, fun v r h => ?_⟩
  obtain ⟨_, h⟩ := pick_cdr h
  obtain ⟨_, h⟩ := pick_cdr h
  obtain ⟨_, h⟩ := pick_car h
  obtain ⟨_, h⟩ := pick_car h
  cases h
  exact .call 30 nor h2 (base_ok C L).hide (by simp) (by kvc)

theorem z_cddadr (C : Ctx Q σ) (L : Laws P nm) : ∃ g, Gl Q σ S.cddadr g ∧ ∀ v r, pick [.cdr, .cdr, .car, .cdr] v = some r → ZP P Q σ g [v] r := by
  obtain ⟨g1, g, h1, h2⟩ := C.let1 34 prelude_35 S.cddadr S.«oops!» rfl rfl (by decide)
  refine ⟨g, h1, fun v r h => ?_⟩
  obtain ⟨_, h⟩ := pick_cdr h
  obtain ⟨_, h⟩ := pick_cdr h
  obtain ⟨_, h⟩ := pick_car h
  obtain ⟨_, h⟩ := pick_cdr h
  cases h
  exact .call 30 nor h2 (base_ok C L).hide (by simp) (by kvc)

theorem z_cdddar (C : Ctx Q σ) (L : Laws P nm) : ∃ g, Gl Q σ S.cdddar g ∧ ∀ v r, pick [.cdr, .cdr, .cdr, .car] v = some r → ZP P Q σ g [v] r := by
  obtain ⟨g1, g, h1, h2⟩ := C.let1 35 prelude_36 S.cdddar S.«oops!» rfl rfl (by decide)
  refine ⟨g, h1, fun v r h => ?_⟩
  obtain ⟨_, h⟩ := pick_cdr h
  obtain ⟨_, h⟩ := pick_cdr h
  obtain ⟨_, h⟩ := pick_cdr h
  obtain ⟨_, h⟩ := pick_car h
  cases h
  exact .call 30 nor h2 (base_ok C L).hide (by simp) (by kvc)

theorem z_cddddr (C : Ctx Q σ) (L : Laws P nm) : ∃ g, Gl Q σ S.cddddr g ∧ ∀ v r, pick [.cdr, .cdr, .cdr, .cdr] v = some r → ZP P Q σ g [v] r := by
  obtain ⟨g1, g, h1, h2⟩ := C.let1 36 prelude_37 S.cddddr S.«oops!» rfl rfl (by decide)
  refine ⟨g, h1, fun v r h => ?_⟩
  obtain ⟨_, h⟩ := pick_cdr h
  obtain ⟨_, h⟩ := pick_cdr h
  obtain ⟨_, h⟩ := pick_cdr h
  obtain ⟨_, h⟩ := pick_cdr h
  cases h
  exact .call 30 nor h2 (base_ok C L).hide (by simp) (by kvc)

/-- All accessors. -/
theorem z_accessors (C : Ctx Q σ) (L : Laws P nm) : ∀ w x, (w, x) ∈ accessors → ∃ g, Gl Q σ x g ∧ ∀ v r, pick w v = some r → ZP P Q σ g [v] r := by
  intro w x h
  simp only [accessors, List.mem_cons, List.not_mem_nil, or_false, Prod.mk.injEq] at h
  rcases h with ⟨rfl, rfl⟩ | ⟨rfl, rfl⟩ | ⟨rfl, rfl⟩ | ⟨rfl, rfl⟩ | ⟨rfl, rfl⟩ | ⟨rfl, rfl⟩ | ⟨rfl, rfl⟩ | ⟨rfl, rfl⟩ | ⟨rfl, rfl⟩ | ⟨rfl, rfl⟩ | ⟨rfl, rfl⟩ | ⟨rfl, rfl⟩ | ⟨rfl, rfl⟩ | ⟨rfl, rfl⟩ | ⟨rfl, rfl⟩ | ⟨rfl, rfl⟩ | ⟨rfl, rfl⟩ | ⟨rfl, rfl⟩ | ⟨rfl, rfl⟩ | ⟨rfl, rfl⟩ | ⟨rfl, rfl⟩ | ⟨rfl, rfl⟩ | ⟨rfl, rfl⟩ | ⟨rfl, rfl⟩ | ⟨rfl, rfl⟩ | ⟨rfl, rfl⟩ | ⟨rfl, rfl⟩ | ⟨rfl, rfl⟩ | ⟨rfl, rfl⟩ | ⟨rfl, rfl⟩
  · exact z_car C L
  · exact z_cdr C L
  · exact z_caar C L
  · exact z_cadr C L
  · exact z_cdar C L
  · exact z_cddr C L
  · exact z_caaar C L
  · exact z_caadr C L
  · exact z_cadar C L
  · exact z_caddr C L
  · exact z_cdaar C L
  · exact z_cdadr C L
  · exact z_cddar C L
  · exact z_cdddr C L
  · exact z_caaaar C L
  · exact z_caaadr C L
  · exact z_caadar C L
  · exact z_caaddr C L
  · exact z_cadaar C L
  · exact z_cadadr C L
  · exact z_caddar C L
  · exact z_cadddr C L
  · exact z_cdaaar C L
  · exact z_cdaadr C L
  · exact z_cdadar C L
  · exact z_cdaddr C L
  · exact z_cddaar C L
  · exact z_cddadr C L
  · exact z_cdddar C L
  · exact z_cddddr C L

end Minim.Fix
