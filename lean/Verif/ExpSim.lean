import Verif.ExpMain
import Verif.PassSem
import Verif.PassSim

set_option autoImplicit false

/-!
# Expansions mean what the expressions mean

Simulation of the semantics of the language with derived forms by the reference semantics of the core language.
-/

namespace Minim.Jit

open Minim.Sx Minim.Core

/-! ### bindings, without fuel -/

section
variable {P : Prims}

theorem evBds_le {m n : Nat} (hle : m ≤ n) {ρ : REnv} {bs : List Bd} {σ : RS} {r : List RV × RS} (h : evBds P m ρ bs σ = .ok r) : evBds P n ρ bs σ = .ok r := by
  induction hle with
  | refl => exact h
  | step _ ih => exact (mono_all P _).d ih

theorem evRec_le {m n : Nat} (hle : m ≤ n) {ρ : REnv} {bs : List Bd} {σ : RS} {r : RS} (h : evRec P m ρ bs σ = .ok r) : evRec P n ρ bs σ = .ok r := by
  induction hle with
  | refl => exact h
  | step _ ih => exact (mono_all P _).r ih

/-- the right-hand sides of bindings evaluate to the values `vs` -/
def EvD (P : Prims) (ρ : REnv) (bs : List Bd) (σ : RS) (vs : List RV) (σ' : RS) : Prop := ∃ n, evBds P n ρ bs σ = .ok (vs, σ')

/-- recursive bindings are evaluated and assigned -/
def EvR (P : Prims) (ρ : REnv) (bs : List Bd) (σ σ' : RS) : Prop := ∃ n, evRec P n ρ bs σ = .ok σ'

theorem EvD.nil {ρ : REnv} {σ : RS} : EvD P ρ [] σ [] σ := ⟨1, by rw [evBds]⟩

theorem EvD.cons {ρ : REnv} {σ σ1 σ2 : RS} {xs : List Sym} {e : E} {bs : List Bd} {vs ws : List RV} (h1 : Evs P ρ e σ vs σ1) (hl : vs.length = xs.length ∧ bound vs = true) (h2 : EvD P ρ bs σ1 ws σ2) :
    EvD P ρ (.mk xs e :: bs) σ (vs ++ ws) σ2 := by
  obtain ⟨n, h1⟩ := h1
  obtain ⟨m, h2⟩ := h2
  refine ⟨n + m + 1, ?_⟩
  rw [evBds, ev_le (n := n + m) (by omega) h1]
  simp only [Res.ok_bind]
  rw [if_pos hl, evBds_le (n := n + m) (by omega) h2]
  rfl

theorem EvR.nil {ρ : REnv} {σ : RS} : EvR P ρ [] σ σ := ⟨1, by rw [evRec]⟩

theorem EvR.cons {ρ : REnv} {σ σ1 σ2 σ3 : RS} {xs : List Sym} {e : E} {bs : List Bd} {vs : List RV} (h1 : Evs P ρ e σ vs σ1) (hl : vs.length = xs.length ∧ bound vs = true)
    (ha : assignsR ρ σ1 xs vs = .ok σ2) (h2 : EvR P ρ bs σ2 σ3) : EvR P ρ (.mk xs e :: bs) σ σ3 := by
  obtain ⟨n, h1⟩ := h1
  obtain ⟨m, h2⟩ := h2
  refine ⟨n + m + 1, ?_⟩
  rw [evRec, ev_le (n := n + m) (by omega) h1]
  simp only [Res.ok_bind]
  rw [if_pos hl, ha]
  exact evRec_le (n := n + m) (by omega) h2

theorem Evs.letv {ρ : REnv} {σ σ1 σ2 : RS} {bs : List Bd} {body : List E} {as vs : List RV} (h1 : EvD P ρ bs σ as σ1)
    (h2 : EvB P (bindVals ρ σ1 (bdsIds bs) as).1 body (bindVals ρ σ1 (bdsIds bs) as).2 vs σ2) : Evs P ρ (.letv bs body) σ vs σ2 := by
  obtain ⟨n, h1⟩ := h1
  obtain ⟨m, h2⟩ := h2
  refine ⟨n + m + 1, ?_⟩
  rw [ev, evBds_le (n := n + m) (by omega) h1]
  exact evBody_le (n := n + m) (by omega) h2

theorem Evs.letv0 {ρ : REnv} {σ σ2 : RS} {body : List E} {vs : List RV} (h2 : EvB P ρ body σ vs σ2) : Evs P ρ (.letv [] body) σ vs σ2 := Evs.letv .nil h2

theorem Evs.letrecv {ρ ρ1 : REnv} {σ σ0 σ1 σ2 : RS} {bs : List Bd} {body : List E} {vs : List RV}
    (hb : bindVals ρ σ (bdsIds bs) (List.replicate (bdsIds bs).length .unbound) = (ρ1, σ0)) (h1 : EvR P ρ1 bs σ0 σ1) (h2 : EvB P ρ1 body σ1 vs σ2) :
    Evs P ρ (.letrecv bs body) σ vs σ2 := by
  obtain ⟨n, h1⟩ := h1
  obtain ⟨m, h2⟩ := h2
  refine ⟨n + m + 1, ?_⟩
  rw [ev, hb]
  simp only
  rw [evRec_le (n := n + m) (by omega) h1]
  exact evBody_le (n := n + m) (by omega) h2

theorem EvB.one_inv {ρ : REnv} {σ σ1 : RS} {e : E} {vs : List RV} (h : EvB P ρ [e] σ vs σ1) : Evs P ρ e σ vs σ1 := by
  obtain ⟨n, h⟩ := h
  cases n with
  | zero => simp [evBody] at h
  | succ n => rw [evBody] at h; exact ⟨n, h⟩

theorem EvB.cons_inv {ρ : REnv} {σ σ2 : RS} {e e' : E} {es : List E} {vs : List RV} (h : EvB P ρ (e :: e' :: es) σ vs σ2) :
    ∃ ws σ1, Evs P ρ e σ ws σ1 ∧ EvB P ρ (e' :: es) σ1 vs σ2 := by
  obtain ⟨n, h⟩ := h
  cases n with
  | zero => simp [evBody] at h
  | succ n =>
    rw [evBody, Res.bind_eq_ok] at h
    obtain ⟨⟨ws, σ1⟩, h1, h2⟩ := h
    exact ⟨ws, σ1, ⟨n, h1⟩, ⟨n, h2⟩⟩

theorem Evs.begin_inv {ρ : REnv} {σ σ1 : RS} {es : List E} {vs : List RV} (h : Evs P ρ (.begin es) σ vs σ1) : EvB P ρ es σ vs σ1 := by
  obtain ⟨n, h⟩ := h
  exact ⟨n, ev_begin_inv h⟩

theorem EvB.append {ρ : REnv} : ∀ {l m : List E} {σ σ1 σ2 : RS} {ws vs : List RV}, l ≠ [] → m ≠ [] → EvB P ρ l σ ws σ1 → EvB P ρ m σ1 vs σ2 → EvB P ρ (l ++ m) σ vs σ2
  | [], _, _, _, _, _, _, h, _, _, _ => (h rfl).elim
  | _, [], _, _, _, _, _, _, h, _, _ => (h rfl).elim
  | [e], e' :: m, _, _, _, _, _, _, _, h1, h2 => EvB.cons h1.one_inv h2
  | e :: e1 :: l, e' :: m, _, _, _, _, _, _, _, h1, h2 => by
    obtain ⟨us, σ3, h3, h4⟩ := h1.cons_inv
    exact EvB.cons h3 (EvB.append (l := e1 :: l) (by simp) (by simp) h4 h2)

end

end Minim.Jit

namespace Minim.Exp

open Minim.Sx Minim.Core Minim.Jit

section
variable {P : Prims}

mutual
/-- flattening preserves the meaning of expressions -/
theorem evb_flat {V : Sym → Prop} {ρ : REnv} : ∀ (e : E), NF V e → ∀ {σ σ1 : RS} {vs : List RV}, Evs P ρ e σ vs σ1 → EvB P ρ (flat e) σ vs σ1
  | .begin es, h, _, _, _, he => by
    rw [NF] at h; rw [flat]
    exact evb_flats es h.1 h.2 he.begin_inv
  | .var x, h, _, _, _, he => by rw [flat]; exact .one he
  | .lit x, h, _, _, _, he => by rw [flat]; exact .one he
  | .quote x, h, _, _, _, he => by rw [flat]; exact .one he
  | .quoteSyntax x, h, _, _, _, he => by rw [flat]; exact .one he
  | .unbound, h, _, _, _, he => by rw [flat]; exact .one he
  | .define .., h, _, _, _, he => by rw [flat]; exact .one he
  | .set .., h, _, _, _, he => by rw [flat]; exact .one he
  | .ite .., h, _, _, _, he => by rw [flat]; exact .one he
  | .letv .., h, _, _, _, he => by rw [flat]; exact .one he
  | .letrecv .., h, _, _, _, he => by rw [flat]; exact .one he
  | .lam .., h, _, _, _, he => by rw [flat]; exact .one he
  | .clam .., h, _, _, _, he => by rw [flat]; exact .one he
  | .app .., h, _, _, _, he => by rw [flat]; exact .one he
  | .mvcall .., h, _, _, _, he => by rw [flat]; exact .one he
  | .mvlet .., h, _, _, _, he => by rw [flat]; exact .one he
  | .mvvals .., h, _, _, _, he => by rw [flat]; exact .one he
theorem evb_flats {V : Sym → Prop} {ρ : REnv} : ∀ (es : List E), es ≠ [] → NFl V es → ∀ {σ σ1 : RS} {vs : List RV}, EvB P ρ es σ vs σ1 → EvB P ρ (flats es) σ vs σ1
  | [], h, _, _, _, _, _ => (h rfl).elim
  | [e], _, h, _, _, _, he => by
    rw [NFl] at h
    rw [flats, flats, List.append_nil]
    exact evb_flat e h.1 he.one_inv
  | e :: e' :: es, _, h, _, _, _, he => by
    rw [NFl] at h
    obtain ⟨ws, σ2, h1, h2⟩ := he.cons_inv
    rw [flats]
    refine EvB.append (flat_nf e h.1).2 ?_ (evb_flat e h.1 h1) (evb_flats (e' :: es) (by simp) h.2 h2)
    rw [flats]
    have h3 := h.2
    rw [NFl] at h3
    exact fun h' => (flat_nf _ h3.1).2 (List.append_eq_nil_iff.1 h').1
end


theorem evr_append {ρ : REnv} : ∀ {a b : List Bd} {σ σ1 σ2 : RS}, EvR P ρ a σ σ1 → EvR P ρ b σ1 σ2 → EvR P ρ (a ++ b) σ σ2
  | [], b, σ, σ1, σ2, ⟨n, h1⟩, h2 => by
    cases n with
    | zero => simp [evRec] at h1
    | succ n => rw [evRec] at h1; cases h1; exact h2
  | .mk xs e :: a, b, σ, σ1, σ2, ⟨n, h1⟩, h2 => by
    cases n with
    | zero => simp [evRec] at h1
    | succ n =>
      rw [evRec, Res.bind_eq_ok] at h1
      obtain ⟨⟨vs, σ3⟩, h3, h4⟩ := h1
      simp only at h4
      split at h4
      next hl =>
        simp only [Res.bind_eq_ok] at h4
        obtain ⟨σ4, h4, h5⟩ := h4
        exact EvR.cons ⟨n, h3⟩ hl h4 (evr_append ⟨n, h5⟩ h2)
      · cases h4

end

/-! ### relations -/

/-- Specification: environments agree on the names of the program; `void` and `values` are not local. -/
structure Agree (N : Sym → Prop) (ρ ρ' : REnv) : Prop where
  eq : ∀ x, N x → ρ x = ρ' x
  void : ρ' sVoid = none
  values : ρ' .values = none

/-- Specification: procedures: a closure corresponds to the closure whose clauses are the expansions. -/
inductive CR : SC → RC → Prop where
  | clo (N : Sym → Prop) (ρ ρ' : REnv) (fs : List Formals) (bodies : List (List S)) (hN : Names N) (hl : fs.length = bodies.length) (hf : ∀ f ∈ fs, ∀ x ∈ f.ids, Bindable N x)
      (hb : OkBs N bodies) (ha : Agree N ρ ρ') : CR (.clo ρ fs bodies) (.clo ρ' (mkCls fs (xpBodies bodies)))
  | prim (p n : Nat) : CR (.prim p n) (.prim p n)
  | values : CR .values .values
  | apply : CR .apply .apply
  | cwv : CR .cwv .cwv

/-- Specification: values that correspond to each other. -/
abbrev VX := VRel CR

/-- Specification: stores that correspond to each other; the top-level variables `void` and `values` have their usual values. -/
structure SR (P : Prims) (σ : SS) (σ' : RS) : Prop where
  cells : List.Forall₂ VX σ.cells σ'.cells
  globs : ∀ x, ORel VX (σ.globs x) (σ'.globs x)
  void : ∃ v, σ'.globs sVoid = some v ∧ v ≠ .unbound ∧ ∀ σ, EvP P v [] σ [.void] σ
  values : σ'.globs .values = some (.clo .values)

variable {P : Prims} {N : Sym → Prop} {ρ ρ' : REnv} {σ σ1 : SS} {σ' : RS}

theorem SR.len (h : SR P σ σ') : σ.cells.length = σ'.cells.length := h.cells.length_eq

theorem SR.push (h : SR P σ σ') {v : SV} {w : RV} (hv : VX v w) : SR P { σ with cells := σ.cells ++ [v] } { σ' with cells := σ'.cells ++ [w] } :=
  ⟨List.rel_append h.cells (.cons hv .nil), h.globs, h.void, h.values⟩

theorem Agree.set (h : Agree N ρ ρ') {x : Sym} (hx : Bindable N x) (c : Nat) : Agree N (ρ.set x c) (ρ'.set x c) := by
  refine ⟨fun y hy => ?_, ?_, ?_⟩
  · simp only [REnv.set]
    split
    · rfl
    · exact h.eq y hy
  · simp only [REnv.set, if_neg (Ne.symm hx.2.1)]; exact h.void
  · simp only [REnv.set, if_neg (Ne.symm hx.2.2)]; exact h.values

/-- binding a name the program does not have -/
theorem Agree.hide (h : Agree N ρ ρ') {x : Sym} (hx : ¬ N x) (h1 : x ≠ sVoid) (h2 : x ≠ .values) (c : Nat) : Agree N ρ (ρ'.set x c) := by
  refine ⟨fun y hy => ?_, ?_, ?_⟩
  · simp only [REnv.set]
    rw [if_neg (by rintro rfl; exact hx hy)]
    exact h.eq y hy
  · simp only [REnv.set, if_neg (Ne.symm h1)]; exact h.void
  · simp only [REnv.set, if_neg (Ne.symm h2)]; exact h.values

theorem Agree.weaken (h : Agree N ρ ρ') {M : Sym → Prop} (hM : ∀ x, M x → N x) : Agree M ρ ρ' := ⟨fun x hx => h.eq x (hM x hx), h.void, h.values⟩

theorem Names.weaken (h : Names N) {M : Sym → Prop} (hM : ∀ x, M x → N x) : Names M := ⟨fun x hx => h.kw x (hM x hx), fun x hx => h.ort x (hM x hx)⟩

theorem bind_rel : ∀ {xs : List Sym} {vs : List SV} {ws : List RV} {ρ ρ' : REnv} {σ : SS} {σ' : RS}, (∀ x ∈ xs, Bindable N x) → List.Forall₂ VX vs ws → Agree N ρ ρ' → SR P σ σ' →
    Agree N (sBind ρ σ xs vs).1 (bindVals ρ' σ' xs ws).1 ∧ SR P (sBind ρ σ xs vs).2 (bindVals ρ' σ' xs ws).2
  | [], _, _, _, _, _, _, _, _, ha, hs => by simpa [sBind, bindVals] using ⟨ha, hs⟩
  | x :: xs, [], [], _, _, _, _, _, _, ha, hs => by simpa [sBind, bindVals] using ⟨ha, hs⟩
  | x :: xs, v :: vs, w :: ws, ρ, ρ', σ, σ', hx, .cons hv hvs, ha, hs => by
    rw [sBind, bindVals]
    have := hs.len
    rw [← this]
    exact bind_rel (fun y hy => hx y (List.mem_cons_of_mem _ hy)) hvs (ha.set (hx x (by simp)) _) (hs.push hv)

theorem lookup_rel (ha : Agree N ρ ρ') (hs : SR P σ σ') {x : Sym} (hx : N x) {v : SV} (h : sLookup ρ σ x = .ok v) : ∃ w, lookupR ρ' σ' x = .ok w ∧ VX v w := by
  have key : ∀ {o : Option SV} {o' : Option RV}, ORel VX o o' → (match o with | none => (.err : Res SV) | some .unbound => .err | some v => .ok v) = .ok v →
      ∃ w, (match o' with | none => (.err : Res RV) | some .unbound => .err | some v => .ok v) = .ok w ∧ VX v w := by
    intro o o' ho h
    match o, o', ho, h with
    | none, none, _, h => cases h
    | some a, some b, ho, h =>
      have ho : VX a b := ho
      cases ho <;> first | (cases h; done) | (cases h; exact ⟨_, rfl, by first | exact .null | exact .sym _ | exact .lit _ | exact .other _ | exact .stx _ | exact .void | exact .tenv _ | exact .cons (by assumption) (by assumption) | exact .clo (by assumption)⟩)
  unfold sLookup at h
  unfold lookupR
  rw [← ha.eq x hx]
  cases hc : ρ x with
  | none => rw [hc] at h; exact key (hs.globs x) h
  | some c =>
    rw [hc] at h
    refine key ?_ h
    simp only
    by_cases hlt : c < σ.cells.length
    · have hlt' : c < σ'.cells.length := hs.len ▸ hlt
      rw [List.getElem?_eq_getElem hlt, List.getElem?_eq_getElem hlt']
      exact List.Forall₂.get hs.cells hlt hlt'
    · have hlt' : ¬ c < σ'.cells.length := hs.len ▸ hlt
      rw [List.getElem?_eq_none (by omega), List.getElem?_eq_none (by omega)]
      trivial

theorem forall2_set {α β : Type} {R : α → β → Prop} : ∀ {l : List α} {m : List β}, List.Forall₂ R l m → ∀ (c : Nat) {a : α} {b : β}, R a b → List.Forall₂ R (l.set c a) (m.set c b)
  | _, _, .nil, _, _, _, _ => .nil
  | _, _, .cons h t, 0, _, _, hr => .cons hr t
  | _, _, .cons h t, c + 1, _, _, hr => .cons h (forall2_set t c hr)

theorem assign_rel (ha : Agree N ρ ρ') (hs : SR P σ σ') {x : Sym} (hx : Bindable N x) {v : SV} {w : RV} (hv : VX v w) (h : sAssign ρ σ x v = .ok σ1) :
    ∃ σ1', assignR ρ' σ' x w = .ok σ1' ∧ SR P σ1 σ1' := by
  unfold sAssign at h
  unfold assignR
  rw [← ha.eq x hx.1]
  cases hc : ρ x with
  | some c =>
    rw [hc] at h
    simp only at h ⊢
    split at h
    next hlt =>
      rw [if_pos (hs.len ▸ hlt)]
      cases h
      exact ⟨_, rfl, forall2_set hs.cells c hv, hs.globs, hs.void, hs.values⟩
    · cases h
  | none =>
    rw [hc] at h
    simp only at h ⊢
    have hg := hs.globs x
    cases hb : σ.globs x with
    | none => rw [hb] at h; cases h
    | some u =>
      rw [hb] at h hg
      cases hb' : σ'.globs x with
      | none => rw [hb'] at hg; exact hg.elim
      | some u' =>
        cases h
        refine ⟨_, rfl, hs.cells, fun y => ?_, ?_, ?_⟩
        · simp only [SS.setGlob, RS.setGlob]
          split
          · exact hv
          · exact hs.globs y
        · simpa only [RS.setGlob, if_neg (Ne.symm hx.2.1)] using hs.void
        · simpa only [RS.setGlob, if_neg (Ne.symm hx.2.2)] using hs.values

theorem assigns_rel (ha : Agree N ρ ρ') : ∀ {xs : List Sym} {vs : List SV} {ws : List RV} {σ σ1 : SS} {σ' : RS}, SR P σ σ' → (∀ x ∈ xs, Bindable N x) → List.Forall₂ VX vs ws →
    sAssigns ρ σ xs vs = .ok σ1 → ∃ σ1', assignsR ρ' σ' xs ws = .ok σ1' ∧ SR P σ1 σ1'
  | [], _, _, _, _, _, hs, _, _, h => by
    rw [sAssigns] at h
    · cases h; exact ⟨_, by rw [assignsR]; simp, hs⟩
    · simp
  | x :: xs, [], [], _, _, _, hs, _, _, h => by
    rw [sAssigns] at h
    · cases h; exact ⟨_, by rw [assignsR]; simp, hs⟩
    · simp
  | x :: xs, v :: vs, w :: ws, _, _, _, hs, hx, .cons hv hvs, h => by
    rw [sAssigns, Res.bind_eq_ok] at h
    obtain ⟨σ2, h1, h2⟩ := h
    obtain ⟨σ2', k1, k2⟩ := assign_rel ha hs (hx x (by simp)) hv h1
    obtain ⟨σ3', k3, k4⟩ := assigns_rel ha k2 (fun y hy => hx y (List.mem_cons_of_mem _ hy)) hvs h2
    exact ⟨σ3', by rw [assignsR, k1]; exact k3, k4⟩

theorem params_rel {f : Formals} {as : List SV} {as' : List RV} (h : List.Forall₂ VX as as') : List.Forall₂ VX (params f as) (params f as') := by
  unfold params
  split
  · exact List.rel_append (Forall₂.take h _) (.cons (VRel.listV (Forall₂.drop h _)) .nil)
  · exact h

theorem select_rel : ∀ {fs : List Formals} {bodies : List (List S)} {n : Nat} {f : Formals} {b : List S}, fs.length = bodies.length → sSelect fs bodies n = some (f, b) →
    select (mkCls fs (xpBodies bodies)) n = some (f, bodyE (xps false b)) ∧ f ∈ fs ∧ b ∈ bodies
  | [], _, _, _, _, _, h => by simp [sSelect] at h
  | _ :: _, [], _, _, _, _, h => by simp [sSelect] at h
  | g :: fs, b0 :: bodies, n, f, b, hl, h => by
    rw [sSelect] at h
    rw [xpBodies, mkCls, select]
    split at h
    next ha => cases h; rw [if_pos ha]; simp
    next ha =>
      rw [if_neg ha]
      obtain ⟨h1, h2, h3⟩ := select_rel (by simpa using hl) h
      exact ⟨h1, by simp [h2], by simp [h3]⟩

theorem okBs_mem : ∀ {bs : List (List S)}, OkBs N bs → ∀ b ∈ bs, endsExpr b = true ∧ (defIds b).Nodup ∧ OkI N b
  | [], _, b, hb => by cases hb
  | b0 :: bs, h, b, hb => by
    rw [OkBs] at h
    rcases List.mem_cons.1 hb with rfl | hb
    · exact h.1
    · exact okBs_mem h.2 b hb

theorem defn_xp {s r : S} {is : List Sym} (hd : defn s = some (is, r)) (h : Ok N s) : (∀ rb, xp rb s = .define is (xp true r)) ∧ Ok N r ∧ defn r = none ∧ ∀ x ∈ is, Bindable N x := by
  cases s <;> simp only [defn, reduceCtorEq] at hd
  case define xs e =>
    cases hd; rw [Ok] at h
    exact ⟨fun rb => by rw [xp], h.2.2, h.2.1, h.1⟩
  case def1 x e =>
    cases hd; rw [Ok] at h
    exact ⟨fun rb => by rw [xp], h.2.2, h.2.1, by simpa using h.1⟩
  case fn f fs body =>
    cases hd; rw [Ok] at h
    exact ⟨fun rb => by rw [xp, xp], by rw [Ok]; exact h.2, rfl, by simpa using h.1⟩

theorem voidE_ev (ha : Agree N ρ ρ') (hs : SR P σ σ') : Evs P ρ' voidE σ' [.void] σ' := by
  obtain ⟨v, h1, h2, h3⟩ := hs.void
  refine Evs.app (g := v) (Evs.var ?_) .nil (h3 σ')
  unfold lookupR
  rw [ha.void]
  simp only [h1]

theorem exBd_ev {e : E} {σ2 : RS} {vs : List RV} (hv : ρ' .values = none) (hg : σ2.globs .values = some (.clo .values)) (he : Evs P ρ' e σ' vs σ2) : EvR P ρ' [exBd e] σ' σ2 := by
  refine EvR.cons (vs := []) (Evs.letv0 (EvB.cons he (EvB.one (Evs.valuesCall hv hg .nil)))) ⟨rfl, rfl⟩ ?_ .nil
  rw [assignsR]; simp

/-- definitions and expressions, and the last expression -/
def EvT (P : Prims) (ρ : REnv) (l : List E) (σ : RS) (vs : List RV) (σ' : RS) : Prop := ∃ σm, EvR P ρ (recs l).1 σ σm ∧ EvB P ρ (recs l).2 σm vs σ'

/-- an evaluation, also of the expression among definitions and after definitions -/
def EvX (P : Prims) (ρ : REnv) (e : E) (σ : RS) (vs : List RV) (σ' : RS) : Prop := Evs P ρ e σ vs σ' ∧ EvR P ρ ((flat e).map exBd) σ σ' ∧ EvT P ρ (flat e) σ vs σ'

/-- the same of a sequence -/
def EvXs (P : Prims) (ρ : REnv) (es : List E) (σ : RS) (vs : List RV) (σ' : RS) : Prop := EvB P ρ es σ vs σ' ∧ EvR P ρ ((flats es).map exBd) σ σ' ∧ EvT P ρ (flats es) σ vs σ'

/-- what simulation shows -/
def Out (P : Prims) (R : List RV → RS → Prop) (vs : List SV) (σ : SS) : Prop := ∃ vs' σ', R vs' σ' ∧ List.Forall₂ VX vs vs' ∧ SR P σ σ'

theorem Out.mono {R R' : List RV → RS → Prop} {vs : List SV} (h : Out P R vs σ) (hR : ∀ vs' σ', SR P σ σ' → R vs' σ' → R' vs' σ') : Out P R' vs σ := by
  obtain ⟨vs', σ', h1, h2, h3⟩ := h
  exact ⟨vs', σ', hR _ _ h3 h1, h2, h3⟩

theorem Out.one {R : List RV → RS → Prop} {v : SV} (h : Out P R [v] σ) : ∃ v' σ', R [v'] σ' ∧ VX v v' ∧ SR P σ σ' := by
  obtain ⟨vs', σ', h1, h2, h3⟩ := h
  obtain ⟨v', rfl, hv⟩ := Forall₂.one_inv h2
  exact ⟨v', σ', h1, hv, h3⟩

theorem EvX.of {e : E} {vs : List RV} {σ1' : RS} (ha : Agree N ρ ρ') (hb : isBegin e = false) (hs : SR P σ1 σ1') (h : Evs P ρ' e σ' vs σ1') : EvX P ρ' e σ' vs σ1' := by
  refine ⟨h, ?_⟩
  rw [flat_eq hb]
  exact ⟨exBd_ev ha.values hs.values h, σ', .nil, .one h⟩

theorem Out.xs {e : E} {vs : List SV} (ha : Agree N ρ ρ') (hb : isBegin e = false) (h : Out P (Evs P ρ' e σ') vs σ1) : Out P (EvX P ρ' e σ') vs σ1 :=
  h.mono fun _ _ hs he => .of ha hb hs he

theorem flats_id : ∀ {l : List E}, (∀ e ∈ l, isBegin e = false) → flats l = l
  | [], _ => by rw [flats]
  | e :: l, h => by
    rw [flats, flat_eq (h e (by simp)), flats_id fun x hx => h x (List.mem_cons_of_mem _ hx)]; rfl

theorem asm_append : ∀ {l m : List E}, (∀ e ∈ l, isDef e = false) → asm (l ++ m) = l ++ asm m
  | [], _, _ => rfl
  | e :: l, m, h => by
    rw [List.cons_append, asm, if_neg (by simp [h e (by simp)]), asm_append fun x hx => h x (List.mem_cons_of_mem _ hx)]; rfl

theorem toBd_ex {e : E} (h : isDef e = false) : toBd e = exBd e := by
  cases e <;> first | rfl | cases h

theorem recs_append : ∀ {l m : List E}, (∀ e ∈ l, isDef e = false) → m ≠ [] → recs (l ++ m) = (l.map exBd ++ (recs m).1, (recs m).2)
  | [], _, _, _ => rfl
  | e :: l, m, h, hm => by
    have ih := recs_append (l := l) (fun x hx => h x (List.mem_cons_of_mem _ hx)) hm
    obtain ⟨y, ys, hy⟩ : ∃ y ys, l ++ m = y :: ys := by
      cases hlm : l ++ m with
      | nil => exact (hm (List.append_eq_nil_iff.1 hlm).2).elim
      | cons y ys => exact ⟨y, ys, rfl⟩
    rw [List.cons_append, hy, recs, ← hy, ih, toBd_ex (h e (by simp))]
    rfl

/-- the alternative of `cond` -/
def elsX (rb : Bool) : List S → E
  | [] => voidE
  | e :: es => thenE (if es.isEmpty then xp rb e else xp false e) (xps false es)

/-- all functions of the semantics -/
structure Sim (P : Prims) (n : Nat) : Prop where
  e : ∀ {N ρ ρ' s σ σ' vs σ1}, sev P n ρ s σ = .ok (vs, σ1) → Names N → Ok N s → Agree N ρ ρ' → SR P σ σ' → ∀ rb, Out P (EvX P ρ' (xp rb s) σ') vs σ1
  seq : ∀ {N ρ ρ' es σ σ' vs σ1}, sSeq P n ρ es σ = .ok (vs, σ1) → Names N → OkL N es → es ≠ [] → Agree N ρ ρ' → SR P σ σ' → Out P (EvXs P ρ' (xps false es) σ') vs σ1
  b : ∀ {N ρ ρ' es σ σ' vs σ1}, sBody P n ρ es σ = .ok (vs, σ1) → Names N → OkI N es → endsExpr es = true → Agree N ρ ρ' → SR P σ σ' → Out P (EvB P ρ' (bodyE (xps false es)) σ') vs σ1
  t : ∀ {N ρ ρ' e es σ σ' vs σ1}, sBody P n ρ (e :: es) σ = .ok (vs, σ1) → Names N → OkI N (e :: es) → endsExpr (e :: es) = true → Agree N ρ ρ' → SR P σ σ' →
    ∀ rb, Out P (EvX P ρ' (thenE (if es.isEmpty then xp rb e else xp false e) (xps false es)) σ') vs σ1
  d : ∀ {N ρ ρ' es σ σ' vs σ1}, sDefs P n ρ es σ = .ok (vs, σ1) → Names N → OkI N es → endsExpr es = true → Agree N ρ ρ' → SR P σ σ' →
    Out P (EvT P ρ' (flats (xps false es)) σ') vs σ1
  a : ∀ {N ρ ρ' es σ σ' vs σ1}, sArgs P n ρ es σ = .ok (vs, σ1) → Names N → OkL N es → Agree N ρ ρ' → SR P σ σ' → ∀ rb, Out P (EvA P ρ' (xps rb es) σ') vs σ1
  l : ∀ {N ρ ρ' xss es σ σ' vs σ1}, sBds P n ρ xss es σ = .ok (vs, σ1) → Names N → OkL N es → Agree N ρ ρ' → SR P σ σ' → ∀ rb, Out P (EvD P ρ' (mkBds xss (xps rb es)) σ') vs σ1
  r : ∀ {N ρ ρ' xss es σ σ' σ1}, sRecs P n ρ xss es σ = .ok σ1 → Names N → OkL N es → (∀ x ∈ xss.flatten, Bindable N x) → Agree N ρ ρ' → SR P σ σ' →
    ∀ rb, ∃ σ1', EvR P ρ' (mkBds xss (xps rb es)) σ' σ1' ∧ SR P σ1 σ1'
  and : ∀ {N ρ ρ' es σ σ' vs σ1}, sAnds P n ρ es σ = .ok (vs, σ1) → Names N → OkL N es → Agree N ρ ρ' → SR P σ σ' → ∀ rb, Out P (EvX P ρ' (andE (xps rb es)) σ') vs σ1
  or : ∀ {N ρ ρ' e es σ σ' vs σ1}, sOrs P n ρ (e :: es) σ = .ok (vs, σ1) → Names N → OkL N (e :: es) → Agree N ρ ρ' → SR P σ σ' → ∀ rb, Out P (EvX P ρ' (orE (xp rb e :: xps false es)) σ') vs σ1
  c : ∀ {N ρ ρ' ts bs els σ σ' vs σ1}, sConds P n ρ ts bs els σ = .ok (vs, σ1) → Names N → ts.length = bs.length → OkL N ts → OkBs N bs → (els = [] ∨ endsExpr els = true) → OkI N els →
    Agree N ρ ρ' → SR P σ σ' → ∀ rb, Out P (EvX P ρ' (condE (xps rb ts) (xpThens rb bs) (elsX rb els)) σ') vs σ1
  s0 : ∀ {N ρ ρ' body σ σ' vs σ1}, sStar P n ρ [] [] body σ = .ok (vs, σ1) → Names N → endsExpr body = true → OkI N body → Agree N ρ ρ' → SR P σ σ' → Out P (EvB P ρ' (bodyE (xps false body)) σ') vs σ1
  s : ∀ {N ρ ρ' x xs e es body σ σ' vs σ1}, sStar P n ρ (x :: xs) (e :: es) body σ = .ok (vs, σ1) → Names N → xs.length = es.length → (∀ y ∈ x :: xs, Bindable N y) → OkL N (e :: es) →
    endsExpr body = true → OkI N body → Agree N ρ ρ' → SR P σ σ' → ∀ rb, Out P (Evs P ρ' (starE (x :: xs) (xp rb e :: xps false es) (bodyE (xps false body))) σ') vs σ1
  p : ∀ {f as σ vs σ1 f' as' σ'}, sApply P n f as σ = .ok (vs, σ1) → VX f f' → List.Forall₂ VX as as' → SR P σ σ' → Out P (EvP P f' as' σ') vs σ1

theorem Sim.zero (P : Prims) : Sim P 0 := by
  constructor
  · intro N ρ ρ' s σ σ' vs σ1 h; simp [sev] at h
  · intro N ρ ρ' s σ σ' vs σ1 h; simp [sSeq] at h
  · intro N ρ ρ' s σ σ' vs σ1 h; simp [sBody] at h
  · intro N ρ ρ' e s σ σ' vs σ1 h; simp [sBody] at h
  · intro N ρ ρ' s σ σ' vs σ1 h; simp [sDefs] at h
  · intro N ρ ρ' s σ σ' vs σ1 h; simp [sArgs] at h
  · intro N ρ ρ' xss s σ σ' vs σ1 h; simp [sBds] at h
  · intro N ρ ρ' xss s σ σ' σ1 h; simp [sRecs] at h
  · intro N ρ ρ' s σ σ' vs σ1 h; simp [sAnds] at h
  · intro N ρ ρ' e s σ σ' vs σ1 h; simp [sOrs] at h
  · intro N ρ ρ' ts bs els σ σ' vs σ1 h; simp [sConds] at h
  · intro N ρ ρ' body σ σ' vs σ1 h; simp [sStar] at h
  · intro N ρ ρ' x xs e es body σ σ' vs σ1 h; simp [sStar] at h
  · intro f as σ vs σ1 f' as' σ' h; simp [sApply] at h

variable {n : Nat}

theorem Sim.e1 (ih : Sim P n) {s : S} {v : SV} (h : sev P n ρ s σ = .ok ([v], σ1)) (hN : Names N) (ho : Ok N s) (ha : Agree N ρ ρ') (hs : SR P σ σ') (rb : Bool) :
    ∃ v' σ1', Evs P ρ' (xp rb s) σ' [v'] σ1' ∧ VX v v' ∧ SR P σ1 σ1' := by
  obtain ⟨v', σ1', h1, h2, h3⟩ := (ih.e h hN ho ha hs rb).one
  exact ⟨v', σ1', h1.1, h2, h3⟩

theorem Sim.let_ (ih : Sim P n) {xss : List (List Sym)} {es body : List S} {vs : List SV}
    (h : (do let (vs, σ) ← sBds P n ρ xss es σ
             let (ρ, σ) := sBind ρ σ xss.flatten vs
             sBody P n ρ body σ : Res (List SV × SS)) = .ok (vs, σ1))
    (hN : Names N) (hl : xss.length = es.length) (hx : ∀ x ∈ xss.flatten, Bindable N x) (he : OkL N es) (h5 : endsExpr body = true) (h7 : OkI N body) (ha : Agree N ρ ρ') (hs : SR P σ σ') (rb : Bool) :
    Out P (EvX P ρ' (.letv (mkBds xss (xps rb es)) (bodyE (xps false body))) σ') vs σ1 := by
  rw [Res.bind_eq_ok] at h
  obtain ⟨⟨as, σ2⟩, h1, h2⟩ := h
  obtain ⟨as', σ2', k1, k2, k3⟩ := ih.l h1 hN he ha hs rb
  obtain ⟨b1, b2⟩ := bind_rel hx k2 ha k3
  obtain ⟨vs', σ3', r1, r2, r3⟩ := ih.b h2 hN h7 h5 b1 b2
  refine Out.xs ha rfl ⟨vs', σ3', Evs.letv k1 ?_, r2, r3⟩
  rw [mkBds_ids (by rw [xps_length]; exact hl)]
  exact r1

theorem replicate_rel : ∀ n : Nat, List.Forall₂ VX (List.replicate n .unbound) (List.replicate n .unbound)
  | 0 => .nil
  | n + 1 => .cons .unbound (replicate_rel n)

theorem Sim.letrec_ (ih : Sim P n) {xss : List (List Sym)} {es body : List S} {vs : List SV}
    (h : (do let (ρ, σ) := sBind ρ σ xss.flatten (List.replicate xss.flatten.length .unbound)
             let σ ← sRecs P n ρ xss es σ
             sBody P n ρ body σ : Res (List SV × SS)) = .ok (vs, σ1))
    (hN : Names N) (hl : xss.length = es.length) (hx : ∀ x ∈ xss.flatten, Bindable N x) (he : OkL N es) (h5 : endsExpr body = true) (h7 : OkI N body) (ha : Agree N ρ ρ') (hs : SR P σ σ') (rb : Bool) :
    Out P (EvX P ρ' (.letrecv (mkBds xss (xps rb es)) (bodyE (xps false body))) σ') vs σ1 := by
  obtain ⟨b1, b2⟩ := bind_rel hx (replicate_rel xss.flatten.length) ha hs
  simp only [Res.bind_eq_ok] at h
  obtain ⟨σ2, h1, h2⟩ := h
  obtain ⟨σ2', k1, k2⟩ := ih.r h1 hN he hx b1 b2 rb
  obtain ⟨vs', σ3', r1, r2, r3⟩ := ih.b h2 hN h7 h5 b1 k2
  refine Out.xs ha rfl ⟨vs', σ3', Evs.letrecv (σ0 := _) (ρ1 := _) ?_ k1 r1, r2, r3⟩
  rw [mkBds_ids (by rw [xps_length]; exact hl)]

end Minim.Exp
