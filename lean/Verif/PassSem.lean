import Verif.RefSem

set_option autoImplicit false

/-!
# More fuel, the same result
-/

namespace Minim.Jit

open Minim.Sx Minim.Core

/-- All six functions. -/
structure Mono (P : Prims) (n : Nat) : Prop where
  e : ∀ {ρ e σ r}, ev P n ρ e σ = .ok r → ev P (n + 1) ρ e σ = .ok r
  b : ∀ {ρ es σ r}, evBody P n ρ es σ = .ok r → evBody P (n + 1) ρ es σ = .ok r
  a : ∀ {ρ es σ r}, evArgs P n ρ es σ = .ok r → evArgs P (n + 1) ρ es σ = .ok r
  d : ∀ {ρ bs σ r}, evBds P n ρ bs σ = .ok r → evBds P (n + 1) ρ bs σ = .ok r
  r : ∀ {ρ bs σ r}, evRec P n ρ bs σ = .ok r → evRec P (n + 1) ρ bs σ = .ok r
  p : ∀ {f vs σ r}, applyR P n f vs σ = .ok r → applyR P (n + 1) f vs σ = .ok r

theorem mono_all (P : Prims) : ∀ n, Mono P n
  | 0 => ⟨fun h => by simp [ev] at h, fun h => by simp [evBody] at h, fun h => by simp [evArgs] at h, fun h => by simp [evBds] at h, fun h => by simp [evRec] at h, fun h => by simp [applyR] at h⟩
  | n + 1 => by
    have ih := mono_all P n
    refine ⟨?_, ?_, ?_, ?_, ?_, ?_⟩
    · intro ρ e σ r h
      cases e with
      | var => rw [ev] at h ⊢; exact h
      | lit => rw [ev] at h ⊢; exact h
      | quote => rw [ev] at h ⊢; exact h
      | quoteSyntax => rw [ev] at h ⊢; exact h
      | unbound => rw [ev] at h ⊢; exact h
      | lam => rw [ev] at h ⊢; exact h
      | clam => rw [ev] at h ⊢; exact h
      | define xs e =>
        rw [ev, Res.bind_eq_ok] at h ⊢
        obtain ⟨x, h1, h2⟩ := h
        exact ⟨x, ih.e h1, h2⟩
      | set x e =>
        rw [ev, Res.bind_eq_ok] at h ⊢
        obtain ⟨x, h1, h2⟩ := h
        exact ⟨x, ih.e h1, h2⟩
      | ite c a b =>
        rw [ev, Res.bind_eq_ok] at h ⊢
        obtain ⟨x, h1, h2⟩ := h
        refine ⟨x, ih.e h1, ?_⟩
        obtain ⟨vs, σ1⟩ := x
        simp only [Res.bind_eq_ok] at h2 ⊢
        obtain ⟨v, h2, h3⟩ := h2
        refine ⟨v, h2, ?_⟩
        split at h3
        next hh => rw [if_pos hh]; exact ih.e h3
        next hh => rw [if_neg hh]; exact ih.e h3
      | letv bs body =>
        rw [ev, Res.bind_eq_ok] at h ⊢
        obtain ⟨x, h1, h2⟩ := h
        exact ⟨x, ih.d h1, ih.b h2⟩
      | letrecv bs body =>
        rw [ev, Res.bind_eq_ok] at h ⊢
        obtain ⟨x, h1, h2⟩ := h
        exact ⟨x, ih.r h1, ih.b h2⟩
      | begin es => rw [ev] at h ⊢; exact ih.b h
      | app f args =>
        rw [ev, Res.bind_eq_ok] at h ⊢
        obtain ⟨⟨vs, σ1⟩, h1, h2⟩ := h
        refine ⟨_, ih.e h1, ?_⟩
        simp only [Res.bind_eq_ok] at h2 ⊢
        obtain ⟨v, h2, ⟨as, σ2⟩, h3, h4⟩ := h2
        exact ⟨v, h2, _, ih.a h3, ih.p h4⟩
      | mvcall e c =>
        rw [ev, Res.bind_eq_ok] at h ⊢
        obtain ⟨⟨vs, σ1⟩, h1, h2⟩ := h
        refine ⟨_, ih.e h1, ?_⟩
        simp only [Res.bind_eq_ok] at h2 ⊢
        obtain ⟨⟨as, σ2⟩, h2, v, h3, h4⟩ := h2
        exact ⟨_, ih.e h2, v, h3, ih.p h4⟩
      | mvlet e xs body =>
        rw [ev, Res.bind_eq_ok] at h ⊢
        obtain ⟨⟨vs, σ1⟩, h1, h2⟩ := h
        refine ⟨_, ih.e h1, ?_⟩
        simp only at h2 ⊢
        split at h2
        next hh => rw [if_pos hh]; exact ih.e h2
        · cases h2
      | mvvals es => rw [ev] at h ⊢; exact ih.a h
    · intro ρ es σ r h
      match es, h with
      | [], h => rw [evBody] at h ⊢; exact h
      | [e], h => rw [evBody] at h ⊢; exact ih.e h
      | e :: e' :: es, h =>
        rw [evBody, Res.bind_eq_ok] at h ⊢
        obtain ⟨x, h1, h2⟩ := h
        exact ⟨x, ih.e h1, ih.b h2⟩
    · intro ρ es σ r h
      match es, h with
      | [], h => rw [evArgs] at h ⊢; exact h
      | e :: es, h =>
        rw [evArgs, Res.bind_eq_ok] at h ⊢
        obtain ⟨⟨vs, σ1⟩, h1, h2⟩ := h
        refine ⟨_, ih.e h1, ?_⟩
        simp only [Res.bind_eq_ok] at h2 ⊢
        obtain ⟨v, h2, x, h3, h4⟩ := h2
        exact ⟨v, h2, x, ih.a h3, h4⟩
    · intro ρ bs σ r h
      match bs, h with
      | [], h => rw [evBds] at h ⊢; exact h
      | .mk xs e :: bs, h =>
        rw [evBds, Res.bind_eq_ok] at h ⊢
        obtain ⟨⟨vs, σ1⟩, h1, h2⟩ := h
        refine ⟨_, ih.e h1, ?_⟩
        simp only at h2 ⊢
        split at h2
        next hh =>
          rw [if_pos hh]
          simp only [Res.bind_eq_ok] at h2 ⊢
          obtain ⟨x, h3, h4⟩ := h2
          exact ⟨x, ih.d h3, h4⟩
        · cases h2
    · intro ρ bs σ r h
      match bs, h with
      | [], h => rw [evRec] at h ⊢; exact h
      | .mk xs e :: bs, h =>
        rw [evRec, Res.bind_eq_ok] at h ⊢
        obtain ⟨⟨vs, σ1⟩, h1, h2⟩ := h
        refine ⟨_, ih.e h1, ?_⟩
        simp only at h2 ⊢
        split at h2
        next hh =>
          rw [if_pos hh]
          simp only [Res.bind_eq_ok] at h2 ⊢
          obtain ⟨x, h3, h4⟩ := h2
          exact ⟨x, h3, ih.r h4⟩
        · cases h2
    · intro f vs σ r h
      cases f with
      | clo c =>
        cases c with
        | clo ρ cs =>
          rw [applyR] at h ⊢
          split at h
          · cases h
          next hs => exact ih.b h
        | prim p k => rw [applyR] at h ⊢; exact h
        | values => rw [applyR] at h ⊢; exact h
        | apply =>
          match vs, h with
          | [], h => simp [applyR] at h
          | [_], h => simp [applyR] at h
          | f :: v :: ws, h =>
            rw [applyR] at h ⊢
            split at h
            · cases h
            next hs => exact ih.p h
        | cwv =>
          match vs, h with
          | [], h => simp [applyR] at h
          | [_], h => simp [applyR] at h
          | _ :: _ :: _ :: _, h => simp [applyR] at h
          | [p, c], h =>
            rw [applyR, Res.bind_eq_ok] at h ⊢
            obtain ⟨x, h1, h2⟩ := h
            exact ⟨x, ih.p h1, ih.p h2⟩
      | _ => simp [applyR] at h

variable {P : Prims}

theorem ev_le {m n : Nat} (hle : m ≤ n) {ρ : REnv} {e : E} {σ : RS} {r : List RV × RS} (h : ev P m ρ e σ = .ok r) : ev P n ρ e σ = .ok r := by
  induction hle with
  | refl => exact h
  | step _ ih => exact (mono_all P _).e ih

theorem evBody_le {m n : Nat} (hle : m ≤ n) {ρ : REnv} {e : List E} {σ : RS} {r : List RV × RS} (h : evBody P m ρ e σ = .ok r) : evBody P n ρ e σ = .ok r := by
  induction hle with
  | refl => exact h
  | step _ ih => exact (mono_all P _).b ih

theorem evArgs_le {m n : Nat} (hle : m ≤ n) {ρ : REnv} {e : List E} {σ : RS} {r : List RV × RS} (h : evArgs P m ρ e σ = .ok r) : evArgs P n ρ e σ = .ok r := by
  induction hle with
  | refl => exact h
  | step _ ih => exact (mono_all P _).a ih

theorem applyR_le {m n : Nat} (hle : m ≤ n) {f : RV} {vs : List RV} {σ : RS} {r : List RV × RS} (h : applyR P m f vs σ = .ok r) : applyR P n f vs σ = .ok r := by
  induction hle with
  | refl => exact h
  | step _ ih => exact (mono_all P _).p ih

/-! ### Results without fuel -/

/-- Specification: the expression evaluates to the values `vs` and the store `σ'`. -/
def Evs (P : Prims) (ρ : REnv) (e : E) (σ : RS) (vs : List RV) (σ' : RS) : Prop := ∃ n, ev P n ρ e σ = .ok (vs, σ')

/-- The same of a sequence. -/
def EvB (P : Prims) (ρ : REnv) (es : List E) (σ : RS) (vs : List RV) (σ' : RS) : Prop := ∃ n, evBody P n ρ es σ = .ok (vs, σ')

/-- The same of arguments. -/
def EvA (P : Prims) (ρ : REnv) (es : List E) (σ : RS) (vs : List RV) (σ' : RS) : Prop := ∃ n, evArgs P n ρ es σ = .ok (vs, σ')

/-- The same of an application. -/
def EvP (P : Prims) (f : RV) (as : List RV) (σ : RS) (vs : List RV) (σ' : RS) : Prop := ∃ n, applyR P n f as σ = .ok (vs, σ')

theorem Evs.var {ρ : REnv} {σ : RS} {x : Sym} {v : RV} (h : lookupR ρ σ x = .ok v) : Evs P ρ (.var x) σ [v] σ := ⟨1, by rw [ev, h]; rfl⟩
theorem Evs.lit {ρ : REnv} {σ : RS} {l : Lit} : Evs P ρ (.lit l) σ [.lit l] σ := ⟨1, by rw [ev]⟩
theorem Evs.quote {ρ : REnv} {σ : RS} {d : X} : Evs P ρ (.quote d) σ [ofX d] σ := ⟨1, by rw [ev]⟩
theorem Evs.quoteSyntax {ρ : REnv} {σ : RS} {d : X} : Evs P ρ (.quoteSyntax d) σ [.stx d] σ := ⟨1, by rw [ev]⟩
theorem Evs.unbound {ρ : REnv} {σ : RS} : Evs P ρ .unbound σ [.unbound] σ := ⟨1, by rw [ev]⟩
theorem Evs.lam {ρ : REnv} {σ : RS} {f : Formals} {body : List E} : Evs P ρ (.lam f body) σ [.clo (.clo ρ [.mk f body])] σ := ⟨1, by rw [ev]⟩
theorem Evs.clam {ρ : REnv} {σ : RS} {cs : List Cl} : Evs P ρ (.clam cs) σ [.clo (.clo ρ cs)] σ := ⟨1, by rw [ev]⟩

theorem Evs.define {ρ : REnv} {σ σ1 : RS} {xs : List Sym} {e : E} {vs : List RV} (h : Evs P ρ e σ vs σ1) (hl : vs.length = xs.length) :
    Evs P ρ (.define xs e) σ [.void] (σ1.setGlobs xs vs) := by
  obtain ⟨n, h⟩ := h
  exact ⟨n + 1, by rw [ev, h]; simp [hl]⟩

theorem Evs.set {ρ : REnv} {σ σ1 σ2 : RS} {x : Sym} {e : E} {v : RV} (h : Evs P ρ e σ [v] σ1) (ha : assignR ρ σ1 x v = .ok σ2) : Evs P ρ (.set x e) σ [.void] σ2 := by
  obtain ⟨n, h⟩ := h
  exact ⟨n + 1, by rw [ev, h]; simp [single, ha]⟩

theorem Evs.ite_true {ρ : REnv} {σ σ1 σ2 : RS} {c a b : E} {v : RV} {vs : List RV} (h : Evs P ρ c σ [v] σ1) (hv : isFalse v = false) (h2 : Evs P ρ a σ1 vs σ2) : Evs P ρ (.ite c a b) σ vs σ2 := by
  obtain ⟨n, h⟩ := h
  obtain ⟨m, h2⟩ := h2
  refine ⟨max n m + 1, ?_⟩
  rw [ev, ev_le (Nat.le_max_left n m) h]
  simp only [Res.ok_bind, single, hv]
  exact ev_le (Nat.le_max_right n m) h2

theorem Evs.ite_false {ρ : REnv} {σ σ1 σ2 : RS} {c a b : E} {v : RV} {vs : List RV} (h : Evs P ρ c σ [v] σ1) (hv : isFalse v = true) (h2 : Evs P ρ b σ1 vs σ2) : Evs P ρ (.ite c a b) σ vs σ2 := by
  obtain ⟨n, h⟩ := h
  obtain ⟨m, h2⟩ := h2
  refine ⟨max n m + 1, ?_⟩
  rw [ev, ev_le (Nat.le_max_left n m) h]
  simp only [Res.ok_bind, single, hv, if_true]
  exact ev_le (Nat.le_max_right n m) h2

theorem Evs.begin {ρ : REnv} {σ σ1 : RS} {es : List E} {vs : List RV} (h : EvB P ρ es σ vs σ1) : Evs P ρ (.begin es) σ vs σ1 := by
  obtain ⟨n, h⟩ := h
  exact ⟨n + 1, by rw [ev, h]⟩

theorem Evs.mvvals {ρ : REnv} {σ σ1 : RS} {es : List E} {vs : List RV} (h : EvA P ρ es σ vs σ1) : Evs P ρ (.mvvals es) σ vs σ1 := by
  obtain ⟨n, h⟩ := h
  exact ⟨n + 1, by rw [ev, h]⟩

theorem Evs.app {ρ : REnv} {σ σ1 σ2 σ3 : RS} {f : E} {args : List E} {g : RV} {as vs : List RV} (h1 : Evs P ρ f σ [g] σ1) (h2 : EvA P ρ args σ1 as σ2) (h3 : EvP P g as σ2 vs σ3) :
    Evs P ρ (.app f args) σ vs σ3 := by
  obtain ⟨n1, h1⟩ := h1
  obtain ⟨n2, h2⟩ := h2
  obtain ⟨n3, h3⟩ := h3
  refine ⟨n1 + n2 + n3 + 1, ?_⟩
  rw [ev, ev_le (n := n1 + n2 + n3) (by omega) h1]
  simp only [Res.ok_bind, single]
  rw [evArgs_le (n := n1 + n2 + n3) (by omega) h2]
  simp only [Res.ok_bind]
  exact applyR_le (by omega) h3

theorem Evs.mvcall {ρ : REnv} {σ σ1 σ2 σ3 : RS} {e c : E} {g : RV} {as vs : List RV} (h1 : Evs P ρ e σ as σ1) (h2 : Evs P ρ c σ1 [g] σ2) (h3 : EvP P g as σ2 vs σ3) :
    Evs P ρ (.mvcall e c) σ vs σ3 := by
  obtain ⟨n1, h1⟩ := h1
  obtain ⟨n2, h2⟩ := h2
  obtain ⟨n3, h3⟩ := h3
  refine ⟨n1 + n2 + n3 + 1, ?_⟩
  rw [ev, ev_le (n := n1 + n2 + n3) (by omega) h1]
  simp only [Res.ok_bind]
  rw [ev_le (n := n1 + n2 + n3) (by omega) h2]
  simp only [Res.ok_bind, single]
  exact applyR_le (by omega) h3

theorem Evs.mvlet {ρ : REnv} {σ σ1 σ2 : RS} {e body : E} {xs : List Sym} {as vs : List RV} (h1 : Evs P ρ e σ as σ1) (hl : as.length = xs.length)
    (h2 : Evs P (bindVals ρ σ1 xs as).1 body (bindVals ρ σ1 xs as).2 vs σ2) : Evs P ρ (.mvlet e xs body) σ vs σ2 := by
  obtain ⟨n1, h1⟩ := h1
  obtain ⟨n2, h2⟩ := h2
  refine ⟨n1 + n2 + 1, ?_⟩
  rw [ev, ev_le (n := n1 + n2) (by omega) h1]
  simp only [Res.ok_bind, hl, if_true]
  exact ev_le (by omega) h2

theorem EvB.nil {ρ : REnv} {σ : RS} : EvB P ρ [] σ [.void] σ := ⟨1, by rw [evBody]⟩

theorem EvB.one {ρ : REnv} {σ σ1 : RS} {e : E} {vs : List RV} (h : Evs P ρ e σ vs σ1) : EvB P ρ [e] σ vs σ1 := by
  obtain ⟨n, h⟩ := h
  exact ⟨n + 1, by rw [evBody, h]⟩

theorem EvB.cons {ρ : REnv} {σ σ1 σ2 : RS} {e e' : E} {es : List E} {ws vs : List RV} (h : Evs P ρ e σ ws σ1) (h2 : EvB P ρ (e' :: es) σ1 vs σ2) : EvB P ρ (e :: e' :: es) σ vs σ2 := by
  obtain ⟨n, h⟩ := h
  obtain ⟨m, h2⟩ := h2
  refine ⟨n + m + 1, ?_⟩
  rw [evBody, ev_le (n := n + m) (by omega) h]
  exact evBody_le (by omega) h2

theorem EvA.nil {ρ : REnv} {σ : RS} : EvA P ρ [] σ [] σ := ⟨1, by rw [evArgs]⟩

theorem EvA.cons {ρ : REnv} {σ σ1 σ2 : RS} {e : E} {es : List E} {v : RV} {vs : List RV} (h : Evs P ρ e σ [v] σ1) (h2 : EvA P ρ es σ1 vs σ2) : EvA P ρ (e :: es) σ (v :: vs) σ2 := by
  obtain ⟨n, h⟩ := h
  obtain ⟨m, h2⟩ := h2
  refine ⟨n + m + 1, ?_⟩
  rw [evArgs, ev_le (n := n + m) (by omega) h]
  simp only [Res.ok_bind, single]
  rw [evArgs_le (n := n + m) (by omega) h2]
  rfl

theorem EvP.clo {ρ : REnv} {cs : List Cl} {as vs : List RV} {σ σ1 : RS} {f : Formals} {body : List E} (hs : select cs as.length = some (f, body))
    (h : EvB P (bindVals ρ σ f.ids (params f as)).1 body (bindVals ρ σ f.ids (params f as)).2 vs σ1) : EvP P (.clo (.clo ρ cs)) as σ vs σ1 := by
  obtain ⟨n, h⟩ := h
  exact ⟨n + 1, by rw [applyR, hs]; exact h⟩

theorem EvP.values {as : List RV} {σ : RS} : EvP P (.clo .values) as σ as σ := ⟨1, by rw [applyR]⟩

theorem EvP.cwv {p c : RV} {as vs : List RV} {σ σ1 σ2 : RS} (h1 : EvP P p [] σ as σ1) (h2 : EvP P c as σ1 vs σ2) : EvP P (.clo .cwv) [p, c] σ vs σ2 := by
  obtain ⟨n, h1⟩ := h1
  obtain ⟨m, h2⟩ := h2
  refine ⟨n + m + 1, ?_⟩
  rw [applyR]
  simp only
  rw [applyR_le (n := n + m) (by omega) h1]
  exact applyR_le (by omega) h2

theorem EvP.apply {f v : RV} {ws as vs : List RV} {σ σ1 : RS} (hs : spread (v :: ws) = some as) (h : EvP P f as σ vs σ1) : EvP P (.clo .apply) (f :: v :: ws) σ vs σ1 := by
  obtain ⟨n, h⟩ := h
  exact ⟨n + 1, by rw [applyR]; simp only [hs]; exact h⟩

theorem EvP.prim {p k : Nat} {as : List RV} {v : RV} {σ : RS} (hl : as.length = k ∧ k ≤ 6) (h : P.f RC p as = some v) : EvP P (.clo (.prim p k)) as σ [v] σ :=
  ⟨1, by rw [applyR, if_pos hl, h]⟩

end Minim.Jit
