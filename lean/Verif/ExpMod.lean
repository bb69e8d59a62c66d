import Verif.ExpStep

set_option autoImplicit false

/-!
# Expansion of modules

What the expander makes of a list of definitions and expressions.
-/

namespace Minim.Exp

open Minim.Sx Minim.Core Minim.Jit

/-! ### specification -/

mutual

/-- Specification: well-formed forms of a module: definitions, expressions, and sequences of such forms. -/
def OkTop (N : Sym → Prop) : S → Prop
  | .begin es => OkTops N es
  | s => Ok N s

/-- Specification: well-formed lists of forms. -/
def OkTops (N : Sym → Prop) : List S → Prop
  | [] => True
  | s :: ss => OkTop N s ∧ OkTops N ss

end

mutual

/-- Specification: the identifiers a form of a module defines. -/
def topId : S → List Sym
  | .begin es => topIds es
  | s => match defn s with | some (xs, _) => xs | none => []

/-- Specification: the identifiers a module defines. -/
def topIds : List S → List Sym
  | [] => []
  | s :: ss => topId s ++ topIds ss

end

/-- Specification: set several top-level variables. -/
def SS.setGlobs (σ : SS) : List Sym → List SV → SS
  | x :: xs, v :: vs => (σ.setGlob x v).setGlobs xs vs
  | _, _ => σ

/-- Specification: the meaning of a module: the forms are evaluated in order; a definition sets top-level variables, the values of other forms are dropped. -/
def sTop (P : Prims) : Nat → List S → SS → Res SS
  | 0, _, _ => .oof
  | _ + 1, [], σ => .ok σ
  | n + 1, .begin es :: ss, σ => do
    let σ ← sTop P n es σ
    sTop P n ss σ
  | n + 1, s :: ss, σ =>
    match defn s with
    | some (xs, r) => do
      let (vs, σ) ← sev P n (fun _ => none) r σ
      if vs.length = xs.length then sTop P n ss (σ.setGlobs xs vs) else .err
    | none => do
      let (_, σ) ← sev P n (fun _ => none) s σ
      sTop P n ss σ

/-- Specification: evaluation of core forms one after the other. -/
inductive EvM (P : Prims) : List E → RS → RS → Prop where
  | nil {σ : RS} : EvM P [] σ σ
  | cons {e : E} {es : List E} {σ σ1 σ2 : RS} {vs : List RV} : Evs P (fun _ => none) e σ vs σ1 → EvM P es σ1 σ2 → EvM P (e :: es) σ σ2

/-- Specification: no transformer has the name of a core form. -/
structure NoKwX (xs : Xforms) : Prop where
  names : ∀ p ∈ xs, p.1 ∉ keywords
  inner : ∀ p ∈ xs, XfOk (· ∈ keywords) p.2

/-! ### the expansion as a function on trees -/

mutual

def xtop : S → List E
  | .begin es => xtops es
  | .and [e] => xtop e
  | .or [e] => xtop e
  | .cond [] [] [e] => xtop e
  | s => [xp true s]

def xtops : List S → List E
  | [] => []
  | s :: ss => xtop s ++ xtops ss

end

theorem NoKwX.merge {xs : Xforms} (h : NoKwX xs) {s : Sym} {x : Xf} (hx : lookup s xs = some x) : NoKwX (merge xs x.scope) := by
  have := h.inner _ (lookup_mem hx)
  obtain ⟨f, sc⟩ := x
  cases this with
  | mk h1 h2 =>
    refine ⟨fun p hp => ?_, fun p hp => ?_⟩
    · rcases mem_merge hp with hp | hp
      · exact h.names p hp
      · exact h1 p hp
    · rcases mem_merge hp with hp | hp
      · exact h.inner p hp
      · exact h2 p hp

theorem NoKwX.none {xs : Xforms} (h : NoKwX xs) {s : Sym} (hs : s ∈ keywords) : lookup s xs = none :=
  lookup_none fun p hp e => h.names p hp (e ▸ hs)

/-- both conditions on scopes -/
structure Sc (N : Sym → Prop) (xs : Xforms) : Prop where
  sc : Scope N xs
  kw : NoKwX xs

theorem Sc.merge {N : Sym → Prop} {xs : Xforms} (h : Sc N xs) {s : Sym} {x : Xf} (hx : lookup s xs = some x) : Sc N (merge xs x.scope) := ⟨h.sc.merge hx, h.kw.merge hx⟩

variable {ex : T → Res (List (T → Res T))} {N : Sym → Prop}

/-- heads that end the expansion at top level -/
def Stop (s : Sym) : Prop := s = sDefineSyntaxes ∨ s = .defineValues ∨ s = .begin

instance (s : Sym) : Decidable (Stop s) := by unfold Stop; infer_instance

theorem top_stop {n : Nat} {xs : Xforms} {e : T} {s : Sym} (h : headSym e = some s) (hs : Stop s) : expandTop (n + 1) xs e = .ok (e, xs) := by
  rw [expandTop, h]; exact if_pos hs

theorem top_none {n : Nat} {xs : Xforms} {e : T} (h : ∀ s, headSym e = some s → lookup s xs = none) : expandTop (n + 1) xs e = .ok (e, xs) := by
  rw [expandTop]
  cases hh : headSym e with
  | none => rfl
  | some s => simp [h s hh]

theorem top_mac {n : Nat} {xs : Xforms} {e r : T} {s : Sym} {x : Xf} (h : headSym e = some s) (hs : ¬ Stop s) (hl : lookup s xs = some x) (hr : runX x e = .ok r) :
    expandTop (n + 1) xs e = expandTop n (merge xs x.scope) r := by
  rw [expandTop, h]
  have : ¬ (s = sDefineSyntaxes ∨ s = .defineValues ∨ s = .begin) := hs
  simp [this, hl, hr]

theorem stop_kw {s : Sym} (h : s ∉ keywords) : ¬ Stop s := by
  rintro (rfl | rfl | rfl) <;> exact h (by decide)

/-- the expansion at top level is a part of the expansion of expressions -/
theorem top_expr : ∀ (m : Nat) {xs : Xforms} {e : T}, Sc N xs → (∃ rb t, expandExpr ex m xs rb e = .ok t) →
    ∃ e' sc, (∀ k, m ≤ k → expandTop k xs e = .ok (e', sc)) ∧ Sc N sc ∧ ∀ rb t, expandExpr ex m xs rb e = .ok t → expandExpr ex m sc rb e' = .ok t
  | 0, xs, e, _, ⟨_, _, h⟩ => by rw [expandExpr] at h; cases h
  | m + 1, xs, e, hx, ⟨rb0, t0, h⟩ => by
    have self : (∀ s, headSym e = some s → Stop s ∨ lookup s xs = none) →
        ∃ e' sc, (∀ k, m + 1 ≤ k → expandTop k xs e = .ok (e', sc)) ∧ Sc N sc ∧ ∀ rb t, expandExpr ex (m + 1) xs rb e = .ok t → expandExpr ex (m + 1) sc rb e' = .ok t := by
      intro hh
      refine ⟨e, xs, fun k hk => ?_, hx, fun rb t h => h⟩
      obtain ⟨k, rfl⟩ : ∃ j, k = j + 1 := ⟨k - 1, by omega⟩
      cases hs : headSym e with
      | none => exact top_none fun s h => by rw [hs] at h; cases h
      | some s =>
        by_cases hst : Stop s
        · exact top_stop hs hst
        · exact top_none fun s' h => by
            rw [hs] at h; cases h
            exact (hh s hs).resolve_left hst
    match e, h with
    | .stx (.sym s), _ => exact self fun s h => by simp [headSym] at h
    | .stx (.lit l), _ => exact self fun s h => by simp [headSym] at h
    | .stx .null, h => rw [expandExpr] at h; cases h; all_goals simp
    | .stx (.other n), h => rw [expandExpr] at h; cases h; all_goals simp
    | .stx (.stx _), h => rw [expandExpr] at h; cases h; all_goals simp
    | .null, h => rw [expandExpr] at h; cases h; all_goals simp
    | .sym _, h => rw [expandExpr] at h; cases h; all_goals simp
    | .lit _, h => rw [expandExpr] at h; cases h; all_goals simp
    | .other _, h => rw [expandExpr] at h; cases h; all_goals simp
    | .cons _ _, h => rw [expandExpr] at h; cases h; all_goals simp
    | .stx (.cons a d), h =>
      by_cases ha : ∃ s, a = .stx (.sym s)
      · obtain ⟨s, rfl⟩ := ha
        by_cases hk : s ∈ keywords
        · exact self fun s' h => by
            have : s' = s := by simpa [headSym, eq_comm] using h
            rw [this]; exact .inr (hx.kw.none hk)
        · cases hl : lookup s xs with
          | none =>
            refine self fun s' h => ?_
            have : s' = s := by simpa [headSym, eq_comm] using h
            rw [this]; exact .inr hl
          | some x =>
            rw [expandExpr] at h
            cases m with
            | zero => rw [expandForm] at h; cases h
            | succ m =>
              rw [expandForm_other hk, hl] at h
              simp only at h
              obtain ⟨r, hr, h⟩ := Res.bind_eq_ok.1 h
              obtain ⟨e', sc, h1, h2, h3⟩ := top_expr m (hx.merge hl) ⟨rb0, t0, h⟩
              refine ⟨e', sc, fun k hk' => ?_, h2, fun rb t h => ?_⟩
              · obtain ⟨k, rfl⟩ : ∃ j, k = j + 1 := ⟨k - 1, by omega⟩
                rw [top_mac (e := .stx (.cons (.stx (.sym s)) d)) rfl (stop_kw hk) hl hr]
                exact h1 k (by omega)
              · rw [expandExpr, expandForm_other hk, hl] at h
                simp only [hr, Res.ok_bind] at h
                exact expandExpr_le (by omega) (h3 rb t h)
      · exact self fun s h => by
          exfalso
          cases a with
          | stx a => cases a <;> first | exact ha ⟨_, rfl⟩ | simp [headSym] at h
          | _ => simp [headSym] at h

/-- what the expansion at top level makes of a form -/
inductive TopR (ex : T → Res (List (T → Res T))) (N : Sym → Prop) (s : S) (e' : T) (sc : Xforms) : Prop where
  | seq (es : List S) : e' = syn (.cons (.sym .begin) (ofList (dats es))) → xtop s = xtops es → OkTops N es → topId s = topIds es → sizeOf es < sizeOf s → TopR ex N s e' sc
  | df (is : List Sym) (r : S) : e' = syn (ofList [.sym .defineValues, ids is, dat r]) → xtop s = [.define is (xp true r)] → Ok N r → defn r = none → topId s = is → TopR ex N s e' sc
  | xpr : (∀ s', headSym e' = some s' → ¬ Stop s') → xtop s = [xp true s] → (∃ m, expandExpr ex m sc true e' = .ok (syn (enc (xp true s)))) → NF (Vis N) (xp true s) → topId s = [] → TopR ex N s e' sc

def TopX (ex : T → Res (List (T → Res T))) (N : Sym → Prop) (s : S) (x : X) (xs : Xforms) : Prop :=
  ∃ e' sc, (∃ n, ∀ k, n ≤ k → expandTop k xs (syn x) = .ok (e', sc)) ∧ Sc N sc ∧ TopR ex N s e' sc

theorem head_noStop (hN : Names N) {s : S} {m : Nat} {sc : Xforms} {e' : T} {e : E} (h : expandExpr ex m sc false e' = .ok (syn (enc e))) (hn : NF (Vis N) e) (hb : isBegin e = false)
    (hv : enc e ≠ enc voidE) : ∀ s', headSym e' = some s' → ¬ Stop s' := by
  intro s' hs hst
  have hk := nf_head hN.noKw hn hb
  have k1 := headSym_ne (x := enc e) (s := .begin) fun s d h => (hk s d h).1
  have k2 := headSym_ne (x := enc e) (s := sDefineSyntaxes) fun s d h => (hk s d h).2.2
  have k3 := headSym_ne (x := enc e) (s := .defineValues) fun s d h => (hk s d h).2.1
  cases m with
  | zero => rw [expandExpr] at h; cases h
  | succ m =>
    have : ∃ d, e' = .stx (.cons (.stx (.sym s')) d) := by
      unfold headSym at hs
      split at hs
      · cases hs; rw [expandExpr] at h; cases h; all_goals simp
      · cases hs; exact ⟨_, rfl⟩
      · cases hs
    obtain ⟨d, rfl⟩ := this
    rw [expandExpr] at h
    cases m with
    | zero => rw [expandForm] at h; cases h
    | succ m =>
      rcases hst with rfl | rfl | rfl
      · rw [expandForm] at h
        simp only [or_true, if_true] at h
        injection h with h
        exact k2 (h ▸ rfl)
      · rw [expandForm] at h
        simp only [true_or, if_true] at h
        injection h with h
        exact k3 (h ▸ rfl)
      · rw [expandForm] at h
        simp only [reduceCtorEq, or_self, if_false, if_true, sDefineSyntaxes, sLetSyntaxes] at h
        obtain ⟨_, _, h⟩ := Res.bind_eq_ok.1 h
        split at h
        · injection h with h
          apply hv
          have := congrArg strip h
          rw [strip_syn] at this
          rw [← this]; rfl
        · obtain ⟨es, _, h⟩ := Res.bind_eq_ok.1 h
          obtain ⟨es', _, h⟩ := Res.bind_eq_ok.1 h
          injection h with h
          exact k1 (h ▸ rfl)

/-- forms that are no sequences -/
theorem top_plain (hN : Names N) {s : S} (ho : Ok N s) (hd : defn s = none) (hb : isBegin (xp false s) = false) (hv : enc (xp false s) ≠ enc voidE) (ht : xtop s = [xp true s]) (hi : topId s = [])
    {xs : Xforms} (hx : Sc N xs) : TopX ex N s (dat s) xs := by
  have hX := (exp_xp (ex := ex) hN s ho).1 hd xs hx.sc
  obtain ⟨m1, h1⟩ := hX true
  obtain ⟨m2, h2⟩ := hX false
  have h1 := expandExpr_le (n := max m1 m2) (by omega) h1
  have h2 := expandExpr_le (n := max m1 m2) (by omega) h2
  obtain ⟨e', sc, k1, k2, k3⟩ := top_expr (ex := ex) (N := N) (max m1 m2) hx ⟨true, _, h1⟩
  have hn := (nf_xp N s ho).1 hd
  exact ⟨e', sc, ⟨_, k1⟩, k2, .xpr (head_noStop (s := s) hN (k3 _ _ h2) (hn false) hb hv) ht ⟨_, k3 _ _ h1⟩ (hn true) hi⟩

/-- forms the head of which is no transformer -/
theorem top_self (hN : Names N) {s : S} (ho : Ok N s) (hd : defn s = none) (ht : xtop s = [xp true s]) (hi : topId s = []) {xs : Xforms} (hx : Sc N xs)
    (hh : ∀ s', headSym (syn (dat s)) = some s' → lookup s' xs = none ∧ ¬ Stop s') : TopX ex N s (dat s) xs := by
  refine ⟨_, xs, ⟨1, fun k hk => ?_⟩, hx, .xpr (fun s' h => (hh s' h).2) ht ((exp_xp (ex := ex) hN s ho).1 hd xs hx.sc true) ((nf_xp N s ho).1 hd true) hi⟩
  obtain ⟨k, rfl⟩ : ∃ j, k = j + 1 := ⟨k - 1, by omega⟩
  exact top_none fun s' h => (hh s' h).1

theorem macros_kw {p : Sym × (T → Res T)} (hp : p ∈ macros) : p.1 ∉ keywords := by
  simp only [macros, List.mem_cons, List.not_mem_nil, or_false] at hp
  rcases hp with rfl | rfl | rfl | rfl | rfl | rfl | rfl | rfl | rfl | rfl <;> decide

/-- one step of a macro -/
theorem TopX.mac {s : S} {xs : Xforms} (hx : Sc N xs) {m : Sym} {f : T → Res T} (hm : (m, f) ∈ macros) {d r : X} (hr : f (syn (.cons (.sym m) d)) = .ok (syn r))
    (h : ∀ xs', Sc N xs' → TopX ex N s r xs') : TopX ex N s (.cons (.sym m) d) xs := by
  obtain ⟨sc0, hl⟩ := hx.sc.std _ hm
  obtain ⟨e', sc, ⟨n, h1⟩, h2, h3⟩ := h _ (hx.merge hl)
  refine ⟨e', sc, ⟨n + 1, fun k hk => ?_⟩, h2, h3⟩
  obtain ⟨k, rfl⟩ : ∃ j, k = j + 1 := ⟨k - 1, by omega⟩
  have : runX (.mk f sc0) (syn (.cons (.sym m) d)) = .ok (syn r) := by
    rw [runX, Xf.fn, hr, Res.ok_bind]
    cases r <;> rfl
  rw [top_mac (s := m) rfl (stop_kw (macros_kw hm)) hl this]
  exact h1 k (by omega)

/-- a form that stands for another one -/
theorem TopX.of {s s1 : S} {x : X} {xs : Xforms} (h : TopX ex N s1 x xs) (h1 : xtop s = xtop s1) (h2 : xp true s = xp true s1) (h3 : topId s = topId s1) (h4 : sizeOf s1 < sizeOf s) :
    TopX ex N s x xs := by
  obtain ⟨e', sc, hn, hs, hr⟩ := h
  refine ⟨e', sc, hn, hs, ?_⟩
  cases hr with
  | seq es a b c d e => exact .seq es a (by rw [h1, b]) c (by rw [h3, d]) (by omega)
  | df is r a b c d e => exact .df is r a (by rw [h1, b]) c d (by rw [h3, e])
  | xpr a b c d e => exact .xpr a (by rw [h1, h2, b]) (by rw [h2]; exact c) (by rw [h2]; exact d) (by rw [h3, e])

mutual

theorem topId_nil : ∀ s, Ok N s → defn s = none → topId s = []
  | .begin es, h, _ => by rw [Ok] at h; rw [topId]; exact topIds_nil es h
  | .var _, _, h | .lit _, _, h | .quote _, _, h | .quoteSyntax _, _, h | .set _ _, _, h | .ite _ _ _, _, h | .lam _ _, _, h | .clam _ _, _, h | .app _ _, _, h | .letv _ _ _, _, h
  | .letrecv _ _ _, _, h | .and _, _, h | .or _, _, h | .when _ _, _, h | .unless _ _, _, h | .cond _ _ _, _, h | .let1 _ _ _, _, h | .letstar _ _ _, _, h | .letrec _ _ _, _, h | .nlet _ _ _ _, _, h
  | .define _ _, _, h | .def1 _ _, _, h | .fn _ _ _, _, h => by simp [topId, h]

theorem topIds_nil : ∀ es, OkL N es → topIds es = []
  | [], _ => by rw [topIds]
  | e :: es, h => by
    rw [OkL] at h
    rw [topIds, topId_nil e h.1.2 h.1.1, topIds_nil es h.2, List.nil_append]

end

mutual

theorem ok_top : ∀ s, Ok N s → OkTop N s
  | .begin es, h => by rw [Ok] at h; rw [OkTop]; exact ok_tops es h
  | .var _, h | .lit _, h | .quote _, h | .quoteSyntax _, h | .set _ _, h | .ite _ _ _, h | .lam _ _, h | .clam _ _, h | .app _ _, h | .letv _ _ _, h
  | .letrecv _ _ _, h | .and _, h | .or _, h | .when _ _, h | .unless _ _, h | .cond _ _ _, h | .let1 _ _ _, h | .letstar _ _ _, h | .letrec _ _ _, h | .nlet _ _ _ _, h
  | .define _ _, h | .def1 _ _, h | .fn _ _ _, h => by rw [OkTop]; exact h; all_goals simp

theorem ok_tops : ∀ es, OkL N es → OkTops N es
  | [], _ => by rw [OkTops]; trivial
  | e :: es, h => by
    rw [OkL] at h
    rw [OkTops]
    exact ⟨ok_top e h.1.2, ok_tops es h.2⟩

end

theorem head_app (hN : Names N) {f : S} {args : List S} (hf : Ok N f) (hd : defn f = none) {xs : Xforms} (hx : Sc N xs) :
    ∀ s', headSym (syn (dat (.app f args))) = some s' → lookup s' xs = none ∧ ¬ Stop s' := by
  intro s' h
  rw [dat] at h
  cases f with
  | var x =>
    rw [dat] at h
    rw [Ok] at hf
    simp only [syn, headSym, Option.some.injEq] at h
    subst h
    exact ⟨hx.sc.none (.inl hf), stop_kw (hN.kw _ hf)⟩
  | _ => simp [dat, ofList, syn, headSym] at h

theorem head_kw {s : S} {xs : Xforms} (hx : Sc N xs) {k : Sym} {d : X} (h : dat s = .cons (.sym k) d) (hk : k ∈ keywords) (hs : ¬ Stop k) :
    ∀ s', headSym (syn (dat s)) = some s' → lookup s' xs = none ∧ ¬ Stop s' := by
  intro s' hh
  rw [h] at hh
  simp only [syn, headSym, Option.some.injEq] at hh
  subst hh
  exact ⟨hx.kw.none hk, hs⟩

theorem top_form (hN : Names N) : ∀ s, OkTop N s → ∀ xs, Sc N xs → TopX ex N s (dat s) xs
  | .begin es, h, xs, hx => by
    rw [OkTop] at h
    rw [dat]
    refine ⟨_, xs, ⟨1, fun k hk => ?_⟩, hx, .seq es rfl (by rw [xtop]) h (by rw [topId]) (by simp)⟩
    obtain ⟨k, rfl⟩ : ∃ j, k = j + 1 := ⟨k - 1, by omega⟩
    exact top_stop (s := .begin) rfl (by decide)
  | .and [e], h, xs, hx => by
    rw [OkTop, Ok, OkL] at h
    · rw [dat, dats, dats]
      exact .mac hx (by simp [macros]) (andM_one _ _) fun xs' hx' =>
        (top_form hN e (ok_top e h.1.2) xs' hx').of (by rw [xtop]) (by rw [xp, xps, xps, andE]) (by rw [topId_nil e h.1.2 h.1.1]; simp [topId, defn]) (by simp; omega)
    · simp
  | .or [e], h, xs, hx => by
    rw [OkTop, Ok, OkL] at h
    · rw [dat, dats, dats]
      exact .mac hx (by simp [macros]) (orM_one _ _) fun xs' hx' =>
        (top_form hN e (ok_top e h.1.2) xs' hx').of (by rw [xtop]) (by rw [xp, xps, orE]) (by rw [topId_nil e h.1.2 h.1.1]; simp [topId, defn]) (by simp; omega)
    · simp
  | .cond [] [] [e], h, xs, hx => by
    rw [OkTop, Ok] at h
    · obtain ⟨-, -, -, h1, -, h2⟩ := h
      have h1 : defn e = none := by simpa [endsExpr] using h1
      rw [OkI] at h2
      have : dat (.cond [] [] [e]) = .cons (.sym sCond) (ofList [.cons (.sym sElse) (ofList [dat e])]) := by simp [dat, dats, datss, conds, ofList]
      rw [this]
      exact .mac hx (by simp [macros]) (condM_else _ _ (by simp)) fun xs' hx' =>
        (top_form hN e (ok_top e h2.1) xs' hx').of (by rw [xtop]) (by simp [xp, xps, xpThens, condE, thenE]) (by rw [topId_nil e h2.1 h1]; simp [topId, defn]) (by simp; omega)
    · simp
  | .define is r, h, xs, hx => by
    rw [OkTop, Ok] at h
    · rw [dat]
      refine ⟨_, xs, ⟨1, fun k hk => ?_⟩, hx, .df is r rfl (by rw [xtop, xp] <;> simp) h.2.2 h.2.1 (by simp [topId, defn])⟩
      obtain ⟨k, rfl⟩ : ∃ j, k = j + 1 := ⟨k - 1, by omega⟩
      exact top_stop (s := .defineValues) rfl (by decide)
    · simp
  | .def1 i r, h, xs, hx => by
    rw [OkTop, Ok] at h
    · rw [dat]
      refine .mac hx (by simp [macros]) (defineM_var _ i _) fun xs' hx' => ?_
      refine ⟨_, xs', ⟨1, fun k hk => ?_⟩, hx', .df [i] r rfl (by rw [xtop, xp] <;> simp) h.2.2 h.2.1 (by simp [topId, defn])⟩
      obtain ⟨k, rfl⟩ : ∃ j, k = j + 1 := ⟨k - 1, by omega⟩
      exact top_stop (s := .defineValues) rfl (by decide)
    · simp
  | .fn f fs body, h, xs, hx => by
    rw [OkTop, Ok] at h
    · obtain ⟨_, h2, h3, h4, h5⟩ := h
      rw [dat]
      refine .mac hx (by simp [macros]) (defineM_fn _ f _ _ (dats_ne h3)) fun xs' hx' => ?_
      refine .mac hx' (by simp [macros]) (defineM_var _ f _) fun xs' hx' => ?_
      refine ⟨_, xs', ⟨1, fun k hk => ?_⟩, hx', .df [f] (.lam fs body) (by rw [dat]) ?_ ?_ rfl (by simp [topId, defn])⟩
      · obtain ⟨k, rfl⟩ : ∃ j, k = j + 1 := ⟨k - 1, by omega⟩
        exact top_stop (s := .defineValues) rfl (by decide)
      · rw [xtop, xp, xp] <;> simp
      · rw [Ok]; exact ⟨h2, h3, h4, h5⟩
    · simp
  | .app f args, h, xs, hx => by
    rw [OkTop] at h
    · have h' := h
      rw [Ok] at h'
      exact top_self hN h rfl (by rw [xtop] <;> simp) (by simp [topId, defn]) hx (head_app hN h'.1.2 h'.1.1 hx)
    · simp
  | .cond [] [] [], h, xs, hx => by
    rw [OkTop] at h
    · have : dat (.cond [] [] []) = .cons (.sym sCond) .null := by simp [dat, dats, datss, conds, ofList]
      rw [this]
      refine .mac hx (by simp [macros]) (condM_nil _) fun xs' hx' => ?_
      have hl : lookup sVoid xs' = none := hx'.sc.none (.inr (.inr (.inl rfl)))
      refine ⟨syn (ofList [.sym sVoid]), xs', ⟨1, fun k hk => ?_⟩, hx', .xpr (fun s' hs => ?_) (by rw [xtop] <;> simp) ?_ ((nf_xp N _ h).1 rfl true) (by simp [topId, defn])⟩
      · obtain ⟨k, rfl⟩ : ∃ j, k = j + 1 := ⟨k - 1, by omega⟩
        exact top_none fun s' h => by
          simp only [ofList, syn, headSym, Option.some.injEq] at h
          subst h; exact hl
      · simp only [ofList, syn, headSym, Option.some.injEq] at hs
        subst hs; decide
      · have : xp true (.cond [] [] []) = .app (.var sVoid) [] := by simp [xp, xps, xpThens, condE, voidE]
        rw [this]
        exact XE.appId (ex := ex) (rb := true) (ds := []) (by decide) hl .nil
    · simp
  | .var x, h, xs, hx => by
    rw [OkTop] at h
    · exact top_self hN h rfl (by rw [xtop] <;> simp) (by simp [topId, defn]) hx (by intro s' h; simp [dat, syn, headSym] at h)
    · simp
  | .lit x, h, xs, hx => by
    rw [OkTop] at h
    · exact top_self hN h rfl (by rw [xtop] <;> simp) (by simp [topId, defn]) hx (by intro s' h; simp [dat, syn, headSym] at h)
    · simp
  | .quote _, h, xs, hx | .quoteSyntax _, h, xs, hx | .set _ _, h, xs, hx | .ite _ _ _, h, xs, hx | .lam _ _, h, xs, hx | .clam _ _, h, xs, hx | .letv _ _ _, h, xs, hx | .letrecv _ _ _, h, xs, hx => by
    rw [OkTop] at h
    · exact top_self hN h rfl (by rw [xtop] <;> simp) (by simp [topId, defn]) hx (head_kw hx (by rw [dat]; try rfl) (by decide) (by decide))
    · simp
  | .and [], h, xs, hx => by
    rw [OkTop] at h
    · exact top_plain hN h rfl (by simp [xp, xps, andE, isBegin]) (by simp [xp, xps, andE, enc, voidE, ofList]) (by rw [xtop] <;> simp) (by simp [topId, defn]) hx
    · simp
  | .or [], h, xs, hx => by
    rw [OkTop] at h
    · exact top_plain hN h rfl (by simp [xp, isBegin]) (by simp [xp, enc, voidE, ofList]) (by rw [xtop] <;> simp) (by simp [topId, defn]) hx
    · simp
  | .and (a :: b :: es), h, xs, hx => by
    rw [OkTop] at h
    · exact top_plain hN h rfl (by simp [xp, xps, andE, isBegin]) (by simp [xp, xps, andE, enc, voidE, ofList]) (by rw [xtop] <;> simp) (by simp [topId, defn]) hx
    · simp
  | .or (a :: b :: es), h, xs, hx => by
    rw [OkTop] at h
    · exact top_plain hN h rfl (by simp [xp, xps, orE, isBegin]) (by simp [xp, xps, orE, enc, voidE, ofList]) (by rw [xtop] <;> simp) (by simp [topId, defn]) hx
    · simp
  | .cond (t :: ts) (b :: bs) els, h, xs, hx => by
    rw [OkTop] at h
    · have : ∃ a c d, xp false (.cond (t :: ts) (b :: bs) els) = .ite a c d := by cases els <;> cases b <;> simp [xp, xps, xpThens, condE]
      obtain ⟨a, c, d, hxp⟩ := this
      exact top_plain hN h rfl (by rw [hxp]; rfl) (by rw [hxp]; simp [enc, voidE, ofList]) (by rw [xtop] <;> simp) (by simp [topId, defn]) hx
    · simp
  | .cond [] [] (e :: e' :: es), h, xs, hx => by
    rw [OkTop] at h
    · have : ∃ a, xp false (.cond [] [] (e :: e' :: es)) = .letv [] a := by simp [xp, xps, xpThens, condE, thenE]
      obtain ⟨a, hxp⟩ := this
      exact top_plain hN h rfl (by rw [hxp]; rfl) (by rw [hxp]; simp [enc, voidE, ofList]) (by rw [xtop] <;> simp) (by simp [topId, defn]) hx
    · simp
  | .cond [] (_ :: _) els, h, xs, hx => by
    rw [OkTop, Ok] at h
    · exact absurd h.1 (by simp)
    · simp
  | .cond (_ :: _) [] els, h, xs, hx => by
    rw [OkTop, Ok] at h
    · exact absurd h.1 (by simp)
    · simp
  | .when _ _, h, xs, hx | .unless _ _, h, xs, hx | .let1 _ _ _, h, xs, hx | .letrec _ _ _, h, xs, hx | .nlet _ _ _ _, h, xs, hx => by
    rw [OkTop] at h
    · exact top_plain hN h rfl (by simp [xp, isBegin]) (by simp [xp, enc, voidE, ofList]) (by rw [xtop] <;> simp) (by simp [topId, defn]) hx
    · simp
  | .letstar is es b, h, xs, hx => by
    rw [OkTop] at h
    · have : ∃ a c, xp false (.letstar is es b) = .letv a c := by
        cases es with
        | nil => simp [xp]
        | cons e es =>
          rw [xp]
          unfold starE
          split <;> simp
      obtain ⟨a, c, hxp⟩ := this
      exact top_plain hN h rfl (by rw [hxp]; rfl) (by rw [hxp]; simp [enc, voidE, ofList]) (by rw [xtop] <;> simp) (by simp [topId, defn]) hx
    · simp

/-! ### the loop over the forms -/

/-- what the first pass leaves of a form: a definition that is not expanded yet, or an expanded expression -/
inductive Pre (N : Sym → Prop) : E → T → Prop where
  | df (is : List Sym) (r : S) : Ok N r → defn r = none → Pre N (.define is (xp true r)) (syn (ofList [.sym .defineValues, ids is, dat r]))
  | xpr (e : E) : NF (Vis N) e → Pre N e (syn (enc e))

/-- from some amount of fuel on -/
def Evt (p : Nat → Prop) : Prop := ∃ n0, ∀ n, n0 ≤ n → p n

def Loop (ex : T → Res (List (T → Res T))) (N : Sym → Prop) (st : St) (ids : List Sym) (es : List E) (f : Nat → Res (List T × St)) : Prop :=
  ∃ out st', Evt (fun n => f n = .ok (out, st')) ∧ st'.xforms = st.xforms ∧ st'.macros = st.macros ∧ (∀ x, x ∈ st'.defs ↔ x ∈ ids ∨ x ∈ st.defs) ∧ List.Forall₂ (Pre N) es out

theorem dup_false {seen new : List Sym} : dup seen new = false ↔ new.Nodup ∧ ∀ x ∈ new, x ∉ seen := by
  rw [dup, Bool.or_eq_false_iff]
  simp only [Bool.not_eq_false', decide_eq_true_eq, List.any_eq_false, and_comm]

theorem defineForm_syn (is : List Sym) (x : X) : defineForm (syn (ofList [.sym .defineValues, ids is, x])) = .ok (is, syn x) := by
  have h : stxElems (syn (ofList [.sym .defineValues, ids is, x])) = .ok [syn (.sym .defineValues), syn (ids is), syn x] := by
    have := stxElems_syn (.sym .defineValues) [ids is, x]
    exact this
  rw [defineForm, parts, h]
  simp only [Res.ok_bind, List.length_cons, List.length_nil, if_true]
  have : stxElems (syn (ids is)) = .ok ((is.map X.sym).map syn) := stxElems_ofList _
  rw [this]
  simp only [Res.ok_bind, all_ids, if_true, idSyms_ids]

theorem Loop.of_pre {ex : T → Res (List (T → Res T))} {st : St} {is : List Sym} {es : List E} {f g : Nat → Res (List T × St)} (h : Loop ex N st is es f) (hg : Evt fun n => g (n + 1) = f n) : Loop ex N st is es g := by
  obtain ⟨out, st', ⟨n0, h1⟩, h2⟩ := h
  obtain ⟨n1, hg⟩ := hg
  refine ⟨out, st', ⟨max n0 n1 + 1, fun n hn => ?_⟩, h2⟩
  obtain ⟨n, rfl⟩ : ∃ j, n = j + 1 := ⟨n - 1, by omega⟩
  rw [hg n (by omega), h1 n (by omega)]

theorem loop_all (hN : Names N) : ∀ (k : Nat) (ss : List S), sizeOf ss ≤ k → OkTops N ss → ∀ st : St, Sc N st.xforms → (topIds ss).Nodup → (∀ x ∈ topIds ss, x ∉ st.defs) →
    Loop ex N st (topIds ss) (xtops ss) (fun n => nonDefs ex n st (ss.map fun s => syn (dat s))) ∧
    (∀ s ss', ss = s :: ss' → ∀ sc, Sc N sc → Loop ex N st (topIds ss) (xtops ss) (fun n => withScope ex n st sc (syn (dat s)) (ss'.map fun s => syn (dat s)))) := by
  intro k
  induction k with
  | zero =>
    intro ss hk
    exfalso
    cases ss <;> simp at hk
  | succ k ih =>
    intro ss hk ho st hst hnd hdj
    have main : ∀ s ss', ss = s :: ss' → ∀ sc, Sc N sc → Loop ex N st (topIds ss) (xtops ss) (fun n => withScope ex n st sc (syn (dat s)) (ss'.map fun s => syn (dat s))) := by
      rintro s ss rfl sc hsc
      rw [OkTops] at ho
      rw [topIds] at hnd hdj
      rw [topIds, xtops]
      obtain ⟨hn1, hn2, hn3⟩ := List.nodup_append.1 hnd
      have hsz : sizeOf ss ≤ k ∧ sizeOf s ≤ k := by simp at hk; omega
      obtain ⟨e', sc', ⟨n0, h1⟩, h2, h3⟩ := top_form (ex := ex) hN s ho.1 sc hsc
      cases h3 with
      | seq es he hx hok hi hlt =>
        have hhead : headSym e' = some .begin := by rw [he]; rfl
        have hel : stxElems e' = .ok (syn (.sym .begin) :: es.map fun s => syn (dat s)) := by
          rw [he]
          have := stxElems_syn (.sym .begin) (dats es)
          rw [this]
          have : (dats es).map syn = es.map fun s => syn (dat s) := by
            clear * -
            induction es with
            | nil => rfl
            | cons a as ih => simp [dats, ih]
          simp [this]
        cases hes : es with
        | nil =>
          have ht : topId s = [] := by rw [hi, hes, topIds]
          have hx' : xtop s = [] := by rw [hx, hes, xtops]
          rw [ht, hx', List.nil_append, List.nil_append]
          rw [ht] at hdj
          obtain ⟨out, st', hev, hrest⟩ := (ih ss hsz.1 ho.2 st hst hn2 (fun x hx => hdj x (by simpa using hx))).1
          refine Loop.of_pre ⟨out, st', hev, hrest⟩ ⟨n0, fun n hn => ?_⟩
          show withScope ex (n + 1) _ _ _ _ = nonDefs ex n _ _
          rw [withScope, h1 n hn]
          simp only [Res.ok_bind, hhead, hel, hes, Option.some.injEq, reduceCtorEq, if_false, if_true, List.map_nil, List.drop_succ_cons, List.drop_nil, sDefineSyntaxes]
        | cons f fs =>
          have hlt' : sizeOf (f :: fs) ≤ k := by rw [← hes]; omega
          obtain ⟨out, st', ⟨n1, hev⟩, hq1, hq2, hq3, hq4⟩ := (ih (f :: fs) hlt' (hes ▸ hok) st hst (by rw [← hes, ← hi]; exact hn1) (fun x hx => hdj x (by rw [List.mem_append]; left; rw [hi, hes]; exact hx))).2 f fs rfl sc' h2
          obtain ⟨out2, st2, ⟨n2, hev2⟩, hr1, hr2, hr3, hr4⟩ := (ih ss hsz.1 ho.2 st' (by rw [hq1]; exact hst) hn2 (fun x hx hm => by
            rcases (hq3 x).1 hm with hm | hm
            · rw [← hes, ← hi] at hm
              exact hn3 x hm x hx rfl
            · exact hdj x (List.mem_append.2 (.inr hx)) hm)).1
          refine ⟨out ++ out2, st2, ⟨n0 + n1 + n2 + 1, fun n hn => ?_⟩, by rw [hr1, hq1], by rw [hr2, hq2], fun x => ?_, ?_⟩
          · obtain ⟨n, rfl⟩ : ∃ j, n = j + 1 := ⟨n - 1, by omega⟩
            show withScope ex (n + 1) _ _ _ _ = _
            rw [withScope, h1 n (by omega)]
            simp only [Res.ok_bind, hhead, hel, hes, Option.some.injEq, reduceCtorEq, if_false, if_true, List.map_cons, List.drop_succ_cons, List.drop_zero, sDefineSyntaxes]
            have hev := hev n (by omega)
            have hev2 := hev2 n (by omega)
            simp only at hev hev2
            rw [hev]
            simp only [Res.ok_bind]
            rw [hev2]
            rfl
          · rw [hr3, hq3, List.mem_append, hi, hes]; tauto
          · rw [hx, hes]
            exact List.rel_append hq4 hr4
      | df is r he hx hok hd hi =>
        have hhead : headSym e' = some .defineValues := by rw [he]; rfl
        have hdf : defineForm e' = .ok (is, syn (dat r)) := by rw [he]; exact defineForm_syn is (dat r)
        have hdup : dup st.defs is = false := dup_false.2 ⟨hi ▸ hn1, fun x hx => hdj x (by rw [List.mem_append]; left; rw [hi]; exact hx)⟩
        obtain ⟨out, st', ⟨n1, hev⟩, hq1, hq2, hq3, hq4⟩ := (ih ss hsz.1 ho.2 { st with defs := is ++ st.defs } hst hn2 (fun x hx hm => by
          rcases List.mem_append.1 hm with hm | hm
          · exact hn3 x (hi ▸ hm) x hx rfl
          · exact hdj x (List.mem_append.2 (.inr hx)) hm)).1
        refine ⟨e' :: out, st', ⟨n0 + n1 + 1, fun n hn => ?_⟩, hq1, hq2, fun x => ?_, ?_⟩
        · obtain ⟨n, rfl⟩ : ∃ j, n = j + 1 := ⟨n - 1, by omega⟩
          show withScope ex (n + 1) _ _ _ _ = _
          rw [withScope, h1 n (by omega)]
          simp only [Res.ok_bind, hhead, Option.some.injEq, reduceCtorEq, if_false, if_true, sDefineSyntaxes, hdf, hdup, Bool.false_eq_true]
          have hev := hev n (by omega)
          simp only at hev
          rw [hev]
          rfl
        · rw [hq3]
          simp only [List.mem_append, hi]; tauto
        · rw [hx, he]
          exact .cons (.df is r hok hd) hq4
      | xpr hst' hx hm hn hi =>
        obtain ⟨m, hm⟩ := hm
        have k1 : headSym e' ≠ some sDefineSyntaxes := fun h => hst' _ h (by decide)
        have k2 : headSym e' ≠ some .defineValues := fun h => hst' _ h (by decide)
        have k3 : headSym e' ≠ some .begin := fun h => hst' _ h (by decide)
        obtain ⟨out, st', ⟨n1, hev⟩, hq1, hq2, hq3, hq4⟩ := (ih ss hsz.1 ho.2 st hst hn2 (fun x hx hm => hdj x (List.mem_append.2 (.inr hx)) hm)).1
        refine ⟨syn (enc (xp true s)) :: out, st', ⟨n0 + n1 + m + 1, fun n hn => ?_⟩, hq1, hq2, fun x => ?_, ?_⟩
        · obtain ⟨n, rfl⟩ : ∃ j, n = j + 1 := ⟨n - 1, by omega⟩
          show withScope ex (n + 1) _ _ _ _ = _
          rw [withScope, h1 n (by omega)]
          simp only [Res.ok_bind, k1, k2, k3, if_false]
          have hev := hev n (by omega)
          simp only at hev
          rw [expandExpr_le (by omega) hm, hev]
          rfl
        · rw [hq3, hi]; simp
        · rw [hx]
          exact .cons (.xpr _ hn) hq4
    refine ⟨?_, main⟩
    cases ss with
    | nil =>
      refine ⟨[], st, ⟨1, fun n hn => ?_⟩, rfl, rfl, fun x => by simp [topIds], by rw [xtops]; exact .nil⟩
      obtain ⟨n, rfl⟩ : ∃ j, n = j + 1 := ⟨n - 1, by omega⟩
      show nonDefs ex (n + 1) _ _ = _
      rw [List.map_nil, nonDefs]
    | cons s ss =>
      refine (main s ss rfl st.xforms hst).of_pre ⟨0, fun n _ => ?_⟩
      simp only [List.map_cons]
      rw [nonDefs]

theorem head_expr (hN : Names N) {e : E} (h : NF (Vis N) e) : headSym (syn (enc e)) ≠ some .defineValues := by
  cases hb : isBegin e with
  | false => exact headSym_ne fun s d h' => (nf_head hN.noKw h hb s d h').2.1
  | true =>
    cases e <;> simp [isBegin] at hb
    rw [enc]
    simp [syn, headSym]

theorem defs_all (hN : Names N) {xs : Xforms} (hx : Sc N xs) : ∀ {es : List E} {out : List T}, List.Forall₂ (Pre N) es out → Evt fun n => mapR (expandDef ex n xs) out = .ok (es.map fun e => syn (enc e))
  | _, _, .nil => ⟨0, fun n _ => rfl⟩
  | _, _, .cons h hs => by
    obtain ⟨n0, h0⟩ := defs_all hN hx hs
    cases h with
    | df is r ho hd =>
      obtain ⟨n1, h1⟩ := (exp_xp (ex := ex) hN r ho).1 hd xs hx.sc true
      refine ⟨n0 + n1, fun n hn => ?_⟩
      have hel : stxElems (syn (ofList [.sym .defineValues, ids is, dat r])) = .ok [syn (.sym .defineValues), syn (ids is), syn (dat r)] := by
        have := stxElems_syn (.sym .defineValues) [ids is, dat r]
        exact this
      have : expandDef ex n xs (syn (ofList [.sym .defineValues, ids is, dat r])) = .ok (syn (enc (.define is (xp true r)))) := by
        have hh : headSym (syn (ofList [.sym .defineValues, ids is, dat r])) = some .defineValues := rfl
        rw [expandDef, if_pos hh, hel]
        simp only [Res.ok_bind, expandExpr_le (by omega : n1 ≤ n) h1]
        rw [enc]
        simp only [listT, toSyntax, pairTail, ofList, syn, syn.tl, toSyntax_syn]
      have h0 := h0 n (by omega)
      simp only at h0 ⊢
      rw [mapR, this, h0]
      rfl
    | xpr e hn =>
      refine ⟨n0, fun n hn' => ?_⟩
      have h0 := h0 n hn'
      simp only at h0 ⊢
      rw [mapR, expandDef, if_neg (head_expr hN hn), h0]
      rfl

/-- the expansion of a module -/
theorem mod_exp (hN : Names N) {ss : List S} (ho : OkTops N ss) (hd : (topIds ss).Nodup) {xs : Xforms} (hx : Sc N xs) :
    Evt fun n => expandModule ex n xs (ss.map fun s => syn (dat s)) = .ok ((xtops ss).map fun e => syn (enc e), xs) := by
  obtain ⟨out, st', ⟨n0, h1⟩, h2, _, _, h3⟩ := (loop_all (ex := ex) hN _ ss (Nat.le_refl _) ho ⟨xs, [], []⟩ hx hd (by simp)).1
  obtain ⟨n1, h4⟩ := defs_all (ex := ex) hN hx h3
  refine ⟨n0 + n1, fun n hn => ?_⟩
  have h1 := h1 n (by omega)
  have h4 := h4 n (by omega)
  simp only at h1 h2 h4 ⊢
  rw [expandModule, h1]
  simp only [Res.ok_bind]
  rw [h2, h4]
  rfl

end Minim.Exp
