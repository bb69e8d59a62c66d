import Verif.ExpXp

set_option autoImplicit false

/-!
# Rules of expansion

For each form a rule that says what it is expanded to, without fuel.
-/

namespace Minim.Exp

open Minim.Sx Minim.Core Minim.Jit

variable {ex : T → Res (List (T → Res T))} {xs : Xforms} {rb : Bool}

theorem toSyntax_tl (x : X) : toSyntax (syn.tl x) = syn x := by
  cases x <;> first | rfl | skip
  simp [syn.tl, toSyntax, syn]

theorem encs_eq : ∀ es : List E, encs es = ofList (es.map enc)
  | [] => by simp [encs, ofList]
  | e :: es => by simp [encs, ofList, encs_eq es]

theorem encBds_eq : ∀ bs : List Bd, encBds bs = ofList (bs.map encBd)
  | [] => by simp [encBds, ofList]
  | e :: es => by simp [encBds, ofList, encBds_eq es]

/-- `x` is expanded to `e` -/
def XE (ex : T → Res (List (T → Res T))) (xs : Xforms) (rb : Bool) (x : X) (e : E) : Prop := ∃ n, expandExpr ex n xs rb (syn x) = .ok (syn (enc e))

/-- the body `ds` is expanded to `es` -/
def XB (ex : T → Res (List (T → Res T))) (xs : Xforms) (ds : List X) (es : List E) : Prop := ∃ n, expandBody ex n xs (ds.map syn) = .ok (es.map fun e => syn (enc e))

theorem mapR_of {ds : List X} {es : List E} (h : List.Forall₂ (XE ex xs rb) ds es) : ∃ n, mapR (expandExpr ex n xs rb) (ds.map syn) = .ok (es.map fun e => syn (enc e)) := by
  induction h with
  | nil => exact ⟨0, rfl⟩
  | cons h _ ih =>
    obtain ⟨n, hn⟩ := h
    obtain ⟨m, hm⟩ := ih
    refine ⟨max n m, ?_⟩
    simp only [List.map_cons, mapR, expandExpr_le (Nat.le_max_left n m) hn, mapR_fuel_le (Nat.le_max_right n m) hm, Res.ok_bind]

theorem listT_enc (es : List E) : listT (es.map fun e => syn (enc e)) = syn.tl (ofList (es.map enc)) := by
  rw [tl_ofList, List.map_map]; rfl

theorem XE.var {x : Sym} (h : lookup x xs = none) : XE ex xs rb (.sym x) (.var x) := ⟨1, by rw [syn, expandExpr, h]; rfl⟩

theorem XE.lit (l : Lit) : XE ex xs rb (.lit l) (.lit l) := ⟨1, by rw [syn, expandExpr]; rfl⟩

theorem form {s : Sym} {d : X} {e : E} (h : ∃ n, expandForm ex n xs rb s (syn.tl d) = .ok (syn (enc e))) : XE ex xs rb (.cons (.sym s) d) e := by
  obtain ⟨n, h⟩ := h
  exact ⟨n + 1, by rw [syn, syn, expandExpr]; exact h⟩

theorem elems (s : Sym) (ds : List X) : stxElems (.stx (.cons (.stx (.sym s)) (syn.tl (ofList ds)))) = .ok (.stx (.sym s) :: ds.map syn) :=
  stxElems_syn (.sym s) ds

theorem XE.quote (d : X) : XE ex xs rb (ofList [.sym .quote, d]) (.quote d) := by
  refine form ⟨1, ?_⟩
  rw [expandForm]
  have h : parts 1 (.stx (.cons (.stx (.sym .quote)) (syn.tl (ofList [d])))) = .ok [.stx (.sym .quote), syn d] := by
    simp [parts, elems, Res.ok_bind]
  simp only [sLetSyntaxes, sDefineSyntaxes, h, Res.ok_bind, reduceCtorEq, or_self, if_false, if_true, true_or, or_true, enc]
  rfl

theorem XE.quoteSyntax (d : X) : XE ex xs rb (ofList [.sym .quoteSyntax, d]) (.quoteSyntax d) := by
  refine form ⟨1, ?_⟩
  rw [expandForm]
  have h : parts 1 (.stx (.cons (.stx (.sym .quoteSyntax)) (syn.tl (ofList [d])))) = .ok [.stx (.sym .quoteSyntax), syn d] := by
    simp [parts, elems, Res.ok_bind]
  simp only [sLetSyntaxes, sDefineSyntaxes, h, Res.ok_bind, reduceCtorEq, or_self, if_false, if_true, true_or, or_true, enc]
  rfl

theorem XE.set {x : Sym} {d : X} {e : E} (h : XE ex xs rb d e) : XE ex xs rb (ofList [.sym .setb, .sym x, d]) (.set x e) := by
  obtain ⟨n, h⟩ := h
  refine form ⟨n + 1, ?_⟩
  rw [expandForm]
  have hp : parts 2 (.stx (.cons (.stx (.sym .setb)) (syn.tl (ofList [.sym x, d])))) = .ok [.stx (.sym .setb), syn (.sym x), syn d] := by
    simp [parts, elems, Res.ok_bind]
  have := toSyntax_list [.sym .setb, .sym x, enc e]
  simp only [List.map_cons, List.map_nil, syn] at this
  simp [sLetSyntaxes, sDefineSyntaxes, hp, Res.ok_bind, h, identifierQ, syn, this, enc]

theorem XE.ite {c a b : X} {c' a' b' : E} (hc : XE ex xs rb c c') (ha : XE ex xs rb a a') (hb : XE ex xs rb b b') : XE ex xs rb (ofList [.sym .ifS, c, a, b]) (.ite c' a' b') := by
  obtain ⟨n, h⟩ := mapR_of (.cons hc (.cons ha (.cons hb .nil)))
  refine form ⟨n + 1, ?_⟩
  rw [expandForm]
  have hp : parts 3 (.stx (.cons (.stx (.sym .ifS)) (syn.tl (ofList [c, a, b])))) = .ok [.stx (.sym .ifS), syn c, syn a, syn b] := by
    simp [parts, elems, Res.ok_bind]
  have := toSyntax_list [.sym .ifS, enc c', enc a', enc b']
  simp only [List.map_cons, List.map_nil, syn, listT] at this
  simp only [List.map_cons, List.map_nil] at h
  simp [sLetSyntaxes, sDefineSyntaxes, hp, Res.ok_bind, h, this, enc, listT]

theorem seqQ_tl (ds : List X) : seqQ (syn.tl (ofList ds)) = true := by simp [seqQ]

theorem lambdaForm_syn (f : X) {ds : List X} (hd : ds ≠ []) : lambdaForm (syn.tl (.cons f (ofList ds))) = .ok (syn f, ds.map syn) := by
  obtain ⟨d, ds, rfl⟩ := List.exists_cons_of_ne_nil hd
  have : rawList (.cons (syn d) (syn.tl (ofList ds))) = .ok (syn d :: ds.map syn) := rawList_tl (d :: ds)
  simp [lambdaForm, syn.tl, ofList, stxNull, stxCar, stxCdr, Res.ok_bind, seqQ_tl, this]

theorem XE.lam {f : Formals} {ds : List X} {es : List E} (hd : ds ≠ []) (h : XB ex xs ds es) : XE ex xs rb (.cons (.sym .lambda) (.cons (formals f.req f.rest) (ofList ds))) (.lam f es) := by
  obtain ⟨n, h⟩ := h
  refine form ⟨n + 1, ?_⟩
  rw [expandForm]
  simp only [sLetSyntaxes, sDefineSyntaxes, lambdaForm_syn _ hd, Res.ok_bind, h, reduceCtorEq, or_self, if_false, if_true]
  simp [listT_enc, enc, encs_eq, toSyntax, pairTail, syn, syn.tl]

theorem lambdaForm_syn' (f : X) {ds : List X} (hd : ds ≠ []) : lambdaForm (syn (.cons f (ofList ds))) = .ok (syn f, ds.map syn) := by
  obtain ⟨d, ds, rfl⟩ := List.exists_cons_of_ne_nil hd
  have : rawList (.cons (syn d) (syn.tl (ofList ds))) = .ok (syn d :: ds.map syn) := rawList_tl (d :: ds)
  simp [lambdaForm, syn, syn.tl, ofList, stxNull, stxCar, stxCdr, Res.ok_bind, seqQ_tl, this]

/-- the clauses of `case-lambda` as read -/
def clsX : List Formals → List (List X) → X
  | f :: fs, b :: bs => .cons (.cons (formals f.req f.rest) (ofList b)) (clsX fs bs)
  | _, _ => .null

theorem clauses_syn : ∀ {fs : List Formals} {bs : List (List X)}, (∀ b ∈ bs, b ≠ []) → fs.length = bs.length →
    clauses (syn.tl (clsX fs bs)) = .ok (List.zipWith (fun f b => (syn (formals f.req f.rest), b.map syn)) fs bs)
  | [], [], _, _ => rfl
  | f :: fs, b :: bs, h, hl => by
    have ih := clauses_syn (fs := fs) (bs := bs) (fun b hb => h b (List.mem_cons_of_mem _ hb)) (by simpa using hl)
    rw [clsX, syn.tl, clauses, lambdaForm_syn' _ (h b (List.mem_cons_self ..)), Res.ok_bind, ih, Res.ok_bind]
    rfl
  | [], _ :: _, _, hl => by cases hl
  | _ :: _, [], _, hl => by cases hl

theorem mapR_clauses : ∀ {fs : List Formals} {bs : List (List X)} {ess : List (List E)}, fs.length = bs.length → List.Forall₂ (XB ex xs) bs ess →
    ∃ n, ∀ m, n ≤ m → mapR (fun (c : T × List T) => do let body ← expandBody ex m xs c.2; .ok (T.cons c.1 (listT body))) (List.zipWith (fun f b => (syn (formals f.req f.rest), b.map syn)) fs bs) =
      .ok (List.zipWith (fun f es => T.cons (syn (formals f.req f.rest)) (listT (es.map fun e => syn (enc e)))) fs ess)
  | [], _, _, _, .nil => ⟨0, fun _ _ => rfl⟩
  | f :: fs, _ :: _, _ :: _, hl, .cons h hs => by
    obtain ⟨n, hn⟩ := h
    obtain ⟨k, hk⟩ := mapR_clauses (fs := fs) (by simpa using hl) hs
    refine ⟨max n k, fun m hm => ?_⟩
    rw [List.zipWith, mapR, List.zipWith]
    simp only [expandBody_le (Nat.le_trans (Nat.le_max_left n k) hm) hn, Res.ok_bind, hk m (Nat.le_trans (Nat.le_max_right n k) hm)]
  | [], _ :: _, _ :: _, hl, .cons _ _ => by cases hl

theorem listT_cls : ∀ (fs : List Formals) (ess : List (List E)),
    pairTail (listT (List.zipWith (fun f es => T.cons (syn (formals f.req f.rest)) (listT (es.map fun e => syn (enc e)))) fs ess)) = syn.tl (encCls (mkCls fs ess))
  | [], _ => by simp [listT, mkCls, encCls, syn.tl, pairTail]
  | _ :: _, [] => by simp [listT, mkCls, encCls, syn.tl, pairTail]
  | f :: fs, es :: ess => by
    rw [List.zipWith, listT, pairTail, listT_cls fs ess, mkCls, encCls, syn.tl, encCl, encs_eq, listT_enc]
    simp [toSyntax, syn]

theorem XE.clam {fs : List Formals} {bs : List (List X)} {ess : List (List E)} (hb : ∀ b ∈ bs, b ≠ []) (hl : fs.length = bs.length) (h : List.Forall₂ (XB ex xs) bs ess) :
    XE ex xs rb (.cons (.sym .caseLambda) (clsX fs bs)) (.clam (mkCls fs ess)) := by
  obtain ⟨n, h⟩ := mapR_clauses hl h
  refine form ⟨n + 1, ?_⟩
  rw [expandForm]
  simp only [sLetSyntaxes, sDefineSyntaxes, clauses_syn hb hl, Res.ok_bind, h n (Nat.le_refl n), reduceCtorEq, or_self, if_false, if_true]
  rw [toSyntax, listT_cls]
  rfl

theorem XE.begin0 : XE ex xs rb (.cons (.sym .begin) .null) voidE := by
  refine form ⟨1, ?_⟩
  rw [expandForm]
  have : stxElems (.stx (.cons (.stx (.sym .begin)) .null)) = .ok [.stx (.sym .begin)] := elems _ []
  simp [sLetSyntaxes, sDefineSyntaxes, syn.tl, this, Res.ok_bind]
  rfl

theorem XE.beginF {d : X} {ds : List X} {es : List E} (h : List.Forall₂ (XE ex xs false) (d :: ds) es) : XE ex xs false (.cons (.sym .begin) (ofList (d :: ds))) (.begin es) := by
  obtain ⟨n, h⟩ := mapR_of h
  refine form ⟨n + 1, ?_⟩
  rw [expandForm]
  have h1 := rawList_tl (d :: ds)
  have h2 : ¬ (syn.tl (ofList (d :: ds)) == .null) = true := by simp [ofList, syn.tl]
  simp only [sLetSyntaxes, sDefineSyntaxes, elems, Res.ok_bind, h1, h, h2, reduceCtorEq, or_self, if_false, if_true, Bool.false_eq_true]
  simp [toSyntax, listT_enc, enc, encs_eq, syn]

theorem XE.beginT {d : X} {ds : List X} {es : List E} (h : XB ex xs (d :: ds) es) : XE ex xs true (.cons (.sym .begin) (ofList (d :: ds))) (seqE es) := by
  obtain ⟨n, h⟩ := h
  refine form ⟨n + 1, ?_⟩
  rw [expandForm]
  have h1 := rawList_tl (d :: ds)
  have h2 : ¬ (syn.tl (ofList (d :: ds)) == .null) = true := by simp [ofList, syn.tl]
  simp only [sLetSyntaxes, sDefineSyntaxes, elems, Res.ok_bind, h1, h, h2, reduceCtorEq, or_self, if_false, if_true]
  match es with
  | [] => simp [toSyntax, enc, encs_eq, syn, seqE, listT, syn.tl, pairTail, ofList]
  | [e] => rfl
  | e :: e' :: es =>
    have := listT_enc (e :: e' :: es)
    simp only [List.map_cons] at this ⊢
    simp [toSyntax, this, enc, encs_eq, syn, seqE]

theorem kw_ne {s k : Sym} (h : s ∉ keywords) (hk : k ∈ keywords) : s ≠ k := fun e => h (e ▸ hk)

theorem expandForm_other {n : Nat} {s : Sym} {d : T} (h : s ∉ keywords) : expandForm ex (n + 1) xs rb s d =
    (match lookup s xs with
      | some x => (do let r ← runX x (.stx (.cons (.stx (.sym s)) d)); expandExpr ex n (merge xs x.scope) rb r : Res T)
      | none => (do let es ← stxElems (.stx (.cons (.stx (.sym s)) d)); let es ← mapR (expandExpr ex n xs rb) es; .ok (toSyntax (listT es)) : Res T)) := by
  rw [expandForm]
  have hk : ∀ k, k ∈ keywords → s ≠ k := fun k => kw_ne h
  simp only [keywords, List.mem_cons, List.not_mem_nil, or_false, forall_eq_or_imp, forall_eq] at hk
  obtain ⟨h1, h2, h3, h4, h5, h6, h7, h8, h9, h10, h11, h12⟩ := hk
  simp only [h1, h2, h3, h4, h5, h6, h7, h8, h9, h10, h11, h12, or_self, if_false]
  cases lookup s xs <;> rfl

theorem XE.appId {s : Sym} {ds : List X} {es : List E} (hs : s ∉ keywords) (hl : lookup s xs = none) (h : List.Forall₂ (XE ex xs rb) ds es) :
    XE ex xs rb (.cons (.sym s) (ofList ds)) (.app (.var s) es) := by
  obtain ⟨n, h⟩ := mapR_of (.cons (.var hl) h)
  refine form ⟨n + 1, ?_⟩
  rw [expandForm_other hs, hl]
  have := listT_enc (.var s :: es)
  simp only [List.map_cons, listT, syn, enc] at this
  simp only [List.map_cons, syn] at h
  simp only [elems, Res.ok_bind, h, listT, enc, syn, this]
  simp [toSyntax, syn.tl, ofList, encs_eq, syn, pairTail]

theorem XE.app {a : X} {f : E} {ds : List X} {es : List E} (ha : ∀ s, a ≠ .sym s) (hf : XE ex xs rb a f) (h : List.Forall₂ (XE ex xs rb) ds es) : XE ex xs rb (.cons a (ofList ds)) (.app f es) := by
  obtain ⟨n, h⟩ := mapR_of (.cons hf h)
  refine ⟨n + 1, ?_⟩
  rw [syn, expandExpr]
  · have := listT_enc (f :: es)
    simp only [List.map_cons, listT] at this
    have h2 := stxElems_syn a ds
    rw [syn] at h2
    simp only [List.map_cons] at h
    rw [h2, Res.ok_bind, h, Res.ok_bind]
    simp only [listT, this]
    simp [toSyntax, syn.tl, ofList, encs_eq, syn, enc]
  · intro s e
    cases a <;> simp [syn] at e
    exact ha _ rfl

theorem XE.mac {s : Sym} {d r : X} {e : E} {x : Xf} (hs : s ∉ keywords) (hl : lookup s xs = some x) (hr : x.fn (syn (.cons (.sym s) d)) = .ok (syn r)) (h : XE ex (merge xs x.scope) rb r e) :
    XE ex xs rb (.cons (.sym s) d) e := by
  obtain ⟨n, h⟩ := h
  refine form ⟨n + 1, ?_⟩
  rw [expandForm_other hs, hl]
  rw [syn, syn] at hr
  have : runX x (.stx (.cons (.stx (.sym s)) (syn.tl d))) = .ok (syn r) := by
    rw [runX, hr, Res.ok_bind]
    cases r <;> rfl
  simp only [this, Res.ok_bind, h]

/-! ### `let-values` and `letrec-values` -/

theorem checkBinds_syn : ∀ {xss : List (List Sym)} {ds : List X}, xss.length = ds.length → ∃ bl, syn.tl (bds2 xss ds) = listT (bl.map syn) ∧ bds2 xss ds = ofList bl ∧
    checkBinds (bl.map syn) = .ok (List.zipWith (fun xs d => (syn (ids xs), xs, syn d)) xss ds)
  | [], [], _ => ⟨[], rfl, rfl, rfl⟩
  | xs :: xss, d :: ds, hl => by
    obtain ⟨bl, h1, h2, h3⟩ := checkBinds_syn (xss := xss) (ds := ds) (by simpa using hl)
    refine ⟨ofList [ids xs, d] :: bl, by rw [bds2, syn.tl, h1]; rfl, by rw [bds2, h2]; rfl, ?_⟩
    rw [List.map_cons, checkBinds, stxElems_ofList]
    simp only [Res.ok_bind, List.map_cons, List.map_nil]
    have : stxElems (syn (ids xs)) = .ok ((xs.map X.sym).map syn) := stxElems_ofList _
    rw [this]
    simp only [Res.ok_bind, all_ids, if_true, h3, idSyms_ids]
    rfl
  | [], _ :: _, hl => by cases hl
  | _ :: _, [], hl => by cases hl

theorem letForm_syn {s : Sym} {xss : List (List Sym)} {ds body : List X} (hl : xss.length = ds.length) (hb : body ≠ []) :
    letForm (.stx (.cons (.stx (.sym s)) (syn.tl (.cons (bds2 xss ds) (ofList body))))) = .ok (List.zipWith (fun xs d => (syn (ids xs), xs, syn d)) xss ds, body.map syn) := by
  obtain ⟨bl, h1, h2, h3⟩ := checkBinds_syn hl
  obtain ⟨b, body, rfl⟩ := List.exists_cons_of_ne_nil hb
  have h4 := elems s (bds2 xss ds :: b :: body)
  simp only [ofList, syn.tl] at h4
  have h5 : seqQ (.cons (syn b) (syn.tl (ofList body))) = true := seqQ_tl (b :: body)
  have h6 : stxElems (syn (bds2 xss ds)) = .ok (bl.map syn) := by rw [h2]; exact stxElems_ofList bl
  simp [letForm, stxCdr, Res.ok_bind, syn.tl, stxNull, stxCar, h4, h5, h6, h3, ofList]

theorem expandBinds_of : ∀ {xss : List (List Sym)} {ds : List X} {es : List E} {seen : List Sym}, xss.length = ds.length → List.Forall₂ (XE ex xs rb) ds es → xss.flatten.Nodup → (∀ x ∈ seen, x ∉ xss.flatten) →
    ∃ n, ∀ m, n ≤ m → expandBinds (expandExpr ex m xs rb) seen (List.zipWith (fun xs d => (syn (ids xs), xs, syn d)) xss ds) = .ok (List.zipWith (fun xs e => listT [syn (ids xs), syn (enc e)]) xss es)
  | [], _, _, _, _, .nil, _, _ => ⟨0, fun _ _ => rfl⟩
  | i :: xss, _ :: _, _ :: _, seen, hl, .cons h hs, hn, hd => by
    obtain ⟨n, hn1⟩ := h
    simp only [List.flatten_cons, List.nodup_append] at hn
    obtain ⟨k, hk⟩ := expandBinds_of (xss := xss) (seen := i ++ seen) (by simpa using hl) hs hn.2.1 (by
      intro x hx
      rcases List.mem_append.1 hx with hx | hx
      · exact fun hx' => hn.2.2 x hx x hx' rfl
      · exact fun hx' => hd x hx (by simpa using .inr (by simpa using hx')))
    refine ⟨max n k, fun m hm => ?_⟩
    rw [List.zipWith, expandBinds, if_neg, expandExpr_le (Nat.le_trans (Nat.le_max_left n k) hm) hn1, Res.ok_bind, hk m (Nat.le_trans (Nat.le_max_right n k) hm)]
    · rfl
    · simp only [dup, Bool.or_eq_true, List.any_eq_true, decide_eq_true_eq, Bool.not_eq_true', decide_eq_false_iff_not, not_or, not_exists, not_and, not_not]
      exact ⟨fun x hx hs => hd x hs (by simp [hx]), hn.1⟩
  | [], _ :: _, _ :: _, _, hl, .cons _ _, _, _ => by cases hl

theorem listT_binds : ∀ (xss : List (List Sym)) (es : List E), toSyntax (listT (List.zipWith (fun xs e => listT [syn (ids xs), syn (enc e)]) xss es)) = syn (encBds (mkBds xss es)) ∧
    pairTail (listT (List.zipWith (fun xs e => listT [syn (ids xs), syn (enc e)]) xss es)) = syn.tl (encBds (mkBds xss es))
  | [], _ => by simp [listT, mkBds, encBds, syn.tl, syn, pairTail, toSyntax]
  | _ :: _, [] => by simp [listT, mkBds, encBds, syn.tl, syn, pairTail, toSyntax]
  | i :: xss, e :: es => by
    have ih := listT_binds xss es
    have h : toSyntax (listT [syn (ids i), syn (enc e)]) = syn (encBd (.mk i e)) := by rw [encBd]; exact toSyntax_list [ids i, enc e]
    constructor
    · rw [List.zipWith, listT, toSyntax, h, ih.2, mkBds, encBds, syn]
    · rw [List.zipWith, listT, pairTail, h, ih.2, mkBds, encBds, syn.tl]

theorem XE.letv {xss : List (List Sym)} {ds body : List X} {es body' : List E} (hl : xss.length = ds.length) (hb : body ≠ []) (hn : xss.flatten.Nodup)
    (h : List.Forall₂ (XE ex xs rb) ds es) (h' : XB ex xs body body') : XE ex xs rb (.cons (.sym .letValues) (.cons (bds2 xss ds) (ofList body))) (.letv (mkBds xss es) body') := by
  obtain ⟨n, h⟩ := expandBinds_of (seen := []) hl h hn (by simp)
  obtain ⟨k, h'⟩ := h'
  refine form ⟨max n k + 1, ?_⟩
  rw [expandForm]
  simp only [sLetSyntaxes, sDefineSyntaxes, letForm_syn hl hb, Res.ok_bind, h _ (Nat.le_max_left n k), expandBody_le (Nat.le_max_right n k) h', reduceCtorEq, or_self, if_false, if_true, true_or]
  simp [toSyntax, pairTail, (listT_binds xss es).1, listT_enc, enc, syn, syn.tl, encs_eq]

theorem XE.letrecv {xss : List (List Sym)} {ds body : List X} {es body' : List E} (hl : xss.length = ds.length) (hb : body ≠ []) (hn : xss.flatten.Nodup)
    (h : List.Forall₂ (XE ex xs rb) ds es) (h' : XB ex xs body body') : XE ex xs rb (.cons (.sym .letrecValues) (.cons (bds2 xss ds) (ofList body))) (.letrecv (mkBds xss es) body') := by
  obtain ⟨n, h⟩ := expandBinds_of (seen := []) hl h hn (by simp)
  obtain ⟨k, h'⟩ := h'
  refine form ⟨max n k + 1, ?_⟩
  rw [expandForm]
  simp only [sLetSyntaxes, sDefineSyntaxes, letForm_syn hl hb, Res.ok_bind, h _ (Nat.le_max_left n k), expandBody_le (Nat.le_max_right n k) h', reduceCtorEq, or_self, if_false, if_true, or_true]
  simp [toSyntax, pairTail, (listT_binds xss es).1, listT_enc, enc, syn, syn.tl, encs_eq]

/-! ### bodies -/

/-- the forms `ts` of a body are expanded to `l`, with the contents of `begin` in place of `begin` -/
inductive Runs (ex : T → Res (List (T → Res T))) (xs : Xforms) : List X → List E → Prop
  | nil : Runs ex xs [] []
  | one {t : X} {e : E} {ts : List X} {l : List E} : XE ex xs false t e → isBegin e = false → isDef e = false → (∀ s d, enc e = .cons (.sym s) d → s ≠ .begin ∧ s ≠ .defineValues ∧ s ≠ sDefineSyntaxes) →
      Runs ex xs ts l → Runs ex xs (t :: ts) (e :: l)
  | df {t x : X} {is : List Sym} {e : E} {ts : List X} {l : List E} : (∃ n, expandExpr ex n xs false (syn t) = .ok (syn (ofList [.sym .defineValues, ids is, x]))) → XE ex xs true x e →
      Runs ex xs ts l → Runs ex xs (t :: ts) (.define is e :: l)
  | bg {t : X} {e : E} {es : List E} {ts : List X} {l : List E} : XE ex xs false t (.begin (e :: es)) → Runs ex xs (enc e :: (es.map enc ++ ts)) l → Runs ex xs (t :: ts) l

/-- the last form is no definition -/
def endsE : List E → Bool
  | [] => false
  | [e] => !isDef e
  | _ :: e :: es => endsE (e :: es)

/-- pending definitions and their bindings -/
def Pend (d : T × T) (b : Bd) : Prop := toSyntax (listT [d.1, d.2]) = syn (encBd b)

theorem pending_eq {ds : List (T × T)} {bs : List Bd} (h : List.Forall₂ Pend ds bs) : toSyntax (pending ds) = syn (encBds bs.reverse) := by
  have h := List.rel_reverse h
  unfold pending
  generalize ds.reverse = ds at h ⊢
  generalize bs.reverse = bs at h ⊢
  have : ∀ {ds : List (T × T)} {bs : List Bd}, List.Forall₂ Pend ds bs → pairTail (listT (ds.map fun d => listT [d.1, d.2])) = syn.tl (encBds bs) := by
    intro ds bs h
    induction h with
    | nil => simp [listT, pairTail, encBds, syn.tl]
    | cons h _ ih => simp only [List.map_cons, listT, pairTail, encBds, syn.tl]; rw [← ih]; unfold Pend at h; rw [← h]; rfl
  cases h with
  | nil => simp [listT, toSyntax, encBds, syn]
  | cons h hs => simp only [List.map_cons, listT, toSyntax, encBds, syn]; rw [← this hs]; unfold Pend at h; rw [← h]; rfl

theorem headSym_ne {x : X} {s : Sym} (h : ∀ s' d, x = .cons (.sym s') d → s' ≠ s) : headSym (syn x) ≠ some s := by
  cases x with
  | cons a d =>
    cases a <;> simp [syn, headSym]
    exact h _ _ rfl
  | _ => simp [syn, headSym]

theorem recs_letrec {ds : List (T × T)} {bs : List Bd} (h : List.Forall₂ Pend ds bs) (e : E) :
    toSyntax (listT [qs .letrecValues, pending ds, syn (enc e)]) = syn (enc (.letrecv bs.reverse [e])) := by
  have := pending_eq h
  simp [listT, toSyntax, pairTail, qs, this, enc, encs, syn, syn.tl]

theorem pend_ex (e : E) : Pend (.null, listT [qs .letValues, .null, syn (enc e), listT [qs .values]]) (exBd e) := by
  simp [Pend, exBd, listT, toSyntax, pairTail, qs, encBd, enc, encs, encBds, ids, ofList, syn, syn.tl]

theorem bodyLoop_of {ts : List X} {l : List E} (h : Runs ex xs ts l) : ∀ {t : X} {rest : List X}, ts = t :: rest → endsE l = true → ∀ {ds : List (T × T)} {bs : List Bd}, List.Forall₂ Pend ds bs →
    ∃ n, bodyLoop ex n xs (syn t) (rest.map syn) ds = .ok (if ds = [] then (asm l).map (fun e => syn (enc e)) else [syn (enc (.letrecv (bs.reverse ++ (recs l).1) (recs l).2))]) := by
  induction h with
  | nil => intro _ _ h; cases h
  | @one t e ts l he hb hd hk hr ih =>
    intro t' rest h hend ds bs hp
    obtain ⟨h1, h2⟩ := List.cons.inj h
    subst h1 h2
    obtain ⟨n, he⟩ := he
    have k1 := headSym_ne (x := enc e) (s := .begin) fun s d h => (hk s d h).1
    have k2 := headSym_ne (x := enc e) (s := sDefineSyntaxes) fun s d h => (hk s d h).2.2
    have k3 := headSym_ne (x := enc e) (s := .defineValues) fun s d h => (hk s d h).2.1
    cases ts with
    | nil =>
      cases hr
      refine ⟨n + 1, ?_⟩
      rw [bodyLoop, he, Res.ok_bind, if_neg k1, if_neg k2, if_neg k3]
      cases hp with
      | nil => simp [asm, hd]
      | cons p ps =>
        have := recs_letrec (.cons p ps) e
        simp [this, recs]
    | cons r rs =>
      have hl : ∃ e' l', l = e' :: l' := by
        cases l with
        | nil =>
          exfalso
          clear ih hend
          generalize hg : r :: rs = ts at hr
          have : ∀ {ts : List X} {l : List E}, Runs ex xs ts l → l = [] → ts = [] := by
            intro ts l h
            induction h with
            | nil => exact fun _ => rfl
            | one => intro h; cases h
            | df => intro h; cases h
            | bg _ _ ih => intro h; cases ih h
          have := this hr rfl
          subst this; cases hg
        | cons a b => exact ⟨_, _, rfl⟩
      obtain ⟨e', l', rfl⟩ := hl
      have hend' : endsE (e' :: l') = true := hend
      cases hp with
      | nil =>
        obtain ⟨m, hm⟩ := ih rfl hend' .nil
        refine ⟨max n m + 1, ?_⟩
        rw [bodyLoop, expandExpr_le (Nat.le_max_left n m) he, Res.ok_bind, if_neg k1, if_neg k2, if_neg k3]
        simp only [List.map_cons, bodyLoop_le (Nat.le_max_right n m) hm, Res.ok_bind]
        have : asm (e :: e' :: l') = e :: asm (e' :: l') := by rw [asm]; simp [hd]
        rw [this]
        simp
      | cons p ps =>
        obtain ⟨m, hm⟩ := ih rfl hend' (.cons (pend_ex e) (.cons p ps))
        refine ⟨max n m + 1, ?_⟩
        rw [bodyLoop, expandExpr_le (Nat.le_max_left n m) he, Res.ok_bind, if_neg k1, if_neg k2, if_neg k3]
        simp only [List.map_cons, bodyLoop_le (Nat.le_max_right n m) hm]
        have : toBd e = exBd e := by cases e <;> first | rfl | cases hd
        simp [recs, this]
  | @df t x is e ts l he hx hr ih =>
    intro t' rest h hend ds bs hp
    obtain ⟨h1, h2⟩ := List.cons.inj h
    subst h1 h2
    obtain ⟨n, he⟩ := he
    obtain ⟨k, hx⟩ := hx
    have hne : ∃ r rs e' l', ts = r :: rs ∧ l = e' :: l' := by
      cases hr with
      | nil => cases hend
      | one => exact ⟨_, _, _, _, rfl, rfl⟩
      | df => exact ⟨_, _, _, _, rfl, rfl⟩
      | bg _ _ =>
        cases l with
        | nil => cases hend
        | cons => exact ⟨_, _, _, _, rfl, rfl⟩
    obtain ⟨r, rs, e', l', rfl, rfl⟩ := hne
    have hp' : Pend (syn (ids is), syn (enc e)) (.mk is e) := by
      rw [Pend, encBd]; exact toSyntax_list [ids is, enc e]
    obtain ⟨m, hm⟩ := ih rfl (show endsE (e' :: l') = true from hend) (.cons hp' hp)
    refine ⟨max n (max k m) + 1, ?_⟩
    rw [bodyLoop, expandExpr_le (Nat.le_max_left ..) he, Res.ok_bind]
    have h1 : headSym (syn (ofList [.sym .defineValues, ids is, x])) = some .defineValues := rfl
    rw [h1, if_neg (by simp), if_neg (by simp), if_pos rfl]
    simp only [stxElems_ofList, Res.ok_bind, List.map_cons, expandExpr_le (Nat.le_trans (Nat.le_max_left k m) (Nat.le_max_right n _)) hx,
      bodyLoop_le (Nat.le_trans (Nat.le_max_right k m) (Nat.le_max_right n _)) hm]
    cases hp with
    | nil => simp [asm, isDef, recs, toBd]
    | cons => simp [recs, toBd]
  | @bg t e es ts l he hr ih =>
    intro t' rest h hend ds bs hp
    obtain ⟨h1, h2⟩ := List.cons.inj h
    subst h1 h2
    obtain ⟨n, he⟩ := he
    obtain ⟨m, hm⟩ := ih rfl hend hp
    refine ⟨max n m + 1, ?_⟩
    rw [bodyLoop, expandExpr_le (Nat.le_max_left n m) he, Res.ok_bind]
    have h1 : headSym (syn (enc (.begin (e :: es)))) = some .begin := by rw [enc]; rfl
    have h2 : stxElems (syn (enc (.begin (e :: es)))) = .ok (syn (.sym .begin) :: syn (enc e) :: (es.map enc).map syn) := by
      rw [enc, encs_eq]; exact stxElems_syn _ _
    rw [h1, if_pos rfl, h2]
    simp only [Res.ok_bind]
    rw [← List.map_append]
    exact bodyLoop_le (Nat.le_max_right n m) hm

theorem XB.of {ts : List X} {l : List E} (h : Runs ex xs ts l) (he : endsE l = true) : XB ex xs ts (asm l) := by
  cases ts with
  | nil => cases h; cases he
  | cons t rest =>
    obtain ⟨n, hn⟩ := bodyLoop_of h rfl he .nil
    exact ⟨n + 1, by rw [List.map_cons, expandBody, hn]; rfl⟩

end Minim.Exp
