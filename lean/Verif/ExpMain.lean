import Verif.ExpExpand

set_option autoImplicit false

/-!
# The expander computes the expansion: all forms
-/

namespace Minim.Exp

open Minim.Sx Minim.Core Minim.Jit

variable {ex : T → Res (List (T → Res T))} {N : Sym → Prop} {xs : Xforms} {rb : Bool}

theorem Names.noKw (h : Names N) : NoKw (Vis N) := by
  rintro x (hx | rfl | rfl | rfl)
  · exact h.kw x hx
  · decide
  · decide
  · decide

theorem mac' {s : Sym} {d r : X} {t : T} {f : T → Res T} {sc : Xforms} (hs : s ∉ keywords) (hl : lookup s xs = some (.mk f sc)) (hr : f (syn (.cons (.sym s) d)) = .ok (syn r))
    (h : ∃ n, expandExpr ex n (merge xs sc) rb (syn r) = .ok t) : ∃ n, expandExpr ex n xs rb (syn (.cons (.sym s) d)) = .ok t := by
  obtain ⟨n, h⟩ := h
  refine ⟨n + 2, ?_⟩
  rw [syn, syn, expandExpr, expandForm_other hs, hl]
  rw [syn, syn] at hr
  have : runX (.mk f sc) (.stx (.cons (.stx (.sym s)) (syn.tl d))) = .ok (syn r) := by
    rw [runX, Xf.fn, hr, Res.ok_bind]
    cases r <;> rfl
  simp only [this, Res.ok_bind, Xf.scope, h]

/-- one step of a macro of the library -/
theorem Scope.mac (h : Scope N xs) {s : Sym} {f : T → Res T} (hm : (s, f) ∈ macros) {d r : X} {t : T} (hr : f (syn (.cons (.sym s) d)) = .ok (syn r))
    (hk : ∀ xs', Scope N xs' → ∃ n, expandExpr ex n xs' rb (syn r) = .ok t) : ∃ n, expandExpr ex n xs rb (syn (.cons (.sym s) d)) = .ok t := by
  obtain ⟨sc, hl⟩ := h.std _ hm
  have hs : s ∉ keywords := by
    have : ∀ p ∈ macros, p.1 ∉ keywords := by
      intro p hp
      simp only [macros, List.mem_cons, List.not_mem_nil, or_false] at hp
      rcases hp with rfl | rfl | rfl | rfl | rfl | rfl | rfl | rfl | rfl | rfl <;> decide
    exact this _ hm
  exact mac' hs hl hr (hk _ (h.merge hl))

theorem Scope.macE (h : Scope N xs) {s : Sym} {f : T → Res T} (hm : (s, f) ∈ macros) {d r : X} {e : E} (hr : f (syn (.cons (.sym s) d)) = .ok (syn r))
    (hk : ∀ xs', Scope N xs' → XE ex xs' rb r e) : XE ex xs rb (.cons (.sym s) d) e := h.mac hm hr hk

theorem exp_void (hN : Names N) (h : Scope N xs) : XE ex xs rb (ofList [.sym sVoid]) voidE :=
  .appId (hN.noKw _ (.inr (.inr (.inl rfl)))) (h.none (.inr (.inr (.inl rfl)))) .nil

theorem exp_and {es : List E} {ds : List X} (h : Scope N xs) (H : ∀ xs, Scope N xs → List.Forall₂ (XE ex xs rb) ds es) : XE ex xs rb (.cons (.sym sAnd) (ofList ds)) (andE es) := by
  induction ds generalizing es xs with
  | nil =>
    cases H xs h
    exact h.macE (by simp [macros]) (andM_nil _) fun xs' _ => .lit _
  | cons d ds ih =>
    obtain ⟨e, es, rfl⟩ : ∃ e es', es = e :: es' := by cases H xs h; exact ⟨_, _, rfl⟩
    have H1 : ∀ xs, Scope N xs → XE ex xs rb d e := fun xs h => by cases H xs h; assumption
    have H2 : ∀ xs, Scope N xs → List.Forall₂ (XE ex xs rb) ds es := fun xs h => by cases H xs h; assumption
    cases ds with
    | nil =>
      cases H2 xs h
      exact h.macE (by simp [macros]) (andM_one _ _) fun xs' h' => H1 xs' h'
    | cons d' ds =>
      obtain ⟨e', es, rfl⟩ : ∃ e es', es = e :: es' := by cases H2 xs h; exact ⟨_, _, rfl⟩
      exact h.macE (by simp [macros]) (andM_more _ _ _ _) fun xs' h' => .ite (H1 xs' h') (ih h' H2) (.lit _)

theorem XB.one {x : X} {e : E} (h : XE ex xs false x e) (hb : isBegin e = false) (hd : isDef e = false)
    (hk : ∀ s d, enc e = .cons (.sym s) d → s ≠ .begin ∧ s ≠ .defineValues ∧ s ≠ sDefineSyntaxes) : XB ex xs [x] [e] := by
  have := XB.of (.one h hb hd hk .nil) (by simp [endsE, hd])
  simpa [asm, hd] using this

theorem exp_or {es : List E} {ds : List X} {d : X} {e : E} (hN : Names N) (h : Scope N xs) (H1 : ∀ xs, Scope N xs → XE ex xs rb d e) (H : ∀ xs, Scope N xs → List.Forall₂ (XE ex xs false) ds es) :
    XE ex xs rb (.cons (.sym sOr) (ofList (d :: ds))) (orE (e :: es)) := by
  induction ds generalizing d e es xs rb with
  | nil =>
    cases H xs h
    exact h.macE (by simp [macros]) (orM_one _ _) fun xs' h' => H1 xs' h'
  | cons d' ds ih =>
    obtain ⟨e', es, rfl⟩ : ∃ e es', es = e :: es' := by cases H xs h; exact ⟨_, _, rfl⟩
    have H2 : ∀ xs, Scope N xs → XE ex xs false d' e' := fun xs h => by cases H xs h; assumption
    have H3 : ∀ xs, Scope N xs → List.Forall₂ (XE ex xs false) ds es := fun xs h => by cases H xs h; assumption
    refine h.macE (by simp [macros]) (orM_more _ _ _ _) fun xs' h' => ?_
    have hv : ∀ rb, XE ex xs' rb (.sym sOrT) (.var sOrT) := fun rb => .var (h'.none (.inr (.inl rfl)))
    have hi : XE ex xs' false (ofList [.sym .ifS, .sym sOrT, .sym sOrT, .cons (.sym sOr) (ofList (d' :: ds))]) (.ite (.var sOrT) (.var sOrT) (orE (e' :: es))) :=
      .ite (hv _) (hv _) (ih h' H2 H3)
    refine XE.letv (es := [e]) rfl (by simp) (by simp) (.cons (H1 xs' h') .nil) (.one hi rfl rfl ?_)
    intro s d he
    rw [enc] at he
    injection he with he _
    injection he with he
    subst he
    simp [sDefineSyntaxes]

theorem exp_block {body : List X} {body' : List E} (hb : body ≠ []) (h : Scope N xs) (H : ∀ xs, Scope N xs → XB ex xs body body') :
    XE ex xs rb (.cons (.sym sLet) (.cons .null (ofList body))) (.letv [] body') :=
  h.macE (by simp [macros]) (letM_null _ hb) fun xs' h' => XE.letv (xss := []) (es := []) rfl hb (by simp) .nil (H xs' h')

theorem exp_cond {ts : List X} {bs : List (List X)} {ts' bs' : List E} {els : List X} {e : E} (hN : Names N) (h : Scope N xs) (hl : ts.length = bs.length) (ht : ∀ t ∈ ts, t ≠ .sym sElse) (hb : ∀ b ∈ bs, b ≠ [])
    (H1 : ∀ xs, Scope N xs → List.Forall₂ (XE ex xs rb) ts ts') (H2 : ∀ xs, Scope N xs → List.Forall₂ (fun b e => XE ex xs rb (thenX b) e) bs bs')
    (H3 : els ≠ [] → ∀ xs, Scope N xs → XE ex xs rb (thenX els) e) (H4 : els = [] → e = voidE) :
    XE ex xs rb (.cons (.sym sCond) (conds ts (bs.map ofList) (ofList els))) (condE ts' bs' e) := by
  induction ts generalizing bs ts' bs' xs with
  | nil =>
    cases bs with
    | cons => cases hl
    | nil =>
      cases H1 xs h
      cases els with
      | nil =>
        rw [H4 rfl]
        exact h.macE (by simp [macros]) (condM_nil _) fun xs' h' => exp_void hN h'
      | cons x els => exact h.macE (by simp [macros]) (condM_else _ (x :: els) (by simp)) fun xs' h' => H3 (by simp) xs' h'
  | cons t ts ih =>
    cases bs with
    | nil => cases hl
    | cons b bs =>
      obtain ⟨t', ts', rfl⟩ : ∃ e es', ts' = e :: es' := by cases H1 xs h; exact ⟨_, _, rfl⟩
      obtain ⟨b', bs', rfl⟩ : ∃ e es', bs' = e :: es' := by cases H2 xs h; exact ⟨_, _, rfl⟩
      have hc : ∀ {ts : List X} {bs : List (List X)}, ∃ rest, conds ts (bs.map ofList) (ofList els) = ofList rest := by
        intro ts
        induction ts with
        | nil =>
          intro bs
          cases els with
          | nil => exact ⟨[], by cases bs <;> rfl⟩
          | cons x els => exact ⟨[.cons (.sym sElse) (ofList (x :: els))], by cases bs <;> rfl⟩
        | cons t ts ih =>
          intro bs
          cases bs with
          | nil =>
            cases els with
            | nil => exact ⟨[], rfl⟩
            | cons x els => exact ⟨[.cons (.sym sElse) (ofList (x :: els))], rfl⟩
          | cons b bs =>
            obtain ⟨r, hr⟩ := ih (bs := bs)
            exact ⟨.cons t (ofList b) :: r, by rw [List.map_cons, conds, hr]; rfl⟩
      obtain ⟨rest, hr⟩ := hc (ts := ts) (bs := bs)
      rw [List.map_cons, conds, hr]
      refine h.macE (by simp [macros]) (condM_cons _ t b rest (ht t (by simp)) (hb b (by simp))) fun xs' h' => ?_
      rw [condE]
      refine .ite (by cases H1 xs' h'; assumption) (by cases H2 xs' h'; assumption) ?_
      rw [← hr]
      exact ih h' (by simpa using hl) (fun t ht' => ht t (by simp [ht'])) (fun b hb' => hb b (by simp [hb'])) (fun xs h => by cases H1 xs h; assumption) (fun xs h => by cases H2 xs h; assumption)

theorem exp_star {is : List Sym} {ds body : List X} {x : Sym} {d : X} {e : E} {es body' : List E} (h : Scope N xs) (hl : is.length = ds.length) (hb : body ≠ [])
    (H1 : XE ex xs rb d e) (H2 : List.Forall₂ (XE ex xs false) ds es) (H3 : XB ex xs body body') :
    XE ex xs rb (starX (x :: is) (d :: ds) body) (starE (x :: is) (e :: es) body') := by
  induction is generalizing ds es x d e rb with
  | nil =>
    cases ds with
    | cons => cases hl
    | nil =>
      cases H2
      have : starE [x] [e] body' = .letv (mkBds [[x]] [e]) body' := by rw [starE]; rfl; simp
      rw [this]
      exact XE.letv rfl hb (by simp) (.cons H1 .nil) H3
  | cons y is ih =>
    cases ds with
    | nil => cases hl
    | cons d' ds =>
      cases H2 with
      | @cons _ e' _ es H2 H2' =>
        have hi := ih (x := y) (by simpa using hl) H2 H2'
        refine XE.letv (xss := [[x]]) (es := [e]) rfl (by simp) (by simp) (.cons H1 .nil) (.one hi ?_ ?_ ?_)
        · cases is <;> cases es <;> rfl
        · cases is <;> cases es <;> rfl
        · intro s d he
          have : ∃ r, enc (starE (y :: is) (e' :: es) body') = .cons (.sym .letValues) r := by
            cases is <;> cases es <;> exact ⟨_, by rw [starE, enc]; try simp⟩
          obtain ⟨r, hr⟩ := this
          rw [hr] at he
          cases he
          simp [sDefineSyntaxes]

theorem exp_define (is : List Sym) (x : X) : ∃ n, expandExpr ex n xs rb (syn (ofList [.sym .defineValues, ids is, x])) = .ok (syn (ofList [.sym .defineValues, ids is, x])) :=
  ⟨2, by rw [ofList, syn, syn, expandExpr, expandForm]; simp⟩

/-- what the induction shows: expressions are expanded; definitions become `define-values` -/
def XX (ex : T → Res (List (T → Res T))) (N : Sym → Prop) (s : S) : Prop :=
  (defn s = none → ∀ xs, Scope N xs → ∀ rb, XE ex xs rb (dat s) (xp rb s)) ∧
  (∀ is r, defn s = some (is, r) → ∀ xs, Scope N xs →
    ∃ x e, (∃ n, expandExpr ex n xs false (syn (dat s)) = .ok (syn (ofList [.sym .defineValues, ids is, x]))) ∧ XE ex xs true x e ∧ ∀ rb, xp rb s = .define is e)

theorem XX.xpr {s : S} (hd : defn s = none) (h : ∀ xs, Scope N xs → ∀ rb, XE ex xs rb (dat s) (xp rb s)) : XX ex N s := ⟨fun _ => h, fun is r h' => by simp [hd] at h'⟩

theorem runs_of (hN : Names N) (h : Scope N xs) : ∀ {body : List S}, (∀ s ∈ body, NFx (Vis N) s) → (∀ s ∈ body, XX ex N s) → Runs ex xs (dats body) (flats (xps false body))
  | [], _, _ => by rw [dats, xps, flats]; exact .nil
  | s :: body, h1, h2 => by
    have ih := runs_of hN h (body := body) (fun s hs => h1 s (List.mem_cons_of_mem _ hs)) (fun s hs => h2 s (List.mem_cons_of_mem _ hs))
    have hn := h1 s (by simp)
    have hx := h2 s (by simp)
    rw [dats, xps, flats]
    cases hd : defn s with
    | none =>
      have hn := hn.1 hd false
      have hx := hx.1 hd xs h false
      by_cases hb : isBegin (xp false s) = true
      · cases he : xp false s with
        | begin es =>
          rw [he] at hn hx
          rw [NF] at hn
          cases es with
          | nil => exact (hn.1 rfl).elim
          | cons e es =>
            refine .bg hx ?_
            rw [flat]
            exact runs_nf (es := e :: es) hN.noKw (fun x hx => h.none hx) hn.2 ih
        | _ => rw [he] at hb; cases hb
      · have hb : isBegin (xp false s) = false := by simpa using hb
        rw [flat_eq hb]
        exact .one hx hb (nf_notDef hn) (nf_head hN.noKw hn hb) ih
    | some p =>
      obtain ⟨is, r⟩ := p
      obtain ⟨x, e, h1, h2, h3⟩ := hx.2 is r hd xs h
      rw [h3, flat]
      exact .df h1 h2 ih

theorem body_exp (hN : Names N) {body : List S} (h1 : ∀ s ∈ body, NFx (Vis N) s) (h2 : ∀ s ∈ body, XX ex N s) (he : endsExpr body = true) : ∀ xs, Scope N xs → XB ex xs (dats body) (bodyE (xps false body)) := by
  intro xs h
  refine XB.of (runs_of hN h h1 h2) (endsE_items (fun s hs hd => (h1 s hs).1 hd false) (fun s hs is r hd => ?_) he)
  obtain ⟨e, _, he⟩ := (h1 s hs).2 is r hd
  exact ⟨e, he false⟩

theorem dats_ne {body : List S} (h : endsExpr body = true) : dats body ≠ [] := by
  cases body with
  | nil => cases h
  | cons => simp [dats]

theorem dats_length : ∀ l : List S, (dats l).length = l.length
  | [] => by simp [dats]
  | e :: l => by simp [dats, dats_length l]

theorem formals_ids : ∀ is : List Sym, formals is none = ids is
  | [] => rfl
  | x :: is => by rw [formals, formals_ids is]; rfl

theorem cls2_eq : ∀ (fs : List Formals) (bs : List (List S)), cls2 fs (datss bs) = clsX fs (bs.map dats)
  | [], _ => by simp [cls2, clsX]
  | _ :: _, [] => by simp [cls2, clsX, datss]
  | f :: fs, b :: bs => by simp [cls2, clsX, datss, cls2_eq fs bs]

theorem datss_eq : ∀ bs : List (List S), datss bs = (bs.map dats).map ofList
  | [] => by simp [datss]
  | b :: bs => by simp [datss, datss_eq bs]

theorem dat_else (hN : Names N) (h : Scope N xs) {s : S} (hs : Ok N s) : dat s ≠ .sym sElse := by
  intro he
  cases s <;> simp [dat, ofList] at he
  subst he
  rw [Ok] at hs
  obtain ⟨sc, hl⟩ := h.std (sElse, elseM) (by simp [macros])
  rw [h.none (.inl hs)] at hl
  cases hl

theorem okBs_ne : ∀ {bs : List (List S)}, OkBs N bs → ∀ b ∈ bs.map dats, b ≠ []
  | [], _, b, hb => by cases hb
  | b :: bs, h, b', hb => by
    rw [OkBs] at h
    rcases List.mem_cons.1 hb with rfl | hb
    · exact dats_ne h.1.1
    · exact okBs_ne h.2 b' hb

theorem okL_else (hN : Names N) (h : Scope N xs) : ∀ {ts : List S}, OkL N ts → ∀ t ∈ dats ts, t ≠ .sym sElse
  | [], _, t, ht => by rw [dats] at ht; cases ht
  | s :: ts, hs, t, ht => by
    rw [OkL] at hs
    rw [dats] at ht
    rcases List.mem_cons.1 ht with rfl | ht
    · exact dat_else hN h hs.1.2
    · exact okL_else hN h hs.2 t ht

theorem exp_then {e : S} {es : List S} (he : XX ex N e) (hd : es = [] → defn e = none) (hb : ∀ xs, Scope N xs → XB ex xs (dats (e :: es)) (bodyE (xps false (e :: es)))) (h : Scope N xs) :
    XE ex xs rb (thenX (dats (e :: es))) (thenE (if es.isEmpty then xp rb e else xp false e) (xps false es)) := by
  cases es with
  | nil =>
    have := he.1 (hd rfl) xs h rb
    simpa [dats, thenX, thenE, xps] using this
  | cons e' es =>
    have := exp_block (rb := rb) (by simp [dats]) h hb
    have h1 : thenX (dats (e :: e' :: es)) = .cons (.sym sLet) (.cons .null (ofList (dats (e :: e' :: es)))) := by simp [dats, thenX]
    rw [h1]
    simpa [thenE, xps] using this

mutual

theorem exp_xp (hN : Names N) : ∀ s, Ok N s → XX ex N s
  | .var x, h => .xpr rfl fun xs hx rb => by rw [Ok] at h; rw [dat, xp]; exact .var (hx.none (.inl h))
  | .lit l, _ => .xpr rfl fun xs hx rb => by rw [dat, xp]; exact .lit l
  | .quote d, _ => .xpr rfl fun xs hx rb => by rw [dat, xp]; exact .quote d
  | .quoteSyntax d, _ => .xpr rfl fun xs hx rb => by rw [dat, xp]; exact .quoteSyntax d
  | .set x e, h => by
    rw [Ok] at h
    exact .xpr rfl fun xs hx rb => by rw [dat, xp]; exact .set ((exp_xp hN e h.2.2).1 h.2.1 xs hx rb)
  | .ite c t e, h => by
    rw [Ok] at h
    exact .xpr rfl fun xs hx rb => by
      rw [dat, xp]
      exact .ite ((exp_xp hN c h.1.2).1 h.1.1 xs hx rb) ((exp_xp hN t h.2.1.2).1 h.2.1.1 xs hx rb) ((exp_xp hN e h.2.2.2).1 h.2.2.1 xs hx rb)
  | .lam f body, h => by
    rw [Ok] at h
    exact .xpr rfl fun xs hx rb => by
      rw [dat, xp]
      exact .lam (dats_ne h.2.1) (body_exp hN (nf_items N body h.2.2.2) (exp_items hN body h.2.2.2) h.2.1 xs hx)
  | .clam fs bodies, h => by
    rw [Ok] at h
    exact .xpr rfl fun xs hx rb => by
      rw [dat, xp, cls2_eq]
      exact .clam (okBs_ne h.2.2) (by simpa using h.1) (exp_bodies hN bodies h.2.2 xs hx)
  | .begin [], _ => .xpr rfl fun xs hx rb => by
    have : xp rb (.begin []) = voidE := by rw [xp]
    rw [dat, this, dats]; exact .begin0
  | .begin (e :: es), h => by
    rw [Ok, OkL] at h
    have he := exp_xp hN e h.1.2
    have hes := exp_xps hN es h.2
    have hi := exp_items' hN es h.2
    refine .xpr rfl fun xs hx rb => ?_
    rw [dat, dats]
    cases rb with
    | false => rw [xp]; exact .beginF (.cons (he.1 h.1.1 xs hx false) (hes xs hx false))
    | true =>
      have hb := body_exp (ex := ex) hN (body := e :: es)
        (by intro s hs; rcases List.mem_cons.1 hs with rfl | hs; exact nf_xp N _ h.1.2; exact (hi s hs).1)
        (by intro s hs; rcases List.mem_cons.1 hs with rfl | hs; exact he; exact (hi s hs).2.1)
        (by
          have : ∀ (l : List S) (e : S), defn e = none → (∀ s ∈ l, defn s = none) → endsExpr (e :: l) = true := by
            intro l
            induction l with
            | nil => intro e he _; simp [endsExpr, he]
            | cons a l ih => intro e he hl; rw [endsExpr]; exact ih a (hl a (by simp)) fun s hs => hl s (by simp [hs])
          exact this es e h.1.1 fun s hs => (hi s hs).2.2) xs hx
      rw [xp]
      rw [dats, xps] at hb
      exact .beginT hb
  | .app f args, h => by
    rw [Ok] at h
    refine .xpr rfl fun xs hx rb => ?_
    rw [dat, xp]
    have hf := (exp_xp hN f h.1.2).1 h.1.1 xs hx rb
    have ha := exp_xps hN args h.2 xs hx rb
    by_cases hv : ∃ x, f = .var x
    · obtain ⟨x, rfl⟩ := hv
      have hx' : N x := by have := h.1.2; rwa [Ok] at this
      rw [dat, xp]
      exact .appId (hN.kw x hx') (hx.none (.inl hx')) ha
    · refine .app ?_ hf ha
      intro s he
      cases f <;> simp [dat, ofList] at he
      exact hv ⟨_, rfl⟩
  | .letv xss es body, h => by
    rw [Ok] at h
    obtain ⟨h1, h2, h3, h4, h5, h6, h7⟩ := h
    exact .xpr rfl fun xs hx rb => by
      rw [dat, xp]
      exact .letv (by rw [dats_length]; exact h1) (dats_ne h5) h2 (exp_xps hN es h4 xs hx rb) (body_exp hN (nf_items N body h7) (exp_items hN body h7) h5 xs hx)
  | .letrecv xss es body, h => by
    rw [Ok] at h
    obtain ⟨h1, h2, h3, h4, h5, h6, h7⟩ := h
    exact .xpr rfl fun xs hx rb => by
      rw [dat, xp]
      exact .letrecv (by rw [dats_length]; exact h1) (dats_ne h5) h2 (exp_xps hN es h4 xs hx rb) (body_exp hN (nf_items N body h7) (exp_items hN body h7) h5 xs hx)
  | .and es, h => by
    rw [Ok] at h
    exact .xpr rfl fun xs hx rb => by rw [dat, xp]; exact exp_and hx fun xs hx => exp_xps hN es h xs hx rb
  | .or [], _ => .xpr rfl fun xs hx rb => by
    rw [dat, dats, xp]; exact hx.macE (by simp [macros]) (orM_nil _) fun xs' _ => .lit _
  | .or (e :: es), h => by
    rw [Ok, OkL] at h
    exact .xpr rfl fun xs hx rb => by
      rw [dat, dats, xp]
      exact exp_or hN hx (fun xs hx => (exp_xp hN e h.1.2).1 h.1.1 xs hx rb) fun xs hx => exp_xps hN es h.2 xs hx false
  | .when c body, h => by
    rw [Ok] at h
    obtain ⟨⟨h1, h2⟩, h3, h4, h5⟩ := h
    exact .xpr rfl fun xs hx rb => by
      rw [dat, xp]
      refine hx.macE (by simp [macros]) (whenM_syn _ _ _ (dats_ne h3)) fun xs hx => .ite ((exp_xp hN c h2).1 h1 xs hx rb) ?_ (exp_void hN hx)
      exact XE.letv (xss := []) (ds := []) (es := []) rfl (dats_ne h3) (by simp) .nil (body_exp hN (nf_items N body h5) (exp_items hN body h5) h3 xs hx)
  | .unless c body, h => by
    rw [Ok] at h
    obtain ⟨⟨h1, h2⟩, h3, h4, h5⟩ := h
    exact .xpr rfl fun xs hx rb => by
      rw [dat, xp]
      refine hx.macE (by simp [macros]) (unlessM_syn _ _ _ (dats_ne h3)) fun xs hx => .ite ((exp_xp hN c h2).1 h1 xs hx rb) (exp_void hN hx) ?_
      exact exp_block (dats_ne h3) hx (body_exp hN (nf_items N body h5) (exp_items hN body h5) h3)
  | .cond ts bs [], h => by
    rw [Ok] at h
    obtain ⟨h1, h2, h3, h4, h5, h6⟩ := h
    exact .xpr rfl fun xs hx rb => by
      rw [dat, xp, datss_eq]
      exact exp_cond hN hx (by rw [dats_length]; simpa using h1) (okL_else hN hx h2) (okBs_ne h3) (fun xs hx => exp_xps hN ts h2 xs hx rb) (fun xs hx => exp_thens hN bs h3 xs hx rb)
        (fun h => by simp [dats] at h) fun _ => rfl
  | .cond ts bs (e :: es), h => by
    rw [Ok] at h
    obtain ⟨h1, h2, h3, h4, h5, h6⟩ := h
    have h4 : endsExpr (e :: es) = true := h4.resolve_left (by simp)
    have hn := nf_items N _ h6
    rw [OkI] at h6
    have he := exp_xp hN e h6.1
    have hes := exp_items hN es h6.2
    have hb := body_exp (ex := ex) hN (body := e :: es) hn (by intro s hs; rcases List.mem_cons.1 hs with rfl | hs; exact he; exact hes s hs) h4
    exact .xpr rfl fun xs hx rb => by
      rw [dat, xp, datss_eq]
      refine exp_cond hN hx (by rw [dats_length]; simpa using h1) (okL_else hN hx h2) (okBs_ne h3) (fun xs hx => exp_xps hN ts h2 xs hx rb) (fun xs hx => exp_thens hN bs h3 xs hx rb)
        (fun _ xs hx => exp_then he (fun hes => ?_) hb hx) fun h => by simp [dats] at h
      subst hes
      simpa [endsExpr] using h4
  | .let1 is es body, h => by
    rw [Ok] at h
    obtain ⟨h1, h2, h3, h4, h5, h6, h7⟩ := h
    exact .xpr rfl fun xs hx rb => by
      rw [dat, xp]
      refine hx.macE (by simp [macros]) (letM_syn _ (by rw [dats_length]; exact h1) (dats_ne h5)) fun xs hx => ?_
      exact .letv (by rw [dats_length]; simpa using h1) (dats_ne h5) (by rw [flatten_single]; exact h2) (exp_xps hN es h4 xs hx rb) (body_exp hN (nf_items N body h7) (exp_items hN body h7) h5 xs hx)
  | .letstar is [] body, h => by
    rw [Ok] at h
    obtain ⟨h1, h3, h4, h5, h6, h7⟩ := h
    have : is = [] := by simpa using h1
    subst this
    exact .xpr rfl fun xs hx rb => by
      rw [dat, xp]
      refine hx.macE (by simp [macros]) (letStarM_syn _ (by simp [dats]) (dats_ne h5)) fun xs hx => ?_
      exact XE.letv (xss := []) (ds := []) (es := []) rfl (dats_ne h5) (by simp) .nil (body_exp hN (nf_items N body h7) (exp_items hN body h7) h5 xs hx)
  | .letstar is (e :: es) body, h => by
    rw [Ok, OkL] at h
    obtain ⟨h1, h3, h4, h5, h6, h7⟩ := h
    match is, h1 with
    | x :: is, h1 =>
      exact .xpr rfl fun xs hx rb => by
        rw [dat, xp, dats]
        refine hx.macE (by simp [macros]) (letStarM_syn _ (by simp [dats_length] at h1 ⊢; exact h1) (dats_ne h5)) fun xs hx => ?_
        exact exp_star hx (by simp [dats_length] at h1 ⊢; exact h1) (dats_ne h5) ((exp_xp hN e h4.1.2).1 h4.1.1 xs hx rb) (exp_xps hN es h4.2 xs hx false)
          (body_exp hN (nf_items N body h7) (exp_items hN body h7) h5 xs hx)
  | .letrec is es body, h => by
    rw [Ok] at h
    obtain ⟨h1, h2, h3, h4, h5, h6, h7⟩ := h
    exact .xpr rfl fun xs hx rb => by
      rw [dat, xp]
      refine hx.macE (by simp [macros]) (letrecM_syn _ (by rw [dats_length]; exact h1) (dats_ne h5)) fun xs hx => ?_
      exact .letrecv (by rw [dats_length]; simpa using h1) (dats_ne h5) (by rw [flatten_single]; exact h2) (exp_xps hN es h4 xs hx rb) (body_exp hN (nf_items N body h7) (exp_items hN body h7) h5 xs hx)
  | .nlet f is es body, h => by
    rw [Ok] at h
    obtain ⟨h1, h2, h3, h4, _, h5, h6, h7⟩ := h
    exact .xpr rfl fun xs hx rb => by
      rw [dat, xp]
      refine hx.macE (by simp [macros]) (letM_named _ _ (by rw [dats_length]; exact h1) (dats_ne h5)) fun xs hx => ?_
      have hl : XE ex xs rb (.cons (.sym .lambda) (.cons (ids is) (ofList (dats body)))) (.lam ⟨is, none⟩ (bodyE (xps false body))) := by
        rw [← formals_ids]
        exact XE.lam (f := ⟨is, none⟩) (dats_ne h5) (body_exp hN (nf_items N body h7) (exp_items hN body h7) h5 xs hx)
      refine XE.letrecv (xss := [[f]]) (es := [.lam ⟨is, none⟩ (bodyE (xps false body))]) rfl (by simp) (by simp) (.cons hl .nil) (.one (.appId (hN.kw f h2.1) (hx.none (.inl h2.1)) (exp_xps hN es h4 xs hx false)) rfl rfl ?_)
      intro s d he
      rw [enc, enc] at he
      injection he with he _
      injection he with he
      subst he
      exact ⟨kw_ne (hN.kw f h2.1) (by decide), kw_ne (hN.kw f h2.1) (by decide), kw_ne (hN.kw f h2.1) (by decide)⟩
  | .define is e, h => by
    rw [Ok] at h
    refine ⟨fun hd => by simp [defn] at hd, fun is' r hd xs hx => ?_⟩
    simp only [defn, Option.some.injEq, Prod.mk.injEq] at hd
    obtain ⟨rfl, rfl⟩ := hd
    refine ⟨dat e, xp true e, ?_, (exp_xp hN e h.2.2).1 h.2.1 xs hx true, fun rb => by rw [xp]⟩
    rw [dat]; exact exp_define is (dat e)
  | .def1 x e, h => by
    rw [Ok] at h
    refine ⟨fun hd => by simp [defn] at hd, fun is' r hd xs hx => ?_⟩
    simp only [defn, Option.some.injEq, Prod.mk.injEq] at hd
    obtain ⟨rfl, rfl⟩ := hd
    refine ⟨dat e, xp true e, ?_, (exp_xp hN e h.2.2).1 h.2.1 xs hx true, fun rb => by rw [xp]⟩
    rw [dat]
    exact hx.mac (by simp [macros]) (defineM_var _ x (dat e)) fun xs' _ => exp_define [x] (dat e)
  | .fn f fs body, h => by
    rw [Ok] at h
    obtain ⟨h1, h2, h3, h4, h5⟩ := h
    refine ⟨fun hd => by simp [defn] at hd, fun is' r hd xs hx => ?_⟩
    simp only [defn, Option.some.injEq, Prod.mk.injEq] at hd
    obtain ⟨rfl, rfl⟩ := hd
    refine ⟨.cons (.sym .lambda) (.cons (formals fs.req fs.rest) (ofList (dats body))), .lam fs (bodyE (xps false body)), ?_,
      .lam (dats_ne h3) (body_exp hN (nf_items N body h5) (exp_items hN body h5) h3 xs hx), fun rb => by rw [xp]⟩
    rw [dat]
    exact hx.mac (by simp [macros]) (defineM_fn _ f _ _ (dats_ne h3)) fun xs' hx' => hx'.mac (by simp [macros]) (defineM_var _ f _) fun xs' _ => exp_define [f] _

theorem exp_xps (hN : Names N) : ∀ es, OkL N es → ∀ xs, Scope N xs → ∀ rb, List.Forall₂ (XE ex xs rb) (dats es) (xps rb es)
  | [], _, _, _, _ => by rw [dats, xps]; exact .nil
  | e :: es, h, xs, hx, rb => by
    rw [OkL] at h
    rw [dats, xps]
    exact .cons ((exp_xp hN e h.1.2).1 h.1.1 xs hx rb) (exp_xps hN es h.2 xs hx rb)

theorem exp_items' (hN : Names N) : ∀ es, OkL N es → ∀ s ∈ es, NFx (Vis N) s ∧ XX ex N s ∧ defn s = none
  | [], _, s, hs => by cases hs
  | e :: es, h, s, hs => by
    rw [OkL] at h
    rcases List.mem_cons.1 hs with hs | hs
    · rw [hs]; exact ⟨nf_xp N e h.1.2, exp_xp hN e h.1.2, h.1.1⟩
    · exact exp_items' hN es h.2 s hs

theorem exp_items (hN : Names N) : ∀ es, OkI N es → ∀ s ∈ es, XX ex N s
  | [], _, s, hs => by cases hs
  | e :: es, h, s, hs => by
    rw [OkI] at h
    rcases List.mem_cons.1 hs with hs | hs
    · rw [hs]; exact exp_xp hN e h.1
    · exact exp_items hN es h.2 s hs

theorem exp_bodies (hN : Names N) : ∀ bs, OkBs N bs → ∀ xs, Scope N xs → List.Forall₂ (XB ex xs) (bs.map dats) (xpBodies bs)
  | [], _, _, _ => by rw [xpBodies]; exact .nil
  | b :: bs, h, xs, hx => by
    rw [OkBs] at h
    rw [xpBodies]
    exact .cons (body_exp hN (nf_items N b h.1.2.2) (exp_items hN b h.1.2.2) h.1.1 xs hx) (exp_bodies hN bs h.2 xs hx)

theorem exp_thens (hN : Names N) : ∀ bs, OkBs N bs → ∀ xs, Scope N xs → ∀ rb, List.Forall₂ (fun b e => XE ex xs rb (thenX b) e) (bs.map dats) (xpThens rb bs)
  | [], _, _, _, _ => by rw [xpThens]; exact .nil
  | [] :: bs, h, _, _, _ => by rw [OkBs] at h; cases h.1.1
  | (e :: es) :: bs, h, xs, hx, rb => by
    rw [OkBs] at h
    obtain ⟨⟨h4, h5, h6⟩, h7⟩ := h
    have hn := nf_items N _ h6
    rw [OkI] at h6
    have he := exp_xp hN e h6.1
    have hes := exp_items hN es h6.2
    have hb := body_exp (ex := ex) hN (body := e :: es) hn (by intro s hs; rcases List.mem_cons.1 hs with rfl | hs; exact he; exact hes s hs) h4
    rw [xpThens]
    refine .cons (exp_then he (fun hes => ?_) hb hx) (exp_thens hN bs h7 xs hx rb)
    subst hes
    simpa [endsExpr] using h4

end

end Minim.Exp
