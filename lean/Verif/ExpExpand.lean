import Verif.ExpMac

set_option autoImplicit false

/-!
# The expander computes the expansion
-/

namespace Minim.Exp

open Minim.Sx Minim.Core Minim.Jit

variable {ex : T → Res (List (T → Res T))} {N : Sym → Prop}

/-! ### expansions are expanded -/

/-- an expanded expression, or a definition of one -/
def Item (V : Sym → Prop) (e : E) : Prop := NF V e ∨ ∃ is e', e = .define is e' ∧ NF V e'

def defIdsE : List E → List Sym
  | [] => []
  | .define is _ :: es => is ++ defIdsE es
  | _ :: es => defIdsE es

theorem defIdsE_cons_nf {V : Sym → Prop} {e : E} {es : List E} (h : NF V e) : defIdsE (e :: es) = defIdsE es := by
  cases e <;> first | rfl | (rw [NF] at h; exact h.elim)

theorem defIdsE_nf {V : Sym → Prop} : ∀ {l m : List E}, NFl V l → defIdsE (l ++ m) = defIdsE m
  | [], _, _ => rfl
  | e :: l, m, h => by
    rw [NFl] at h
    rw [List.cons_append, defIdsE_cons_nf h.1, defIdsE_nf h.2]

theorem flats_append : ∀ (l m : List E), flats (l ++ m) = flats l ++ flats m
  | [], m => by simp [flats]
  | e :: l, m => by simp [flats, flats_append l m]

mutual
theorem flat_nf {V : Sym → Prop} : ∀ e, NF V e → (∀ x ∈ flat e, isBegin x = false ∧ NF V x) ∧ flat e ≠ []
  | .begin es, h => by
    rw [NF] at h; rw [flat]
    refine ⟨flats_nf es h.2, ?_⟩
    match es, h with
    | [], h => exact (h.1 rfl).elim
    | e :: es, h =>
      rw [NFl] at h
      rw [flats]
      intro h'
      exact (flat_nf e h.2.1).2 (List.append_eq_nil_iff.1 h').1
  | .var x, h => by simpa [flat, isBegin] using h
  | .lit x, h => by simpa [flat, isBegin] using h
  | .quote x, h => by simpa [flat, isBegin] using h
  | .quoteSyntax x, h => by simpa [flat, isBegin] using h
  | .unbound, h => by simpa [flat, isBegin] using h
  | .define .., h => by simpa [flat, isBegin] using h
  | .set .., h => by simpa [flat, isBegin] using h
  | .ite .., h => by simpa [flat, isBegin] using h
  | .letv .., h => by simpa [flat, isBegin] using h
  | .letrecv .., h => by simpa [flat, isBegin] using h
  | .lam .., h => by simpa [flat, isBegin] using h
  | .clam .., h => by simpa [flat, isBegin] using h
  | .app .., h => by simpa [flat, isBegin] using h
  | .mvcall .., h => by simpa [flat, isBegin] using h
  | .mvlet .., h => by simpa [flat, isBegin] using h
  | .mvvals .., h => by simpa [flat, isBegin] using h
theorem flats_nf {V : Sym → Prop} : ∀ es, NFl V es → ∀ x ∈ flats es, isBegin x = false ∧ NF V x
  | [], _ => by simp [flats]
  | e :: es, h => by
    rw [NFl] at h
    intro x hx
    rw [flats] at hx
    rcases List.mem_append.1 hx with hx | hx
    · exact (flat_nf e h.1).1 x hx
    · exact flats_nf es h.2 x hx
end

/-- the forms of a body after expansion -/
structure Forms (V : Sym → Prop) (l : List E) : Prop where
  nb : ∀ e ∈ l, isBegin e = false
  it : ∀ e ∈ l, Item V e

theorem Forms.nil {V : Sym → Prop} : Forms V [] := ⟨by simp, by simp⟩

theorem Forms.append {V : Sym → Prop} {l m : List E} (h : Forms V l) (h' : Forms V m) : Forms V (l ++ m) :=
  ⟨fun e he => (List.mem_append.1 he).elim (h.nb e) (h'.nb e), fun e he => (List.mem_append.1 he).elim (h.it e) (h'.it e)⟩

theorem Forms.tail {V : Sym → Prop} {e : E} {l : List E} (h : Forms V (e :: l)) : Forms V l :=
  ⟨fun x hx => h.nb x (List.mem_cons_of_mem _ hx), fun x hx => h.it x (List.mem_cons_of_mem _ hx)⟩

theorem Forms.ofNF {V : Sym → Prop} {e : E} (h : NF V e) : Forms V (flat e) :=
  ⟨fun x hx => ((flat_nf e h).1 x hx).1, fun x hx => .inl ((flat_nf e h).1 x hx).2⟩

theorem recs_nf {V : Sym → Prop} (hv : V .values) : ∀ {l : List E}, Forms V l → endsE l = true → (bdsIds (recs l).1 = defIdsE l) ∧ NFbds V (recs l).1 ∧ NFb V (recs l).2
  | [], _, h => by cases h
  | [e], hf, h => by
    have : isDef e = false := by simpa [endsE] using h
    rcases hf.it e (by simp) with h' | ⟨is, e', rfl, _⟩
    · refine ⟨?_, ?_, ?_⟩
      · rw [defIdsE_cons_nf h']; rfl
      · simp [recs, NFbds]
      · exact ⟨by simp [recs], by simpa [recs] using hf.nb e (by simp), by simpa [recs, NFl] using h'⟩
    · cases this
  | e :: e' :: l, hf, h => by
    obtain ⟨h1, h2, h3⟩ := recs_nf hv hf.tail (show endsE (e' :: l) = true from h)
    rcases hf.it e (by simp) with h' | ⟨is, r, rfl, h'⟩
    · have : toBd e = exBd e := by cases e <;> first | rfl | (rw [NF] at h'; exact h'.elim)
      refine ⟨?_, ?_, by rw [recs]; exact h3⟩
      · rw [defIdsE_cons_nf h', recs]
        simp only [this, exBd, bdsIds, Bd.ids, List.nil_append]
        exact h1
      · rw [recs, NFbds, this, exBd, NFbd, NF]
        refine ⟨⟨by simp [bdsIds], by simp [NFbds], by simp, ?_, ?_⟩, h2⟩
        · intro x hx
          rcases List.mem_cons.1 hx with rfl | hx
          · exact hf.nb _ (by simp)
          · simp only [List.mem_singleton] at hx; subst hx; rfl
        · simp [NFl, NF, h', hv]
    · refine ⟨?_, ?_, by rw [recs]; exact h3⟩
      · rw [recs]
        simp only [toBd, bdsIds, Bd.ids, defIdsE]
        rw [h1]
      · rw [recs, NFbds, toBd, NFbd]
        exact ⟨h', h2⟩

theorem asm_nf {V : Sym → Prop} (hv : V .values) : ∀ {l : List E}, Forms V l → endsE l = true → (defIdsE l).Nodup → NFb V (asm l)
  | [], _, h, _ => by cases h
  | e :: l, hf, h, hn => by
    rw [asm]
    split
    next hd =>
      obtain ⟨h1, h2, h3⟩ := recs_nf hv hf h
      refine ⟨by simp, by simp [isBegin], ?_⟩
      rw [NFl, NF]
      exact ⟨⟨by rw [h1]; exact hn, h2, h3⟩, by rw [NFl]; trivial⟩
    next hd =>
      have h' : NF V e := by
        rcases hf.it e (by simp) with h' | ⟨is, r, rfl, _⟩
        · exact h'
        · exact (hd rfl).elim
      rw [defIdsE_cons_nf h'] at hn
      cases l with
      | nil => exact ⟨by simp, by simpa [asm] using hf.nb e (by simp), by simpa [asm, NFl] using h'⟩
      | cons e' l =>
        obtain ⟨_, h2, h3⟩ := asm_nf hv hf.tail (show endsE (e' :: l) = true from h) hn
        refine ⟨by simp, ?_, by rw [NFl]; exact ⟨h', h3⟩⟩
        intro x hx
        rcases List.mem_cons.1 hx with rfl | hx
        · exact hf.nb _ (by simp)
        · exact h2 x hx

theorem mkBds_ids : ∀ {xss : List (List Sym)} {es : List E}, xss.length = es.length → bdsIds (mkBds xss es) = xss.flatten
  | [], [], _ => rfl
  | i :: xss, e :: es, h => by simp [mkBds, bdsIds, Bd.ids, mkBds_ids (xss := xss) (es := es) (by simpa using h)]
  | [], _ :: _, h => by cases h
  | _ :: _, [], h => by cases h

theorem mkBds_nf {V : Sym → Prop} : ∀ {xss : List (List Sym)} {es : List E}, NFl V es → NFbds V (mkBds xss es)
  | [], _, _ => by simp [mkBds, NFbds]
  | _ :: _, [], _ => by simp [mkBds, NFbds]
  | i :: xss, e :: es, h => by
    rw [NFl] at h
    rw [mkBds, NFbds, NFbd]
    exact ⟨h.1, mkBds_nf h.2⟩

theorem mkCls_nf {V : Sym → Prop} : ∀ {fs : List Formals} {ess : List (List E)}, (∀ b ∈ ess, NFb V b) → NFcls V (mkCls fs ess)
  | [], _, _ => by simp [mkCls, NFcls]
  | _ :: _, [], _ => by simp [mkCls, NFcls]
  | f :: fs, b :: ess, h => by
    rw [mkCls, NFcls, NFcl]
    exact ⟨h b (by simp), mkCls_nf fun b hb => h b (by simp [hb])⟩

theorem andE_nf {V : Sym → Prop} : ∀ {es : List E}, NFl V es → NF V (andE es)
  | [], _ => by simp [andE, NF]
  | [e], h => by rw [NFl] at h; exact h.1
  | e :: e' :: es, h => by
    rw [NFl] at h
    rw [andE, NF]
    exact ⟨h.1, andE_nf h.2, by simp [NF]⟩

theorem orE_nf {V : Sym → Prop} (hv : V sOrT) : ∀ {es : List E}, NFl V es → NF V (orE es)
  | [], _ => by simp [orE, NF]
  | [e], h => by rw [NFl] at h; exact h.1
  | e :: e' :: es, h => by
    rw [NFl] at h
    rw [orE, NF]
    refine ⟨by simp [bdsIds, Bd.ids], by simp [NFbds, NFbd, h.1], by simp, by simp [isBegin], ?_⟩
    rw [NFl, NF]
    exact ⟨⟨by rwa [NF], by rwa [NF], orE_nf hv h.2⟩, by rw [NFl]; trivial⟩

theorem voidE_nf {V : Sym → Prop} (hv : V sVoid) : NF V voidE := by
  rw [voidE, NF, NF]; exact ⟨hv, by rw [NFl]; trivial⟩

theorem condE_nf {V : Sym → Prop} : ∀ {ts bs : List E} {e : E}, NFl V ts → NFl V bs → NF V e → NF V (condE ts bs e)
  | [], _, _, _, _, h => h
  | _ :: _, [], _, _, _, h => h
  | t :: ts, b :: bs, e, h1, h2, h => by
    rw [NFl] at h1 h2
    rw [condE, NF]
    exact ⟨h1.1, h2.1, condE_nf h1.2 h2.2 h⟩

theorem starE_nf {V : Sym → Prop} : ∀ {is : List Sym} {es body : List E}, NFl V es → NFb V body → NF V (starE is es body)
  | x :: y :: is, e :: f :: es, body, h, hb => by
    rw [NFl] at h
    have ih := starE_nf (is := y :: is) h.2 hb
    rw [starE, NF]
    refine ⟨by simp [bdsIds, Bd.ids], by simp [NFbds, NFbd, h.1], by simp, ?_, by rw [NFl]; exact ⟨ih, by rw [NFl]; trivial⟩⟩
    intro e he
    simp only [List.mem_singleton] at he
    subst he
    cases is <;> cases es <;> rfl
  | [x], e :: es, body, h, hb => by
    rw [NFl] at h
    have : starE [x] (e :: es) body = .letv [.mk [x] e] body := by rw [starE]; simp
    rw [this, NF]
    exact ⟨by simp [bdsIds, Bd.ids], by simp [NFbds, NFbd, h.1], hb⟩
  | x :: y :: is, [e], body, h, hb => by
    rw [NFl] at h
    have : starE (x :: y :: is) [e] body = .letv [.mk [x] e] body := by rw [starE]; simp
    rw [this, NF]
    exact ⟨by simp [bdsIds, Bd.ids], by simp [NFbds, NFbd, h.1], hb⟩
  | [], es, body, h, hb => by
    have : starE [] es body = .letv [] body := by cases es <;> rfl
    rw [this, NF]
    exact ⟨by simp [bdsIds], by simp [NFbds], hb⟩
  | x :: is, [], body, h, hb => by
    have : starE (x :: is) [] body = .letv [] body := by cases is <;> rfl
    rw [this, NF]
    exact ⟨by simp [bdsIds], by simp [NFbds], hb⟩

theorem seqE_nf {V : Sym → Prop} {b : List E} (h : NFb V b) : NF V (seqE b) := by
  obtain ⟨h1, h2, h3⟩ := h
  match b, h1 with
  | [e], _ => rw [NFl] at h3; exact h3.1
  | e :: e' :: b, h1 =>
    have : seqE (e :: e' :: b) = .begin (e :: e' :: b) := rfl
    rw [this, NF]
    exact ⟨h1, h3⟩

theorem thenE_nf {V : Sym → Prop} {e : E} {es : List E} (h : es = [] → NF V e) (h' : NFb V (bodyE (e :: es))) : NF V (thenE e es) := by
  rw [thenE]
  split
  next he => exact h (by simpa using he)
  · rw [NF]; exact ⟨by simp [bdsIds], by simp [NFbds], h'⟩

/-- the last form of a body and its expansion -/
theorem endsE_append : ∀ (l : List E) {m : List E}, m ≠ [] → endsE (l ++ m) = endsE m
  | [], _, _ => rfl
  | [e], m, h => by cases m with
    | nil => exact (h rfl).elim
    | cons => rfl
  | e :: e' :: l, m, h => by
    rw [List.cons_append, List.cons_append, endsE, ← List.cons_append, endsE_append (e' :: l) h]

theorem xps_append : ∀ (rb : Bool) (l m : List S), xps rb (l ++ m) = xps rb l ++ xps rb m
  | _, [], m => by simp [xps]
  | rb, e :: l, m => by simp [xps, xps_append rb l m]

theorem xps_length : ∀ (rb : Bool) (l : List S), (xps rb l).length = l.length
  | _, [] => by simp [xps]
  | rb, e :: l => by simp [xps, xps_length rb l]

theorem endsE_items {V : Sym → Prop} : ∀ {body : List S}, (∀ s ∈ body, defn s = none → NF V (xp false s)) → (∀ s ∈ body, ∀ is r, defn s = some (is, r) → ∃ e, xp false s = .define is e) →
    endsExpr body = true → endsE (flats (xps false body)) = true
  | [], _, _, h => by cases h
  | [e], h1, _, h => by
    rw [endsExpr] at h
    have hn := h1 e (by simp) (by simpa using h)
    have := flat_nf _ hn
    rw [xps, xps, flats, flats, List.append_nil]
    exact endsE_of this.2 fun x hx => nf_notDef (this.1 x hx).2
  | e :: e' :: body, h1, h2, h => by
    have ih := endsE_items (body := e' :: body) (fun s hs => h1 s (List.mem_cons_of_mem _ hs)) (fun s hs => h2 s (List.mem_cons_of_mem _ hs)) h
    rw [xps, flats, endsE_append _ ?_]
    · exact ih
    · intro h'
      rw [h'] at ih
      cases ih

/-- what the induction shows of the expansion of an expression or definition -/
def NFx (V : Sym → Prop) (s : S) : Prop :=
  (defn s = none → ∀ rb, NF V (xp rb s)) ∧ (∀ is r, defn s = some (is, r) → ∃ e, NF V e ∧ ∀ rb, xp rb s = .define is e)

theorem forms_of {V : Sym → Prop} : ∀ {body : List S}, (∀ s ∈ body, NFx V s) → Forms V (flats (xps false body)) ∧ defIdsE (flats (xps false body)) = defIds body
  | [], _ => by
    rw [xps, flats]; exact ⟨.nil, rfl⟩
  | s :: body, h => by
    obtain ⟨h1, h2⟩ := forms_of (body := body) fun s hs => h s (List.mem_cons_of_mem _ hs)
    have hs := h s (by simp)
    rw [xps, flats, defIds]
    cases hd : defn s with
    | none =>
      have hn := hs.1 hd false
      refine ⟨(Forms.ofNF hn).append h1, ?_⟩
      rw [defIdsE_nf (V := V) (nfl_iff.2 fun x hx => ((flat_nf _ hn).1 x hx).2), h2]
      rfl
    | some p =>
      obtain ⟨is, r⟩ := p
      obtain ⟨e, he, hx⟩ := hs.2 is r hd
      rw [hx, flat]
      refine ⟨.append ⟨by simp [isBegin], ?_⟩ h1, ?_⟩
      · intro x hx
        simp only [List.mem_singleton] at hx
        exact .inr ⟨is, e, hx, he⟩
      · rw [List.singleton_append, defIdsE, h2]

theorem body_nf {V : Sym → Prop} (hv : V .values) {body : List S} (h : ∀ s ∈ body, NFx V s) (h1 : endsExpr body = true) (h2 : (defIds body).Nodup) : NFb V (bodyE (xps false body)) := by
  obtain ⟨k1, k2⟩ := forms_of h
  refine asm_nf hv k1 (endsE_items (fun s hs hd => (h s hs).1 hd false) (fun s hs is r hd => ?_) h1) (by rw [k2]; exact h2)
  obtain ⟨e, _, he⟩ := (h s hs).2 is r hd
  exact ⟨e, he false⟩

theorem NFx.xpr {V : Sym → Prop} {s : S} (hd : defn s = none) (h : ∀ rb, NF V (xp rb s)) : NFx V s := ⟨fun _ => h, fun is r h' => by simp [hd] at h'⟩

theorem NFx.df {V : Sym → Prop} {s r : S} {is : List Sym} {e : E} (hd : defn s = some (is, r)) (he : NF V e) (h : ∀ rb, xp rb s = .define is e) : NFx V s :=
  ⟨fun h' => by simp [hd] at h', fun is' r' h' => by rw [hd] at h'; obtain ⟨rfl, rfl⟩ := h'; exact ⟨e, he, h⟩⟩

theorem letv_nf {V : Sym → Prop} {xss : List (List Sym)} {es body : List E} (hl : xss.length = es.length) (hn : xss.flatten.Nodup) (he : NFl V es) (hb : NFb V body) : NF V (.letv (mkBds xss es) body) := by
  rw [NF]; exact ⟨by rw [mkBds_ids hl]; exact hn, mkBds_nf he, hb⟩

theorem letrecv_nf {V : Sym → Prop} {xss : List (List Sym)} {es body : List E} (hl : xss.length = es.length) (hn : xss.flatten.Nodup) (he : NFl V es) (hb : NFb V body) : NF V (.letrecv (mkBds xss es) body) := by
  rw [NF]; exact ⟨by rw [mkBds_ids hl]; exact hn, mkBds_nf he, hb⟩

theorem flatten_single : ∀ is : List Sym, (is.map fun x => [x]).flatten = is
  | [] => rfl
  | x :: is => by simp [flatten_single is]

theorem when_nf {V : Sym → Prop} {body : List E} (hb : NFb V body) : NF V (.letv [] body) := by
  rw [NF]; exact ⟨by simp [bdsIds], by simp [NFbds], hb⟩

theorem thens_split {body : List S} (h : endsExpr body = true) : ∃ e es, body = e :: es ∧ (es = [] → defn e = none) := by
  match body, h with
  | e :: es, h =>
    refine ⟨e, es, rfl, ?_⟩
    rintro rfl
    simpa [endsExpr] using h

theorem NFb.thenE {V : Sym → Prop} {rb : Bool} {e : S} {es : List S} (h1 : es = [] → NF V (xp rb e)) (h2 : NFb V (bodyE (xps false (e :: es)))) :
    NF V (thenE (if es.isEmpty then xp rb e else xp false e) (xps false es)) := by
  cases es with
  | nil => simpa [Exp.thenE, xps] using h1 rfl
  | cons e' es =>
    refine thenE_nf (fun h => by simp [xps] at h) ?_
    simpa [xps] using h2

mutual

theorem nf_xp (N : Sym → Prop) : ∀ s, Ok N s → NFx (Vis N) s
  | .var x, h => by rw [Ok] at h; exact .xpr rfl fun rb => by rw [xp, NF]; exact .inl h
  | .lit l, _ => .xpr rfl fun rb => by rw [xp, NF]; trivial
  | .quote d, _ => .xpr rfl fun rb => by rw [xp, NF]; trivial
  | .quoteSyntax d, _ => .xpr rfl fun rb => by rw [xp, NF]; trivial
  | .set x e, h => by
    rw [Ok] at h
    exact .xpr rfl fun rb => by rw [xp, NF]; exact (nf_xp N e h.2.2).1 h.2.1 rb
  | .ite c t e, h => by
    rw [Ok] at h
    exact .xpr rfl fun rb => by rw [xp, NF]; exact ⟨(nf_xp N c h.1.2).1 h.1.1 rb, (nf_xp N t h.2.1.2).1 h.2.1.1 rb, (nf_xp N e h.2.2.2).1 h.2.2.1 rb⟩
  | .lam f body, h => by
    rw [Ok] at h
    exact .xpr rfl fun rb => by rw [xp, NF]; exact body_nf (.inr (.inr (.inr rfl))) (nf_items N body h.2.2.2) h.2.1 h.2.2.1
  | .clam fs bodies, h => by
    rw [Ok] at h
    exact .xpr rfl fun rb => by rw [xp, NF]; exact mkCls_nf (nf_bodies N bodies h.2.2)
  | .begin [], _ => .xpr rfl fun rb => by rw [xp]; exact voidE_nf (.inr (.inr (.inl rfl)))
  | .begin (e :: es), h => by
    rw [Ok, OkL] at h
    have he := nf_xp N e h.1.2
    have hes := nf_xps N es h.2
    refine .xpr rfl fun rb => ?_
    cases rb with
    | false => rw [xp, NF]; exact ⟨by simp, by rw [NFl]; exact ⟨he.1 h.1.1 false, hes false⟩⟩
    | true =>
      rw [xp]
      have hl : NFl (Vis N) (xp false e :: xps false es) := by rw [NFl]; exact ⟨he.1 h.1.1 false, hes false⟩
      have hf := flats_nf _ hl
      refine seqE_nf (asm_nf (.inr (.inr (.inr rfl))) ⟨fun x hx => (hf x hx).1, fun x hx => .inl (hf x hx).2⟩ (endsE_of ?_ fun x hx => nf_notDef (hf x hx).2) ?_)
      · rw [flats]
        exact fun h' => (flat_nf _ (he.1 h.1.1 false)).2 (List.append_eq_nil_iff.1 h').1
      · have := defIdsE_nf (V := Vis N) (m := []) (nfl_iff.2 fun x hx => (hf x hx).2)
        rw [List.append_nil] at this
        rw [this]; simp [defIdsE]
  | .app f args, h => by
    rw [Ok] at h
    exact .xpr rfl fun rb => by rw [xp, NF]; exact ⟨(nf_xp N f h.1.2).1 h.1.1 rb, nf_xps N args h.2 rb⟩
  | .letv xss es body, h => by
    rw [Ok] at h
    obtain ⟨h1, h2, h3, h4, h5, h6, h7⟩ := h
    exact .xpr rfl fun rb => by rw [xp]; exact letv_nf (by rw [xps_length]; exact h1) h2 (nf_xps N es h4 rb) (body_nf (.inr (.inr (.inr rfl))) (nf_items N body h7) h5 h6)
  | .letrecv xss es body, h => by
    rw [Ok] at h
    obtain ⟨h1, h2, h3, h4, h5, h6, h7⟩ := h
    exact .xpr rfl fun rb => by rw [xp]; exact letrecv_nf (by rw [xps_length]; exact h1) h2 (nf_xps N es h4 rb) (body_nf (.inr (.inr (.inr rfl))) (nf_items N body h7) h5 h6)
  | .and es, h => by
    rw [Ok] at h
    exact .xpr rfl fun rb => by rw [xp]; exact andE_nf (nf_xps N es h rb)
  | .or [], _ => .xpr rfl fun rb => by rw [xp, NF]; trivial
  | .or (e :: es), h => by
    rw [Ok, OkL] at h
    exact .xpr rfl fun rb => by rw [xp]; exact orE_nf (.inr (.inl rfl)) (by rw [NFl]; exact ⟨(nf_xp N e h.1.2).1 h.1.1 rb, nf_xps N es h.2 false⟩)
  | .when c body, h => by
    rw [Ok] at h
    exact .xpr rfl fun rb => by
      rw [xp, NF]
      exact ⟨(nf_xp N c h.1.2).1 h.1.1 rb, when_nf (body_nf (.inr (.inr (.inr rfl))) (nf_items N body h.2.2.2) h.2.1 h.2.2.1), voidE_nf (.inr (.inr (.inl rfl)))⟩
  | .unless c body, h => by
    rw [Ok] at h
    exact .xpr rfl fun rb => by
      rw [xp, NF]
      exact ⟨(nf_xp N c h.1.2).1 h.1.1 rb, voidE_nf (.inr (.inr (.inl rfl))), when_nf (body_nf (.inr (.inr (.inr rfl))) (nf_items N body h.2.2.2) h.2.1 h.2.2.1)⟩
  | .cond ts bs [], h => by
    rw [Ok] at h
    exact .xpr rfl fun rb => by rw [xp]; exact condE_nf (nf_xps N ts h.2.1 rb) (nf_thens N bs h.2.2.1 rb) (voidE_nf (.inr (.inr (.inl rfl))))
  | .cond ts bs (e :: es), h => by
    rw [Ok] at h
    obtain ⟨h1, h2, h3, h4, h5, h6⟩ := h
    have h4 : endsExpr (e :: es) = true := h4.resolve_left (by simp)
    rw [OkI] at h6
    have he := nf_xp N e h6.1
    have hes := nf_items N es h6.2
    have hb := body_nf (V := Vis N) (.inr (.inr (.inr rfl))) (body := e :: es) (by intro s hs; rcases List.mem_cons.1 hs with rfl | hs; exact he; exact hes s hs) h4 h5
    refine .xpr rfl fun rb => ?_
    rw [xp]
    refine condE_nf (nf_xps N ts h2 rb) (nf_thens N bs h3 rb) (NFb.thenE (fun hes => ?_) hb)
    subst hes
    exact he.1 (by simpa [endsExpr] using h4) rb
  | .let1 xs es body, h => by
    rw [Ok] at h
    obtain ⟨h1, h2, h3, h4, h5, h6, h7⟩ := h
    exact .xpr rfl fun rb => by
      rw [xp]
      exact letv_nf (by rw [xps_length]; simpa using h1) (by rw [flatten_single]; exact h2) (nf_xps N es h4 rb) (body_nf (.inr (.inr (.inr rfl))) (nf_items N body h7) h5 h6)
  | .letstar xs [] body, h => by
    rw [Ok] at h
    obtain ⟨h1, h3, h4, h5, h6, h7⟩ := h
    exact .xpr rfl fun rb => by rw [xp]; exact when_nf (body_nf (.inr (.inr (.inr rfl))) (nf_items N body h7) h5 h6)
  | .letstar xs (e :: es) body, h => by
    rw [Ok, OkL] at h
    obtain ⟨h1, h3, h4, h5, h6, h7⟩ := h
    exact .xpr rfl fun rb => by
      rw [xp]
      exact starE_nf (by rw [NFl]; exact ⟨(nf_xp N e h4.1.2).1 h4.1.1 rb, nf_xps N es h4.2 false⟩) (body_nf (.inr (.inr (.inr rfl))) (nf_items N body h7) h5 h6)
  | .letrec xs es body, h => by
    rw [Ok] at h
    obtain ⟨h1, h2, h3, h4, h5, h6, h7⟩ := h
    exact .xpr rfl fun rb => by
      rw [xp]
      exact letrecv_nf (by rw [xps_length]; simpa using h1) (by rw [flatten_single]; exact h2) (nf_xps N es h4 rb) (body_nf (.inr (.inr (.inr rfl))) (nf_items N body h7) h5 h6)
  | .nlet f xs es body, h => by
    rw [Ok] at h
    obtain ⟨h1, h2, h3, h4, _, h5, h6, h7⟩ := h
    exact .xpr rfl fun rb => by
      rw [xp, NF]
      refine ⟨by simp [bdsIds, Bd.ids], ?_, by simp, by simp [isBegin], ?_⟩
      · rw [NFbds, NFbd, NF]
        exact ⟨body_nf (.inr (.inr (.inr rfl))) (nf_items N body h7) h5 h6, by rw [NFbds]; trivial⟩
      · rw [NFl, NF, NF]
        exact ⟨⟨.inl h2.1, nf_xps N es h4 false⟩, by rw [NFl]; trivial⟩
  | .define xs e, h => by
    rw [Ok] at h
    exact .df rfl ((nf_xp N e h.2.2).1 h.2.1 true) fun rb => by rw [xp]
  | .def1 x e, h => by
    rw [Ok] at h
    exact .df rfl ((nf_xp N e h.2.2).1 h.2.1 true) fun rb => by rw [xp]
  | .fn f fs body, h => by
    rw [Ok] at h
    have hb := body_nf (V := Vis N) (.inr (.inr (.inr rfl))) (nf_items N body h.2.2.2.2) h.2.2.1 h.2.2.2.1
    exact .df (e := .lam fs (bodyE (xps false body))) rfl (by rw [NF]; exact hb) fun rb => by rw [xp]

theorem nf_xps (N : Sym → Prop) : ∀ es, OkL N es → ∀ rb, NFl (Vis N) (xps rb es)
  | [], _, _ => by rw [xps, NFl]; trivial
  | e :: es, h, rb => by
    rw [OkL] at h
    rw [xps, NFl]
    exact ⟨(nf_xp N e h.1.2).1 h.1.1 rb, nf_xps N es h.2 rb⟩

theorem nf_items (N : Sym → Prop) : ∀ es, OkI N es → ∀ s ∈ es, NFx (Vis N) s
  | [], _, s, hs => by cases hs
  | e :: es, h, s, hs => by
    rw [OkI] at h
    rcases List.mem_cons.1 hs with hs | hs
    · rw [hs]; exact nf_xp N e h.1
    · exact nf_items N es h.2 s hs

theorem nf_bodies (N : Sym → Prop) : ∀ bs, OkBs N bs → ∀ b ∈ xpBodies bs, NFb (Vis N) b
  | [], _, b, hb => by rw [xpBodies] at hb; cases hb
  | b :: bs, h, b', hb => by
    rw [OkBs] at h
    rw [xpBodies] at hb
    rcases List.mem_cons.1 hb with hb | hb
    · rw [hb]; exact body_nf (.inr (.inr (.inr rfl))) (nf_items N b h.1.2.2) h.1.1 h.1.2.1
    · exact nf_bodies N bs h.2 b' hb

theorem nf_thens (N : Sym → Prop) : ∀ bs, OkBs N bs → ∀ rb, NFl (Vis N) (xpThens rb bs)
  | [], _, rb => by rw [xpThens, NFl]; trivial
  | [] :: bs, h, rb => by
    rw [OkBs] at h
    cases h.1.1
  | (e :: es) :: bs, h, rb => by
    rw [OkBs, OkI] at h
    obtain ⟨⟨h4, h5, h6⟩, h7⟩ := h
    have he := nf_xp N e h6.1
    have hes := nf_items N es h6.2
    have hb := body_nf (V := Vis N) (.inr (.inr (.inr rfl))) (body := e :: es) (by intro s hs; rcases List.mem_cons.1 hs with rfl | hs; exact he; exact hes s hs) h4 h5
    rw [xpThens, NFl]
    refine ⟨NFb.thenE (fun hes => ?_) hb, nf_thens N bs h7 rb⟩
    subst hes
    exact he.1 (by simpa [endsExpr] using h4) rb

end

end Minim.Exp
