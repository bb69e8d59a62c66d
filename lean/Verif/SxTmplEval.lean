import Verif.SxTmplParse

set_option autoImplicit false

/-!
# Templates: evaluation of the instructions yields the instance
-/

namespace Minim.Sc

theorem I_congr {t : Tm} {σ τ : Nm → BV} {d : V} (h : ∀ x ∈ t.names, σ x = τ x) (hi : I t σ d) : I t τ d := by
  induction t generalizing d with
  | var x => simp only [I] at hi ⊢; rw [← h x (by simp [Tm.names]), hi]
  | const a => exact hi
  | nil => exact hi
  | cons t u iht ihu =>
    obtain ⟨a, b, rfl, h1, h2⟩ := hi
    exact ⟨a, b, rfl, iht (fun x hx => h x (by simp [Tm.names, hx])) h1, ihu (fun x hx => h x (by simp [Tm.names, hx])) h2⟩
  | ell t u iht ihu =>
    obtain ⟨l, r, rfl, h1, τs, h2, h3, x, hx, bs, h4⟩ := hi
    refine ⟨l, r, rfl, ihu (fun x hx => h x (by simp [Tm.names, hx])) h1, τs, h2, fun y hy => ?_, x, hx, bs, ?_⟩
    · rw [← h y (by simp [Tm.names, hy])]; exact h3 y hy
    · rw [← h x (by simp [Tm.names, hx]), h4]
  | vec t iht =>
    obtain ⟨es, rfl, h1⟩ := hi
    exact ⟨es, rfl, iht h h1⟩

theorem strip_to (v : V) : strip (toSyntax v) = strip v ∧ strip (pairTail v) = strip v := by
  induction v with
  | cons a d iha ihd => simp [toSyntax, pairTail, strip, iha, ihd]
  | vec es ih => simp [toSyntax, pairTail, strip, ih]
  | _ => exact ⟨rfl, rfl⟩

theorem strip_appV (l : List V) (g : V) : strip (appV l g) = appV (l.map strip) (strip g) := by
  induction l with
  | nil => rfl
  | cons a l ih => simp [strip, ih]

/-- the depth of a pattern variable -/
def dpt (gp : GetPat) (x : Nm) : Nat := ((gp x).getD (0, x)).1

/-- Below `k` ellipses the variables `xs` have values that stand for what `σ` says. -/
def Inv (gp : GetPat) (Q : Nm → V → Prop) (k : Nat) (xs : List Nm) (σ : Nm → BV) (ρ : Env) : Prop :=
  ∀ x ∈ xs, ∃ v, ρ x = some v ∧ ShapeQ (Q x) (dpt gp x - k) v ∧ bv (dpt gp x - k) v = σ x

/-- values are flat, those of the variables `xs` also as tails -/
def FlatQ (Q : Nm → V → Prop) (xs : List Nm) : Prop := (∀ x v, Q x v → Flat v) ∧ ∀ x ∈ xs, ∀ v, Q x v → FlatT v

/-- the end of a list is a list -/
def EndL (Q : Nm → V → Prop) (t : Tm) : Prop := t.last = .nil ∨ ∃ x, t.last = .var x ∧ ∀ v, Q x v → isList v = true

theorem FlatQ.mono {Q : Nm → V → Prop} {xs ys : List Nm} (h : FlatQ Q xs) (hs : ∀ x ∈ ys, x ∈ xs) : FlatQ Q ys := ⟨h.1, fun x hx => h.2 x (hs x hx)⟩

theorem runMode_pre (f : V → V → Res V) (arg : V) (pre : List V) (g : V) : runMode f arg pre.length (appV pre g) = (do let r ← f arg g; .ok (appV pre r)) := by
  induction pre with
  | nil =>
    simp only [List.length_nil, appV_nil, runMode]
    cases f arg g <;> rfl
  | cons a pre ih =>
    simp only [List.length_cons, appV_cons, runMode, ih]
    cases f arg g <;> rfl

/-- the outcome for an instruction -/
def OutA (Q : Nm → V → Prop) (t : Tm) (σ : Nm → BV) (r : Res V) : Prop :=
  (∃ v d, r = .ok v ∧ I t σ d ∧ strip v = d ∧ (FlatQ Q t.dotted → Flat v) ∧ (t.proper = true → ∃ l, v = toSyntax (listV l)) ∧ ((∀ x, t ≠ .var x) → isStx v = true)) ∨
  (r = .err ∧ ∀ d, ¬ I t σ d)

/-- the outcome for the elements and the tail of a list -/
def OutB (Q : Nm → V → Prop) (t : Tm) (σ : Nm → BV) (is : List Instr) (tl : Option Instr) (ρ : Env) : Prop :=
  (∃ vs g d, evalIL (insOf is tl) ρ = .ok vs ∧ (∀ pre : List V, runOps (appV pre (baseOf is tl)) (opsOf pre.length is tl) vs = .ok (appV pre g)) ∧
    I t σ d ∧ strip g = d ∧ (FlatQ Q t.dottedTail → FlatT g) ∧ (EndL Q t → isList g = true)) ∨
  (evalIL (insOf is tl) ρ = .err ∧ ∀ d, ¬ I t σ d)

theorem flat_of_tail {v : V} (h : FlatT v) : Flat v := by
  unfold Flat FlatT at *
  rw [← toSyntax_pairTail v, h, toSyntax_pairTail]

theorem flatT_of_list {v : V} (hl : isList v = true) (h : Flat v) : FlatT v := by
  unfold Flat FlatT at *
  cases v with
  | null => rfl
  | cons a d =>
    simp only [strip, toSyntax, V.stx.injEq] at h
    simp only [strip, pairTail, h]
  | _ => simp [isList, rawList] at hl

theorem insOf_cons (i : Instr) (is : List Instr) (tl : Option Instr) : insOf (i :: is) tl = if (constOf i).isSome then insOf is tl else i :: insOf is tl := by
  unfold insOf
  cases h : constOf i <;> simp [h]

theorem evalI_const {i : Instr} {v : V} (h : constOf i = some v) (ρ : Env) : evalI i ρ = .ok (toSyntax v) := by
  cases i <;> simp [constOf] at h
  subst h; rfl

/-- an element that is put into the list -/
theorem cons_out {Q : Nm → V → Prop} {t u : Tm} {σ : Nm → BV} {i : Instr} {is : List Instr} {tl : Option Instr} {ρ : Env} (hi : isAppend i = false)
    (ha : OutA Q t σ (evalI i ρ)) (hb : OutB Q u σ is tl ρ) : OutB Q (.cons t u) σ (i :: is) tl ρ := by
  rcases ha with ⟨v, d, h1, h2, h3, h4, -⟩ | ⟨h1, h2⟩
  · rcases hb with ⟨vs, g, d', g1, g2, g3, g4, g5, g6⟩ | ⟨g1, g2⟩
    · left
      cases hc : constOf i with
      | some w =>
        rw [evalI_const hc] at h1
        cases h1
        refine ⟨vs, .cons w g, .cons d d', by simp [insOf_cons, hc, g1], fun pre => ?_, ⟨d, d', rfl, h2, g3⟩, ?_, fun hf => ?_, fun he => ?_⟩
        · have := g2 (pre ++ [w])
          simp only [baseOf, hc, Option.getD_some, opsOf, Option.isSome_some, if_true]
          have e : ∀ x, appV (pre ++ [w]) x = appV pre (.cons w x) := fun x => by simp [appV]
          rw [e, e] at this
          simpa using this
        · simp [strip, ← h3, g4, (strip_to w).1]
        · have := h4 (hf.mono fun x hx => by simp [Tm.dottedTail, hx])
          have g5 := g5 (hf.mono fun x hx => by simp [Tm.dottedTail, hx])
          unfold Flat at this
          unfold FlatT at g5 ⊢
          rw [toSyntax_idem, (strip_to w).1] at this
          simp [pairTail, strip, this, g5]
        · rw [isList_cons]; exact g6 he
      | none =>
        refine ⟨v :: vs, .cons v g, .cons d d', by simp [insOf_cons, hc, evalIL, h1, g1], fun pre => ?_, ⟨d, d', rfl, h2, g3⟩, by simp [strip, h3, g4], fun hf => ?_, fun he => ?_⟩
        · have := g2 (pre ++ [.sym .under])
          have e : ∀ x, appV (pre ++ [.sym .under]) x = appV pre (.cons (.sym .under) x) := fun x => by simp [appV]
          rw [e, e] at this
          simp only [List.length_append, List.length_singleton] at this
          simp only [baseOf, hc, Option.getD_none, opsOf, Option.isSome_none, Bool.false_eq_true, if_false, hi, runOps, this, ok_bind, runOp, runMode_pre]
        · have := h4 (hf.mono fun x hx => by simp [Tm.dottedTail, hx])
          have g5 := g5 (hf.mono fun x hx => by simp [Tm.dottedTail, hx])
          unfold Flat at this
          unfold FlatT at g5 ⊢
          simp [pairTail, strip, this, g5]
        · rw [isList_cons]; exact g6 he
    · right
      refine ⟨?_, fun x => ?_⟩
      · rw [insOf_cons]
        split_ifs
        · exact g1
        · simp [evalIL, h1, g1]
      · rintro ⟨a, b, rfl, h5, h6⟩
        exact g2 b h6
  · right
    refine ⟨?_, fun x => ?_⟩
    · rw [insOf_cons, if_neg]
      · simp [evalIL, h1]
      · cases hc : constOf i with
        | none => simp
        | some w => rw [evalI_const hc] at h1; simp at h1
    · rintro ⟨a, b, rfl, h5, h6⟩
      exact h2 a h5

/-- a template in the place of a tail -/
theorem tail_out {Q : Nm → V → Prop} {t : Tm} {σ : Nm → BV} {i : Instr} {ρ : Env} (hc : constOf i = none) (ha : OutA Q t σ (evalI i ρ))
    (hf : ∀ v, evalI i ρ = .ok v → I t σ (strip v) → FlatQ Q t.dottedTail → Flat v → FlatT v) (hd : ∀ x ∈ t.dotted, x ∈ t.dottedTail) (hl : ∀ v, evalI i ρ = .ok v → EndL Q t → isList v = true) :
    OutB Q t σ [] (some i) ρ := by
  have hins : insOf [] (some i) = [i] := by simp [insOf, hc]
  rcases ha with ⟨v, d, h1, h2, h3, h4, -⟩ | ⟨h1, h2⟩
  · refine .inl ⟨[v], v, d, by simp [hins, evalIL, h1], fun pre => ?_, h2, h3, fun hq => hf v h1 (h3 ▸ h2) hq (h4 (hq.mono hd)), fun he => hl v h1 he⟩
    simp [baseOf, hc, opsOf, runOps, runOp, runMode_pre]
  · exact .inr ⟨by simp [hins, evalIL, h1], h2⟩

/-- a list is made of its elements and its tail -/
theorem list_out {Q : Nm → V → Prop} {t : Tm} {σ : Nm → BV} {is : List Instr} {tl : Option Instr} {ρ : Env} (hb : OutB Q t σ is tl ρ) (hd : t.dottedTail = t.dotted)
    (hp : t.proper = true → EndL Q t) : OutA Q t σ (evalI (sbO is tl) ρ) := by
  have hall : (is ++ tl.toList).all (fun i => (constOf i).isSome) = true → insOf is tl = [] ∧ ∀ k, opsOf k is tl = [] := by
    intro h
    refine ⟨?_, ?_⟩
    · unfold insOf
      rw [List.filter_eq_nil_iff]
      intro a ha
      rw [List.all_eq_true] at h
      have := h a ha
      simp [Option.isSome_iff_ne_none] at this ⊢
      exact this
    · clear hb hd hp
      induction is with
      | nil =>
        cases tl with
        | none => exact fun _ => rfl
        | some t => intro k; simp at h; simp [opsOf, h]
      | cons i is ih =>
        simp only [List.cons_append, List.all_cons, Bool.and_eq_true] at h
        intro k
        simp [opsOf, h.1, ih h.2 (k + 1)]
  rcases hb with ⟨vs, g, d, h1, h2, h3, h4, h5, h6⟩ | ⟨h1, h2⟩
  · left
    refine ⟨toSyntax g, d, ?_, h3, by rw [(strip_to g).1, h4], fun hf => ?_, fun ht => ?_, fun _ => isStx_toSyntax g⟩
    · unfold sbO
      split_ifs with hc
      · have := h2 []
        rw [(hall hc).2] at this
        simp only [runOps, appV_nil, Res.ok.injEq] at this
        simp [evalI, this]
      · have := h2 []
        simp only [appV_nil, List.length_nil] at this
        simp [evalI, h1, this]
    · have := flat_of_tail (h5 (hd ▸ hf))
      unfold Flat at *
      rw [toSyntax_idem, (strip_to g).1, this]
    · obtain ⟨l, rfl⟩ := isList_iff.1 (h6 (hp ht))
      exact ⟨l, rfl⟩
  · right
    refine ⟨?_, h2⟩
    unfold sbO
    split_ifs with hc
    · rw [(hall hc).1] at h1; simp [evalIL] at h1
    · simp [evalI, h1]

/-! ### ellipses -/

theorem headsTails_cols (N : List Nm) (col : Nm → List V) (n : Nat) (h : ∀ x ∈ N, (col x).length = n + 1) :
    headsTails (N.map col) = some (N.map fun x => (col x).headD .null, N.map fun x => (col x).tail) := by
  induction N with
  | nil => rfl
  | cons x N ih =>
    have hx := h x (by simp)
    rw [List.map_cons]
    cases hc : col x with
    | nil => simp [hc] at hx
    | cons a l => simp [headsTails, ih fun y hy => h y (List.mem_cons_of_mem _ hy), hc]

theorem bindRow_cols (ρ : Env) (N : List Nm) (f : Nm → V) (y : Nm) : bindRow ρ N (N.map f) y = if y ∈ N then some (f y) else ρ y := by
  induction N generalizing ρ with
  | nil => simp [bindRow]
  | cons x N ih =>
    rw [List.map_cons, bindRow, ih]
    by_cases hy : y ∈ N
    · simp [hy]
    · by_cases hx : y = x
      · subst hx; simp [hy, upd_same]
      · simp [hy, hx, upd_other]

theorem lookups_cols (ρ : Env) (N : List Nm) (f : Nm → V) (h : ∀ x ∈ N, ρ x = some (f x)) : lookups ρ N = .ok (N.map f) := by
  induction N with
  | nil => rfl
  | cons x N ih => simp [lookups, h x (by simp), ih fun y hy => h y (List.mem_cons_of_mem _ hy)]

theorem mapM_cols (N : List Nm) (col : Nm → List V) : (N.map fun x => listV (col x)).mapM rawList = some (N.map col) := by
  induction N with
  | nil => rfl
  | cons x N ih => rw [List.map_cons, List.mapM_cons, rawList_listV, ih]; rfl

/-- the assignments of the elements of an ellipsis agree with the values and with the assignment outside -/
def Rows (gp : GetPat) (k : Nat) (t : Tm) (N : List Nm) (σ : Nm → BV) (col : Nm → List V) (τs : List (Nm → BV)) : Prop :=
  (∀ x ∈ N, τs.map (· x) = (col x).map (bv (dpt gp x - (k + 1)))) ∧ ∀ x ∈ t.names, x ∉ N → ∀ τ ∈ τs, τ x = σ x

theorem rows_out (gp : GetPat) (Q : Nm → V → Prop) (k : Nat) (t : Tm) (i : Instr) (N : List Nm) (hN : N ≠ []) (σ : Nm → BV) (ρ : Env)
    (ih : ∀ τ ρ', Inv gp Q (k + 1) t.names τ ρ' → OutA Q t τ (evalI i ρ'))
    (hun : ∀ x ∈ t.names, x ∉ N → dpt gp x ≤ k) (hinv : Inv gp Q k t.names σ ρ) :
    ∀ (n : Nat) (col : Nm → List V), (∀ x ∈ N, (col x).length = n) → (∀ x ∈ N, ∀ a ∈ col x, ShapeQ (Q x) (dpt gp x - (k + 1)) a) →
      (∃ ys τs, mapRows (fun row => evalI i (bindRow ρ N row)) n (N.map col) = .ok ys ∧ List.Forall₂ (I t) τs (ys.map strip) ∧ (FlatQ Q t.dotted → ∀ y ∈ ys, Flat y) ∧
        Rows gp k t N σ col τs) ∨
      (mapRows (fun row => evalI i (bindRow ρ N row)) n (N.map col) = .err ∧ ∀ τs ds, List.Forall₂ (I t) τs ds → ¬ Rows gp k t N σ col τs) := by
  intro n
  induction n with
  | zero =>
    intro col hl hs
    refine .inl ⟨[], [], rfl, .nil, by simp, ?_, by simp⟩
    intro x hx
    have : col x = [] := List.eq_nil_of_length_eq_zero (hl x hx)
    simp [this]
  | succ n ihn =>
    intro col hl hs
    have hcol : ∀ x ∈ N, col x = (col x).headD .null :: (col x).tail := by
      intro x hx
      cases hc : col x with
      | nil => have := hl x hx; simp [hc] at this
      | cons a l => simp
    let τ0 : Nm → BV := fun x => if x ∈ N then bv (dpt gp x - (k + 1)) ((col x).headD .null) else σ x
    have hinv0 : Inv gp Q (k + 1) t.names τ0 (bindRow ρ N (N.map fun x => (col x).headD .null)) := by
      intro x hx
      rw [bindRow_cols]
      by_cases hm : x ∈ N
      · refine ⟨(col x).headD .null, by simp [hm], hs x hm _ ?_, by simp [τ0, hm]⟩
        rw [hcol x hm]; simp
      · obtain ⟨v, h1, h2, h3⟩ := hinv x hx
        have := hun x hx hm
        have e : dpt gp x - (k + 1) = dpt gp x - k := by omega
        rw [e]
        exact ⟨v, by simp [hm, h1], h2, by simp [τ0, hm, h3]⟩
    have htail : ∀ x ∈ N, ((col x).tail).length = n := fun x hx => by rw [List.length_tail, hl x hx]; rfl
    have hstail : ∀ x ∈ N, ∀ a ∈ (col x).tail, ShapeQ (Q x) (dpt gp x - (k + 1)) a := fun x hx a ha => hs x hx a (List.mem_of_mem_tail ha)
    simp only [mapRows, headsTails_cols N col n hl]
    have hsplit : ∀ τ τs, Rows gp k t N σ col (τ :: τs) ↔ (∀ x ∈ t.names, (x ∈ N ∨ x ∉ N) → (x ∈ N → τ x = τ0 x) ∧ (x ∉ N → τ x = σ x)) ∧ (∀ x ∈ N, τ x = τ0 x) ∧
        Rows gp k t N σ (fun x => (col x).tail) τs := by
      intro τ τs
      constructor
      · rintro ⟨h1, h2⟩
        have h3 : ∀ x ∈ N, τ x = τ0 x ∧ τs.map (· x) = ((col x).tail).map (bv (dpt gp x - (k + 1))) := by
          intro x hx
          have := h1 x hx
          rw [hcol x hx] at this
          simp only [List.map_cons, List.cons.injEq, List.tail_cons, List.headD_cons] at this
          exact ⟨by simp only [τ0, hx, if_true]; exact this.1, this.2⟩
        refine ⟨fun x hx _ => ⟨fun hm => (h3 x hm).1, fun hm => h2 x hx hm τ (by simp)⟩, fun x hx => (h3 x hx).1, fun x hx => (h3 x hx).2, fun x hx hm τ' hτ => h2 x hx hm τ' (List.mem_cons_of_mem _ hτ)⟩
      · rintro ⟨h1, h0, h2, h3⟩
        refine ⟨fun x hx => ?_, fun x hx hm τ' hτ => ?_⟩
        · rw [hcol x hx]
          have a := h0 x hx
          simp only [τ0, hx, if_true] at a
          simp only [List.map_cons, List.tail_cons, List.headD_cons]
          rw [h2 x hx, a]
        · rcases List.mem_cons.1 hτ with rfl | hτ
          · exact (h1 x hx (.inr hm)).2 hm
          · exact h3 x hx hm τ' hτ
    have hcongr : ∀ τ τs, Rows gp k t N σ col (τ :: τs) → ∀ x ∈ t.names, τ x = τ0 x := by
      intro τ τs h x hx
      obtain ⟨h1, _, _⟩ := (hsplit τ τs).1 h
      by_cases hm : x ∈ N
      · exact (h1 x hx (.inl hm)).1 hm
      · rw [(h1 x hx (.inr hm)).2 hm]; simp [τ0, hm]
    have hne : ∀ τs, Rows gp k t N σ col τs → ∃ τ τs', τs = τ :: τs' := by
      intro τs h
      obtain ⟨x, hx⟩ := List.exists_mem_of_ne_nil N hN
      have := congrArg List.length (h.1 x hx)
      rw [List.length_map, List.length_map, hl x hx] at this
      cases τs with
      | nil => simp at this
      | cons τ τs => exact ⟨τ, τs, rfl⟩
    rcases ih τ0 _ hinv0 with ⟨v, d, h1, h2, h3, h4, -⟩ | ⟨h1, h2⟩
    · rcases ihn (fun x => (col x).tail) htail hstail with ⟨ys, τs, g1, g2, g3, g4⟩ | ⟨g1, g2⟩
      · refine .inl ⟨v :: ys, τ0 :: τs, by simp only [h1, g1, ok_bind], .cons (h3 ▸ h2) g2, fun hf => List.forall_mem_cons.2 ⟨h4 hf, g3 hf⟩, (hsplit τ0 τs).2 ⟨?_, fun _ _ => rfl, g4⟩⟩
        exact fun x _ _ => ⟨fun _ => rfl, fun hm => by simp [τ0, hm]⟩
      · refine .inr ⟨by simp only [h1, g1, ok_bind, err_bind], fun τs ds hI hr => ?_⟩
        obtain ⟨τ, τs, rfl⟩ := hne τs hr
        cases hI with
        | cons a b => exact g2 _ _ b ((hsplit τ τs).1 hr).2.2
    · refine .inr ⟨by simp only [h1, err_bind], fun τs ds hI hr => ?_⟩
      obtain ⟨τ, τs', rfl⟩ := hne τs hr
      cases hI with
      | cons a b => exact h2 _ (I_congr (hcongr τ τs' hr) a)

/-- the conditions on the assignments of the elements in the specification -/
def EllOK (t : Tm) (σ : Nm → BV) (τs : List (Nm → BV)) : Prop :=
  (∀ x ∈ t.names, σ x = .many (τs.map (· x)) ∨ ∃ b, σ x = .leaf b ∧ ∀ τ ∈ τs, τ x = .leaf b) ∧ ∃ x ∈ t.names, ∃ bs, σ x = .many bs

theorem ell_out (gp : GetPat) (Q : Nm → V → Prop) (k : Nat) (t : Tm) (i : Instr) (σ : Nm → BV) (ρ : Env)
    (ih : ∀ τ ρ', Inv gp Q (k + 1) t.names τ ρ' → OutA Q t τ (evalI i ρ')) (hmap : ∃ x ∈ t.names, k < dpt gp x) (hinv : Inv gp Q k t.names σ ρ) :
    (∃ ys τs, evalI (apC gp t k i) ρ = .ok (listV ys) ∧ List.Forall₂ (I t) τs (ys.map strip) ∧ (FlatQ Q t.dotted → ∀ y ∈ ys, Flat y) ∧ EllOK t σ τs) ∨
    (evalI (apC gp t k i) ρ = .err ∧ ∀ τs ds, List.Forall₂ (I t) τs ds → ¬ EllOK t σ τs) := by
  have hnames : ((t.vds gp).filter fun v => v.depth > k).map VD.name = t.names.filter fun x => k < dpt gp x := by
    unfold Tm.vds
    induction t.names with
    | nil => rfl
    | cons x xs ih =>
      simp only [List.map_cons, List.filter_cons]
      by_cases hx : k < dpt gp x
      · have : decide (((gp x).getD (0, x)).1 > k) = true := by simpa [dpt] using hx
        simp only [this, if_true, List.map_cons, ih, hx, decide_true]
      · have : decide (((gp x).getD (0, x)).1 > k) = false := by simpa [dpt] using hx
        simp only [this, Bool.false_eq_true, if_false, ih, hx, decide_false]
  set N := t.names.filter fun x => k < dpt gp x with hNdef
  have hmem : ∀ x, x ∈ N ↔ x ∈ t.names ∧ k < dpt gp x := fun x => by simp [hNdef]
  let col : Nm → List V := fun x => ((ρ x).bind rawList).getD []
  have hcol : ∀ x ∈ N, ρ x = some (listV (col x)) ∧ (∀ a ∈ col x, ShapeQ (Q x) (dpt gp x - (k + 1)) a) ∧ σ x = .many ((col x).map (bv (dpt gp x - (k + 1)))) := by
    intro x hx
    obtain ⟨h1, h2⟩ := (hmem x).1 hx
    obtain ⟨v, h3, h4, h5⟩ := hinv x h1
    obtain ⟨r, hr⟩ : ∃ r, dpt gp x - k = r + 1 := ⟨dpt gp x - k - 1, by omega⟩
    have hr' : dpt gp x - (k + 1) = r := by omega
    rw [hr] at h4 h5
    rw [hr']
    obtain ⟨l, rfl, hl⟩ := h4
    have : col x = l := by simp [col, h3]
    rw [this]
    exact ⟨h3, hl, by rw [← h5]; simp [bv]⟩
  have hleaf : ∀ x ∈ t.names, x ∉ N → dpt gp x ≤ k ∧ ∃ b, σ x = .leaf b := by
    intro x hx hm
    have hk : dpt gp x ≤ k := by
      by_contra hc
      exact hm ((hmem x).2 ⟨hx, by omega⟩)
    obtain ⟨v, _, _, h5⟩ := hinv x hx
    have e : dpt gp x - k = 0 := by omega
    rw [e] at h5
    exact ⟨hk, strip v, h5.symm⟩
  have hN : N ≠ [] := by
    obtain ⟨x, hx, hk⟩ := hmap
    intro h
    have := (hmem x).2 ⟨hx, hk⟩
    rw [h] at this; simp at this
  have hspec : ∀ τs, EllOK t σ τs ↔ Rows gp k t N σ col τs := by
    intro τs
    constructor
    · rintro ⟨h1, _⟩
      refine ⟨fun x hx => ?_, fun x hx hm τ hτ => ?_⟩
      · rcases h1 x ((hmem x).1 hx).1 with h | ⟨b, h, _⟩
        · rw [(hcol x hx).2.2] at h
          exact (BV.many.inj h).symm
        · rw [(hcol x hx).2.2] at h; cases h
      · obtain ⟨_, b, hb⟩ := hleaf x hx hm
        rcases h1 x hx with h | ⟨b', h, h'⟩
        · rw [hb] at h; cases h
        · rw [h' τ hτ, h]
    · rintro ⟨h1, h2⟩
      refine ⟨fun x hx => ?_, ?_⟩
      · by_cases hm : x ∈ N
        · left; rw [(hcol x hm).2.2, h1 x hm]
        · obtain ⟨_, b, hb⟩ := hleaf x hx hm
          exact .inr ⟨b, hb, fun τ hτ => by rw [h2 x hx hm τ hτ, hb]⟩
      · obtain ⟨x, hx, hk⟩ := hmap
        exact ⟨x, hx, _, (hcol x ((hmem x).2 ⟨hx, hk⟩)).2.2⟩
  have heval : evalI (apC gp t k i) ρ = mapCall (fun row => evalI i (bindRow ρ N row)) (N.map fun x => listV (col x)) := by
    simp only [apC, evalI, hnames]
    rw [lookups_cols ρ N (fun x => listV (col x)) fun x hx => (hcol x hx).1, ok_bind]
  obtain ⟨x0, N', hN0⟩ := List.exists_cons_of_ne_nil hN
  by_cases hlen : ∀ x ∈ N, (col x).length = (col x0).length
  · have hm : mapCall (fun row => evalI i (bindRow ρ N row)) (N.map fun x => listV (col x)) =
        (do let ys ← mapRows (fun row => evalI i (bindRow ρ N row)) (col x0).length (N.map col); .ok (listV ys)) := by
      unfold mapCall
      rw [mapM_cols]
      rw [hN0]
      simp only [List.map_cons]
      rw [if_pos]
      rw [List.all_eq_true]
      intro l hl
      obtain ⟨x, hx, rfl⟩ := List.mem_map.1 hl
      simp [hlen x (by rw [hN0]; simp [hx])]
    rcases rows_out gp Q k t i N hN σ ρ ih (fun x hx hm => (hleaf x hx hm).1) hinv _ col hlen (fun x hx => (hcol x hx).2.1) with ⟨ys, τs, h1, h2, h3, h4⟩ | ⟨h1, h2⟩
    · exact .inl ⟨ys, τs, by rw [heval, hm, h1]; rfl, h2, h3, (hspec τs).2 h4⟩
    · exact .inr ⟨by rw [heval, hm, h1]; rfl, fun τs ds hI he => h2 τs ds hI ((hspec τs).1 he)⟩
  · right
    refine ⟨?_, fun τs ds _ he => hlen fun x hx => ?_⟩
    · rw [heval]
      unfold mapCall
      rw [mapM_cols, hN0]
      simp only [List.map_cons]
      rw [if_neg]
      intro hall
      rw [List.all_eq_true] at hall
      refine hlen fun x hx => ?_
      rw [hN0] at hx
      rcases List.mem_cons.1 hx with rfl | hx
      · rfl
      · simpa using hall (col x) (List.mem_map_of_mem hx)
    · obtain ⟨h1, _⟩ := (hspec τs).1 he
      have a := congrArg List.length (h1 x hx)
      have b := congrArg List.length (h1 x0 (by rw [hN0]; simp))
      simp only [List.length_map] at a b
      omega

/-- a sequence that is put into the list -/
theorem append_out {Q : Nm → V → Prop} {t u : Tm} {σ : Nm → BV} {i : Instr} {is : List Instr} {tl : Option Instr} {ρ : Env} (hi : isAppend i = true)
    (he : EndL Q u) (hb : OutB Q u σ is tl ρ)
    (ha : (∃ ys τs, evalI i ρ = .ok (listV ys) ∧ List.Forall₂ (I t) τs (ys.map strip) ∧ (FlatQ Q t.dotted → ∀ y ∈ ys, Flat y) ∧ EllOK t σ τs) ∨
      (evalI i ρ = .err ∧ ∀ τs ds, List.Forall₂ (I t) τs ds → ¬ EllOK t σ τs)) : OutB Q (.ell t u) σ (i :: is) tl ρ := by
  have hc : constOf i = none := by cases i <;> simp [isAppend] at hi <;> rfl
  rcases ha with ⟨ys, τs, h1, h2, h3, h4⟩ | ⟨h1, h2⟩
  · rcases hb with ⟨vs, g, d, g1, g2, g3, g4, g5, g6⟩ | ⟨g1, g2⟩
    · left
      refine ⟨listV ys :: vs, appV ys g, appV (ys.map strip) d, by simp [insOf_cons, hc, evalIL, h1, g1], fun pre => ?_, ⟨_, _, rfl, g3, τs, h2, h4.1, h4.2⟩, by rw [strip_appV, g4], fun hf => ?_, fun _ => by rw [isList_appV]; exact g6 he⟩
      · have := g2 (pre ++ [.sym .under])
        have e : ∀ x, appV (pre ++ [.sym .under]) x = appV pre (.cons (.sym .under) x) := fun x => by simp [appV]
        rw [e, e] at this
        simp only [List.length_append, List.length_singleton] at this
        obtain ⟨l, hl⟩ := isList_iff.1 (g6 he)
        have ha : append2 (listV ys) g = .ok (appV ys g) := by rw [hl, append2, rawList_listV, rawList_listV, appV_listV]
        simp only [baseOf, hc, Option.getD_none, opsOf, Option.isSome_none, Bool.false_eq_true, if_false, hi, if_true, runOps, this, ok_bind, runOp, runMode_pre, ha]
      · have a := h3 (hf.mono fun x hx => by simp [Tm.dottedTail, hx])
        have g5 := g5 (hf.mono fun x hx => by simp [Tm.dottedTail, hx])
        unfold FlatT at g5 ⊢
        rw [pairTail_appV, strip_appV, pairTail_appV, g5, List.map_map]
        congr 1
        exact List.map_congr_left fun y hy => a y hy
    · right
      refine ⟨by simp [insOf_cons, hc, evalIL, h1, g1], fun x => ?_⟩
      rintro ⟨l, r, rfl, h5, _⟩
      exact g2 r h5
  · right
    refine ⟨by simp [insOf_cons, hc, evalIL, h1], fun x => ?_⟩
    rintro ⟨l, r, rfl, h5, τs, h6, h7, h8⟩
    exact h2 τs l h6 ⟨h7, h8⟩

theorem proper_last {t : Tm} (h : t.proper = true) : t.last = .nil := by
  induction t with
  | cons t u _ ih => exact ih h
  | ell t u _ ih => exact ih h
  | nil => rfl
  | _ => simp [Tm.proper] at h

theorem dotted_sub (t : Tm) : ∀ x ∈ t.dotted, x ∈ t.dottedTail := by
  cases t <;> simp [Tm.dotted, Tm.dottedTail]

/-- Evaluation of the instructions of a template yields its instance. -/
theorem eval_out (gp : GetPat) (Q : Nm → V → Prop) (t : Tm) (k : Nat) (h : TWF (depths gp) k t) (hends : ∀ x ∈ t.ends, ∀ v, Q x v → isList v = true)
    (σ : Nm → BV) (ρ : Env) (hinv : Inv gp Q k t.names σ ρ) :
    OutA Q t σ (evalI (famO gp k t).1 ρ) ∧ OutB Q t σ (famO gp k t).2.1 (famO gp k t).2.2 ρ := by
  induction t generalizing k σ ρ with
  | var x =>
    obtain ⟨_, n, hd, hn⟩ := h
    obtain ⟨v, h1, h2, h3⟩ := hinv x (by simp [Tm.names])
    have e : dpt gp x - k = 0 := by
      unfold depths at hd
      cases hg : gp x with
      | none => simp [hg] at hd
      | some p => simp [hg] at hd; simp [dpt, hg, hd]; omega
    rw [e] at h2 h3
    have ha : OutA Q (.var x) σ (evalI (famO gp k (.var x)).1 ρ) :=
      .inl ⟨v, strip v, by simp [fam, evalI, h1], h3.symm, rfl, fun hf => hf.1 x v h2, by simp [Tm.proper], by simp⟩
    refine ⟨ha, tail_out rfl ha (fun w hw _ hf _ => ?_) (dotted_sub _) fun w hw he => ?_⟩
    · simp only [fam, evalI, h1, Res.ok.injEq] at hw
      subst hw
      exact hf.2 x (by simp [Tm.dottedTail]) v h2
    · simp only [fam, evalI, h1, Res.ok.injEq] at hw
      subst hw
      rcases he with he | ⟨y, he, hy⟩
      · simp [Tm.last] at he
      · simp only [Tm.last, Tm.var.injEq] at he
        subst he; exact hy v h2
  | const a =>
    obtain ⟨hat, _⟩ := h
    obtain ⟨a1, a2, a3, a4, a5⟩ := isAtom_syntax hat
    refine ⟨.inl ⟨.stx a, a, by simp [fam, evalI, a1], rfl, by simp [strip, a3], fun _ => by simp [Flat, toSyntax, strip, a3, a1], by simp [Tm.proper], fun _ => rfl⟩, .inl ⟨[], a, a, rfl, fun pre => rfl, rfl, a3, fun _ => by simp [FlatT, a3], ?_⟩⟩
    rintro (he | ⟨x, he, _⟩) <;> simp [Tm.last] at he
  | nil =>
    refine ⟨.inl ⟨.stx .null, .null, rfl, rfl, rfl, fun _ => rfl, fun _ => ⟨[], rfl⟩, fun _ => rfl⟩, .inl ⟨[], .null, .null, rfl, fun pre => rfl, rfl, rfl, fun _ => rfl, fun _ => rfl⟩⟩
  | cons t u iht ihu =>
    obtain ⟨a, _⟩ := iht k h.1 (fun x hx => hends x (by simp [Tm.ends, hx])) σ ρ fun x hx => hinv x (by simp [Tm.names, hx])
    obtain ⟨_, b⟩ := ihu k h.2 (fun x hx => hends x (by simp [Tm.ends, hx])) σ ρ fun x hx => hinv x (by simp [Tm.names, hx])
    have hb := cons_out (famO_notAppend gp k t).1 a b
    exact ⟨list_out hb rfl fun hp => .inl (proper_last hp), hb⟩
  | ell t u iht ihu =>
    obtain ⟨h1, h2, h3, x, hx, n, hn, hk⟩ := h
    have iha : ∀ τ ρ', Inv gp Q (k + 1) t.names τ ρ' → OutA Q t τ (evalI (famO gp (k + 1) t).1 ρ') := fun τ ρ' hi =>
      (iht (k + 1) h1 (fun x hx => hends x (by simp [Tm.ends, hx])) τ ρ' hi).1
    obtain ⟨_, b⟩ := ihu k h2 (fun x hx => hends x (by simp [Tm.ends, hx])) σ ρ fun x hx => hinv x (by simp [Tm.names, hx])
    have hd : dpt gp x = n := by
      unfold depths at hn
      cases hg : gp x with
      | none => simp [hg] at hn
      | some p => simp [hg] at hn; simp [dpt, hg, hn]
    have hell := ell_out gp Q k t (famO gp (k + 1) t).1 σ ρ iha ⟨x, hx, by omega⟩ fun x hx => hinv x (by simp [Tm.names, hx])
    have he : EndL Q u := by
      rcases h3 with h3 | ⟨y, hy⟩
      · exact .inl h3
      · exact .inr ⟨y, hy, fun v hv => hends y (by simp [Tm.ends, hy]) v hv⟩
    have hb := append_out (t := t) rfl he b hell
    exact ⟨list_out hb rfl fun hp => .inl (proper_last hp), hb⟩
  | vec t iht =>
    obtain ⟨a, _⟩ := iht k h.1 hends σ ρ hinv
    have ha : OutA Q (.vec t) σ (evalI (famO gp k (.vec t)).1 ρ) := by
      simp only [fam, evalI]
      rcases a with ⟨v, d, h1, h2, h3, h4, h5, _⟩ | ⟨h1, h2⟩
      · obtain ⟨l, rfl⟩ := h5 h.2
        refine .inl ⟨.stx (.vec (listV (l.map toSyntax))), .vec d, ?_, ⟨d, rfl, h2⟩, ?_, fun hf => ?_, by simp [Tm.proper], fun _ => rfl⟩
        · have e : syntaxE (toSyntax (listV l)) = .ok (listV (l.map toSyntax)) := by
            cases l with
            | nil => rfl
            | cons x l => simp only [listV, toSyntax, syntaxE, pairTail_listV, List.map_cons]
          simp only [h1, ok_bind, templateVector, e, isList_listV, if_true, toSyntax]
          rw [← pairTail_listV, pairTail_idem]
        · rw [(strip_to _).1] at h3
          simp only [strip]
          rw [← pairTail_listV, (strip_to _).2, h3]
        · have := h4 hf
          unfold Flat at this
          rw [toSyntax_idem, (strip_to _).1] at this
          have := flatT_of_list (isList_listV l) this
          unfold FlatT at this
          simp only [Flat, strip, toSyntax]
          rw [← pairTail_listV, (strip_to _).2, this]
      · refine .inr ⟨by simp [h1], fun d => ?_⟩
        rintro ⟨es, rfl, h5⟩
        exact h2 es h5
    refine ⟨ha, tail_out rfl ha (fun v hv hI hf hfl => ?_) (dotted_sub _) fun v hv he => ?_⟩
    · obtain ⟨es, hes, _⟩ := hI
      rcases ha with ⟨w, d, h1, _, h3, _, _, h6⟩ | ⟨h1, _⟩
      · obtain rfl : w = v := Res.ok.inj (h1.symm.trans hv)
        have hs := h6 (by simp)
        unfold Flat at hfl
        unfold FlatT
        rw [hes] at hfl ⊢
        cases w <;> simp [isStx] at hs
        simpa [toSyntax, pairTail] using hfl
      · have hv' := h1.symm.trans hv; cases hv'
    · rcases he with he | ⟨x, he, _⟩ <;> simp [Tm.last] at he

end Minim.Sc
