import Verif.Syntax

set_option autoImplicit false

/-!
# Properties of syntax objects (C41)
-/

namespace Minim.Stx

/-! ### specification -/

/-- the datum contains no syntax object -/
inductive Plain : D → Prop
  | null : Plain .null
  | fls : Plain .fls
  | atom (n : Nat) : Plain (.atom n)
  | cons {a d : D} : Plain a → Plain d → Plain (.cons a d)
  | vec {es : List D} : (∀ e ∈ es, Plain e) → Plain (.vec es)
  | box {d : D} : Plain d → Plain (.box d)

/-- the list datum with the given elements -/
def ofList : List D → D
  | [] => .null
  | d :: ds => .cons d (ofList ds)

/-- no syntax object is the immediate content of another one, anywhere -/
inductive Flat : D → Prop
  | null : Flat .null
  | fls : Flat .fls
  | atom (n : Nat) : Flat (.atom n)
  | cons {a d : D} : Flat a → Flat d → Flat (.cons a d)
  | vec {es : List D} : (∀ e ∈ es, Flat e) → Flat (.vec es)
  | box {d : D} : Flat d → Flat (.box d)
  | stx {e l : D} : Flat e → e.isStx = false → Flat (.stx e l)

/-- every part of a datum that syntax-e can be asked about is wrapped: pairs, vectors and boxes only occur right inside a syntax object,
or as the rest of a list inside one -/
inductive Wrapped : D → Prop
  | atom {n : Nat} : Wrapped (.stx (.atom n) .fls)
  | null : Wrapped (.stx .null .fls)
  | fls : Wrapped (.stx .fls .fls)
  | box {d : D} : Wrapped d → Wrapped (.stx (.box d) .fls)
  | vec {es : List D} : (∀ e ∈ es, Wrapped e) → Wrapped (.stx (.vec es) .fls)
  | list {ds : List D} {tl : D} : (∀ e ∈ ds, Wrapped e) → Wrapped (.stx tl .fls) → tl ≠ .null → (∀ a d, tl ≠ .cons a d) →
      ds ≠ [] → Wrapped (.stx (ds.foldr .cons (.stx tl .fls)) .fls)
  | proper {ds : List D} : (∀ e ∈ ds, Wrapped e) → ds ≠ [] → Wrapped (.stx (ofList ds) .fls)

/-! ### lemmas -/

theorem toSyntaxAll_eq (es : List D) : toSyntaxAll es = es.map toSyntax := by
  induction es with
  | nil => rfl
  | cons d ds ih => rw [toSyntaxAll, ih]; rfl

theorem stripAll_eq (es : List D) : stripAll es = es.map strip := by
  induction es with
  | nil => rfl
  | cons d ds ih => rw [stripAll, ih]; rfl

/-- induction over data with nested element lists -/
theorem D.ind {P : D → Prop} (null : P .null) (fls : P .fls) (atom : ∀ n, P (.atom n)) (cons : ∀ a d, P a → P d → P (.cons a d))
    (vec : ∀ es, (∀ e ∈ es, P e) → P (.vec es)) (box : ∀ d, P d → P (.box d)) (stx : ∀ e l, P e → P l → P (.stx e l)) (d : D) : P d := by
  refine D.rec (motive_1 := P) (motive_2 := fun es => ∀ e ∈ es, P e) null fls atom cons vec box stx ?_ ?_ d
  · intro e he; cases he
  · intro d ds h1 h2 e he
    rcases List.mem_cons.1 he with rfl | he
    · exact h1
    · exact h2 e he

/-- the tail conversion is the conversion, up to one layer of syntax -/
theorem strip_toSyntax_both (d : D) : strip (toSyntax d) = strip d ∧ strip (pairTail d) = strip d := by
  induction d using D.ind with
  | null | fls | atom => simp [toSyntax, pairTail, msyntax, strip]
  | cons a d h1 h2 => simp [toSyntax, pairTail, msyntax, strip, h1.1, h2.2]
  | vec es h =>
    have : stripAll (toSyntaxAll es) = stripAll es := by
      rw [stripAll_eq, toSyntaxAll_eq, stripAll_eq, List.map_map]
      exact List.map_congr_left fun e he => (h e he).1
    simp [toSyntax, pairTail, msyntax, strip, this]
  | box d h => simp [toSyntax, pairTail, msyntax, strip, h.1]
  | stx e l _ _ => simp [toSyntax, pairTail]

theorem strip_plain {d : D} (h : Plain d) : strip d = d := by
  induction h with
  | null | fls | atom => rfl
  | cons _ _ h1 h2 => rw [strip, h1, h2]
  | vec _ ih =>
    rw [strip, stripAll_eq]
    congr 1
    exact (List.map_congr_left ih).trans (List.map_id _)
  | box _ h => rw [strip, h]

theorem plain_strip (d : D) : Plain (strip d) := by
  induction d using D.ind with
  | null => exact .null
  | fls => exact .fls
  | atom n => exact .atom n
  | cons a d h1 h2 => exact .cons h1 h2
  | vec es h =>
    rw [strip, stripAll_eq]
    refine .vec fun e he => ?_
    obtain ⟨x, hx, rfl⟩ := List.mem_map.1 he
    exact h x hx
  | box d h => exact .box h
  | stx e l h _ => exact h

theorem flat_both {d : D} (h : Flat d) : Flat (toSyntax d) ∧ Flat (pairTail d) := by
  induction h with
  | null => exact ⟨.stx .null rfl, .null⟩
  | fls => exact ⟨.stx .fls rfl, .stx .fls rfl⟩
  | atom n => exact ⟨.stx (.atom n) rfl, .stx (.atom n) rfl⟩
  | cons _ _ h1 h2 => exact ⟨.stx (.cons h1.1 h2.2) rfl, .cons h1.1 h2.2⟩
  | vec _ ih =>
    have : ∀ es : List D, (∀ e ∈ es, Flat (toSyntax e) ∧ Flat (pairTail e)) → Flat (.vec (toSyntaxAll es)) := by
      intro es h
      rw [toSyntaxAll_eq]
      refine .vec fun e he => ?_
      obtain ⟨x, hx, rfl⟩ := List.mem_map.1 he
      exact (h x hx).1
    exact ⟨.stx (this _ ih) rfl, .stx (this _ ih) rfl⟩
  | box _ h => exact ⟨.stx (.box h.1) rfl, .stx (.box h.1) rfl⟩
  | stx h1 h2 _ => exact ⟨.stx h1 h2, .stx h1 h2⟩

theorem Plain.flat {d : D} (h : Plain d) : Flat d := by
  induction h with
  | null => exact .null
  | fls => exact .fls
  | atom n => exact .atom n
  | cons _ _ h1 h2 => exact .cons h1 h2
  | vec _ ih => exact .vec ih
  | box _ h => exact .box h

theorem strip_cons_iff {d x y : D} (h : Flat d) : strip d = .cons x y ↔ ∃ a b, stripOnce d = .cons a b ∧ strip a = x ∧ strip b = y := by
  have key : ∀ a b : D, (strip a = x ∧ strip b = y ↔ ∃ a' b', (a = a' ∧ b = b') ∧ strip a' = x ∧ strip b' = y) := fun a b =>
    ⟨fun h => ⟨a, b, ⟨rfl, rfl⟩, h⟩, by rintro ⟨_, _, ⟨rfl, rfl⟩, h⟩; exact h⟩
  cases h with
  | stx h1 h2 =>
    rename_i e l
    cases e with
    | cons a b => simpa [strip, stripOnce] using key a b
    | stx => cases h2
    | _ => simp [strip, stripOnce]
  | cons => simpa [strip, stripOnce] using key _ _
  | _ => simp [strip, stripOnce]

theorem strip_null_iff {d : D} (h : Flat d) : strip d = .null ↔ stripOnce d = .null := by
  cases h with
  | stx h1 h2 =>
    rename_i e l
    cases e <;> simp_all [strip, stripOnce, D.isStx]
  | _ => simp [strip, stripOnce]

theorem listLoop_cons (a d : D) : listLoop (.cons a d) = (listLoop (stripOnce d)).map (a :: ·) := by
  cases d <;> rfl

theorem flat_stripOnce {d : D} (h : Flat d) : Flat (stripOnce d) ∧ (stripOnce d).isStx = false := by
  cases h with
  | stx h1 h2 => exact ⟨h1, h2⟩
  | null => exact ⟨.null, rfl⟩
  | fls => exact ⟨.fls, rfl⟩
  | atom n => exact ⟨.atom n, rfl⟩
  | cons h1 h2 => exact ⟨.cons h1 h2, rfl⟩
  | vec h => exact ⟨.vec h, rfl⟩
  | box h => exact ⟨.box h, rfl⟩

theorem listLoop_spec (xs : List D) : ∀ {d : D}, Flat d → (strip d = ofList xs ↔ ∃ ys, listLoop (stripOnce d) = some ys ∧ ys.map strip = xs) := by
  induction xs with
  | nil =>
    intro d h
    rw [ofList, strip_null_iff h]
    constructor
    · intro e; rw [e]; exact ⟨[], rfl, rfl⟩
    · rintro ⟨ys, h1, h2⟩
      rw [List.map_eq_nil_iff.1 h2] at h1
      have h3 := (flat_stripOnce h).2
      generalize stripOnce d = e at h1 h3
      cases e with
      | cons a d => rw [listLoop_cons] at h1; cases h4 : listLoop (stripOnce d) <;> rw [h4] at h1 <;> simp at h1
      | null => rfl
      | _ => simp [listLoop] at h1
  | cons x xs ih =>
    intro d h
    rw [ofList, strip_cons_iff h]
    constructor
    · rintro ⟨a, b, h1, h2, h3⟩
      have h4 : Flat b := by
        have := (flat_stripOnce h).1; rw [h1] at this
        cases this with | cons _ h => exact h
      obtain ⟨ys, h5, h6⟩ := (ih h4).1 h3
      refine ⟨a :: ys, ?_, ?_⟩
      · rw [h1, listLoop_cons, h5]; rfl
      · rw [List.map_cons, h2, h6]
    · rintro ⟨ys, h1, h2⟩
      have h3 := flat_stripOnce h
      generalize stripOnce d = e at h1 h3
      cases e with
      | cons a b =>
        rw [listLoop_cons] at h1
        have h4 : Flat b := by cases h3.1 with | cons _ h => exact h
        cases h5 : listLoop (stripOnce b) with
        | none => rw [h5] at h1; cases h1
        | some zs =>
          rw [h5] at h1
          simp only [Option.map_some, Option.some.injEq] at h1
          subst h1
          simp only [List.map_cons, List.cons.injEq] at h2
          exact ⟨a, b, rfl, h2.1, (ih h4).2 ⟨zs, h5, h2.2⟩⟩
      | null => simp only [listLoop, Option.some.injEq] at h1; subst h1; cases h2
      | _ => simp [listLoop] at h1

/-! ### C41 -/

/-- C41: `datum->syntax` always returns syntax, and `syntax->datum` undoes it for every datum without syntax in it. -/
theorem C41_inverse (d : D) (h : Plain d) : pSyntaxToDatum (toSyntax d) = .ok d := by
  have h1 : (toSyntax d).isStx = true := by cases d <;> rfl
  rw [pSyntaxToDatum, if_pos h1, (strip_toSyntax_both d).1, strip_plain h]

-- (a #(b) . #&#f)
example : Plain (.cons (.atom 0) (.cons (.vec [.atom 1, .null]) (.box .fls))) ∧
    toSyntax (.cons (.atom 0) (.cons (.vec [.atom 1, .null]) (.box .fls))) =
      .stx (.cons (.stx (.atom 0) .fls) (.cons (.stx (.vec [.stx (.atom 1) .fls, .stx .null .fls]) .fls) (.stx (.box (.stx .fls .fls)) .fls))) .fls := by
  refine ⟨.cons (.atom 0) (.cons (.vec ?_) (.box .fls)), rfl⟩
  intro e he
  simp only [List.mem_cons, List.not_mem_nil, or_false] at he
  rcases he with rfl | rfl
  · exact .atom 1
  · exact .null

/-- C41 for data that contain syntax objects already: wrapping adds nothing that stripping would not remove. -/
theorem C41_mixed (d : D) : pSyntaxToDatum (toSyntax d) = .ok (strip d) ∧ Plain (strip d) := by
  have h1 : (toSyntax d).isStx = true := by cases d <;> rfl
  exact ⟨by rw [pSyntaxToDatum, if_pos h1, (strip_toSyntax_both d).1], plain_strip d⟩

/-- C41: converting syntax to syntax changes nothing, so wrapping twice is wrapping once. -/
theorem C41_idempotent (d : D) : toSyntax (toSyntax d) = toSyntax d := by
  cases d <;> rfl

/-- syntax made by `datum->syntax` (from data in which it has been so) never has syntax as its immediate content -/
theorem C41_flat (d : D) (h : Flat d) : Flat (toSyntax d) := (flat_both h).1

/-- C41: `syntax->list` returns a list exactly when the datum is a proper list, and then the syntax of its elements in order.  `Flat` holds
of all syntax made by `datum->syntax` (`C41_flat`). -/
theorem C41_list (s : D) (hs : s.isStx = true) (h : Flat s) (xs : List D) :
    strip s = ofList xs ↔ ∃ ys, pSyntaxToList s = .ok (some ys) ∧ ys.map strip = xs := by
  rw [listLoop_spec xs h]
  simp only [pSyntaxToList, if_pos hs, syntaxToList, Res.ok.injEq]

/-- C41: otherwise it returns `#f`. -/
theorem C41_list_false (s : D) (hs : s.isStx = true) (h : Flat s) (hl : ∀ xs, strip s ≠ ofList xs) : pSyntaxToList s = .ok none := by
  rw [pSyntaxToList, if_pos hs]
  cases h1 : syntaxToList s with
  | none => rfl
  | some ys => exact absurd ((listLoop_spec (ys.map strip) h).2 ⟨ys, h1, rfl⟩) (hl _)

-- (a . #'(b)) : a list whose tail is a syntax object
example : let s : D := .stx (.cons (.atom 0) (.stx (.cons (.stx (.atom 1) .fls) .null) .fls)) .fls
    s.isStx = true ∧ Flat s ∧ strip s = ofList [.atom 0, .atom 1] ∧ syntaxToList s = some [.atom 0, .stx (.atom 1) .fls] :=
  ⟨rfl, .stx (.cons (.atom 0) (.stx (.cons (.stx (.atom 1) rfl) .null) rfl)) rfl, rfl, rfl⟩

-- an improper list
example : ∀ xs, strip (toSyntax (.cons (.atom 0) (.atom 1))) ≠ ofList xs := by
  intro xs
  match xs with
  | [] => simp [toSyntax, msyntax, strip, ofList]
  | [x] => simp [toSyntax, pairTail, msyntax, strip, ofList]
  | x :: y :: zs => simp [toSyntax, pairTail, msyntax, strip, ofList]

/-- C41 composed: the elements of a wrapped list are the wrapped elements. -/
theorem C41_elements (xs : List D) : pSyntaxToList (toSyntax (ofList xs)) = .ok (some (xs.map toSyntax)) := by
  have h2 : ∀ zs : List D, listLoop (pairTail (ofList zs)) = some (zs.map toSyntax) ∧ (pairTail (ofList zs)).isStx = false := by
    intro zs
    induction zs with
    | nil => exact ⟨rfl, rfl⟩
    | cons z zs ih =>
      refine ⟨?_, rfl⟩
      have : stripOnce (pairTail (ofList zs)) = pairTail (ofList zs) := by cases zs <;> rfl
      rw [ofList, pairTail, listLoop_cons, this, ih.1]; rfl
  cases xs with
  | nil => rfl
  | cons z zs =>
    show Res.ok (listLoop (pairTail (ofList (z :: zs)))) = _
    rw [(h2 (z :: zs)).1]

/-- C41 is false of syntax inside syntax without a layer between (which `datum->syntax` does not make): one layer only is removed. -/
theorem C41_needs_flat : let s : D := .stx (.stx (.cons (.atom 0) .null) .fls) .fls
    strip s = ofList [.atom 0] ∧ pSyntaxToList s = .ok none := ⟨rfl, rfl⟩

/-- C41, wrapping is complete: whatever the datum, every part of the result is a syntax object without location. -/
theorem C41_wrapped (d : D) (h : Plain d) : Wrapped (toSyntax d) := by
  have key : (∀ d, Plain d → Wrapped (toSyntax d) ∧
      ∃ ds : List D, (∀ e ∈ ds, Wrapped e) ∧ (pairTail d = ofList ds ∨
        ∃ tl, Wrapped (.stx tl .fls) ∧ tl ≠ .null ∧ (∀ a d, tl ≠ .cons a d) ∧ pairTail d = ds.foldr .cons (.stx tl .fls))) := by
    intro d h
    induction h with
    | null => exact ⟨.null, [], by simp, Or.inl rfl⟩
    | fls => exact ⟨.fls, [], by simp, Or.inr ⟨.fls, .fls, by simp, by simp, rfl⟩⟩
    | atom n => exact ⟨.atom, [], by simp, Or.inr ⟨.atom n, .atom, by simp, by simp, rfl⟩⟩
    | @cons a d _ _ h1 h2 =>
      obtain ⟨_, ds, h3, h4⟩ := h2
      have h5 : ∀ e ∈ toSyntax a :: ds, Wrapped e := by
        intro e he
        rcases List.mem_cons.1 he with rfl | he
        · exact h1.1
        · exact h3 e he
      have h6 : toSyntax (.cons a d) = .stx (pairTail (.cons a d)) .fls := rfl
      rcases h4 with h4 | ⟨tl, t1, t2, t3, t4⟩
      · have h7 : pairTail (.cons a d) = ofList (toSyntax a :: ds) := by rw [pairTail, h4]; rfl
        refine ⟨?_, toSyntax a :: ds, h5, Or.inl h7⟩
        rw [h6, h7]; exact .proper h5 (by simp)
      · have h7 : pairTail (.cons a d) = (toSyntax a :: ds).foldr .cons (.stx tl .fls) := by rw [pairTail, t4]; rfl
        refine ⟨?_, toSyntax a :: ds, h5, Or.inr ⟨tl, t1, t2, t3, h7⟩⟩
        rw [h6, h7]; exact .list h5 t1 t2 t3 (by simp)
    | @vec es _ ih =>
      have : Wrapped (.stx (.vec (toSyntaxAll es)) .fls) := by
        rw [toSyntaxAll_eq]
        refine .vec fun e he => ?_
        obtain ⟨x, hx, rfl⟩ := List.mem_map.1 he
        exact (ih x hx).1
      exact ⟨this, [], by simp, Or.inr ⟨_, this, by simp, by simp, rfl⟩⟩
    | @box d _ ih =>
      have : Wrapped (.stx (.box (toSyntax d)) .fls) := .box ih.1
      exact ⟨this, [], by simp, Or.inr ⟨_, this, by simp, by simp, rfl⟩⟩
  exact (key d h).1

/-- C41: `syntax->datum` and `syntax->list` are errors exactly on what is not syntax. -/
theorem C41_errors (s : D) : (pSyntaxToDatum s = .err ↔ ∀ e l, s ≠ .stx e l) ∧ (pSyntaxToList s = .err ↔ ∀ e l, s ≠ .stx e l) := by
  cases s <;> simp [pSyntaxToDatum, pSyntaxToList, D.isStx]

end Minim.Stx
