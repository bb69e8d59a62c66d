import Verif.SxSpec
import Mathlib.Tactic.Linarith
import Mathlib.Tactic.SplitIfs

set_option autoImplicit false

/-! # Lemmas about matching -/

namespace Minim.Sc

@[simp] theorem ok_bind {α β : Type} (a : α) (f : α → Res β) : (Res.ok a >>= f) = f a := rfl
@[simp] theorem err_bind {α β : Type} (f : α → Res β) : ((Res.err : Res α) >>= f) = Res.err := rfl

/-! ### lists and syntax objects -/

@[simp] theorem rawList_listV (l : List V) : rawList (listV l) = some l := by
  induction l with
  | nil => rfl
  | cons x xs ih => simp [listV, rawList, ih]

theorem rawList_some {v : V} {l : List V} (h : rawList v = some l) : v = listV l := by
  induction v generalizing l with
  | null => simp [rawList] at h; subst h; rfl
  | cons a d _ ih =>
    simp only [rawList, Option.map_eq_some_iff] at h
    obtain ⟨l', h1, rfl⟩ := h
    rw [ih h1]; rfl
  | _ => simp [rawList] at h

@[simp] theorem isList_listV (l : List V) : isList (listV l) = true := by simp [isList]

theorem isList_iff {v : V} : isList v = true ↔ ∃ l, v = listV l := by
  constructor
  · intro h
    obtain ⟨l, hl⟩ := Option.isSome_iff_exists.1 h
    exact ⟨l, rawList_some hl⟩
  · rintro ⟨l, rfl⟩; simp

theorem listV_inj {l l' : List V} (h : listV l = listV l') : l = l' := by
  have := congrArg rawList h; simpa using this

theorem listV_ne_fls (l : List V) : listV l ≠ .fls := by cases l <;> simp [listV]

theorem appV_null (l : List V) : appV l .null = listV l := by
  induction l with
  | nil => rfl
  | cons x xs ih => simp only [appV, List.foldr_cons] at *; rw [ih]; rfl

@[simp] theorem appV_nil (r : V) : appV [] r = r := rfl
@[simp] theorem appV_cons (x : V) (l : List V) (r : V) : appV (x :: l) r = .cons x (appV l r) := rfl

theorem appV_listV (l l' : List V) : appV l (listV l') = listV (l ++ l') := by
  induction l with
  | nil => rfl
  | cons x xs ih => simp [listV, ih]

theorem spine_appV (l : List V) (r : V) : spine (appV l r) = l.length + spine r := by
  induction l with
  | nil => simp
  | cons x xs ih => simp [spine, ih]; omega

theorem elems_appV (l : List V) (r : V) : elems (appV l r) = l ++ elems r := by
  induction l with
  | nil => simp
  | cons x xs ih => simp [elems, ih]

theorem isList_appV (l : List V) (r : V) : isList (appV l r) = isList r := by
  induction l with
  | nil => rfl
  | cons x xs ih => rw [appV_cons, ← ih]; simp [isList, rawList]

@[simp] theorem isList_cons (a d : V) : isList (.cons a d) = isList d := by simp [isList, rawList]

@[simp] theorem elems_listV (l : List V) : elems (listV l) = l := by
  induction l with
  | nil => rfl
  | cons x xs ih => simp [listV, elems, ih]

@[simp] theorem spine_listV (l : List V) : spine (listV l) = l.length := by
  induction l with
  | nil => rfl
  | cons x xs ih => simp [listV, spine, ih]

theorem appV_inj {l l' : List V} {r r' : V} (h : appV l r = appV l' r') (hs : spine r = spine r') : l = l' ∧ r = r' := by
  induction l generalizing l' with
  | nil =>
    cases l' with
    | nil => exact ⟨rfl, h⟩
    | cons x xs =>
      have := congrArg spine h
      rw [spine_appV, spine_appV] at this
      simp at this; omega
  | cons x xs ih =>
    cases l' with
    | nil =>
      have := congrArg spine h
      rw [spine_appV, spine_appV] at this
      simp at this; omega
    | cons y ys =>
      simp at h
      obtain ⟨h1, h2⟩ := ih h.2
      exact ⟨by rw [h.1, h1], h2⟩

mutual
theorem toSyntax_idem (d : V) : toSyntax (toSyntax d) = toSyntax d := by
  cases d <;> simp [toSyntax]
end

theorem isStx_toSyntax (d : V) : isStx (toSyntax d) = true := by cases d <;> simp [toSyntax, isStx]

theorem pairTail_idem (d : V) : pairTail (pairTail d) = pairTail d := by
  induction d with
  | cons a d _ ih => simp [pairTail, toSyntax_idem, ih]
  | _ => simp [pairTail]

theorem patTail_pairTail (d : V) : patTail (pairTail d) = toSyntax d := by
  cases d <;> simp [pairTail, patTail, isStx, toSyntax, toSyntax_idem, pairTail_idem]

theorem toSyntax_pairTail (d : V) : toSyntax (pairTail d) = toSyntax d := by
  cases d <;> simp [pairTail, toSyntax, toSyntax_idem, pairTail_idem]

theorem pairTail_toSyntax (d : V) : pairTail (toSyntax d) = toSyntax d := by
  cases d <;> simp [pairTail, toSyntax]

theorem strip_both {d : V} (h : Pure d) : strip (toSyntax d) = d ∧ strip (pairTail d) = d := by
  induction d with
  | cons a d iha ihd =>
    have h1 := iha h.1; have h2 := ihd h.2
    simp [toSyntax, pairTail, strip, h1, h2]
  | vec es ih =>
    have h1 := ih h.1
    simp [toSyntax, pairTail, strip, h1]
  | stx e => exact absurd h (by simp [Pure])
  | _ => simp [toSyntax, pairTail, strip]

theorem pairTail_appV (l : List V) (r : V) : pairTail (appV l r) = appV (l.map toSyntax) (pairTail r) := by
  induction l with
  | nil => rfl
  | cons x xs ih => simp [pairTail, ih]

theorem pairTail_listV (l : List V) : pairTail (listV l) = listV (l.map toSyntax) := by
  rw [← appV_null, pairTail_appV, ← appV_null]; rfl

theorem isList_pairTail {d : V} (h : Pure d) : isList (pairTail d) = isList d := by
  induction d with
  | cons a d _ ih => simp [pairTail, ih h.2]
  | stx e => exact absurd h (by simp [Pure])
  | _ => simp [pairTail, isList, rawList]

theorem Pure_appV {l : List V} {r : V} : Pure (appV l r) ↔ (∀ a ∈ l, Pure a) ∧ Pure r := by
  induction l with
  | nil => simp
  | cons x xs ih => simp [Pure, ih, and_assoc]

theorem Pure_listV {l : List V} : Pure (listV l) ↔ ∀ a ∈ l, Pure a := by
  rw [← appV_null, Pure_appV]; simp [Pure]

/-! ### the value of a matcher's argument -/

/-- At the head of a list and at the top the argument is a syntax object; at the tail it may be bare. -/
def IsM : Mode → V → V → Prop
  | .tail, d, x => x = pairTail d
  | _, d, x => x = toSyntax d

theorem IsM.is {m : Mode} {d x : V} (h : IsM m d x) : x = toSyntax d ∨ x = pairTail d := by
  cases m <;> simp [IsM] at h <;> simp [h]

theorem IsM.pair {m : Mode} {a b x : V} (h : IsM m (.cons a b) x) :
    stxPair x = true ∧ stxNull x = false ∧ stxCar x = .ok (toSyntax a) ∧ stxCdr x = .ok (pairTail b) := by
  rcases h.is with rfl | rfl <;> simp [toSyntax, pairTail, stxPair, stxNull, stxCar, stxCdr]

theorem IsM.null {m : Mode} {x : V} (h : IsM m .null x) : stxPair x = false ∧ stxNull x = true := by
  rcases h.is with rfl | rfl <;> simp [toSyntax, pairTail, stxPair, stxNull]

theorem IsM.other {m : Mode} {d x : V} (h : IsM m d x) (hp : Pure d) (h1 : d ≠ .null) (h2 : ∀ a b, d ≠ .cons a b) :
    stxPair x = false ∧ stxNull x = false ∧ stxCdr x = .err ∧ stxCar x = .err ∧ x = toSyntax d := by
  cases d with
  | null => exact absurd rfl h1
  | cons a b => exact absurd rfl (h2 a b)
  | stx e => exact absurd hp (by simp [Pure])
  | _ => rcases h.is with rfl | rfl <;> simp [toSyntax, pairTail, stxPair, stxNull, stxCar, stxCdr]

theorem IsM.strip {m : Mode} {d x : V} (h : IsM m d x) (hp : Pure d) : strip x = d := by
  rcases h.is with rfl | rfl
  · exact (strip_both hp).1
  · exact (strip_both hp).2

theorem IsM.flat {m : Mode} {d x : V} (h : IsM m d x) : toSyntax x = toSyntax d := by
  rcases h.is with rfl | rfl
  · exact toSyntax_idem d
  · exact toSyntax_pairTail d

theorem IsM.tail {d : V} : IsM .tail d (pairTail d) := rfl
theorem IsM.head {d : V} : IsM .head d (toSyntax d) := rfl

/-! ### results -/

theorem Bind_append {xs ys : List (Nm × Nat)} {vs ws : List V} {σ : Nm → BV} (h : vs.length = xs.length) :
    Bind (xs ++ ys) (vs ++ ws) σ ↔ Bind xs vs σ ∧ Bind ys ws σ := by
  induction xs generalizing vs with
  | nil =>
    have : vs = [] := List.eq_nil_of_length_eq_zero (by simpa using h)
    subst this; simp [Bind]
  | cons x xs ih =>
    cases vs with
    | nil => simp at h
    | cons v vs =>
      have := ih (vs := vs) (by simpa using h)
      simp only [Bind, List.cons_append, List.forall₂_cons] at *
      rw [this, and_assoc]

theorem Shaped.length {xs : List (Nm × Nat)} {vs : List V} (h : Shaped xs vs) : vs.length = xs.length := h.length_eq.symm

theorem Shaped.append {xs ys : List (Nm × Nat)} {vs ws : List V} (h : Shaped xs vs) (h' : Shaped ys ws) : Shaped (xs ++ ys) (vs ++ ws) := by
  induction h with
  | nil => exact h'
  | cons h1 _ ih => exact .cons h1 ih

theorem Fit.no {P : (Nm → BV) → Prop} {xs : List (Nm × Nat)} (h : ∀ σ, ¬ P σ) : Fit P xs .fls := .inl ⟨rfl, h⟩

theorem Fit.congr {P Q : (Nm → BV) → Prop} {xs : List (Nm × Nat)} {v : V} (h : Fit P xs v) (hq : ∀ σ, P σ ↔ Q σ) : Fit Q xs v := by
  rcases h with ⟨h1, h2⟩ | ⟨vs, h1, h2, h3⟩
  · exact .inl ⟨h1, fun σ hσ => h2 σ ((hq σ).2 hσ)⟩
  · exact .inr ⟨vs, h1, h2, fun σ => (hq σ).symm.trans (h3 σ)⟩

theorem Fit.one {P : (Nm → BV) → Prop} (h : ∀ σ, P σ) : Fit P [] .null :=
  .inr ⟨[], rfl, .nil, fun σ => by simp [Bind, h σ]⟩

theorem Fit.var {x : Nm} {v d : V} (h : strip v = d) (hf : toSyntax v = toSyntax d) : Fit (fun σ => σ x = .leaf d) [(x, 0)] (.cons v .null) :=
  .inr ⟨[v], rfl, .cons (by rw [Shape, hf, h]) .nil, fun σ => by simp [Bind, bv, h]⟩

theorem appendF_listV (vs ws : List V) : appendF (listV vs) (listV ws) = .ok (listV (vs ++ ws)) := by
  unfold appendF
  rw [if_neg (listV_ne_fls _), if_neg (listV_ne_fls _)]
  split_ifs with h
  · have : ws = [] := by cases ws with | nil => rfl | cons _ _ => simp [listV] at h
    subst this; simp
  · simp [append2]

theorem Fit.and {P Q : (Nm → BV) → Prop} {xs ys : List (Nm × Nat)} {v w : V} (h1 : Fit P xs v) (h2 : Fit Q ys w) :
    ∃ u, appendF v w = .ok u ∧ Fit (fun σ => P σ ∧ Q σ) (xs ++ ys) u := by
  rcases h1 with ⟨rfl, h1⟩ | ⟨vs, rfl, hl, h1⟩
  · exact ⟨.fls, by simp [appendF], Fit.no fun σ h => h1 σ h.1⟩
  rcases h2 with ⟨rfl, h2⟩ | ⟨ws, rfl, hl', h2⟩
  · exact ⟨.fls, by simp [appendF], Fit.no fun σ h => h2 σ h.2⟩
  refine ⟨_, appendF_listV vs ws, .inr ⟨vs ++ ws, rfl, hl.append hl', fun σ => ?_⟩⟩
  rw [Bind_append hl.length]
  exact and_congr (h1 σ) (h2 σ)

/-! ### transposition -/

/-- the assignment that a row of values stands for -/
def rowσ : List (Nm × Nat) → List V → Nm → BV
  | (x, k) :: xs, v :: vs, y => if y = x then bv k v else rowσ xs vs y
  | _, _, _ => .leaf .null

theorem rowσ_bind {xs : List (Nm × Nat)} (hn : (xs.map Prod.fst).Nodup) {vs : List V} (hl : vs.length = xs.length) :
    Bind xs vs (rowσ xs vs) := by
  suffices H : ∀ τ : Nm → BV, (∀ y ∈ xs.map Prod.fst, τ y = rowσ xs vs y) → Bind xs vs τ from H _ fun _ _ => rfl
  induction xs generalizing vs with
  | nil =>
    intro τ _
    have : vs = [] := List.eq_nil_of_length_eq_zero (by simpa using hl)
    subst this; exact List.Forall₂.nil
  | cons xk xs ih =>
    intro τ hτ
    obtain ⟨x, k⟩ := xk
    cases vs with
    | nil => simp at hl
    | cons v vs =>
      simp only [List.map_cons, List.nodup_cons] at hn
      refine List.Forall₂.cons ?_ (ih hn.2 (by simpa using hl) τ ?_)
      · simpa [rowσ] using hτ x (by simp)
      · intro y hy
        have := hτ y (List.mem_cons_of_mem _ hy)
        have hne : y ≠ x := fun h => hn.1 (h ▸ hy)
        simpa [rowσ, hne] using this

theorem bind_det {xs : List (Nm × Nat)} (hn : (xs.map Prod.fst).Nodup) {vs : List V} {τ : Nm → BV} (h : Bind xs vs τ) :
    ∀ y ∈ xs.map Prod.fst, τ y = rowσ xs vs y := by
  induction xs generalizing vs with
  | nil => simp
  | cons xk xs ih =>
    obtain ⟨x, k⟩ := xk
    cases h with
    | cons h1 h2 =>
      simp only [List.map_cons, List.nodup_cons] at hn
      intro y hy
      rcases List.mem_cons.1 hy with rfl | hy
      · simpa [rowσ] using h1
      · have hne : y ≠ x := fun h => hn.1 (h ▸ hy)
        simpa [rowσ, hne] using ih hn.2 h2 y hy

theorem headsTails_ok {n : Nat} {rows : List (List V)} (h : ∀ r ∈ rows, r.length = n + 1) :
    ∃ hs ts, headsTails rows = some (hs, ts) ∧ (∀ t ∈ ts, t.length = n) ∧ List.Forall₂ (fun r (ht : V × List V) => r = ht.1 :: ht.2) rows (hs.zip ts) ∧
      hs.length = rows.length ∧ ts.length = rows.length := by
  induction rows with
  | nil => exact ⟨[], [], rfl, by simp, .nil, rfl, rfl⟩
  | cons r rows ih =>
    obtain ⟨hs, ts, h1, h2, h3, h4, h5⟩ := ih fun r hr => h r (List.mem_cons_of_mem _ hr)
    cases r with
    | nil => have := h [] (by simp); simp at this
    | cons x xs =>
      refine ⟨x :: hs, xs :: ts, by simp [headsTails, h1], ?_, ?_, by simp [h4], by simp [h5]⟩
      · intro t ht
        rcases List.mem_cons.1 ht with rfl | ht
        · simpa using h (x :: t) (by simp)
        · exact h2 t ht
      · exact .cons rfl h3

theorem mapList_length (n : Nat) (rows : List (List V)) (h : ∀ r ∈ rows, r.length = n) : (mapList n rows).length = n := by
  induction n generalizing rows with
  | zero => simp [mapList]
  | succ n ih =>
    obtain ⟨hs, ts, h1, h2, _⟩ := headsTails_ok h
    simp [mapList, h1, ih ts h2]

theorem mapList_bind {xs : List (Nm × Nat)} (hn : (xs.map Prod.fst).Nodup) (rows : List (List V)) (h : ∀ r ∈ rows, r.length = xs.length) (σ : Nm → BV) :
    Bind (xs.map fun xk => (xk.1, xk.2 + 1)) (mapList xs.length rows) σ ↔
      ∀ x ∈ xs.map Prod.fst, σ x = .many (rows.map fun r => rowσ xs r x) := by
  induction xs generalizing rows with
  | nil => simp [mapList, Bind]
  | cons xk xs ih =>
    obtain ⟨x, k⟩ := xk
    simp only [List.length_cons] at h
    obtain ⟨hs, ts, h1, h2, h3, h4, h5⟩ := headsTails_ok h
    simp only [List.map_cons, List.nodup_cons] at hn
    have IH := ih hn.2 ts h2
    simp only [List.length_cons, mapList, h1, List.map_cons, Bind, List.forall₂_cons, List.mem_cons, forall_eq_or_imp]
    rw [show List.Forall₂ (fun (xk : Nm × Nat) v => σ xk.1 = bv xk.2 v) (xs.map fun xk => (xk.1, xk.2 + 1)) (mapList xs.length ts) ↔ _ from IH]
    have e1 : bv (k + 1) (listV hs) = .many (rows.map fun r => rowσ ((x, k) :: xs) r x) := by
      simp only [bv, rawList_listV, Option.getD_some]
      congr 1
      clear IH h2 h h1
      induction rows generalizing hs ts with
      | nil => simp at h4; simp [h4]
      | cons r rows ihr =>
        cases hs with
        | nil => simp at h4
        | cons a hs =>
          cases ts with
          | nil => simp at h5
          | cons b ts =>
            simp only [List.zip_cons_cons, List.forall₂_cons] at h3
            obtain ⟨rfl, h3⟩ := h3
            simp only [List.map_cons, rowσ, if_true]
            rw [ihr hs ts h3 (by simpa using h4) (by simpa using h5)]
    have e2 : ∀ y ∈ xs.map Prod.fst, (ts.map fun r => rowσ xs r y) = rows.map fun r => rowσ ((x, k) :: xs) r y := by
      intro y hy
      have hne : y ≠ x := fun h => hn.1 (h ▸ hy)
      clear IH h2 h h1 e1
      induction rows generalizing hs ts with
      | nil => simp at h5; simp [h5]
      | cons r rows ihr =>
        cases hs with
        | nil => simp at h4
        | cons a hs =>
          cases ts with
          | nil => simp at h5
          | cons b ts =>
            simp only [List.zip_cons_cons, List.forall₂_cons] at h3
            obtain ⟨rfl, h3⟩ := h3
            simp only [List.map_cons, rowσ, if_neg hne]
            rw [ihr hs ts h3 (by simpa using h4) (by simpa using h5)]
    rw [e1]
    constructor
    · rintro ⟨h6, h7⟩
      exact ⟨h6, fun y hy => by rw [h7 y hy, e2 y hy]⟩
    · rintro ⟨h6, h7⟩
      exact ⟨h6, fun y hy => by rw [h7 y hy, e2 y hy]⟩

theorem mapList_shaped {xs : List (Nm × Nat)} (rows : List (List V)) (h : ∀ r ∈ rows, Shaped xs r) :
    Shaped (xs.map fun xk => (xk.1, xk.2 + 1)) (mapList xs.length rows) := by
  induction xs generalizing rows with
  | nil => exact .nil
  | cons xk xs ih =>
    obtain ⟨x, k⟩ := xk
    have hl : ∀ r ∈ rows, r.length = xs.length + 1 := fun r hr => (h r hr).length
    obtain ⟨hs, ts, h1, h2, h3, h4, h5⟩ := headsTails_ok hl
    have hboth : (∀ a ∈ hs, Shape k a) ∧ ∀ t ∈ ts, Shaped xs t := by
      clear ih h1 h2 hl
      induction rows generalizing hs ts with
      | nil => simp at h4 h5; simp [h4, h5]
      | cons r rows ihr =>
        cases hs with
        | nil => simp at h4
        | cons a hs =>
          cases ts with
          | nil => simp at h5
          | cons b ts =>
            simp only [List.zip_cons_cons, List.forall₂_cons] at h3
            obtain ⟨rfl, h3⟩ := h3
            obtain ⟨g1, g2⟩ := List.forall_mem_cons.1 h
            cases g1 with
            | cons g1 g3 =>
              obtain ⟨i1, i2⟩ := ihr g2 hs ts h3 (by simpa using h4) (by simpa using h5)
              exact ⟨List.forall_mem_cons.2 ⟨g1, i1⟩, List.forall_mem_cons.2 ⟨g3, i2⟩⟩
    simp only [List.length_cons, mapList, h1, List.map_cons]
    exact .cons ⟨hs, rfl, hboth.1⟩ (ih ts hboth.2)

/-- The columns of the rows decide whether all elements match. -/
theorem Fit.rows {α : Type} {Q : α → (Nm → BV) → Prop} {xs : List (Nm × Nat)} (hn : (xs.map Prod.fst).Nodup) {l : List α} {rs : List V}
    (h : List.Forall₂ (fun a r => Fit (Q a) xs r) l rs) (hne : rs ≠ []) :
    ∃ u, applyMapList (listV rs) = .ok u ∧
      Fit (fun σ => ∃ τs : List (Nm → BV), List.Forall₂ Q l τs ∧ ∀ x ∈ xs.map Prod.fst, σ x = .many (τs.map (· x)))
        (xs.map fun xk => (xk.1, xk.2 + 1)) u := by
  by_cases hf : V.fls ∈ rs
  · refine ⟨.fls, ?_, Fit.no ?_⟩
    · unfold applyMapList
      rw [rawList_listV]
      cases rs with
      | nil => exact absurd rfl hne
      | cons r rs =>
        have : ((r :: rs).any fun x => decide (x = V.fls)) = true := by
          rw [List.any_eq_true]; exact ⟨_, hf, by simp⟩
        simp only [this, if_true]
    · rintro σ ⟨τs, hq, hx⟩
      clear hne hx
      induction h generalizing τs with
      | nil => simp at hf
      | cons h1 h2 ih =>
        cases hq with
        | cons q1 q2 =>
          rcases List.mem_cons.1 hf with rfl | hf
          · rcases h1 with ⟨_, h1⟩ | ⟨vs, h1, _⟩
            · exact h1 _ q1
            · exact listV_ne_fls _ h1.symm
          · exact ih hf _ q2
  · obtain ⟨rows, hrows, hq⟩ : ∃ rows : List (List V), rs = rows.map listV ∧
        List.Forall₂ (fun a row => Shaped xs row ∧ ∀ σ, Q a σ ↔ Bind xs row σ) l rows := by
      clear hne
      induction h with
      | nil => exact ⟨[], rfl, .nil⟩
      | cons h1 h2 ih =>
        obtain ⟨rows, rfl, hr⟩ := ih fun h => hf (List.mem_cons_of_mem _ h)
        rcases h1 with ⟨rfl, h1⟩ | ⟨vs, rfl, h3, h4⟩
        · simp at hf
        · exact ⟨vs :: rows, rfl, .cons ⟨h3, h4⟩ hr⟩
    subst hrows
    have hlen : ∀ r ∈ rows, r.length = xs.length := by
      clear hf hne h
      induction hq with
      | nil => simp
      | cons h1 h2 ih =>
        intro r hr
        rcases List.mem_cons.1 hr with rfl | hr
        · exact h1.1.length
        · exact ih r hr
    have hm : ∀ rows : List (List V), (rows.map listV).mapM rawList = some rows := by
      intro rows
      induction rows with
      | nil => rfl
      | cons r rows ih => rw [List.map_cons, List.mapM_cons, rawList_listV, ih]; rfl
    refine ⟨listV (mapList xs.length rows), ?_, .inr ⟨_, rfl, ?_, ?_⟩⟩
    · unfold applyMapList
      rw [rawList_listV]
      cases rows with
      | nil => simp at hne
      | cons r rows =>
        have ha : ((listV r :: rows.map listV).any fun x => decide (x = V.fls)) = false := by
          rw [List.any_eq_false]
          intro x hx
          simp only [List.map_cons] at hf
          intro hd; exact hf (of_decide_eq_true hd ▸ hx)
        have hmm := hm (r :: rows)
        rw [List.map_cons] at hmm
        simp only [List.map_cons, ha, hmm]
        rw [if_neg (by simp), if_pos]
        · rw [hlen r (by simp)]
        · rw [List.all_eq_true]
          intro y hy
          simp [hlen r (by simp), hlen y (List.mem_cons_of_mem _ hy)]
    · refine mapList_shaped rows ?_
      clear hf hne h hlen hm
      induction hq with
      | nil => simp
      | cons h1 _ ih => exact List.forall_mem_cons.2 ⟨h1.1, ih⟩
    · intro σ
      rw [mapList_bind hn rows hlen σ]
      constructor
      · rintro ⟨τs, h1, h2⟩ x hx
        rw [h2 x hx]
        congr 1
        clear h2 hlen hm hf hne h
        induction hq generalizing τs with
        | nil => cases h1; rfl
        | cons q1 q2 ih =>
          cases h1 with
          | cons a1 a2 =>
            simp only [List.map_cons]
            rw [ih _ a2, bind_det hn ((q1.2 _).1 a1) x hx]
      · intro hx
        refine ⟨rows.map (rowσ xs), ?_, fun x hm => by rw [hx x hm]; simp [Function.comp_def]⟩
        clear hx hm hf hne h hlen
        induction hq with
        | nil => exact .nil
        | cons q1 q2 ih => exact .cons ((q1.2 _).2 (rowσ_bind hn q1.1.length)) ih

end Minim.Sc
