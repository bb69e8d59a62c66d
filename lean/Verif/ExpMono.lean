import Verif.Exp

set_option autoImplicit false

/-!
# The expander: more fuel, the same result
-/

namespace Minim.Exp

open Minim.Sx

theorem mapR_le {α β : Type} {f g : α → Res β} (h : ∀ x, Res.Le (f x) (g x)) : ∀ xs, Res.Le (mapR f xs) (mapR g xs)
  | [] => .refl _
  | x :: xs => by
    rw [mapR, mapR]
    exact .bind (h x) fun y => .bind (mapR_le h xs) fun _ => .refl _

theorem expandBinds_le {f g : T → Res T} (h : ∀ x, Res.Le (f x) (g x)) : ∀ seen bs, Res.Le (expandBinds f seen bs) (expandBinds g seen bs)
  | _, [] => .refl _
  | seen, (i, is, v) :: bs => by
    rw [expandBinds, expandBinds]
    exact .ite (.refl _) (.bind (h v) fun _ => .bind (expandBinds_le h _ bs) fun _ => .refl _)

/-- all functions of the expander for expressions -/
structure MonoX (ex : T → Res (List (T → Res T))) (n : Nat) : Prop where
  e : ∀ xs rb e, Res.Le (expandExpr ex n xs rb e) (expandExpr ex (n + 1) xs rb e)
  f : ∀ xs rb s d, Res.Le (expandForm ex n xs rb s d) (expandForm ex (n + 1) xs rb s d)
  l : ∀ xs seen bs, Res.Le (letSyntaxes ex n xs seen bs) (letSyntaxes ex (n + 1) xs seen bs)
  b : ∀ xs es, Res.Le (expandBody ex n xs es) (expandBody ex (n + 1) xs es)
  o : ∀ xs e rest ds, Res.Le (bodyLoop ex n xs e rest ds) (bodyLoop ex (n + 1) xs e rest ds)

theorem monoX (ex : T → Res (List (T → Res T))) : ∀ n, MonoX ex n
  | 0 => ⟨fun _ _ _ => .inl (by rw [expandExpr]), fun _ _ _ _ => .inl (by rw [expandForm]), fun _ _ _ => .inl (by rw [letSyntaxes]), fun _ _ => .inl (by rw [expandBody]),
      fun _ _ _ _ => .inl (by rw [bodyLoop])⟩
  | n + 1 => by
    have ih := monoX ex n
    refine ⟨?_, ?_, ?_, ?_, ?_⟩
    · intro xs rb e
      unfold expandExpr
      split <;> first | exact .refl _ | skip
      · next h => cases h
      · next h =>
        cases h
        split
        · exact .bind (.refl _) fun _ => ih.e _ _ _
        · exact .refl _
      · next h => cases h; exact ih.f _ _ _ _
      · next h => cases h; exact .bind (.refl _) fun _ => .bind (mapR_le (fun x => ih.e _ _ x) _) fun _ => .refl _
    · intro xs rb s d
      unfold expandForm
      dsimp only
      refine .ite (.refl _) (.ite ?_ (.ite ?_ (.ite ?_ (.ite ?_ (.ite ?_ (.ite ?_ (.ite ?_ (.ite (.refl _) ?_))))))))
      · exact .bind (.refl _) fun _ => .bind (ih.l _ _ _) fun _ => .bind (ih.b _ _) fun _ => .refl _
      · exact .bind (.refl _) fun _ => .bind (expandBinds_le (fun x => ih.e _ _ x) _ _) fun _ => .bind (ih.b _ _) fun _ => .refl _
      · exact .bind (.refl _) fun _ => .bind (ih.b _ _) fun _ => .refl _
      · exact .bind (.refl _) fun _ => .bind (mapR_le (fun x => .bind (ih.b _ _) fun _ => .refl _) _) fun _ => .refl _
      · exact .bind (.refl _) fun _ => .bind (mapR_le (fun x => ih.e _ _ x) _) fun _ => .refl _
      · refine .bind (.refl _) fun _ => .ite (.refl _) (.bind (.refl _) fun _ => .ite (.bind (ih.b _ _) fun _ => .refl _) ?_)
        exact .bind (mapR_le (fun x => ih.e _ _ x) _) fun _ => .refl _
      · refine .bind (.refl _) fun es => ?_
        split
        · exact .ite (.bind (ih.e _ _ _) fun _ => .refl _) (.refl _)
        · exact .refl _
      · split
        · exact .bind (.refl _) fun _ => ih.e _ _ _
        · exact .bind (.refl _) fun _ => .bind (mapR_le (fun x => ih.e _ _ x) _) fun _ => .refl _
    · intro xs seen bs
      match bs with
      | [] => rw [letSyntaxes, letSyntaxes]; exact .refl _
      | (i, is, v) :: bs =>
        rw [letSyntaxes, letSyntaxes]
        exact .ite (.refl _) (.bind (ih.e _ _ _) fun _ => .bind (.refl _) fun _ => .ite (ih.l _ _ _) (.refl _))
    · intro xs es
      match es with
      | [] => rw [expandBody, expandBody]; exact .refl _
      | e :: es => rw [expandBody, expandBody]; exact ih.o _ _ _ _
    · intro xs e rest ds
      rw [bodyLoop, bodyLoop]
      refine .bind (ih.e _ _ _) fun e => .ite (.bind (.refl _) fun form => ?_) (.ite (.bind (.refl _) fun form => ?_) (.ite (.bind (.refl _) fun form => ?_) ?_))
      · split
        · exact ih.o _ _ _ _
        · exact .refl _
      · split
        · exact .bind (ih.e _ _ _) fun _ => .refl _
        · exact .refl _
      · split
        · exact .bind (ih.e _ _ _) fun _ => ih.o _ _ _ _
        · exact .refl _
      · split
        · exact .bind (ih.o _ _ _ _) fun _ => .refl _
        · exact ih.o _ _ _ _
        · exact .refl _
        · exact .refl _

variable {ex : T → Res (List (T → Res T))}

theorem expandExpr_le {m n : Nat} (h : m ≤ n) {xs : Xforms} {rb : Bool} {e r : T} (he : expandExpr ex m xs rb e = .ok r) : expandExpr ex n xs rb e = .ok r := by
  induction h with
  | refl => exact he
  | step _ ih => exact ((monoX ex _).e _ _ _).eq_ok ih

theorem expandBody_le {m n : Nat} (h : m ≤ n) {xs : Xforms} {es r : List T} (he : expandBody ex m xs es = .ok r) : expandBody ex n xs es = .ok r := by
  induction h with
  | refl => exact he
  | step _ ih => exact ((monoX ex _).b _ _).eq_ok ih

theorem bodyLoop_le {m n : Nat} (h : m ≤ n) {xs : Xforms} {e : T} {es : List T} {ds : List (T × T)} {r : List T} (he : bodyLoop ex m xs e es ds = .ok r) : bodyLoop ex n xs e es ds = .ok r := by
  induction h with
  | refl => exact he
  | step _ ih => exact ((monoX ex _).o _ _ _ _).eq_ok ih

theorem mapR_fuel_le {m n : Nat} (h : m ≤ n) {xs : Xforms} {rb : Bool} : ∀ {es r : List T}, mapR (expandExpr ex m xs rb) es = .ok r → mapR (expandExpr ex n xs rb) es = .ok r
  | [], _, he => by rw [mapR] at he ⊢; exact he
  | e :: es, r, he => by
    simp only [mapR, Res.bind_eq_ok] at he ⊢
    obtain ⟨y, h1, ys, h2, h3⟩ := he
    exact ⟨y, expandExpr_le h h1, ys, mapR_fuel_le h h2, h3⟩

theorem expandBinds_fuel_le {m n : Nat} (h : m ≤ n) {xs : Xforms} {rb : Bool} : ∀ {bs : List (T × List Sym × T)} {seen : List Sym} {r : List T},
    expandBinds (expandExpr ex m xs rb) seen bs = .ok r → expandBinds (expandExpr ex n xs rb) seen bs = .ok r
  | [], _, _, he => by rw [expandBinds] at he ⊢; exact he
  | (i, is, v) :: bs, seen, r, he => by
    rw [expandBinds] at he ⊢
    split at he
    · cases he
    next hd =>
      rw [if_neg hd]
      simp only [Res.bind_eq_ok] at he ⊢
      obtain ⟨y, h1, ys, h2, h3⟩ := he
      exact ⟨y, expandExpr_le h h1, ys, expandBinds_fuel_le h h2, h3⟩

end Minim.Exp
