import Verif.EnumS
import Verif.SetProps

set_option autoImplicit false

/-!
# Enumeration sets (C63)

Specification: an enumeration is a list of symbols, a set of it is a predicate on its symbols.
-/

namespace Minim.EnumS

open Minim.Hash Minim.SetS

variable {K : Type}

/-! ### specification -/

/-- enumerations (their symbols in order) and sets (number of the enumeration, elements) -/
structure Abs (K : Type) where
  univs : List (List K)
  sets : List (Nat × (K → Bool))

/-- the set with the given number, and the symbols of its enumeration -/
def Abs.get (a : Abs K) (e : Nat) : Option (Nat × (K → Bool) × List K) :=
  match a.sets[e]? with
  | none => none
  | some (t, p) =>
    match a.univs[t]? with
    | none => none
    | some u => some (t, p, u)

/-- a new enumeration and the set of all its symbols -/
def Abs.enum (eqv : K → K → Bool) (a : Abs K) (xs : List K) : Abs K := ⟨a.univs ++ [xs], a.sets ++ [(a.univs.length, ofList eqv xs)]⟩

/-- a new set of an enumeration -/
def Abs.add (a : Abs K) (t : Nat) (p : K → Bool) : Abs K := { a with sets := a.sets ++ [(t, p)] }

/-- union, intersection, difference -/
def mergeB : Merge → Bool → Bool → Bool
  | .union, x, y => x || y
  | .inter, x, y => x && y
  | .diff, x, y => x && !y

/-- what an operation does; `none`: it is refused -/
def aStep (eqv : K → K → Bool) (sym : K → Bool) (a : Abs K) : Op K → Option (Abs K)
  | .enum xs => if xs.all sym then some (a.enum eqv xs) else none
  | .enumOf e => (a.get e).map fun x => a.enum eqv (x.2.2.filter x.2.1)
  | .univ e => (a.get e).map fun x => a.add x.1 (ofList eqv x.2.2)
  | .construct e xs => if xs.all sym then (a.get e).map fun x => a.add x.1 fun k => ofList eqv x.2.2 k && ofList eqv xs k else none
  | .merge m e f =>
    match a.get e, a.get f with
    | some x, some y => if x.1 = y.1 then some (a.add x.1 fun k => mergeB m (x.2.1 k) (y.2.1 k)) else none
    | _, _ => none
  | .complement e => (a.get e).map fun x => a.add x.1 fun k => ofList eqv x.2.2 k && !x.2.1 k
  | .projection e f =>
    match a.get e, a.get f with
    | some x, some y => some (a.add y.1 fun k => ofList eqv y.2.2 k && x.2.1 k)
    | _, _ => none
  | .assign _ _ => some a

/-- what a program does; an operation that is refused changes nothing -/
def aRun (eqv : K → K → Bool) (sym : K → Bool) : Abs K → List (Op K) → Abs K
  | a, [] => a
  | a, op :: ops => aRun eqv sym ((aStep eqv sym a op).getD a) ops

/-- the program does not assign to the pairs of the lists -/
def Quiet : Op K → Prop
  | .assign _ _ => False
  | _ => True

/-! ### lemmas -/

section
variable {hash : K → Word} {eqv : K → K → Bool} {sym : K → Bool}

theorem keep_spec {f : K → Res Bool} {g : K → Bool} (h : ∀ x, f x = .ok (g x)) : ∀ ys acc : List K, keep f ys acc = .ok (acc.reverse ++ ys.filter g)
  | [], acc => by simp [keep]
  | y :: ys, acc => by
    rw [keep, h, Res.ok_bind, keep_spec h]
    cases hg : g y <;> simp [hg]

/-- a predicate that does not tell equivalent elements apart -/
def Compat (eqv : K → K → Bool) (p : K → Bool) : Prop := ∀ a b, eqv a b = true → p a = p b

theorem ofList_compat (cons : Consistent hash eqv) (xs : List K) : Compat eqv (ofList eqv xs) := by
  intro a b h
  unfold ofList
  rw [Bool.eq_iff_iff, List.any_eq_true, List.any_eq_true]
  constructor
  · rintro ⟨x, hx, h1⟩; exact ⟨x, hx, cons.trans _ _ _ h1 h⟩
  · rintro ⟨x, hx, h1⟩; exact ⟨x, hx, cons.trans _ _ _ h1 (cons.symm _ _ h)⟩

theorem ofList_filter {u : List K} {p : K → Bool} (cp : Compat eqv p) (sub : ∀ k, p k = true → ofList eqv u k = true) : ofList eqv (u.filter p) = p := by
  funext k
  rw [Bool.eq_iff_iff]
  unfold ofList at sub ⊢
  rw [List.any_eq_true]
  constructor
  · rintro ⟨x, hx, h⟩
    rw [← cp _ _ h]
    exact (List.mem_filter.1 hx).2
  · intro hk
    obtain ⟨x, hx, h⟩ := List.any_eq_true.1 (sub k hk)
    exact ⟨x, List.mem_filter.2 ⟨hx, by rw [cp _ _ h]; exact hk⟩, h⟩

theorem filter_ofList (cons : Consistent hash eqv) (u : List K) : u.filter (ofList eqv u) = u := by
  rw [List.filter_eq_self]
  intro x hx
  exact List.any_eq_true.2 ⟨x, hx, cons.refl x⟩

/-- an enumeration type -/
def TyRel (eqv : K → K → Bool) (sym : K → Bool) (lists : List (List K)) (ps : List (K → Bool)) (t : Ty) (u : List K) : Prop :=
  lists[t.univ]? = some u ∧ ps[t.univSet]? = some (ofList eqv u) ∧ u.all sym = true

/-- an enumeration set -/
def SetRel (eqv : K → K → Bool) (lists : List (List K)) (ps : List (K → Bool)) (univs : List (List K)) (e : ES) (x : Nat × (K → Bool)) : Prop :=
  e.ty = x.1 ∧ ∃ u, univs[x.1]? = some u ∧ lists[e.vals]? = some (u.filter x.2) ∧ ps[e.valSet]? = some x.2 ∧ Compat eqv x.2 ∧ ∀ k, x.2 k = true → ofList eqv u k = true

/-- the state of the program is the abstract one -/
structure Rel (hash : K → Word) (eqv : K → K → Bool) (sym : K → Bool) (s : EW K) (a : Abs K) (ps : List (K → Bool)) : Prop where
  view : View hash eqv s.w ps
  types : List.Forall₂ (TyRel eqv sym s.lists ps) s.types a.univs
  sets : List.Forall₂ (SetRel eqv s.lists ps a.univs) s.sets a.sets

theorem get_app {α : Type} {l : List α} {i : Nat} {x : α} (h : l[i]? = some x) (m : List α) : (l ++ m)[i]? = some x := by
  rw [List.getElem?_append_left (List.getElem?_eq_some_iff.1 h).1, h]

theorem Rel.grow {s : EW K} {a : Abs K} {ps : List (K → Bool)} (r : Rel hash eqv sym s a ps) {w : SW K Unit} {es : List (K → Bool)} (v : View hash eqv w (ps ++ es)) (ls : List (List K)) :
    Rel hash eqv sym { s with w := w, lists := s.lists ++ ls } a (ps ++ es) where
  view := v
  types := r.types.imp fun _ _ h => ⟨get_app h.1 _, get_app h.2.1 _, h.2.2⟩
  sets := r.sets.imp fun _ _ h => by
    obtain ⟨h1, u, h2, h3, h4, h5⟩ := h
    exact ⟨h1, u, h2, get_app h3 _, get_app h4 _, h5⟩

theorem forall₂_get {α β : Type} {R : α → β → Prop} {l : List α} {m : List β} (h : List.Forall₂ R l m) (i : Nat) :
    (l[i]? = none ∧ m[i]? = none) ∨ ∃ x y, l[i]? = some x ∧ m[i]? = some y ∧ R x y := by
  induction h generalizing i with
  | nil => exact .inl ⟨rfl, rfl⟩
  | cons h _ ih =>
    cases i with
    | zero => exact .inr ⟨_, _, rfl, rfl, h⟩
    | succ i => simpa using ih i

/-- what is known of a set -/
structure Got (eqv : K → K → Bool) (sym : K → Bool) (s : EW K) (ps : List (K → Bool)) (es : ES) (t : Ty) (p : K → Bool) (u : List K) : Prop where
  vals : s.lists[es.vals]? = some (u.filter p)
  valSet : ps[es.valSet]? = some p
  compat : Compat eqv p
  sub : ∀ k, p k = true → ofList eqv u k = true
  univ : s.lists[t.univ]? = some u
  univSet : ps[t.univSet]? = some (ofList eqv u)
  sym : u.all sym = true

theorem Rel.get {s : EW K} {a : Abs K} {ps : List (K → Bool)} (r : Rel hash eqv sym s a ps) (e : Nat) :
    (getSet s e = .err ∧ a.get e = none) ∨
    ∃ es t p u, getSet s e = .ok (es, t) ∧ a.get e = some (es.ty, p, u) ∧ a.univs[es.ty]? = some u ∧ Got eqv sym s ps es t p u := by
  unfold getSet Abs.get
  rcases forall₂_get r.sets e with ⟨h1, h2⟩ | ⟨es, ⟨t, p⟩, h1, h2, h3, u, h4, h5, h6, h7, h8⟩
  · rw [h1, h2]; exact .inl ⟨rfl, rfl⟩
  · dsimp only at *
    subst h3
    rw [h1, h2]
    rcases forall₂_get r.types es.ty with ⟨g1, g2⟩ | ⟨t, u', g1, g2, g3, g4, g5⟩
    · rw [g2] at h4; cases h4
    · rw [g2] at h4
      cases h4
      dsimp only
      rw [g1, g2]
      exact .inr ⟨es, t, p, u, rfl, rfl, g2, h5, h6, h7, h8, g3, g4, g5⟩

theorem Rel.mkSet {s : EW K} {a : Abs K} {ps : List (K → Bool)} (cons : Consistent hash eqv) (r : Rel hash eqv sym s a ps) {t l : Nat} {u : List K} {p : K → Bool} (hu : a.univs[t]? = some u)
    (hl : s.lists[l]? = some (u.filter p)) (cp : Compat eqv p) (sub : ∀ k, p k = true → ofList eqv u k = true) :
    Post eqv (mkSet hash eqv s t l) fun s' => ∃ ps', Rel hash eqv sym s' (a.add t p) ps' := by
  rw [EnumS.mkSet, hl]
  dsimp only
  refine (r.view.makeSet cons _).bind fun x hx => ?_
  obtain ⟨w, i⟩ := x
  obtain ⟨v, rfl⟩ := hx
  dsimp only at v ⊢
  refine Post.ok ⟨ps ++ [fun k => (u.filter p).any fun x => eqv x k], ?_⟩
  have g := r.grow v []
  rw [List.append_nil] at g
  refine ⟨g.view, g.types, List.rel_append g.sets (.cons ⟨rfl, u, hu, hl, ?_, cp, sub⟩ .nil)⟩
  rw [get_last]
  exact congrArg some (ofList_filter cp sub)

theorem Rel.mkSetNew {s : EW K} {a : Abs K} {ps : List (K → Bool)} (cons : Consistent hash eqv) (r : Rel hash eqv sym s a ps) {t : Nat} {u : List K} {p : K → Bool} (hu : a.univs[t]? = some u)
    (cp : Compat eqv p) (sub : ∀ k, p k = true → ofList eqv u k = true) {xs : List K} (hx : xs = u.filter p) :
    Post eqv (mkSetNew hash eqv s t xs) fun s' => ∃ ps', Rel hash eqv sym s' (a.add t p) ps' := by
  subst hx
  have v := r.view
  rw [← List.append_nil ps] at v
  have g := r.grow v [u.filter p]
  exact g.mkSet cons hu (get_last _ _) cp sub

theorem Rel.enum {s : EW K} {a : Abs K} {ps : List (K → Bool)} (cons : Consistent hash eqv) (r : Rel hash eqv sym s a ps) {l : Nat} {xs : List K} (hl : s.lists[l]? = some xs)
    (hs : xs.all sym = true) : Post eqv (makeEnumeration hash eqv sym s l) fun s' => ∃ ps', Rel hash eqv sym s' (a.enum eqv xs) ps' := by
  rw [makeEnumeration, hl]
  dsimp only
  rw [if_pos hs]
  refine (r.view.makeSet cons xs).bind fun x hx => ?_
  obtain ⟨w, i⟩ := x
  obtain ⟨v, rfl⟩ := hx
  dsimp only at v ⊢
  have g := r.grow v []
  rw [List.append_nil] at g
  have g2 : Rel hash eqv sym { s with w := w, types := s.types ++ [⟨l, ps.length⟩] } ⟨a.univs ++ [xs], a.sets⟩ (ps ++ [fun k => xs.any fun x => eqv x k]) := by
    refine ⟨g.view, List.rel_append g.types (.cons ⟨hl, get_last _ _, hs⟩ .nil), g.sets.imp fun _ _ h => ?_⟩
    obtain ⟨h1, u, h2, h3⟩ := h
    exact ⟨h1, u, get_app h2 _, h3⟩
  have hlen : s.types.length = a.univs.length := r.types.length_eq
  rw [hlen]
  refine g2.mkSet cons (u := xs) (p := ofList eqv xs) (get_last _ _) ?_ (ofList_compat cons xs) fun _ h => h
  rw [filter_ofList cons]
  exact hl

theorem Rel.construct {s : EW K} {a : Abs K} {ps : List (K → Bool)} (cons : Consistent hash eqv) (r : Rel hash eqv sym s a ps) {e : Nat} {es : ES} {t : Ty} {p : K → Bool} {u : List K}
    (h1 : getSet s e = .ok (es, t)) (hu : a.univs[es.ty]? = some u) (got : Got eqv sym s ps es t p u) {xs : List K} (hs : xs.all sym = true) :
    Post eqv (construct hash eqv sym s e xs) fun s' => ∃ ps', Rel hash eqv sym s' (a.add es.ty fun k => ofList eqv u k && ofList eqv xs k) ps' := by
  rw [EnumS.construct, h1, Res.ok_bind]
  dsimp only
  rw [if_pos hs]
  refine (r.view.makeSet cons xs).bind fun x hx => ?_
  obtain ⟨w, i⟩ := x
  obtain ⟨v, rfl⟩ := hx
  dsimp only at v ⊢
  rw [listOf, got.univ]
  simp only [Res.ok_bind]
  rw [keep_spec (g := ofList eqv xs) (fun x => v.member cons (get_last _ _) x), Res.ok_bind]
  have g := r.grow v []
  rw [List.append_nil] at g
  refine g.mkSetNew cons hu ?_ ?_ ?_
  · intro x y h
    dsimp only
    rw [ofList_compat cons u x y h, ofList_compat cons xs x y h]
  · intro k hk
    exact (Bool.and_eq_true_iff.1 hk).1
  · rw [List.reverse_nil, List.nil_append]
    refine List.filter_congr fun x hx => ?_
    have : ofList eqv u x = true := List.any_eq_true.2 ⟨x, hx, cons.refl x⟩
    rw [this, Bool.true_and]

theorem mergeTest_spec {w : SW K Unit} {ps : List (K → Bool)} (cons : Consistent hash eqv) (v : View hash eqv w ps) {i j : Nat} {p q : K → Bool} (hp : ps[i]? = some p) (hq : ps[j]? = some q)
    (m : Merge) (x : K) : mergeTest hash eqv w m i j x = .ok (mergeB m (p x) (q x)) := by
  cases m <;> simp only [mergeTest, mergeB, v.member cons hp, v.member cons hq, Res.ok_bind] <;> cases p x <;> rfl

theorem filter_and (cons : Consistent hash eqv) (u : List K) (p : K → Bool) : u.filter (fun k => ofList eqv u k && p k) = u.filter p := by
  refine List.filter_congr fun x hx => ?_
  have : ofList eqv u x = true := List.any_eq_true.2 ⟨x, hx, cons.refl x⟩
  rw [this, Bool.true_and]

theorem Rel.step {s : EW K} {a : Abs K} {ps : List (K → Bool)} (cons : Consistent hash eqv) (r : Rel hash eqv sym s a ps) (op : Op K) (hq : Quiet op) :
    (step hash eqv sym s op = .err ∧ aStep eqv sym a op = none) ∨
    ∃ a', aStep eqv sym a op = some a' ∧ Post eqv (step hash eqv sym s op) fun s' => ∃ ps', Rel hash eqv sym s' a' ps' := by
  cases op with
  | enum xs =>
    unfold EnumS.step aStep
    dsimp only
    cases hs : xs.all sym
    · left
      refine ⟨?_, rfl⟩
      rw [makeEnumeration]
      simp [hs]
    · right
      refine ⟨_, rfl, ?_⟩
      have v := r.view
      rw [← List.append_nil ps] at v
      exact (r.grow v [xs]).enum cons (get_last _ _) hs
  | enumOf e =>
    unfold EnumS.step aStep toListId
    dsimp only
    rcases r.get e with ⟨h1, h2⟩ | ⟨es, t, p, u, h1, h2, h3, got⟩
    · rw [h1, h2]; exact .inl ⟨rfl, rfl⟩
    · rw [h1, h2]
      refine .inr ⟨_, rfl, r.enum cons got.vals ?_⟩
      rw [List.all_eq_true]
      intro x hx
      exact List.all_eq_true.1 got.sym x (List.mem_filter.1 hx).1
  | univ e =>
    unfold EnumS.step aStep univOf
    dsimp only
    rcases r.get e with ⟨h1, h2⟩ | ⟨es, t, p, u, h1, h2, h3, got⟩
    · rw [h1, h2]; exact .inl ⟨rfl, rfl⟩
    · rw [h1, h2]
      refine .inr ⟨_, rfl, r.mkSet cons h3 ?_ (ofList_compat cons u) fun _ h => h⟩
      rw [filter_ofList cons]
      exact got.univ
  | construct e xs =>
    unfold EnumS.step aStep
    dsimp only
    rcases r.get e with ⟨h1, h2⟩ | ⟨es, t, p, u, h1, h2, h3, got⟩
    · left
      rw [EnumS.construct, h1, h2]
      refine ⟨rfl, ?_⟩
      split <;> rfl
    · rw [h2]
      cases hs : xs.all sym
      · left
        rw [EnumS.construct, h1]
        simp [hs]
      · exact .inr ⟨_, rfl, r.construct cons h1 h3 got hs⟩
  | merge m e f =>
    unfold EnumS.step aStep EnumS.merge
    dsimp only
    rcases r.get e with ⟨h1, h2⟩ | ⟨es, t, p, u, h1, h2, h3, got⟩
    · rw [h1, h2]; exact .inl ⟨rfl, rfl⟩
    rcases r.get f with ⟨f1, f2⟩ | ⟨es', t', q, u', f1, f2, f3, got'⟩
    · rw [h1, h2, f1, f2]; exact .inl ⟨rfl, rfl⟩
    · rw [h1, h2, f1, f2]
      simp only [Res.ok_bind]
      by_cases hty : es.ty = es'.ty
      · rw [if_pos hty, if_pos hty, listOf, got.univ]
        simp only [Res.ok_bind]
        rw [keep_spec (g := fun k => mergeB m (p k) (q k)) fun x => mergeTest_spec cons r.view got.valSet got'.valSet m x, Res.ok_bind]
        rw [hty, f3] at h3
        cases h3
        refine .inr ⟨_, rfl, r.mkSetNew cons (hty ▸ f3) ?_ ?_ (by simp)⟩
        · intro x y h
          dsimp only
          rw [got.compat x y h, got'.compat x y h]
        · intro k hk
          cases hp : p k
          · cases hq : q k
            · rw [hp, hq] at hk
              cases m <;> cases hk
            · exact got'.sub k hq
          · exact got.sub k hp
      · rw [if_neg hty, if_neg hty]; exact .inl ⟨rfl, rfl⟩
  | complement e =>
    unfold EnumS.step aStep EnumS.complement
    dsimp only
    rcases r.get e with ⟨h1, h2⟩ | ⟨es, t, p, u, h1, h2, h3, got⟩
    · rw [h1, h2]; exact .inl ⟨rfl, rfl⟩
    · rw [h1, h2]
      simp only [Res.ok_bind]
      rw [listOf, got.univ]
      simp only [Res.ok_bind]
      rw [keep_spec (g := fun k => !p k) fun x => by rw [r.view.member cons got.valSet]; rfl, Res.ok_bind]
      refine .inr ⟨_, rfl, r.mkSetNew cons h3 ?_ (fun k hk => (Bool.and_eq_true_iff.1 hk).1) ?_⟩
      · intro x y h
        dsimp only
        rw [ofList_compat cons u x y h, got.compat x y h]
      · rw [filter_and cons]; rfl
  | projection e f =>
    unfold EnumS.step aStep EnumS.projection
    dsimp only
    rcases r.get e with ⟨h1, h2⟩ | ⟨es, t, p, u, h1, h2, h3, got⟩
    · rw [h1, h2]; exact .inl ⟨rfl, rfl⟩
    rcases r.get f with ⟨f1, f2⟩ | ⟨es', t', q, u', f1, f2, f3, got'⟩
    · rw [h1, h2, f1, f2]; exact .inl ⟨rfl, rfl⟩
    · rw [h1, h2, f1, f2]
      simp only [Res.ok_bind]
      rw [listOf, got.vals]
      simp only [Res.ok_bind]
      rw [keep_spec fun x => r.view.member cons got'.univSet x, Res.ok_bind]
      refine .inr ⟨_, rfl, ?_⟩
      have e1 : ofList eqv ((u.filter p).filter (ofList eqv u')) = fun k => p k && ofList eqv u' k := by
        rw [List.filter_filter, List.filter_congr (q := fun k => p k && ofList eqv u' k) fun x _ => Bool.and_comm _ _]
        refine ofList_filter (u := u) (p := fun k => p k && ofList eqv u' k) ?_ ?_
        · intro x y h
          dsimp only
          rw [ofList_compat cons u' x y h, got.compat x y h]
        · intro k hk
          exact got.sub k (Bool.and_eq_true_iff.1 hk).1
      have hs : ((u.filter p).filter (ofList eqv u')).all sym = true := by
        rw [List.all_eq_true]
        intro x hx
        exact List.all_eq_true.1 got.sym x (List.mem_filter.1 (List.mem_filter.1 hx).1).1
      have := r.construct cons f1 f3 got' hs
      rw [e1] at this
      refine this.imp fun s' hs' => ?_
      have e2 : (fun k => ofList eqv u' k && p k) = fun k => ofList eqv u' k && (p k && ofList eqv u' k) := by
        funext k
        cases ofList eqv u' k <;> cases p k <;> rfl
      rw [e2]
      exact hs'
  | assign e xs => cases hq

theorem Rel.run (cons : Consistent hash eqv) : ∀ (ops : List (Op K)) {s : EW K} {a : Abs K} {ps : List (K → Bool)}, (∀ op ∈ ops, Quiet op) → Rel hash eqv sym s a ps →
    Post eqv (run hash eqv sym s ops) fun s' => ∃ ps', Rel hash eqv sym s' (aRun eqv sym a ops) ps'
  | [], _, _, _, _, r => Post.ok ⟨_, r⟩
  | op :: ops, s, a, ps, hq, r => by
    unfold EnumS.run aRun
    have hq' : ∀ op ∈ ops, Quiet op := fun o ho => hq o (List.mem_cons_of_mem _ ho)
    rcases r.step cons op (hq op List.mem_cons_self) with ⟨h1, h2⟩ | ⟨ss', h2, h1⟩
    · rw [h1, h2]
      exact Rel.run cons ops hq' r
    · rw [h2]
      rcases h1 with ⟨hm, h1⟩ | ⟨s', h1, ps', r'⟩
      · rw [h1]; exact .inl ⟨hm, rfl⟩
      · rw [h1]
        exact Rel.run cons ops hq' r'

theorem indexLoop_spec (x : K) : ∀ (u : List K) (i : Nat), indexLoop eqv x u i = (u.findIdx? fun y => eqv x y).map (· + i)
  | [], i => rfl
  | y :: u, i => by
    rw [indexLoop, List.findIdx?_cons]
    cases h : eqv x y
    · rw [if_neg (by simp), if_neg (by simp), indexLoop_spec x u (i + 1)]
      cases u.findIdx? fun y => eqv x y
      · rfl
      · simp; omega
    · simp

end

/-! ### properties -/

/-- **C63** for programs that do not assign to the pairs of the lists they pass and get.  Run any program of enumeration procedures.  Unless there are 4611686018427388039 inequivalent elements, it ends, and
the sets are the ones the specification says: in particular operations on something that is no set, constructors given something that is no symbol, and unions, intersections and differences of sets of
different enumerations are refused; `enum-set->list` lists the elements in the order of the enumeration, `enum-set-member?` answers membership, `enum-set-indexer` gives the first position in the enumeration,
`enum-set-subset?` and `enum-set=?` compare enumerations and elements.  Missing for the full claim: `C63_negated`, `C63_negated_shared`. -/
theorem C63_partial {hash : K → Word} {eqv : K → K → Bool} {sym : K → Bool} (cons : Consistent hash eqv) (h : Heap K Unit) (ops : List (Op K)) (quiet : ∀ op ∈ ops, Quiet op) :
    (run hash eqv sym ⟨⟨h, [], []⟩, [], [], []⟩ ops = .ub ∧ Many eqv) ∨
    ∃ s, run hash eqv sym ⟨⟨h, [], []⟩, [], [], []⟩ ops = .ok s ∧ s.sets.length = (aRun eqv sym ⟨[], []⟩ ops).sets.length ∧
      ∀ (e t : Nat) (p : K → Bool) (u : List K), (aRun eqv sym ⟨[], []⟩ ops).get e = some (t, p, u) →
        toList s e = .ok (u.filter p) ∧
        (∀ x, member hash eqv s x e = .ok (p x)) ∧
        (∀ x, p x = true → ∃ y ∈ u, eqv y x = true) ∧
        (∀ x, index eqv sym s e x = if sym x = true then .ok (u.findIdx? fun y => eqv x y) else .err) ∧
        ∀ (f t' : Nat) (q : K → Bool) (u' : List K), (aRun eqv sym ⟨[], []⟩ ops).get f = some (t', q, u') →
          (∃ b, enumSubset hash eqv s e f = .ok b ∧ (b = true ↔ (∀ x ∈ u, ∃ y ∈ u', eqv y x = true) ∧ ∀ x, p x = true → q x = true)) ∧
          ∃ b, enumEq hash eqv s e f = .ok b ∧ (b = true ↔ (∀ x ∈ u, ∃ y ∈ u', eqv y x = true) ∧ (∀ x ∈ u', ∃ y ∈ u, eqv y x = true) ∧ ∀ x, p x = q x) := by
  have start : Rel hash eqv sym ⟨⟨h, [], []⟩, [], [], []⟩ ⟨[], []⟩ [] := ⟨⟨[], SRel.empty h, rfl⟩, .nil, .nil⟩
  rcases start.run cons ops quiet with ⟨hm, h⟩ | ⟨s, h, ps, r⟩
  · exact .inl ⟨h, hm⟩
  refine .inr ⟨s, h, r.sets.length_eq, fun e t p u he => ?_⟩
  rcases r.get e with ⟨h1, h2⟩ | ⟨es, ty, p', u', h1, h2, h3, got⟩
  · rw [he] at h2; cases h2
  rw [he] at h2
  cases h2
  have inc : ∀ u u' : List K, (∀ k, ofList eqv u k = true → ofList eqv u' k = true) ↔ ∀ x ∈ u, ∃ y ∈ u', eqv y x = true := by
    intro u u'
    constructor
    · intro h x hx
      exact List.any_eq_true.1 (h x (List.any_eq_true.2 ⟨x, hx, cons.refl x⟩))
    · intro h k hk
      obtain ⟨x, hx, h2⟩ := List.any_eq_true.1 hk
      obtain ⟨y, hy, h3⟩ := h x hx
      exact List.any_eq_true.2 ⟨y, hy, cons.trans _ _ _ h3 h2⟩
  refine ⟨?_, fun x => ?_, fun x hx => List.any_eq_true.1 (got.sub x hx), fun x => ?_, fun f t' q u' hf => ?_⟩
  · simp [toList, toListId, h1, listOf, got.vals]
  · simp only [member, h1, Res.ok_bind]
    exact r.view.member cons got.valSet x
  · simp only [index, h1, Res.ok_bind]
    split
    · simp [listOf, got.univ, indexLoop_spec]
    · rfl
  · rcases r.get f with ⟨f1, f2⟩ | ⟨es', ty', p', u'', f1, f2, f3, got'⟩
    · rw [hf] at f2; cases f2
    rw [hf] at f2
    cases f2
    have sub : ∀ {es es' : ES} {ty ty' : Ty} {p q : K → Bool} {u u' : List K}, Got eqv sym s ps es ty p u → Got eqv sym s ps es' ty' q u' →
        ∃ b, subsetOf hash eqv s (es, ty) (es', ty') = .ok b ∧ (b = true ↔ (∀ x ∈ u, ∃ y ∈ u', eqv y x = true) ∧ ∀ x, p x = true → q x = true) := by
      intro es es' ty ty' p q u u' g g'
      obtain ⟨b, e1, e2⟩ := r.view.subset cons g.univSet g'.univSet
      obtain ⟨c, d1, d2⟩ := r.view.subset cons g.valSet g'.valSet
      refine ⟨b && c, ?_, ?_⟩
      · simp only [subsetOf, e1, d1, Res.ok_bind]
        cases b <;> rfl
      · rw [Bool.and_eq_true, e2, d2, inc]
    obtain ⟨b, e1, e2⟩ := sub got got'
    obtain ⟨c, d1, d2⟩ := sub got' got
    refine ⟨⟨b, by simp only [enumSubset, h1, f1, Res.ok_bind]; exact e1, e2⟩, b && c, ?_, ?_⟩
    · simp only [enumEq, h1, f1, Res.ok_bind, e1, d1]
      cases b <;> rfl
    · rw [Bool.and_eq_true, e2, d2]
      constructor
      · rintro ⟨⟨g1, g2⟩, g3, g4⟩
        exact ⟨g1, g3, fun x => Bool.eq_iff_iff.2 ⟨g2 x, g4 x⟩⟩
      · rintro ⟨g1, g2, g3⟩
        exact ⟨⟨g1, fun x hx => by rw [← g3]; exact hx⟩, g2, fun x hx => by rw [g3]; exact hx⟩

/-- two enumerations with the same symbols, sets of the first and of the second, a refused union, a projection -/
example : ((aRun (fun a b : Nat => a == b) (fun n => decide (n < 100)) ⟨[], []⟩
    [.enum [5, 3, 8], .construct 0 [8, 5, 77], .enum [5, 3, 8, 9], .construct 2 [9, 3], .merge .union 1 3, .projection 3 0, .complement 1, .merge .union 1 4, .enum [200]]).sets.map
      fun x => (x.1, (List.range 11).filter x.2)) =
    [(0, [3, 5, 8]), (0, [5, 8]), (1, [3, 5, 8, 9]), (1, [3, 9]), (0, [3]), (0, [3]), (0, [3, 5, 8])] := by decide

/-- **C63 negated** (duplicates).  `make-enumeration` keeps repeated symbols, so the set lists an element twice. -/
theorem C63_negated : ∃ s, run exHash (fun a b => a == b) (fun _ => true) ⟨⟨⟨fun _ => (0, ()), 0⟩, [], []⟩, [], [], []⟩ [.enum [1, 2, 1]] = .ok s ∧ toList s 0 = .ok [1, 2, 1] := by
  refine ⟨_, rfl, ?_⟩
  rfl

/-- **C63 negated** (sharing).  The list that `enum-set->list` returns for the whole enumeration is the list of the enumeration itself: after an assignment to its pairs the sets that are made of
the enumeration consist of other symbols; here the complement of the empty set is not the whole set. -/
theorem C63_negated_shared : ∃ s, run exHash (fun a b => a == b) (fun _ => true) ⟨⟨⟨fun _ => (0, ()), 0⟩, [], []⟩, [], [], []⟩ [.enum [1, 2], .assign 0 [7], .construct 0 [], .complement 1] = .ok s ∧
    member exHash (fun a b => a == b) s 1 0 = .ok true ∧ toList s 2 = .ok [7] ∧ enumEq exHash (fun a b => a == b) s 2 0 = .ok false := by
  refine ⟨_, rfl, ?_⟩
  decide +kernel

end Minim.EnumS
