import Verif.ExpNF

set_option autoImplicit false

/-!
# The macros on data

What each macro makes of a form, as data.
-/

namespace Minim.Exp

open Minim.Sx Minim.Core Minim.Jit

theorem stxList_syn (x : X) (ds : List X) : stxList (syn (.cons x (ofList ds))) = true := by
  simp [syn, stxList, isList]

theorem andM_nil (s : Sym) : andM (syn (.cons (.sym s) .null)) = .ok (syn (.lit .tru)) := rfl

theorem andM_one (s : Sym) (x : X) : andM (syn (.cons (.sym s) (ofList [x]))) = .ok (syn x) := rfl

theorem andM_more (s : Sym) (x y : X) (ds : List X) :
    andM (syn (.cons (.sym s) (ofList (x :: y :: ds)))) = .ok (syn (ofList [.sym .ifS, x, .cons (.sym sAnd) (ofList (y :: ds)), .lit .fls])) := by
  rw [andM, if_pos (stxList_syn ..)]
  simp [syn, stxCdr, ofList, syn.tl, Res.ok_bind, stxNull, stxPair, stxCar, lastQ, listT, toSyntax, pairTail, qs]

theorem orM_nil (s : Sym) : orM (syn (.cons (.sym s) .null)) = .ok (syn (.lit .fls)) := rfl

theorem orM_one (s : Sym) (x : X) : orM (syn (.cons (.sym s) (ofList [x]))) = .ok (syn x) := rfl

theorem orM_more (s : Sym) (x y : X) (ds : List X) :
    orM (syn (.cons (.sym s) (ofList (x :: y :: ds)))) =
      .ok (syn (.cons (.sym .letValues) (.cons (bds2 [[sOrT]] [x]) (ofList [ofList [.sym .ifS, .sym sOrT, .sym sOrT, .cons (.sym sOr) (ofList (y :: ds))]])))) := by
  rw [orM, if_pos (stxList_syn ..)]
  simp [syn, stxCdr, ofList, syn.tl, Res.ok_bind, stxNull, stxPair, stxCar, lastQ, listT, toSyntax, pairTail, qs, bds2, ids]

/-- what `then-clause` makes of a body -/
def thenX : List X → X
  | [x] => x
  | ds => .cons (.sym sLet) (.cons .null (ofList ds))

theorem thenClause_tl {ds : List X} (h : ds ≠ []) : ∃ r, thenClause (syn.tl (ofList ds)) = .ok r ∧ toSyntax r = syn (thenX ds) := by
  match ds, h with
  | [x], _ => exact ⟨syn x, rfl, by simp [thenX]⟩
  | x :: y :: ds, _ =>
    refine ⟨.cons (qs sLet) (.cons (.stx .null) (syn.tl (ofList (x :: y :: ds)))), ?_, ?_⟩
    · rw [thenClause, ofList, syn.tl, stxCdr, Res.ok_bind, ofList, syn.tl]; rfl
    · simp [toSyntax, pairTail, qs, thenX, syn, syn.tl]

theorem condM_nil (s : Sym) : condM (syn (.cons (.sym s) .null)) = .ok (syn (ofList [.sym sVoid])) := rfl

theorem isList_conds (rest : List X) (c : X) : isList (.cons (syn c) (syn.tl (ofList rest))) = true := by simp [isList]

theorem condM_cons (s : Sym) (t : X) (b rest : List X) (ht : t ≠ .sym sElse) (hb : b ≠ []) :
    condM (syn (.cons (.sym s) (ofList (.cons t (ofList b) :: rest)))) = .ok (syn (ofList [.sym .ifS, t, thenX b, .cons (.sym sCond) (ofList rest)])) := by
  rw [condM, if_pos (stxList_syn ..)]
  obtain ⟨r, h1, h2⟩ := thenClause_tl hb
  have h3 : stxList (syn (.cons t (ofList b))) = true := stxList_syn t b
  have h4 : (syn (.cons t (ofList b)) == T.null) = false := by simp [syn]
  have h5 : (syn.tl (ofList b) == T.null) = false := by
    obtain ⟨x, b, rfl⟩ := List.exists_cons_of_ne_nil hb
    simp [ofList, syn.tl]
  have h6 : (syn t == qs sElse) = false := by
    rw [beq_eq_false_iff_ne]; exact fun h => ht (syn_eq_qs h)
  have h7 : stxCar (syn (.cons t (ofList b))) = .ok (syn t) := rfl
  have h8 : stxCdr (syn (.cons t (ofList b))) = .ok (syn.tl (ofList b)) := rfl
  have h9 : stxCdr (syn (.cons (.sym s) (ofList (.cons t (ofList b) :: rest)))) = .ok (.cons (syn (.cons t (ofList b))) (syn.tl (ofList rest))) := rfl
  have k1 : ∀ a d, stxNull (.cons a d) = false := fun _ _ => rfl
  have k2 : ∀ a d, stxCar (.cons a d) = .ok a := fun _ _ => rfl
  have k3 : ∀ a d, stxCdr (.cons a d) = .ok d := fun _ _ => rfl
  rw [h9]
  simp only [Res.ok_bind, k1, k2, k3, h3, h4, h5, h6, h7, h8, h1, Bool.not_false, Bool.and_self, if_true, if_false, Bool.false_eq_true]
  simp [listT, toSyntax, pairTail, qs, h2, syn, syn.tl, ofList]

theorem condM_else (s : Sym) (b : List X) (hb : b ≠ []) : condM (syn (.cons (.sym s) (ofList [.cons (.sym sElse) (ofList b)]))) = .ok (syn (thenX b)) := by
  rw [condM, if_pos (stxList_syn ..)]
  obtain ⟨r, h1, h2⟩ := thenClause_tl hb
  have h3 : stxList (syn (.cons (.sym sElse) (ofList b))) = true := stxList_syn _ b
  have h4 : (syn (.cons (.sym sElse) (ofList b)) == T.null) = false := by simp [syn]
  have h5 : (syn.tl (ofList b) == T.null) = false := by
    obtain ⟨x, b, rfl⟩ := List.exists_cons_of_ne_nil hb
    simp [ofList, syn.tl]
  have h6 : (syn (.sym sElse) == qs sElse) = true := by simp [syn, qs]
  have h7 : stxCar (syn (.cons (.sym sElse) (ofList b))) = .ok (syn (.sym sElse)) := rfl
  have h8 : stxCdr (syn (.cons (.sym sElse) (ofList b))) = .ok (syn.tl (ofList b)) := rfl
  have h9 : stxCdr (syn (.cons (.sym s) (ofList [.cons (.sym sElse) (ofList b)]))) = .ok (.cons (syn (.cons (.sym sElse) (ofList b))) .null) := rfl
  have k1 : ∀ a d, stxNull (.cons a d) = false := fun _ _ => rfl
  have k2 : ∀ a d, stxCar (.cons a d) = .ok a := fun _ _ => rfl
  have k3 : ∀ a d, stxCdr (.cons a d) = .ok d := fun _ _ => rfl
  rw [h9]
  simp only [Res.ok_bind, k1, k2, k3, h3, h4, h5, h6, h7, h8, h1, h2, Bool.not_false, Bool.and_self, if_true, if_false, Bool.false_eq_true, BEq.rfl]

theorem whenM_syn (s : Sym) (c : X) (b : List X) (hb : b ≠ []) :
    whenM (syn (.cons (.sym s) (.cons c (ofList b)))) = .ok (syn (ofList [.sym .ifS, c, .cons (.sym .letValues) (.cons .null (ofList b)), ofList [.sym sVoid]])) := by
  have : stxList (syn (.cons (.sym s) (.cons c (ofList b)))) = true := stxList_syn (.sym s) (c :: b)
  rw [whenM, if_pos this]
  obtain ⟨x, b, rfl⟩ := List.exists_cons_of_ne_nil hb
  simp [syn, stxCdr, ofList, syn.tl, Res.ok_bind, stxNull, stxCar, listT, toSyntax, pairTail, qs, qsVoid]

theorem unlessM_syn (s : Sym) (c : X) (b : List X) (hb : b ≠ []) :
    unlessM (syn (.cons (.sym s) (.cons c (ofList b)))) = .ok (syn (ofList [.sym .ifS, c, ofList [.sym sVoid], .cons (.sym sLet) (.cons .null (ofList b))])) := by
  have : stxList (syn (.cons (.sym s) (.cons c (ofList b)))) = true := stxList_syn (.sym s) (c :: b)
  rw [unlessM, if_pos this]
  obtain ⟨x, b, rfl⟩ := List.exists_cons_of_ne_nil hb
  simp [syn, stxCdr, ofList, syn.tl, Res.ok_bind, stxNull, stxCar, listT, toSyntax, pairTail, qs, qsVoid]

theorem splice_tl : ∀ {is : List Sym} {ds : List X}, is.length = ds.length → splice (syn.tl (bds1 is ds)) = .ok (List.zipWith (fun x d => (syn (.sym x), syn d)) is ds)
  | [], [], _ => rfl
  | x :: is, d :: ds, hl => by
    have h1 : spliceOne (syn (ofList [.sym x, d])) = .ok (syn (.sym x), syn d) := rfl
    rw [bds1, syn.tl, splice, h1, Res.ok_bind, splice_tl (by simpa using hl), Res.ok_bind]
    rfl
  | [], _ :: _, hl => by cases hl
  | _ :: _, [], hl => by cases hl

theorem syntaxE_bds1 (is : List Sym) (ds : List X) : syntaxE (syn (bds1 is ds)) = .ok (syn.tl (bds1 is ds)) ∧ identifierQ (syn (bds1 is ds)) = false := by
  cases is <;> cases ds <;> exact ⟨rfl, rfl⟩

theorem bindings_eq : ∀ {is : List Sym} {ds : List X}, is.length = ds.length →
    toSyntax (bindings (List.zipWith (fun x d => (syn (.sym x), syn d)) is ds)) = syn (bds2 (is.map fun x => [x]) ds) ∧
    pairTail (bindings (List.zipWith (fun x d => (syn (.sym x), syn d)) is ds)) = syn.tl (bds2 (is.map fun x => [x]) ds)
  | [], [], _ => ⟨rfl, rfl⟩
  | x :: is, d :: ds, hl => by
    have ih := bindings_eq (is := is) (ds := ds) (by simpa using hl)
    simp only [bindings] at ih ⊢
    constructor
    · rw [List.zipWith, List.map_cons, listT, toSyntax, ih.2]
      simp [bds2, ids, listT, toSyntax, pairTail, syn, ofList, syn.tl]
    · rw [List.zipWith, List.map_cons, listT, pairTail, ih.2]
      simp [bds2, ids, listT, toSyntax, pairTail, syn, ofList, syn.tl]
  | [], _ :: _, hl => by cases hl
  | _ :: _, [], hl => by cases hl

theorem letParts_syn (s : Sym) (x : X) {b : List X} (hb : b ≠ []) : letParts (syn (.cons (.sym s) (.cons x (ofList b)))) = .ok (syn x, syn.tl (ofList b)) := by
  have : stxList (syn (.cons (.sym s) (.cons x (ofList b)))) = true := stxList_syn (.sym s) (x :: b)
  rw [letParts, if_pos this]
  obtain ⟨y, b, rfl⟩ := List.exists_cons_of_ne_nil hb
  rfl

theorem letM_syn (s : Sym) {is : List Sym} {ds b : List X} (hl : is.length = ds.length) (hb : b ≠ []) :
    letM (syn (.cons (.sym s) (.cons (bds1 is ds) (ofList b)))) = .ok (syn (.cons (.sym .letValues) (.cons (bds2 (is.map fun x => [x]) ds) (ofList b)))) := by
  rw [letM, letParts_syn s _ hb, Res.ok_bind]
  simp only [syntaxE_bds1, Res.ok_bind, splice_tl hl, Bool.false_eq_true, if_false]
  simp [toSyntax, pairTail, qs, syn, syn.tl]
  exact (bindings_eq hl).1

theorem letM_null (s : Sym) {b : List X} (hb : b ≠ []) : letM (syn (.cons (.sym s) (.cons .null (ofList b)))) = .ok (syn (.cons (.sym .letValues) (.cons (bds2 [] []) (ofList b)))) :=
  letM_syn (is := []) (ds := []) s rfl hb

theorem letrecM_syn (s : Sym) {is : List Sym} {ds b : List X} (hl : is.length = ds.length) (hb : b ≠ []) :
    letrecM (syn (.cons (.sym s) (.cons (bds1 is ds) (ofList b)))) = .ok (syn (.cons (.sym .letrecValues) (.cons (bds2 (is.map fun x => [x]) ds) (ofList b)))) := by
  rw [letrecM, letParts_syn s _ hb, Res.ok_bind]
  simp only [syntaxE_bds1, Res.ok_bind, splice_tl hl]
  simp [toSyntax, pairTail, qs, syn, syn.tl]
  exact (bindings_eq hl).1

/-- what `let*` makes -/
def starX : List Sym → List X → List X → X
  | x :: y :: is, d :: f :: ds, body => .cons (.sym .letValues) (.cons (bds2 [[x]] [d]) (ofList [starX (y :: is) (f :: ds) body]))
  | x :: _, d :: _, body => .cons (.sym .letValues) (.cons (bds2 [[x]] [d]) (ofList body))
  | _, _, body => .cons (.sym .letValues) (.cons .null (ofList body))

theorem letStarLoop_eq (b : List X) : ∀ {is : List Sym} {ds : List X} (x : Sym) (d : X), is.length = ds.length →
    toSyntax (letStarLoop (syn.tl (ofList b)) (syn (.sym x), syn d) (List.zipWith (fun x d => (syn (.sym x), syn d)) is ds)) = syn (starX (x :: is) (d :: ds) b)
  | [], [], x, d, _ => by
    simp [letStarLoop, toSyntax, pairTail, qs, syn, syn.tl, starX, bindings, listT, bds2, ids, ofList]
  | y :: is, f :: ds, x, d, hl => by
    have ih := letStarLoop_eq b (is := is) (ds := ds) y f (by simpa using hl)
    rw [List.zipWith, letStarLoop, listT, toSyntax]
    simp only [listT, pairTail, ih]
    simp [toSyntax, pairTail, qs, syn, syn.tl, starX, bindings, listT, bds2, ids, ofList]
  | [], _ :: _, _, _, hl => by cases hl
  | _ :: _, [], _, _, hl => by cases hl

theorem letStarM_syn (s : Sym) {is : List Sym} {ds b : List X} (hl : is.length = ds.length) (hb : b ≠ []) :
    letStarM (syn (.cons (.sym s) (.cons (bds1 is ds) (ofList b)))) = .ok (syn (starX is ds b)) := by
  rw [letStarM, letParts_syn s _ hb, Res.ok_bind]
  simp only [syntaxE_bds1, Res.ok_bind, splice_tl hl]
  match is, ds, hl with
  | [], [], _ => simp [toSyntax, pairTail, qs, starX, syn, syn.tl]
  | x :: is, d :: ds, hl =>
    rw [List.zipWith]
    simp only
    rw [letStarLoop_eq b x d (by simpa using hl)]

theorem listT_fst : ∀ {is : List Sym} {ds : List X}, is.length = ds.length → listT ((List.zipWith (fun x d => (syn (.sym x), syn d)) is ds).map (·.1)) = syn.tl (ids is)
  | [], [], _ => rfl
  | x :: is, d :: ds, hl => by
    rw [List.zipWith, List.map_cons, listT, listT_fst (by simpa using hl)]; rfl
  | [], _ :: _, hl => by cases hl
  | _ :: _, [], hl => by cases hl

theorem listT_snd : ∀ {is : List Sym} {ds : List X}, is.length = ds.length → listT ((List.zipWith (fun x d => (syn (.sym x), syn d)) is ds).map (·.2)) = syn.tl (ofList ds)
  | [], [], _ => rfl
  | x :: is, d :: ds, hl => by
    rw [List.zipWith, List.map_cons, listT, listT_snd (by simpa using hl)]; rfl
  | [], _ :: _, hl => by cases hl
  | _ :: _, [], hl => by cases hl

theorem letM_named (s f : Sym) {is : List Sym} {ds b : List X} (hl : is.length = ds.length) (hb : b ≠ []) :
    letM (syn (.cons (.sym s) (.cons (.sym f) (.cons (bds1 is ds) (ofList b))))) =
      .ok (syn (.cons (.sym .letrecValues) (.cons (bds2 [[f]] [.cons (.sym .lambda) (.cons (ids is) (ofList b))]) (ofList [.cons (.sym f) (ofList ds)])))) := by
  have h : letParts (syn (.cons (.sym s) (.cons (.sym f) (.cons (bds1 is ds) (ofList b))))) = .ok (syn (.sym f), syn.tl (.cons (bds1 is ds) (ofList b))) :=
    letParts_syn s (.sym f) (b := bds1 is ds :: b) (by simp)
  rw [letM, h, Res.ok_bind]
  obtain ⟨y, b, rfl⟩ := List.exists_cons_of_ne_nil hb
  have h1 : identifierQ (syn (.sym f)) = true := rfl
  simp only [h1, if_true, syn.tl, stxCar, stxCdr, Res.ok_bind, syntaxE_bds1, splice_tl hl, listT_fst hl, listT_snd hl]
  simp [toSyntax, pairTail, toSyntax_tl, listT, qs, syn, syn.tl, ofList, bds2, ids]

theorem defineM_var (s x : Sym) (d : X) : defineM (syn (ofList [.sym s, .sym x, d])) = .ok (syn (ofList [.sym .defineValues, ids [x], d])) := by
  have : stxList (syn (ofList [.sym s, .sym x, d])) = true := rfl
  rw [defineM, if_pos this]
  simp [syn, stxCdr, ofList, syn.tl, Res.ok_bind, stxNull, stxCar, identifierQ, listT, toSyntax, pairTail, qs, ids]

theorem defineM_fn (s f : Sym) (fm : X) (b : List X) (hb : b ≠ []) :
    defineM (syn (.cons (.sym s) (.cons (.cons (.sym f) fm) (ofList b)))) = .ok (syn (ofList [.sym sDefine, .sym f, .cons (.sym .lambda) (.cons fm (ofList b))])) := by
  have : stxList (syn (.cons (.sym s) (.cons (.cons (.sym f) fm) (ofList b)))) = true := stxList_syn (.sym s) (.cons (.sym f) fm :: b)
  rw [defineM, if_pos this]
  obtain ⟨y, b, rfl⟩ := List.exists_cons_of_ne_nil hb
  simp [syn, stxCdr, ofList, syn.tl, Res.ok_bind, stxNull, stxCar, identifierQ, stxPair, listT, toSyntax, pairTail, toSyntax_tl, qs]

end Minim.Exp
