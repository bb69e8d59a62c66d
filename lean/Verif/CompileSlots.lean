import Verif.CompileWf

set_option autoImplicit false

/-!
# Compiled code stays within its environment frames
-/

namespace Minim.Jit

open Minim.Sx Minim.Core

/-! ## The bound-variable analysis does not depend on the table -/

mutual

theorem boundVars_indep : ∀ (e : E) (t t' : BTab), (boundVars e t).1 = (boundVars e t').1
  | .var _, _, _ => rfl
  | .lit _, _, _ => rfl
  | .quote _, _, _ => rfl
  | .quoteSyntax _, _, _ => rfl
  | .unbound, _, _ => rfl
  | .define xs e, t, t' => by simp only [boundVars, boundVars_indep e t t']
  | .set x e, t, t' => by simp only [boundVars, boundVars_indep e t t']
  | .ite c a b, t, t' => by
    simp only [boundVars, boundVars_indep c t t', boundVars_indep a (boundVars c t).2 (boundVars c t').2,
      boundVars_indep b (boundVars a (boundVars c t).2).2 (boundVars a (boundVars c t').2).2]
  | .letv _ _, _, _ => rfl
  | .letrecv _ _, _, _ => rfl
  | .lam f body, t, t' => rfl
  | .clam cs, t, t' => rfl
  | .begin es, t, t' => boundVarsSeq_indep es t t'
  | .app f args, t, t' => by
    simp only [boundVars, boundVars_indep f t t', boundVarsSeq_indep args (boundVars f t).2 (boundVars f t').2]
  | .mvcall e c, t, t' => by
    simp only [boundVars, boundVars_indep e t t', boundVars_indep c (boundVars e t).2 (boundVars e t').2]
  | .mvlet e xs body, t, t' => by
    simp only [boundVars, boundVars_indep e t t', boundVars_indep body (boundVars e t).2 (boundVars e t').2]
  | .mvvals es, t, t' => boundVarsSeq_indep es t t'

theorem boundVarsSeq_indep : ∀ (es : List E) (t t' : BTab), (boundVarsSeq es t).1 = (boundVarsSeq es t').1
  | [], _, _ => rfl
  | e :: es, t, t' => by
    simp only [boundVarsSeq, boundVars_indep e t t', boundVarsSeq_indep es (boundVars e t).2 (boundVars e t').2]

end

theorem boundVarsClauses_indep : ∀ (cs : List Cl) (t t' : BTab), (boundVarsClauses cs t).1 = (boundVarsClauses cs t').1
  | [], _, _ => rfl
  | .mk f body :: cs, t, t' => by
    simp only [boundVarsClauses, boundVarsSeq_indep body t t', boundVarsClauses_indep cs (boundVarsSeq body t).2 (boundVarsSeq body t').2]

/-- The entry of a procedure in the table of bound variables. -/
def ownBounds (t : BTab) : E → List (List Sym)
  | .lam f body => [f.ids ++ (boundVarsSeq body t).1]
  | .clam cs => (boundVarsClauses cs t).1
  | _ => []

theorem clauseBounds_lam (f : Formals) (body : List E) : clauseBounds (.lam f body) = [f.ids ++ (boundVarsSeq body []).1] := rfl

theorem clauseBounds_clam (cs : List Cl) : clauseBounds (.clam cs) = (boundVarsClauses cs []).1 := rfl

/-- All entries of the table of bound variables are what `clauseBounds` computes. -/
def BTabOK (t : BTab) : Prop := ∀ l bs, (l, bs) ∈ t → bs = clauseBounds l

mutual

theorem boundVars_tab : ∀ (e : E) (t : BTab), BTabOK t → BTabOK (boundVars e t).2
  | .var _, _, h => h
  | .lit _, _, h => h
  | .quote _, _, h => h
  | .quoteSyntax _, _, h => h
  | .unbound, _, h => h
  | .define xs e, t, h => boundVars_tab e t h
  | .set x e, t, h => boundVars_tab e t h
  | .ite c a b, t, h => boundVars_tab b _ (boundVars_tab a _ (boundVars_tab c t h))
  | .letv _ _, _, h => h
  | .letrecv _ _, _, h => h
  | .lam f body, t, h => by
    intro l bs hm
    rcases List.mem_cons.1 hm with hm | hm
    · cases hm
      rw [clauseBounds_lam, boundVarsSeq_indep body t []]
    · exact boundVarsSeq_tab body t h l bs hm
  | .clam cs, t, h => by
    intro l bs hm
    rcases List.mem_cons.1 hm with hm | hm
    · cases hm
      rw [clauseBounds_clam, boundVarsClauses_indep cs t []]
    · exact boundVarsClauses_tab cs t h l bs hm
  | .begin es, t, h => boundVarsSeq_tab es t h
  | .app f args, t, h => boundVarsSeq_tab args _ (boundVars_tab f t h)
  | .mvcall e c, t, h => boundVars_tab c _ (boundVars_tab e t h)
  | .mvlet e xs body, t, h => boundVars_tab body _ (boundVars_tab e t h)
  | .mvvals es, t, h => boundVarsSeq_tab es t h

theorem boundVarsSeq_tab : ∀ (es : List E) (t : BTab), BTabOK t → BTabOK (boundVarsSeq es t).2
  | [], _, h => h
  | e :: es, t, h => boundVarsSeq_tab es _ (boundVars_tab e t h)

theorem boundVarsClauses_tab : ∀ (cs : List Cl) (t : BTab), BTabOK t → BTabOK (boundVarsClauses cs t).2
  | [], _, h => h
  | .mk f body :: cs, t, h => boundVarsClauses_tab cs _ (boundVarsSeq_tab body t h)

end

/-- Looking a procedure up in the table of bound variables gives what analysing it alone gives. -/
theorem boundVars_lookup (e l : E) (bs : List (List Sym)) (h : (l, bs) ∈ (boundVars e []).2) : bs = clauseBounds l :=
  boundVars_tab e [] (by intro l bs h; cases h) l bs h

/-! ## Slots -/

/-- Specification: the number of slots the current environment must have for the instruction to stay inside, where the current closure has `k` variables. -/
def need {L C : Type} (k : Nat) : I L C → Nat
  | .lookup i => i + 1
  | .lookupCell i => i + 1
  | .bind i _ => i + 1
  | .bindCell i => i + 1
  | .rebind i => i + 1
  | .bindValues i n _ => i + n
  | .closureBind => k
  | _ => 0

/-- Specification: with an environment of `N` slots at first, each instruction of the list stays inside the environment made last. -/
def envOK {L C : Type} (k : Nat) : Nat → List (I L C) → Prop
  | _, [] => True
  | _, .pushEnv m :: r => envOK k m r
  | N, i :: r => need k i ≤ N ∧ envOK k N r

/-- Specification: the code of a procedure whose closures have `k` variables stays inside its environments, and so does all code inside it; closures are filled
within their size. -/
inductive SlotOK : Nat → Code → Prop
  | mk (k : Nat) (is : List (I Nat Code)) (ar : Ar) : envOK k 0 is → (∀ i ∈ is, ∀ c n, i = .makeClosure c n → SlotOK n c) → SlotOK k (.mk is ar)

/-- An instruction that makes no environment and needs at most `N` slots. -/
def Fits {L C : Type} (k N : Nat) (i : I L C) : Prop := need k i ≤ N ∧ ∀ m, i ≠ .pushEnv m

theorem envOK_fits {L C : Type} {k N : Nat} : ∀ {a b : List (I L C)}, (∀ i ∈ a, Fits k N i) → envOK k N b → envOK k N (a ++ b)
  | [], _, _, hb => hb
  | i :: a, b, ha, hb => by
    have h := ha i (by simp)
    have ih := envOK_fits (fun i hi => ha i (by simp [hi])) hb (a := a)
    cases i
    case pushEnv m => exact absurd rfl (h.2 m)
    all_goals exact ⟨h.1, ih⟩

theorem need_mapI {L L' C C' : Type} (f : L → L') (g : C → C') (k : Nat) (i : I L C) : need k (mapI f g i) = need k i := by
  cases i <;> rfl

theorem envOK_mapI {L L' C C' : Type} (f : L → L') (g : C → C') (k : Nat) : ∀ (N : Nat) (is : List (I L C)),
    envOK k N is → envOK k N (is.map (mapI f g))
  | _, [], _ => trivial
  | N, i :: r, h => by
    cases i
    case pushEnv m => exact envOK_mapI f g k m r h
    all_goals exact ⟨h.1, envOK_mapI f g k N r h.2⟩

theorem scopeRef_lt {sc : Scope} {s : Sym} {i : Nat} (h : scopeRef sc s = some i) : i < sc.length := by
  induction sc with
  | nil => simp [scopeRef] at h
  | cons x sc ih =>
    rw [scopeRef] at h
    by_cases hx : x = s
    · rw [if_pos hx] at h; cases h; simp
    · rw [if_neg hx] at h
      have := ih h
      simp only [List.length_cons]; omega

theorem scopeBind_length (xs : List Sym) : ∀ (sc : Scope), (scopeBind sc xs).length = sc.length + xs.length := by
  induction xs with
  | nil => intro sc; rfl
  | cons x xs ih =>
    intro sc
    show (scopeBind (x :: sc) xs).length = _
    rw [ih]; simp; omega

/-- The closures made by an instruction list. -/
def ClosOK (tm : List Code) (is : List Item) : Prop :=
  ∀ i ∈ instrs is, ∀ c n, i = .makeClosure c n → ∃ code, tm.reverse[c]? = some code ∧ SlotOK n code

theorem ClosOK.ext {tm tm' : List Code} {is : List Item} (h : ClosOK tm is) (he : ∃ new, tm' = new ++ tm) : ClosOK tm' is := by
  obtain ⟨new, rfl⟩ := he
  intro i hi c n hc
  obtain ⟨code, h1, h2⟩ := h i hi c n hc
  refine ⟨code, ?_, h2⟩
  rw [List.reverse_append, List.getElem?_append_left]
  · exact h1
  · exact (List.getElem?_eq_some_iff.1 h1).1

theorem ClosOK.append {tm : List Code} {a b : List Item} (ha : ClosOK tm a) (hb : ClosOK tm b) : ClosOK tm (a ++ b) := by
  intro i hi c n hc
  rw [instrs_append, List.mem_append] at hi
  exact hi.elim (fun h => ha i h c n hc) (fun h => hb i h c n hc)

theorem ClosOK.nil {tm : List Code} : ClosOK tm [] := by intro i hi; simp [instrs] at hi

theorem ClosOK.cons {tm : List Code} {i : I Nat Nat} {r : List Item} (hr : ClosOK tm r) (h : tmplOf i = none) : ClosOK tm (.ins i :: r) := by
  intro j hj c n hc
  simp only [instrs, List.mem_cons] at hj
  rcases hj with rfl | hj
  · rw [hc] at h; simp [tmplOf] at h
  · exact hr j hj c n hc

theorem ClosOK.lab {tm : List Code} {l : Nat} {r : List Item} (hr : ClosOK tm r) : ClosOK tm (.lab l :: r) := hr

/-- Fitting pieces. -/
def FitsAll (k N : Nat) (is : List Item) : Prop := ∀ i ∈ instrs is, Fits k N i

theorem FitsAll.append {k N : Nat} {a b : List Item} (ha : FitsAll k N a) (hb : FitsAll k N b) : FitsAll k N (a ++ b) := by
  intro i hi
  rw [instrs_append, List.mem_append] at hi
  exact hi.elim (ha i) (hb i)

theorem FitsAll.nil {k N : Nat} : FitsAll k N [] := by intro i hi; simp [instrs] at hi

theorem FitsAll.cons {k N : Nat} {i : I Nat Nat} {r : List Item} (hr : FitsAll k N r) (h : need k i ≤ N) (hp : ∀ m, i ≠ .pushEnv m := by intro m h; cases h) :
    FitsAll k N (.ins i :: r) := by
  intro j hj
  simp only [instrs, List.mem_cons] at hj
  rcases hj with rfl | hj
  · exact ⟨h, hp⟩
  · exact hr j hj

theorem FitsAll.lab {k N l : Nat} {r : List Item} (hr : FitsAll k N r) : FitsAll k N (.lab l :: r) := hr

theorem fits_tailRet {k N : Nat} (t : Bool) : FitsAll k N (tailRet t) := by
  cases t
  · exact FitsAll.nil
  · exact FitsAll.nil.cons (Nat.zero_le _)

theorem clos_tailRet {tm : List Code} (t : Bool) : ClosOK tm (tailRet t) := by
  cases t
  · exact ClosOK.nil
  · exact ClosOK.nil.cons rfl

theorem fits_bindArgs {k N : Nat} : ∀ (xs : List Sym) (a b : Nat), b + xs.length ≤ N → FitsAll k N (bindArgs xs a b)
  | [], _, _, _ => FitsAll.nil
  | x :: xs, a, b, h => by
    simp only [List.length_cons] at h
    refine FitsAll.cons (FitsAll.cons (fits_bindArgs xs (a + 1) (b + 1) (by omega)) ?_) (Nat.zero_le _)
    simp only [need]; omega

theorem clos_bindArgs {tm : List Code} : ∀ (xs : List Sym) (a b : Nat), ClosOK tm (bindArgs xs a b)
  | [], _, _ => ClosOK.nil
  | _ :: xs, a, b => ((clos_bindArgs xs (a + 1) (b + 1)).cons rfl).cons rfl

theorem fits_fill {k N : Nat} (sc : Scope) (h : sc.length ≤ N) : ∀ (xs : List Sym) (i : Nat), FitsAll k N (fillClosure sc xs i)
  | [], _ => FitsAll.nil
  | x :: xs, i => by
    refine FitsAll.cons (FitsAll.cons (fits_fill sc h xs (i + 1)) (Nat.zero_le _)) ?_ ?_
    · rw [lookupCellIns]
      cases hr : scopeRef sc x with
      | none => simp [need]
      | some j => have := scopeRef_lt hr; simp only [need]; omega
    · rw [lookupCellIns]; intro m; cases scopeRef sc x <;> intro h <;> cases h

theorem clos_fill {tm : List Code} (sc : Scope) : ∀ (xs : List Sym) (i : Nat), ClosOK tm (fillClosure sc xs i)
  | [], _ => ClosOK.nil
  | x :: xs, i => ((clos_fill sc xs (i + 1)).cons rfl).cons (by rw [lookupCellIns]; cases scopeRef sc x <;> rfl)

theorem fits_closure {k N : Nat} (sc : Scope) (h : sc.length ≤ N) (idx : Nat) (fvs : List Sym) : FitsAll k N (closureIns sc idx fvs) := by
  rw [closureIns.eq_def]
  refine FitsAll.cons ?_ (Nat.zero_le _)
  cases fvs with
  | nil => exact FitsAll.nil
  | cons x xs =>
    refine FitsAll.cons ?_ (Nat.zero_le _)
    exact (fits_fill sc h _ 0).append (FitsAll.nil.cons (Nat.zero_le _))

theorem clos_closure {tm : List Code} (sc : Scope) (fvs : List Sym) (code : Code) (h : SlotOK fvs.length code) :
    ClosOK (code :: tm) (closureIns sc tm.length fvs) := by
  rw [closureIns.eq_def]
  intro i hi c n hc
  simp only [instrs, List.mem_cons] at hi
  rcases hi with rfl | hi
  · cases hc
    refine ⟨code, ?_, h⟩
    rw [List.reverse_cons, List.getElem?_append_right (by simp)]
    simp
  · clear h
    cases fvs with
    | nil => exact ClosOK.nil i hi c n hc
    | cons x xs => exact ClosOK.cons ((clos_fill sc _ 0).append (ClosOK.nil.cons rfl)) rfl i hi c n hc

/-- The head of a clause makes its environment and stays within it. -/
theorem envOK_head (k N nb : Nat) (f : Formals) (b : List (I Nat Nat)) (hf : f.ids.length ≤ nb) (hb : envOK k (k + nb) b) :
    envOK k N (instrs (clauseHead k nb f) ++ b) := by
  have hlen : f.req.length + f.rest.toList.length ≤ nb := by rw [Formals.ids, List.length_append] at hf; exact hf
  have : FitsAll k (k + nb) (bindArgs f.req 0 k ++ (match f.rest with
     | none => []
     | some r => [.ins (.doRest f.req.length), .ins (.bind (k + f.req.length) r)]) ++ [.ins .clearFrame]) := by
    refine ((fits_bindArgs _ _ _ (by omega)).append ?_).append (FitsAll.nil.cons (Nat.zero_le _))
    cases hr : f.rest with
    | none => exact FitsAll.nil
    | some r =>
      rw [hr] at hlen
      simp only [Option.toList_some, List.length_singleton] at hlen
      refine FitsAll.cons (FitsAll.nil.cons ?_) (Nat.zero_le _)
      simp only [need]; omega
  have hh := envOK_fits this hb
  rw [clauseHead, List.append_assoc, List.append_assoc, instrs_append]
  rw [← List.append_assoc (bindArgs f.req 0 k)]
  exact ⟨Nat.le_add_right k nb, hh⟩

theorem clos_head {tm : List Code} (k nb : Nat) (f : Formals) : ClosOK tm (clauseHead k nb f) := by
  rw [clauseHead]
  refine ((ClosOK.append (((ClosOK.nil.cons rfl).cons rfl)) (clos_bindArgs _ _ _)).append ?_).append (ClosOK.nil.cons rfl)
  cases f.rest with
  | none => exact ClosOK.nil
  | some r => exact (ClosOK.nil.cons rfl).cons rfl

theorem clos_entry {tm : List Code} (prev : Option Nat) (f : Formals) (l : Nat) : ClosOK tm (clauseEntry prev f l) := by
  rw [clauseEntry.eq_def]
  have : ClosOK tm [.ins (if f.rest.isSome then .branchlt f.req.length l else .branchne f.req.length l)] := by
    refine ClosOK.nil.cons ?_
    cases f.rest.isSome <;> rfl
  cases prev with
  | none => exact this.cons rfl
  | some p => exact this

theorem envOK_entry {k N : Nat} (prev : Option Nat) (f : Formals) (l : Nat) (b : List (I Nat Nat)) (hb : envOK k N b) :
    envOK k N (instrs (clauseEntry prev f l) ++ b) := by
  refine envOK_fits ?_ hb
  have : FitsAll k N [.ins (if f.rest.isSome then .branchlt f.req.length l else .branchne f.req.length l)] := by
    refine FitsAll.nil.cons ?_ ?_
    · cases f.rest.isSome <;> exact Nat.zero_le _
    · intro m; cases f.rest.isSome <;> intro h <;> cases h
  rw [clauseEntry.eq_def]
  cases prev with
  | none => exact this.cons (Nat.zero_le _)
  | some p => exact this

theorem clauseScope_length (fvs : List Sym) (f : Formals) : (clauseScope fvs f).length = fvs.length + f.ids.length := by
  rw [clauseScope, scopeBind_length, scopeBind_length]; simp

theorem assemble_slots {items : List Item} {tm : List Code} {ar : Ar} {code : Code} {k : Nat} (hwf : WellFormed items tm.length)
    (he : envOK k 0 (instrs items)) (hc : ClosOK tm items) (h : assemble tm items ar = .ok code) : SlotOK k code := by
  rw [assemble_ok tm ar hwf] at h
  cases h
  refine SlotOK.mk _ _ _ (envOK_mapI _ _ _ _ _ he) ?_
  intro i hi c n hcn
  obtain ⟨j, hj, rfl⟩ := List.mem_map.1 hi
  cases j
  case makeClosure c' n' =>
    simp only [mapI, I.makeClosure.injEq] at hcn
    obtain ⟨rfl, rfl⟩ := hcn
    obtain ⟨code, h1, h2⟩ := hc _ hj c' n' rfl
    rw [h1]; exact h2
  all_goals simp [mapI] at hcn

/-- What is proved of each compiled piece. -/
def PieceOK (k N : Nat) (o : Out) : Prop := FitsAll k N o.1 ∧ ClosOK o.2.2 o.1

theorem simple_piece {k N n : Nat} {tm : List Code} {t : Bool} (i : I Nat Nat) (hn : need k i ≤ N) (hp : ∀ m, i ≠ .pushEnv m) (hc : tmplOf i = none) :
    PieceOK k N (.ins i :: tailRet t, n, tm) :=
  ⟨(fits_tailRet t).cons hn hp, (clos_tailRet t).cons hc⟩

mutual

theorem compile_slots : ∀ (e : E) (sc : Scope) (t : Bool) (n : Nat) (tm : List Code) (k N : Nat), hasClauses e = true →
    sc.length + (boundVars e []).1.length ≤ N → ∀ o, compile e sc t n tm = .ok o → PieceOK k N o
  | .var s, sc, t, n, tm, k, N, _, hN, o, ho => by
    simp only [compile, Res.ok.injEq] at ho
    subst ho
    simp only [boundVars, List.length_nil, Nat.add_zero] at hN
    refine simple_piece _ ?_ ?_ ?_
    · cases hr : scopeRef sc s with
      | none => simp [need]
      | some j => have := scopeRef_lt hr; simp only [need]; omega
    · intro m; cases scopeRef sc s <;> intro h <;> cases h
    · cases scopeRef sc s <;> rfl
  | .lit _, _, _, _, _, _, _, _, _, o, ho => by
    cases ho; exact simple_piece _ (Nat.zero_le _) (by intro m h; cases h) rfl
  | .quote _, _, _, _, _, _, _, _, _, o, ho => by
    cases ho; exact simple_piece _ (Nat.zero_le _) (by intro m h; cases h) rfl
  | .quoteSyntax _, _, _, _, _, _, _, _, _, o, ho => by
    cases ho; exact simple_piece _ (Nat.zero_le _) (by intro m h; cases h) rfl
  | .unbound, _, _, _, _, _, _, _, _, o, ho => by
    cases ho; exact simple_piece _ (Nat.zero_le _) (by intro m h; cases h) rfl
  | .define xs e, sc, t, n, tm, k, N, h, hN, o, ho => by
    simp only [hasClauses] at h
    obtain ⟨⟨is, m, tm'⟩, h1, _⟩ := compile_ok e sc false n tm h
    simp only [boundVars, List.length_append] at hN
    have p := compile_slots e sc false n tm k N h (by omega) _ h1
    simp only [compile, h1, Res.ok_bind, Res.ok.injEq] at ho
    subst ho
    exact ⟨p.1.append ((fits_tailRet t).cons (Nat.zero_le _)), p.2.append ((clos_tailRet t).cons rfl)⟩
  | .set x e, sc, t, n, tm, k, N, h, hN, o, ho => by
    simp only [hasClauses] at h
    obtain ⟨⟨is, m, tm'⟩, h1, _⟩ := compile_ok e sc false n tm h
    simp only [boundVars] at hN
    have p := compile_slots e sc false n tm k N h hN _ h1
    simp only [compile, h1, Res.ok_bind, Res.ok.injEq] at ho
    subst ho
    refine ⟨p.1.append ((fits_tailRet t).cons ?_ ?_), p.2.append ((clos_tailRet t).cons ?_)⟩
    · cases hr : scopeRef sc x with
      | none => simp [need]
      | some j => have := scopeRef_lt hr; simp only [need]; omega
    · intro m; cases scopeRef sc x <;> intro h <;> cases h
    · cases scopeRef sc x <;> rfl
  | .ite c a b, sc, t, n, tm, k, N, h, hN, o, ho => by
    simp only [hasClauses, Bool.and_eq_true] at h
    obtain ⟨⟨ci, m1, tm1⟩, h1, o1⟩ := compile_ok c sc false n tm h.1.1
    obtain ⟨⟨ai, m2, tm2⟩, h2, o2⟩ := compile_ok a sc t m1 tm1 h.1.2
    obtain ⟨⟨bi, m3, tm3⟩, h3, o3⟩ := compile_ok b sc t m2 tm2 h.2
    simp only [boundVars, List.length_append, boundVars_indep a (boundVars c []).2 [],
      boundVars_indep b (boundVars a (boundVars c []).2).2 []] at hN
    have p1 := compile_slots c sc false n tm k N h.1.1 (by omega) _ h1
    have p2 := compile_slots a sc t m1 tm1 k N h.1.2 (by omega) _ h2
    have p3 := compile_slots b sc t m2 tm2 k N h.2 (by omega) _ h3
    have c1 := p1.2.ext (ext_trans o2.ext o3.ext)
    have c2 := p2.2.ext o3.ext
    cases t with
    | true =>
      simp only [compile, h1, h2, h3, Res.ok_bind, if_true, Res.ok.injEq] at ho
      subst ho
      exact ⟨p1.1.append ((p2.1.append p3.1.lab).cons (Nat.zero_le _)), c1.append ((c2.append p3.2.lab).cons rfl)⟩
    | false =>
      simp only [compile, h1, h2, h3, Res.ok_bind, Bool.false_eq_true, if_false, Res.ok.injEq] at ho
      subst ho
      exact ⟨p1.1.append ((p2.1.append ((p3.1.append FitsAll.nil.lab).lab.cons (Nat.zero_le _))).cons (Nat.zero_le _)),
        c1.append ((c2.append ((p3.2.append ClosOK.nil.lab).lab.cons rfl)).cons rfl)⟩
  | .letv _ _, _, _, _, _, _, _, h, _, _, _ => by simp [hasClauses] at h
  | .letrecv _ _, _, _, _, _, _, _, h, _, _, _ => by simp [hasClauses] at h
  | .lam f body, sc, t, n, tm, k, N, h, hN, o, ho => by
    simp only [hasClauses] at h
    obtain ⟨⟨is, m, tm'⟩, h1, h2⟩ := compileBody_ok body (clauseScope (freeVars (.lam f body) []).1 f) true 1 tm h
    have hw := lambda_wf h2 f (freeVars (.lam f body) []).1.length ((clauseBounds (.lam f body)).headD []).length
    have ha := assemble_ok tm' (clausesArity [f]) hw
    simp only [boundVars, List.length_nil, Nat.add_zero] at hN
    have p := compileBody_slots body (clauseScope (freeVars (.lam f body) []).1 f) true 1 tm (freeVars (.lam f body) []).1.length
      ((freeVars (.lam f body) []).1.length + ((clauseBounds (.lam f body)).headD []).length) h (by
        rw [clauseScope_length, clauseBounds_lam]; simp only [List.headD_cons, List.length_append]; omega) _ h1
    have hs := assemble_slots (k := (freeVars (.lam f body) []).1.length) hw (by
        simp only [List.append_assoc, instrs_append]
        refine envOK_entry _ _ _ _ (envOK_head _ _ _ _ _ ?_ (envOK_fits p.1 ?_))
        · rw [clauseBounds_lam]; simp
        · exact ⟨Nat.zero_le _, trivial⟩)
      ((((clos_entry _ _ _).append (clos_head _ _ _)).append p.2).append (ClosOK.nil.cons rfl).lab) ha
    simp only [compile, h1, Res.ok_bind, ha, Res.ok.injEq] at ho
    subst ho
    exact ⟨(fits_closure sc hN _ _).append (fits_tailRet t), (clos_closure sc _ _ hs).append (clos_tailRet t)⟩
  | .clam cs, sc, t, n, tm, k, N, h, hN, o, ho => by
    have h0 := h
    simp only [hasClauses, Bool.and_eq_true] at h
    have hne : cs ≠ [] := by rintro rfl; simp at h
    obtain ⟨⟨is, last, m, tm'⟩, h1, h2⟩ := compileClauses_ok cs (freeVars (.clam cs) []).1 (clauseBounds (.clam cs)) none 0 tm h.2 (by simp)
    obtain ⟨l, hl, hl1, hl2, hl3⟩ := h2.last hne
    simp only at hl hl1 hl2 hl3
    subst hl
    have hw := clauses_wf hne h2
    have ha := assemble_ok tm' (clausesArity (cs.map Cl.fs)) hw
    simp only [boundVars, List.length_nil, Nat.add_zero] at hN
    have p := compileClauses_slots cs (freeVars (.clam cs) []).1 none 0 tm h.2 _ (by rw [← clauseBounds_clam]; exact h1) (by simp)
    have hs := assemble_slots (k := (freeVars (.clam cs) []).1.length) hw (by
        rw [instrs_append]
        exact p.1 0 _ (fun N => ⟨Nat.zero_le _, trivial⟩))
      (p.2.append (ClosOK.nil.cons rfl).lab) ha
    simp only [compile, h1, Res.ok_bind, ha, Res.ok.injEq] at ho
    subst ho
    exact ⟨(fits_closure sc hN _ _).append (fits_tailRet t), (clos_closure sc _ _ hs).append (clos_tailRet t)⟩
  | .begin es, sc, t, n, tm, k, N, h, hN, o, ho => by
    simp only [compile] at ho
    simp only [hasClauses] at h
    exact compileBody_slots es sc t n tm k N h hN o ho
  | .app f args, sc, t, n, tm, k, N, h, hN, o, ho => by
    simp only [hasClauses, Bool.and_eq_true] at h
    obtain ⟨⟨fi, m1, tm1⟩, h1, o1⟩ := compile_ok f sc false (if t then n else n + 1) tm h.1
    obtain ⟨⟨ai, m2, tm2⟩, h2, o2⟩ := compileArgs_ok args sc m1 tm1 h.2
    simp only [boundVars, List.length_append, boundVarsSeq_indep args (boundVars f []).2 []] at hN
    have p1 := compile_slots f sc false _ tm k N h.1 (by omega) _ h1
    have p2 := compileArgs_slots args sc m1 tm1 k N h.2 (by omega) _ h2
    have c1 := p1.2.ext o2.ext
    have F : FitsAll k N (fi ++ .ins .setProc :: .ins (.checkStack args.length) :: (ai ++ [.ins .apply])) :=
      p1.1.append (((p2.1.append (FitsAll.nil.cons (Nat.zero_le _))).cons (Nat.zero_le _)).cons (Nat.zero_le _))
    have K : ClosOK tm2 (fi ++ .ins .setProc :: .ins (.checkStack args.length) :: (ai ++ [.ins .apply])) :=
      c1.append (((p2.2.append (ClosOK.nil.cons rfl)).cons rfl).cons rfl)
    cases t with
    | true =>
      simp only [if_true] at h1
      simp only [compile, if_true, h1, h2, Res.ok_bind, Res.ok.injEq] at ho
      subst ho
      exact ⟨F, K⟩
    | false =>
      simp only [Bool.false_eq_true, if_false] at h1
      simp only [compile, h1, h2, Res.ok_bind, if_false, Bool.false_eq_true, Res.ok.injEq] at ho
      subst ho
      exact ⟨(F.append FitsAll.nil.lab).cons (Nat.zero_le _), (K.append ClosOK.nil.lab).cons rfl⟩
  | .mvcall e c, sc, t, n, tm, k, N, h, hN, o, ho => by
    simp only [hasClauses, Bool.and_eq_true] at h
    obtain ⟨⟨ei, m1, tm1⟩, h1, o1⟩ := compile_ok e sc false (if t then n else n + 1) tm h.1
    obtain ⟨⟨ci, m2, tm2⟩, h2, o2⟩ := compile_ok c sc false m1 tm1 h.2
    simp only [boundVars, List.length_append, boundVars_indep c (boundVars e []).2 []] at hN
    have p1 := compile_slots e sc false _ tm k N h.1 (by omega) _ h1
    have p2 := compile_slots c sc false m1 tm1 k N h.2 (by omega) _ h2
    have c1 := p1.2.ext o2.ext
    have F : FitsAll k N (ei ++ .ins .clearFrame :: .ins .doWithValues :: (ci ++ [.ins .setProc, .ins .apply])) :=
      p1.1.append (((p2.1.append ((FitsAll.nil.cons (Nat.zero_le _)).cons (Nat.zero_le _))).cons (Nat.zero_le _)).cons (Nat.zero_le _))
    have K : ClosOK tm2 (ei ++ .ins .clearFrame :: .ins .doWithValues :: (ci ++ [.ins .setProc, .ins .apply])) :=
      c1.append (((p2.2.append ((ClosOK.nil.cons rfl).cons rfl)).cons rfl).cons rfl)
    cases t with
    | true =>
      simp only [if_true] at h1
      simp only [compile, if_true, h1, h2, Res.ok_bind, Res.ok.injEq] at ho
      subst ho
      exact ⟨F, K⟩
    | false =>
      simp only [Bool.false_eq_true, if_false] at h1
      simp only [compile, h1, h2, Res.ok_bind, if_false, Bool.false_eq_true, Res.ok.injEq] at ho
      subst ho
      exact ⟨(F.append FitsAll.nil.lab).cons (Nat.zero_le _), (K.append ClosOK.nil.lab).cons rfl⟩
  | .mvlet e xs body, sc, t, n, tm, k, N, h, hN, o, ho => by
    simp only [hasClauses, Bool.and_eq_true] at h
    obtain ⟨⟨ei, m1, tm1⟩, h1, o1⟩ := compile_ok e sc false n tm h.1
    obtain ⟨⟨bi, m2, tm2⟩, h2, o2⟩ := compile_ok body (scopeBind sc xs) t m1 tm1 h.2
    simp only [boundVars, List.length_append, boundVars_indep body (boundVars e []).2 []] at hN
    have p1 := compile_slots e sc false n tm k N h.1 (by omega) _ h1
    have p2 := compile_slots body (scopeBind sc xs) t m1 tm1 k N h.2 (by rw [scopeBind_length]; omega) _ h2
    simp only [compile, h1, h2, Res.ok_bind, Res.ok.injEq] at ho
    subst ho
    exact ⟨p1.1.append (p2.1.cons (by simp only [need]; omega)), (p1.2.ext o2.ext).append (p2.2.cons rfl)⟩
  | .mvvals [], sc, t, n, tm, k, N, _, _, o, ho => by
    simp only [compile, Res.ok.injEq] at ho
    subst ho
    exact simple_piece _ (Nat.zero_le _) (by intro m h; cases h) rfl
  | .mvvals (e :: r), sc, t, n, tm, k, N, h, hN, o, ho => by
    simp only [hasClauses, hasClausesL, Bool.and_eq_true] at h
    obtain ⟨⟨ei, m1, tm1⟩, h1, o1⟩ := compile_ok e sc false n tm h.1
    obtain ⟨⟨ri, m2, tm2⟩, h2, o2⟩ := compileArgs_ok r sc m1 tm1 h.2
    simp only [boundVars, boundVarsSeq, List.length_append, boundVarsSeq_indep r (boundVars e []).2 []] at hN
    have p1 := compile_slots e sc false n tm k N h.1 (by omega) _ h1
    have p2 := compileArgs_slots r sc m1 tm1 k N h.2 (by omega) _ h2
    simp only [compile, h1, h2, Res.ok_bind, Res.ok.injEq] at ho
    subst ho
    exact ⟨(p1.1.append ((p2.1.append (((fits_tailRet t).cons (Nat.zero_le _)).cons (Nat.zero_le _))).cons (Nat.zero_le _))).cons (Nat.zero_le _),
      ((p1.2.ext o2.ext).append ((p2.2.append (((clos_tailRet t).cons rfl).cons rfl)).cons rfl)).cons rfl⟩

theorem compileBody_slots : ∀ (es : List E) (sc : Scope) (t : Bool) (n : Nat) (tm : List Code) (k N : Nat), hasClausesL es = true →
    sc.length + (boundVarsSeq es []).1.length ≤ N → ∀ o, compileBody es sc t n tm = .ok o → PieceOK k N o
  | [], _, _, _, _, _, _, _, _, o, ho => by
    cases ho; exact simple_piece _ (Nat.zero_le _) (by intro m h; cases h) rfl
  | [e], sc, t, n, tm, k, N, h, hN, o, ho => by
    simp only [compileBody] at ho
    simp only [boundVarsSeq, List.append_nil] at hN
    exact compile_slots e sc t n tm k N (by simpa [hasClausesL] using h) hN o ho
  | e :: e' :: r, sc, t, n, tm, k, N, h, hN, o, ho => by
    rw [hasClausesL, Bool.and_eq_true] at h
    obtain ⟨⟨ei, m1, tm1⟩, h1, o1⟩ := compile_ok e sc false n tm h.1
    obtain ⟨⟨ri, m2, tm2⟩, h2, o2⟩ := compileBody_ok (e' :: r) sc t m1 tm1 h.2
    rw [boundVarsSeq] at hN
    simp only [List.length_append, boundVarsSeq_indep (e' :: r) (boundVars e []).2 []] at hN
    have p1 := compile_slots e sc false n tm k N h.1 (by omega) _ h1
    have p2 := compileBody_slots (e' :: r) sc t m1 tm1 k N h.2 (by omega) _ h2
    rw [compileBody] at ho
    simp only [h1, h2, Res.ok_bind, Res.ok.injEq] at ho
    subst ho
    exact ⟨p1.1.append p2.1, (p1.2.ext o2.ext).append p2.2⟩

theorem compileArgs_slots : ∀ (es : List E) (sc : Scope) (n : Nat) (tm : List Code) (k N : Nat), hasClausesL es = true →
    sc.length + (boundVarsSeq es []).1.length ≤ N → ∀ o, compileArgs es sc n tm = .ok o → PieceOK k N o
  | [], _, _, _, _, _, _, _, o, ho => by
    cases ho; exact ⟨FitsAll.nil, ClosOK.nil⟩
  | e :: r, sc, n, tm, k, N, h, hN, o, ho => by
    rw [hasClausesL, Bool.and_eq_true] at h
    obtain ⟨⟨ei, m1, tm1⟩, h1, o1⟩ := compile_ok e sc false n tm h.1
    obtain ⟨⟨ri, m2, tm2⟩, h2, o2⟩ := compileArgs_ok r sc m1 tm1 h.2
    simp only [boundVarsSeq, List.length_append, boundVarsSeq_indep r (boundVars e []).2 []] at hN
    have p1 := compile_slots e sc false n tm k N h.1 (by omega) _ h1
    have p2 := compileArgs_slots r sc m1 tm1 k N h.2 (by omega) _ h2
    simp only [compileArgs, h1, h2, Res.ok_bind, Res.ok.injEq] at ho
    subst ho
    exact ⟨p1.1.append (p2.1.cons (Nat.zero_le _)), (p1.2.ext o2.ext).append (p2.2.cons rfl)⟩

theorem compileClauses_slots : ∀ (cs : List Cl) (fvs : List Sym) (prev : Option Nat) (n : Nat) (tm : List Code), hasClausesC cs = true →
    ∀ o, compileClauses cs fvs (boundVarsClauses cs []).1 prev n tm = .ok o → (∀ p, prev = some p → p < n) →
    (∀ N b, (∀ N, envOK fvs.length N b) → envOK fvs.length N (instrs o.1 ++ b)) ∧ ClosOK o.2.2.2 o.1
  | [], _, _, _, _, _, o, ho, _ => by
    cases ho; exact ⟨fun N b hb => hb N, ClosOK.nil⟩
  | .mk f body :: cs, fvs, prev, n, tm, h, o, ho, hp => by
    simp only [hasClausesC, Bool.and_eq_true] at h
    obtain ⟨⟨is, m1, tm1⟩, h1, o1⟩ := compileBody_ok body (clauseScope fvs f) true (n + 1) tm h.1
    have hp' : ∀ p, some n = some p → p < m1 := by
      rintro p hp'
      have := o1.le
      simp only at this
      cases hp'
      omega
    obtain ⟨⟨rest, last, m2, tm2⟩, h2, o2⟩ := compileClauses_ok cs fvs (boundVarsClauses cs []).1 (some n) m1 tm1 h.2 hp'
    have hb : (boundVarsClauses (.mk f body :: cs) []).1 = (f.ids ++ (f.ids ++ (boundVarsSeq body []).1)) :: (boundVarsClauses cs []).1 := by
      simp only [boundVarsClauses, boundVarsClauses_indep cs (boundVarsSeq body []).2 []]
    have p1 := compileBody_slots body (clauseScope fvs f) true (n + 1) tm fvs.length
      (fvs.length + (f.ids ++ (f.ids ++ (boundVarsSeq body []).1)).length) h.1 (by
        rw [clauseScope_length]; simp only [List.length_append]; omega) _ h1
    have p2 := compileClauses_slots cs fvs (some n) m1 tm1 h.2 _ h2 hp'
    rw [hb] at ho
    simp only [compileClauses, List.tail_cons, h1, h2, Res.ok_bind, Res.ok.injEq, List.headD_cons] at ho
    subst ho
    refine ⟨fun N b hb => ?_, (((clos_entry _ _ _).append (clos_head _ _ _)).append (p1.2.ext o2.ext)).append p2.2⟩
    simp only [instrs_append, List.append_assoc]
    refine envOK_entry _ _ _ _ (envOK_head _ _ _ _ _ (by simp) (envOK_fits p1.1 ?_))
    exact p2.1 _ b hb

end

end Minim.Jit
