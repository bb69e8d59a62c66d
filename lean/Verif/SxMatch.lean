import Verif.SxLemmas

set_option autoImplicit false

/-! # The generated matchers decide the matching relation -/

namespace Minim.Sc

namespace Pat

/-- the number of elements of a list pattern, where a tail counts -/
def cnt : Pat → Nat
  | nil => 0
  | cons _ q => q.cnt + 1
  | ell _ q => q.cnt + 1
  | _ => 1

/-- `before-ellipsis` -/
def cntB : Pat → Nat
  | nil => 0
  | cons _ q => q.cntB + 1
  | _ => 1

/-- `after-ellipsis` -/
def cntA : Pat → Nat
  | cons _ q => q.cntA
  | ell _ q => q.cnt
  | _ => 0

/-- the part up to the ellipsis -/
def preP : Pat → Pat
  | cons p q => cons p q.preP
  | ell p _ => ell p nil
  | p => p

/-- the part behind the ellipsis -/
def postP : Pat → Pat
  | cons _ q => q.postP
  | ell _ q => q
  | _ => nil

/-- the pattern under the ellipsis -/
def ellP : Pat → Pat
  | cons _ q => q.ellP
  | ell p _ => p
  | _ => nil

end Pat

theorem vars_succ (p : Pat) (k : Nat) : p.vars (k + 1) = (p.vars k).map fun xk => (xk.1, xk.2 + 1) := by
  induction p generalizing k with
  | cons p q ih1 ih2 => simp [Pat.vars, ih1, ih2]
  | ell p q ih1 ih2 => simp only [Pat.vars, List.map_append]; rw [ih1 (k + 1), ih2]
  | vec p ih => simp [Pat.vars, ih]
  | _ => simp [Pat.vars]

theorem names_vars (p : Pat) (k : Nat) : (p.vars k).map Prod.fst = p.names := by
  induction k with
  | zero => rfl
  | succ k ih => rw [vars_succ, List.map_map, ← ih]; rfl

theorem names_cons (p q : Pat) : (Pat.cons p q).names = p.names ++ q.names := by simp [Pat.names, Pat.vars]
theorem names_ell (p q : Pat) : (Pat.ell p q).names = p.names ++ q.names := by
  have := names_vars p 1
  simp only [Pat.names, Pat.vars, List.map_append] at *
  rw [this]
theorem names_vec (p : Pat) : (Pat.vec p).names = p.names := rfl

theorem isAtom_syntax {a : V} (h : isAtom a = true) : toSyntax a = .stx a ∧ pairTail a = .stx a ∧ strip a = a ∧ a ≠ .null ∧ isStx a = false := by
  cases a <;> simp [isAtom] at h <;> simp [toSyntax, pairTail, strip, isStx]

theorem WF.pure {lits : List Nm} {p : Pat} (h : WF lits p) : Pure p.dat ∧ (p.proper = true → isList p.dat = true) := by
  induction p with
  | atom a =>
    have := h.1
    cases a <;> simp [isAtom] at this <;> simp [Pat.dat, Pure, Pat.proper]
  | cons p q ih1 ih2 =>
    have h1 := ih1 h.1; have h2 := ih2 h.2.1
    exact ⟨⟨h1.1, h2.1⟩, fun hp => by simpa [Pat.dat] using h2.2 hp⟩
  | ell p q ih1 ih2 =>
    have h1 := ih1 h.1; have h2 := ih2 h.2.1
    exact ⟨⟨h1.1, trivial, h2.1⟩, fun hp => by simpa [Pat.dat] using h2.2 hp⟩
  | vec p ih =>
    have h1 := ih h.1
    exact ⟨⟨h1.1, h1.2 h.2.1⟩, by simp [Pat.proper]⟩
  | nil => exact ⟨trivial, fun _ => rfl⟩
  | _ => simp [Pat.dat, Pure, Pat.proper]

theorem identOf_dat {lits : List Nm} {p : Pat} (h : WF lits p) :
    identOf (toSyntax p.dat) = match p with
      | .wild => some .under
      | .var x => some x
      | .atom (.sym s) => some s
      | _ => none := by
  cases p with
  | atom a => obtain ⟨h, _⟩ := h; cases a <;> simp [isAtom] at h <;> simp [Pat.dat, toSyntax, identOf]
  | _ => simp [Pat.dat, toSyntax, identOf]

theorem isDots_dat {lits : List Nm} {p : Pat} (h : WF lits p) : isDots (toSyntax p.dat) = false := by
  unfold isDots
  rw [identOf_dat h]
  cases p with
  | var x => simpa using h.2.2
  | atom a => cases a with
    | sym s => simpa using (h.2 s rfl).2.2
    | _ => simp
  | _ => simp

theorem isWild_dat {lits : List Nm} {p : Pat} (h : WF lits p) : isWild (toSyntax p.dat) = decide (p = .wild) := by
  unfold isWild
  rw [identOf_dat h]
  cases p with
  | var x => simpa using h.2.1
  | atom a => cases a with
    | sym s => simpa using (h.2 s rfl).2.1
    | _ => simp
  | _ => simp

theorem isVariable_dat {lits : List Nm} {p : Pat} (h : WF lits p) (hw : p ≠ .wild) :
    isVariable lits (toSyntax p.dat) = match p with | .var _ => true | _ => false := by
  unfold isVariable
  rw [identOf_dat h]
  cases p with
  | wild => exact absurd rfl hw
  | var x => simpa using h.1
  | atom a => cases a with
    | sym s => simpa using (h.2 s rfl).1
    | _ => simp
  | _ => simp

/-! ### what is proved of a matcher -/

/-- The outcome of a matcher: the right result, or an exception where the datum is not calm. -/
def Outcome (m : Mode) (p : Pat) (d : V) (r : Res V) : Prop :=
  (∃ v, r = .ok v ∧ Fit (M p d) (p.vars 0) v) ∨ (r = .err ∧ ¬ Calm m p d)

/-- The matcher for `p` works. -/
def GenOK (lits : List Nm) (p : Pat) : Prop :=
  ∀ n, 2 * p.size ≤ n → ∀ arg, ∃ c, gen lits n (toSyntax p.dat) arg = .ok c ∧
    ∀ env, (run arg env = .err → run c env = .err) ∧
      ∀ d x m, Pure d → m ≠ .elem → IsM m d x → run arg env = .ok x → Outcome m p d (run c env)

theorem size_pos (p : Pat) : 1 ≤ p.size := by cases p <;> simp [Pat.size]

theorem upd_same (env : Env) (x : Nm) (v : V) : upd env x v x = some v := by simp [upd]
theorem upd_other (env : Env) {x y : Nm} (v : V) (h : y ≠ x) : upd env x v y = env y := by simp [upd, h]

theorem datum_ok {lits : List Nm} {p : Pat} (h : WF lits p) (hp : p = .nil ∨ p = .wild ∨ (∃ x, p = .var x) ∨ ∃ a, p = .atom a) (arg : Code) :
    ∃ c, genDatum lits (toSyntax p.dat) arg = .ok c ∧
    ∀ env, (run arg env = .err → run c env = .err) ∧
      ∀ d x m, Pure d → IsM m d x → run arg env = .ok x → Outcome m p d (run c env) := by
  rcases hp with rfl | rfl | ⟨y, rfl⟩ | ⟨a, rfl⟩
  · refine ⟨.app .e (.stxNullF (.var .e)) arg, by simp [genDatum, Pat.dat, toSyntax, stxNull], fun env => ⟨fun he => by simp [run, he], ?_⟩⟩
    intro d x m hd hx hr
    refine .inl ⟨stxNullF x, by simp [run, hr, upd_same], ?_⟩
    by_cases hn : d = .null
    · subst hn
      simp only [stxNullF, hx.null.2, if_true]
      exact Fit.one fun σ => rfl
    · have : stxNull x = false := by
        by_cases hc : ∃ a b, d = .cons a b
        · obtain ⟨a, b, rfl⟩ := hc; exact hx.pair.2.1
        · exact (hx.other hd hn fun a b h => hc ⟨a, b, h⟩).2.1
      simp only [stxNullF, this]
      exact Fit.no fun σ h => hn h
  · refine ⟨.app .e .null arg, by simp [genDatum, Pat.dat, toSyntax, stxNull, isWild, identOf], fun env => ⟨fun he => by simp [run, he], ?_⟩⟩
    intro d x m hd hx hr
    exact .inl ⟨.null, by simp [run, hr], Fit.one fun σ => trivial⟩
  · refine ⟨.app .e (.list1 (.var .e)) arg, ?_, fun env => ⟨fun he => by simp [run, he], ?_⟩⟩
    · have h1 := isWild_dat h
      have h2 := isVariable_dat h (by simp)
      simp only [genDatum, h1, h2]
      simp [Pat.dat, toSyntax, stxNull]
    · intro d x m hd hx hr
      refine .inl ⟨.cons x .null, by simp [run, hr, upd_same], ?_⟩
      exact Fit.var (hx.strip hd) hx.flat
  · have ha := isAtom_syntax h.1
    refine ⟨.app .e (.ite (.equal (.quote a) (.syntaxE (.var .e))) .null .fls) arg, ?_, fun env => ⟨fun he => by simp [run, he], ?_⟩⟩
    · have h1 := isWild_dat h
      have h2 := isVariable_dat h (by simp)
      simp only [genDatum, h1, h2]
      simp only [Pat.dat, ha.1, syntaxE, ok_bind, ha.2.2.1, ha.2.2.2.2]
      have : stxNull (.stx a) = false := by
        have := ha.2.2.2.1
        cases a <;> simp_all [stxNull]
      simp [this]
    · intro d x m hd hx hr
      by_cases hl : d = .null ∨ ∃ a b, d = .cons a b
      · rcases hx.is with rfl | rfl
        · refine .inl ⟨.fls, ?_, Fit.no ?_⟩
          · have := h.1
            rcases hl with rfl | ⟨b, c, rfl⟩ <;> cases a <;> simp [isAtom] at this <;>
              simp [run, hr, upd_same, toSyntax, syntaxE, ofBool]
          · intro σ hm
            have := h.1
            simp only [M] at hm
            rcases hl with rfl | ⟨b, c, rfl⟩ <;> rw [← hm] at this <;> simp [isAtom] at this
        · by_cases hm : m = .tail
          · subst hm
            refine .inr ⟨?_, ?_⟩
            · rcases hl with rfl | ⟨b, c, rfl⟩ <;> simp [run, hr, upd_same, pairTail, syntaxE]
            · intro hc
              simp only [Calm] at hc
              have := hc trivial
              rcases hl with rfl | ⟨b, c, rfl⟩
              · exact this.1 rfl
              · exact this.2 _ _ rfl
          · exfalso
            have : pairTail d = toSyntax d := by cases m <;> simp_all [IsM]
            rcases hl with rfl | ⟨b, c, rfl⟩ <;> simp [pairTail, toSyntax] at this
      · have ho := hx.other hd (fun h => hl (.inl h)) (fun a b h => hl (.inr ⟨a, b, h⟩))
        have hxe := ho.2.2.2.2
        by_cases hda : d = a
        · subst hda
          refine .inl ⟨.null, ?_, Fit.one fun σ => rfl⟩
          simp [run, hr, upd_same, hxe, ha.1, syntaxE, ofBool]
        · refine .inl ⟨.fls, ?_, Fit.no fun σ h => hda h⟩
          have : ∃ e, x = .stx e ∧ a ≠ e := by
            have := h.1
            cases d with
            | null => exact absurd (.inl rfl) hl
            | cons a b => exact absurd (.inr ⟨_, _, rfl⟩) hl
            | stx e => exact absurd hd (by simp [Pure])
            | vec es => exact ⟨_, by rw [hxe]; rfl, by rintro rfl; simp [isAtom] at this⟩
            | _ => exact ⟨_, by rw [hxe]; rfl, fun h => hda h.symm⟩
          obtain ⟨e, rfl, hne⟩ := this
          simp [run, hr, upd_same, syntaxE, ofBool, hne]

/-! ### variables -/

theorem getVars_ok {lits : List Nm} {p : Pat} (h : WF lits p) (n : Nat) (hn : p.size ≤ n) (depth : Nat) (vs : List (Nm × Nat)) :
    getVars lits n (toSyntax p.dat) depth vs = .ok ((p.vars depth).reverse ++ vs) := by
  induction n generalizing p depth vs with
  | zero => have := size_pos p; omega
  | succ n ih =>
    have elemsVec : ∀ q : Pat, WF lits q → q.proper = true → q.size ≤ n → ∀ vs,
        varsVec (getVars lits n) depth ((elems q.dat).map toSyntax) vs = .ok ((q.vars depth).reverse ++ vs) := by
      intro q
      induction q with
      | nil => intro _ _ _ vs; simp [Pat.dat, elems, varsVec, Pat.vars]
      | cons a q _ ihq =>
        intro hw hp hs vs
        simp only [Pat.size] at hs
        have e1 := fun vs => ih (p := a) hw.1 (by omega) depth vs
        have e2 := ihq hw.2.1 hp (by omega)
        simp only [Pat.dat, elems, List.map_cons, Pat.vars, List.reverse_append, List.append_assoc]
        cases hq : (elems q.dat).map toSyntax with
        | nil =>
          rw [varsVec, e1]
          have := e2 ((a.vars depth).reverse ++ vs)
          rw [hq, varsVec] at this
          exact this
        | cons y ys =>
          have hy : isDots y = false := by
            cases q with
            | cons b q' => simp only [Pat.dat, elems, List.map_cons, List.cons.injEq] at hq; rw [← hq.1]; exact isDots_dat hw.2.1.1
            | ell b q' => simp only [Pat.dat, elems, List.map_cons, List.cons.injEq] at hq; rw [← hq.1]; exact isDots_dat hw.2.1.1
            | nil => simp [Pat.dat, elems] at hq
            | _ => simp [Pat.proper] at hp
          rw [varsVec, hy, e1, ← hq]
          simp only [ok_bind, Bool.false_eq_true, if_false]
          exact e2 _
      | ell a q _ ihq =>
        intro hw hp hs vs
        simp only [Pat.size] at hs
        have e1 := fun vs => ih (p := a) hw.1 (by omega) (depth + 1) vs
        have e2 := ihq hw.2.1 hp (by omega)
        simp only [Pat.dat, elems, List.map_cons, Pat.vars, List.reverse_append, List.append_assoc]
        rw [varsVec, e1]
        have : isDots (toSyntax (.sym .dots)) = true := by simp [toSyntax, isDots, identOf]
        simp only [this, if_true, ok_bind]
        exact e2 _
      | _ => intro _ hp; simp [Pat.proper] at hp
    cases p with
    | nil => simp [getVars, Pat.dat, toSyntax, stxNull, Pat.vars]
    | wild =>
      have := isWild_dat h
      simp only [getVars, this]
      simp [Pat.dat, toSyntax, stxNull, stxPair, stxVector, Pat.vars]
    | var x =>
      have := isWild_dat h
      simp only [getVars, this]
      simp [Pat.dat, toSyntax, stxNull, stxPair, stxVector, Pat.vars, identOf, h.1]
    | atom a =>
      have h1 := isWild_dat h
      have h2 := h.2
      have h3 := h.1
      simp only [getVars, h1]
      cases a with
      | sym s =>
        have := (h2 s rfl).1
        simp [Pat.dat, toSyntax, stxNull, stxPair, stxVector, Pat.vars, identOf, this]
      | _ => simp [isAtom] at h3 <;> simp [Pat.dat, toSyntax, stxNull, stxPair, stxVector, Pat.vars, identOf, syntaxE, isStx]
    | cons a q =>
      simp only [Pat.size] at hn
      have e1 := ih (p := a) h.1 (by omega) depth vs
      have e2 := ih (p := q) h.2.1 (by omega) depth ((a.vars depth).reverse ++ vs)
      have hd : stxPair (toSyntax q.dat) = false ∨ (stxPair (toSyntax q.dat) = true ∧ ∃ b, stxCar (toSyntax q.dat) = .ok b ∧ isDots b = false) := by
        have hq := h.2.1
        cases q with
        | cons b q' => exact .inr ⟨rfl, _, rfl, isDots_dat hq.1⟩
        | ell b q' => exact .inr ⟨rfl, _, rfl, isDots_dat hq.1⟩
        | atom a => obtain ⟨hq, _⟩ := hq; cases a <;> simp [isAtom] at hq <;> exact .inl rfl
        | _ => exact .inl rfl
      have h0 : stxNull (toSyntax (Pat.cons a q).dat) = false ∧ stxPair (toSyntax (Pat.cons a q).dat) = true ∧
        stxCar (toSyntax (Pat.cons a q).dat) = .ok (toSyntax a.dat) ∧ stxCdr (toSyntax (Pat.cons a q).dat) = .ok (pairTail q.dat) := ⟨rfl, rfl, rfl, rfl⟩
      simp only [getVars, h0, ok_bind, patTail_pairTail, if_true, Bool.false_eq_true, if_false]
      rcases hd with hd | ⟨hd, b, hb, hbd⟩
      · simp only [hd, ok_bind, Bool.false_eq_true, if_false, e1, e2, Pat.vars, List.reverse_append, List.append_assoc]
      · simp only [hd, hb, hbd, ok_bind, Bool.false_eq_true, if_false, if_true, e1, e2, Pat.vars, List.reverse_append, List.append_assoc]
    | ell a q =>
      simp only [Pat.size] at hn
      have e1 := ih (p := a) h.1 (by omega) (depth + 1) vs
      have e2 := ih (p := q) h.2.1 (by omega) depth ((a.vars (depth + 1)).reverse ++ vs)
      simp only [getVars, Pat.dat, toSyntax, stxNull, stxPair, stxCar, stxCdr, ok_bind, patTail_pairTail, if_true, Bool.false_eq_true, if_false]
      simp only [isDots, identOf, ok_bind, decide_true, if_true, e1, e2, Pat.vars, List.reverse_append, List.append_assoc]
    | vec p =>
      have hp := h.1.pure
      have hl : pairTail p.dat = listV ((elems p.dat).map toSyntax) := by
        obtain ⟨l, hl⟩ := isList_iff.1 (hp.2 h.2.1)
        rw [hl, pairTail_listV, elems_listV]
      simp only [Pat.size] at hn
      have := elemsVec p h.1 h.2.1 (by omega) vs
      simp only [getVars, Pat.dat, toSyntax, stxNull, stxPair, stxVector, Bool.false_eq_true, if_false, if_true, stxVecElems, syntaxE, ok_bind, hl, rawList_listV]
      rw [this]
      simp [Pat.vars]

end Minim.Sc
