import Verif.SxTmplBuild

set_option autoImplicit false

/-!
# Templates: what parsing, the search for variables and the folding of constants yield
-/

namespace Minim.Sc

/-- The instructions of a template: the instruction, and for a list its elements and its tail.  `ap` makes the instruction for an ellipsis, `sb` the one for a list. -/
def fam (gp : GetPat) (ap : Tm → Nat → Instr → Instr) (sb : List Instr → Option Instr → Instr) : Nat → Tm → Instr × List Instr × Option Instr
  | _, .var x =>
    let i := Instr.var ⟨x, ((gp x).getD (0, x)).1, ((gp x).getD (0, x)).2⟩
    (i, [], some i)
  | _, .const a => (.const a, [], some (.const a))
  | _, .nil => (.const .null, [], none)
  | k, .cons t u =>
    let i := (fam gp ap sb k t).1
    let r := (fam gp ap sb k u).2
    (sb (i :: r.1) r.2, i :: r.1, r.2)
  | k, .ell t u =>
    let i := ap t k (fam gp ap sb (k + 1) t).1
    let r := (fam gp ap sb k u).2
    (sb (i :: r.1) r.2, i :: r.1, r.2)
  | k, .vec t =>
    let i := Instr.vector (fam gp ap sb k t).1
    (i, [], some i)

/-- the instruction for a list as it is parsed -/
def mkSubst (is : List Instr) (tl : Option Instr) : Instr := .subst (wildList is.length tl.isSome) (rangeList is.length tl.isSome) (is ++ tl.toList)

/-- the variables of a template -/
def Tm.vds (gp : GetPat) (t : Tm) : List VD := t.names.map fun x => ⟨x, ((gp x).getD (0, x)).1, ((gp x).getD (0, x)).2⟩

/-- instructions as parsed -/
abbrev famP (gp : GetPat) := fam gp (fun _ _ i => .append [] [] i) mkSubst

/-- the ellipsis with its variables -/
def apC (gp : GetPat) (t : Tm) (k : Nat) (i : Instr) : Instr :=
  .append ((t.vds gp).filter fun v => v.depth > k) ((t.vds gp).filter fun v => ¬ v.depth > k) i

/-- instructions with the variables of ellipses -/
abbrev famC (gp : GetPat) := fam gp (apC gp) mkSubst

/-- the list with holes for the elements that are not constant -/
def baseOf : List Instr → Option Instr → V
  | [], none => .null
  | [], some t => (constOf t).getD (.sym .under)
  | i :: is, tl => .cons ((constOf i).getD (.sym .under)) (baseOf is tl)

/-- the operators that fill the holes -/
def opsOf : Nat → List Instr → Option Instr → List Op
  | _, [], none => []
  | k, [], some t => if (constOf t).isSome then [] else [.tail k]
  | k, i :: is, tl => if (constOf i).isSome then opsOf (k + 1) is tl else (if isAppend i then .append k else .idx k) :: opsOf (k + 1) is tl

/-- the elements that are not constant -/
def insOf (is : List Instr) (tl : Option Instr) : List Instr := (is ++ tl.toList).filter fun i => (constOf i).isNone

/-- the instruction for a list after constants are folded -/
def sbO (is : List Instr) (tl : Option Instr) : Instr :=
  if (is ++ tl.toList).all (fun i => (constOf i).isSome) then .const (baseOf is tl) else .subst (baseOf is tl) (opsOf 0 is tl) (insOf is tl)

/-- instructions after constants are folded -/
abbrev famO (gp : GetPat) := fam gp (apC gp) sbO

/-- the depths of the pattern variables -/
def depths (gp : GetPat) (x : Nm) : Option Nat := (gp x).map Prod.fst

/-! ### parsing -/

/-- the elements of a list template as written, and its tail -/
def Tm.els : Tm → List V × Option V
  | .cons t u => (toSyntax t.dat :: u.els.1, u.els.2)
  | .ell t u => (toSyntax t.dat :: .stx (.sym .dots) :: u.els.1, u.els.2)
  | .nil => ([], none)
  | t => ([], some (toSyntax t.dat))

theorem tmplList_tail {dp : Nm → Option Nat} {k : Nat} {t : Tm} (h : TWF dp k t) : tmplList (pairTail t.dat) = t.els := by
  induction t generalizing k with
  | cons t u _ ih => simp only [Tm.dat, pairTail, tmplList, ih h.2, Tm.els]
  | ell t u _ ih => simp only [Tm.dat, pairTail, toSyntax, tmplList, ih h.2.1, Tm.els]
  | nil => rfl
  | var x => rfl
  | const a => obtain ⟨ha, _⟩ := h; cases a <;> simp [isAtom] at ha <;> rfl
  | vec t _ => rfl

theorem isDots_els {dp : Nm → Option Nat} {k : Nat} {t : Tm} (h : TWF dp k t) : isDots (toSyntax t.dat) = false := by
  cases t with
  | var x => obtain ⟨h, _⟩ := h; simp [Tm.dat, toSyntax, isDots, identOf, h]
  | const a =>
    obtain ⟨ha, h⟩ := h
    cases a with
    | sym s => simp [Tm.dat, toSyntax, isDots, identOf, (h s rfl).1]
    | _ => first | rfl | simp [isAtom] at ha
  | _ => rfl

/-- one element after which no `...` follows -/
theorem parseElems_step {dp : Nm → Option Nat} {f : V → Nat → Res Instr} {k : Nat} {x : V} {u : Tm} (h : TWF dp k u) :
    parseElems f k (x :: u.els.1) = (do let i ← f x k; let is ← parseElems f k u.els.1; .ok (i :: is)) := by
  have nodots : ∀ u' : Tm, TWF dp k u' ∨ TWF dp (k + 1) u' → ∀ r, parseElems f k (x :: toSyntax u'.dat :: r) = (do let i ← f x k; let is ← parseElems f k (toSyntax u'.dat :: r); .ok (i :: is)) := by
    intro u' hu r
    have hd : isDots (toSyntax u'.dat) = false := by rcases hu with hu | hu <;> exact isDots_els hu
    rw [parseElems, hd]
    simp
  cases u with
  | cons t u => exact nodots t (.inl h.1) _
  | ell t u => exact nodots t (.inr h.1) _
  | _ => simp only [Tm.els, parseElems, ok_bind]

theorem parseElems_ell {f : V → Nat → Res Instr} {k : Nat} {x : V} {r : List V} :
    parseElems f k (x :: .stx (.sym .dots) :: r) = (do let i ← f x (k + 1); let is ← parseElems f k r; .ok (.append [] [] i :: is)) := by
  rw [parseElems]
  simp [isDots, identOf]

/-- the tail of a list is parsed to its instruction -/
def tailRes (f : V → Nat → Res Instr) (k : Nat) : Option V → Res (Option Instr)
  | none => .ok none
  | some t => do
    let i ← f t k
    .ok (some i)

theorem parse_pair (gp : GetPat) (n : Nat) (t : V) (k : Nat) (h : stxPair t = true) : parse gp (n + 1) t k =
    (do let is ← parseElems (parse gp n) k (tmplList t).1
        let tl ← tailRes (parse gp n) k (tmplList t).2
        .ok (mkSubst is tl)) := by
  rw [parse, if_pos h]
  obtain ⟨l, tl⟩ := tmplList t
  simp only
  cases parseElems (parse gp n) k l with
  | ok is =>
    simp only [ok_bind]
    cases tl with
    | none => simp [tailRes, mkSubst]
    | some t =>
      simp only [tailRes]
      cases parse gp n t k with
      | ok i => simp [mkSubst]
      | _ => rfl
  | _ => rfl

theorem isAtom_dat {a : V} (h : isAtom a = true) : stxPair (toSyntax a) = false ∧ stxVector (toSyntax a) = false ∧ toSyntax a = .stx a := by
  cases a <;> simp [isAtom] at h <;> exact ⟨rfl, rfl, rfl⟩

theorem listV_of_isList {d : V} (h : isList d = true) : ∃ l, d = listV l := isList_iff.1 h

theorem proper_isList {t : Tm} (h : t.proper = true) : isList t.dat = true := by
  induction t with
  | cons t u _ ih => simp [Tm.dat, ih h]
  | ell t u _ ih => simp [Tm.dat, ih h]
  | nil => rfl
  | _ => simp [Tm.proper] at h

theorem tm_size_pos (t : Tm) : 1 ≤ t.size := by cases t <;> simp [Tm.size]

theorem parse_ok (gp : GetPat) {k : Nat} (t : Tm) (h : TWF (depths gp) k t) (n : Nat) (hn : t.size ≤ n) :
    parse gp n (toSyntax t.dat) k = .ok (famP gp k t).1 ∧
      parseElems (parse gp n) k t.els.1 = .ok (famP gp k t).2.1 ∧ tailRes (parse gp n) k t.els.2 = .ok (famP gp k t).2.2 := by
  induction t generalizing k n with
  | var x =>
    obtain ⟨n, rfl⟩ : ∃ m, n = m + 1 := ⟨n - 1, by simp [Tm.size] at hn; omega⟩
    obtain ⟨_, m, hd, hm⟩ := h
    have : ∃ y, gp x = some (m, y) := by
      unfold depths at hd
      cases hg : gp x with
      | none => simp [hg] at hd
      | some p => obtain ⟨a, b⟩ := p; simp [hg] at hd; exact ⟨b, by rw [hd]⟩
    obtain ⟨y, hy⟩ := this
    have e : parse gp (n + 1) (toSyntax (.sym x)) k = .ok (.var ⟨x, m, y⟩) := by
      have : ¬ m > k := by omega
      simp [parse, toSyntax, stxPair, stxVector, identOf, hy, this]
    exact ⟨by simp only [Tm.dat, e, fam, hy, Option.getD_some], rfl, by simp only [Tm.els, Tm.dat, tailRes, e, ok_bind, fam, hy, Option.getD_some]⟩
  | const a =>
    obtain ⟨n, rfl⟩ : ∃ m, n = m + 1 := ⟨n - 1, by simp [Tm.size] at hn; omega⟩
    obtain ⟨ha, hs⟩ := h
    obtain ⟨h1, h2, h3⟩ := isAtom_dat ha
    have e : parse gp (n + 1) (toSyntax a) k = .ok (.const a) := by
      rw [parse, if_neg (by simp [h1]), if_neg (by simp [h2]), h3]
      cases a with
      | sym s =>
        have : gp s = none := by simpa [depths] using (hs s rfl).2
        simp [identOf, this]
      | _ => first | rfl | simp [isAtom] at ha
    exact ⟨e, rfl, by simp only [Tm.els, Tm.dat, tailRes, e, ok_bind, fam]⟩
  | nil =>
    obtain ⟨n, rfl⟩ : ∃ m, n = m + 1 := ⟨n - 1, by simp [Tm.size] at hn; omega⟩
    exact ⟨rfl, rfl, rfl⟩
  | cons t u iht ihu =>
    simp only [Tm.size] at hn
    obtain ⟨n, rfl⟩ : ∃ m, n = m + 1 := ⟨n - 1, by omega⟩
    obtain ⟨h1, h2⟩ := h
    have inner : ∀ m, t.size ≤ m → u.size ≤ m → parseElems (parse gp m) k (Tm.cons t u).els.1 = .ok (famP gp k (.cons t u)).2.1 ∧
        tailRes (parse gp m) k (Tm.cons t u).els.2 = .ok (famP gp k (.cons t u)).2.2 := by
      intro m hm1 hm2
      obtain ⟨_, b, c⟩ := ihu h2 m hm2
      refine ⟨?_, c⟩
      simp only [Tm.els, parseElems_step h2, (iht h1 m hm1).1, ok_bind, b, fam]
    refine ⟨?_, inner _ (by omega) (by omega)⟩
    obtain ⟨a, b⟩ := inner n (by omega) (by omega)
    have hl : tmplList (toSyntax (Tm.cons t u).dat) = (Tm.cons t u).els := by
      simp only [Tm.dat, toSyntax, tmplList, tmplList_tail h2, Tm.els]
    rw [parse_pair _ _ _ _ rfl, hl, a, ok_bind, b]
    rfl
  | ell t u iht ihu =>
    simp only [Tm.size] at hn
    obtain ⟨n, rfl⟩ : ∃ m, n = m + 1 := ⟨n - 1, by omega⟩
    obtain ⟨h1, h2, _⟩ := h
    have inner : ∀ m, t.size ≤ m → u.size ≤ m → parseElems (parse gp m) k (Tm.ell t u).els.1 = .ok (famP gp k (.ell t u)).2.1 ∧
        tailRes (parse gp m) k (Tm.ell t u).els.2 = .ok (famP gp k (.ell t u)).2.2 := by
      intro m hm1 hm2
      obtain ⟨_, b, c⟩ := ihu h2 m hm2
      refine ⟨?_, c⟩
      simp only [Tm.els, parseElems_ell, (iht h1 m hm1).1, ok_bind, b, fam]
    refine ⟨?_, inner _ (by omega) (by omega)⟩
    obtain ⟨a, b⟩ := inner n (by omega) (by omega)
    have hl : tmplList (toSyntax (Tm.ell t u).dat) = (Tm.ell t u).els := by
      simp only [Tm.dat, toSyntax, pairTail, tmplList, tmplList_tail h2, Tm.els]
    rw [parse_pair _ _ _ _ rfl, hl, a, ok_bind, b]
    rfl
  | vec t iht =>
    simp only [Tm.size] at hn
    obtain ⟨n, rfl⟩ : ∃ m, n = m + 1 := ⟨n - 1, by omega⟩
    obtain ⟨l, hl⟩ := isList_iff.1 (proper_isList h.2)
    have e : parse gp (n + 1) (toSyntax (.vec t.dat)) k = .ok (.vector (famP gp k t).1) := by
      have h1 : stxVecElems (toSyntax (.vec t.dat)) = .ok (l.map toSyntax) := by
        simp only [toSyntax, stxVecElems, syntaxE, ok_bind, hl, pairTail_listV, rawList_listV]
      have h2 : toSyntax (listV (l.map toSyntax)) = toSyntax t.dat := by rw [hl, ← pairTail_listV, toSyntax_pairTail]
      rw [parse, if_neg (by simp [toSyntax, stxPair]), if_pos (show stxVector (toSyntax (.vec t.dat)) = true from rfl), h1, ok_bind, h2, (iht h.1 n (by omega)).1]
      rfl
    exact ⟨e, rfl, by simp only [Tm.els, Tm.dat, tailRes, e, ok_bind, fam]⟩

/-! ### the variables of ellipses -/

theorem compVarsL_append (is js : List Instr) (k : Nat) : compVarsL (is ++ js) k =
    (do let (a, v) ← compVarsL is k; let (b, w) ← compVarsL js k; .ok (a ++ b, v ++ w)) := by
  induction is with
  | nil =>
    simp only [List.nil_append, compVarsL, ok_bind]
    cases compVarsL js k <;> rfl
  | cons i is ih =>
    simp only [List.cons_append, compVarsL, ih]
    cases compVars i k with
    | ok p =>
      simp only [ok_bind]
      cases compVarsL is k with
      | ok q =>
        simp only [ok_bind]
        cases compVarsL js k with
        | ok r => simp
        | _ => rfl
      | _ => rfl
    | _ => rfl

theorem vds_depth {gp : GetPat} {t : Tm} {x : Nm} {n : Nat} (hx : x ∈ t.names) (hn : depths gp x = some n) : ∃ v ∈ t.vds gp, v.name = x ∧ v.depth = n := by
  refine ⟨⟨x, ((gp x).getD (0, x)).1, ((gp x).getD (0, x)).2⟩, List.mem_map_of_mem hx, rfl, ?_⟩
  unfold depths at hn
  cases hg : gp x with
  | none => simp [hg] at hn
  | some p => simp [hg] at hn; simp [hn]

/-- the variables of the elements and of the tail -/
theorem comp_ok (gp : GetPat) {k : Nat} (t : Tm) (h : TWF (depths gp) k t) :
    compVars (famP gp k t).1 k = .ok ((famC gp k t).1, t.vds gp) ∧
      compVarsL ((famP gp k t).2.1 ++ (famP gp k t).2.2.toList) k = .ok ((famC gp k t).2.1 ++ (famC gp k t).2.2.toList, t.vds gp) ∧
      (famP gp k t).2.1.length = (famC gp k t).2.1.length ∧ (famP gp k t).2.2.isSome = (famC gp k t).2.2.isSome := by
  induction t generalizing k with
  | var x => exact ⟨rfl, rfl, rfl, rfl⟩
  | const a => exact ⟨rfl, rfl, rfl, rfl⟩
  | nil => exact ⟨rfl, rfl, rfl, rfl⟩
  | cons t u iht ihu =>
    obtain ⟨a, _, _⟩ := iht h.1
    obtain ⟨_, b, c, d⟩ := ihu h.2
    have e : compVarsL ((famP gp k (.cons t u)).2.1 ++ (famP gp k (.cons t u)).2.2.toList) k =
        .ok ((famC gp k (.cons t u)).2.1 ++ (famC gp k (.cons t u)).2.2.toList, (Tm.cons t u).vds gp) := by
      simp only [fam, List.cons_append, compVarsL, a, ok_bind, b]
      simp [Tm.vds, Tm.names]
    refine ⟨?_, e, by simp [fam, c], d⟩
    simp only [fam, mkSubst, compVars]
    simp only [fam] at e
    rw [e]
    simp [c, d]
  | ell t u iht ihu =>
    obtain ⟨h1, h2, _, x, hx, n, hn, hk⟩ := h
    obtain ⟨a, _, _⟩ := iht h1
    obtain ⟨_, b, c, d⟩ := ihu h2
    obtain ⟨v, hv, _, hvd⟩ := vds_depth hx hn
    have f : compVars (.append [] [] (famP gp (k + 1) t).1) k = .ok (apC gp t k (famC gp (k + 1) t).1, t.vds gp) := by
      simp only [compVars, a, ok_bind]
      rw [if_neg, if_pos]
      · rfl
      · rw [List.any_eq_true]; exact ⟨v, hv, by simp; omega⟩
      · cases hvs : t.vds gp with
        | nil => rw [hvs] at hv; simp at hv
        | cons _ _ => simp
    have e : compVarsL ((famP gp k (.ell t u)).2.1 ++ (famP gp k (.ell t u)).2.2.toList) k =
        .ok ((famC gp k (.ell t u)).2.1 ++ (famC gp k (.ell t u)).2.2.toList, (Tm.ell t u).vds gp) := by
      simp only [fam, List.cons_append, compVarsL, f, ok_bind, b]
      simp [Tm.vds, Tm.names]
    refine ⟨?_, e, by simp [fam, c], d⟩
    simp only [fam, mkSubst, compVars]
    simp only [fam] at e
    rw [e]
    simp [c, d]
  | vec t iht =>
    obtain ⟨a, _, _⟩ := iht h.1
    have e : compVars (famP gp k (.vec t)).1 k = .ok ((famC gp k (.vec t)).1, (Tm.vec t).vds gp) := by
      simp only [fam, compVars, a, ok_bind, Tm.vds, Tm.names]
    refine ⟨e, ?_, rfl, rfl⟩
    simp only [fam] at e
    simp only [fam, List.nil_append, Option.toList, compVarsL, e, ok_bind]
    simp

/-! ### folding of constants -/

theorem replace_fold (is : List Instr) (tl : Option Instr) : ∀ plugs, plugs = (is ++ tl.toList).map (fun i => (constOf i).getD (.sym .under)) →
    replaceSlots (wildList is.length tl.isSome) plugs = .ok (baseOf is tl) := by
  induction is with
  | nil =>
    rintro _ rfl
    cases tl with
    | none => rfl
    | some t => simp [wildList, replaceSlots, baseOf]
  | cons i is ih =>
    rintro _ rfl
    simp only [List.length_cons, wildList, List.cons_append, List.map_cons, replaceSlots, if_true, ih _ rfl, ok_bind, baseOf]

theorem all_const_plugs (is : List Instr) (h : is.all (fun i => (constOf i).isSome) = true) : is.filterMap constOf = is.map (fun i => (constOf i).getD (.sym .under)) := by
  induction is with
  | nil => rfl
  | cons i is ih =>
    simp only [List.all_cons, Bool.and_eq_true] at h
    obtain ⟨v, hv⟩ := Option.isSome_iff_exists.1 h.1
    simp [List.filterMap_cons, hv, ih h.2]

theorem any_const_plugs (is : List Instr) (h : is.any (fun i => (constOf i).isSome) = false) : is.map (fun i => (constOf i).getD (.sym .under)) = List.replicate is.length (.sym .under) := by
  induction is with
  | nil => rfl
  | cons i is ih =>
    simp only [List.any_cons, Bool.or_eq_false_iff] at h
    have hv : constOf i = none := by simpa using h.1
    simp [hv, ih h.2, List.replicate_succ]

/-- the operators of the elements -/
def opsAll : Nat → List Instr → Option Instr → List Op
  | _, [], none => []
  | k, [], some _ => [.tail k]
  | k, _ :: is, tl => .idx k :: opsAll (k + 1) is tl

theorem rangeList_all (is : List Instr) (tl : Option Instr) : rangeList is.length tl.isSome = opsAll 0 is tl := by
  have : ∀ k, (List.range is.length).map (fun n => Op.idx (n + k)) ++ (if tl.isSome = true then [Op.tail (is.length + k)] else []) = opsAll k is tl := by
    induction is with
    | nil => intro k; cases tl <;> simp [opsAll]
    | cons i is ih =>
      intro k
      rw [opsAll, ← ih (k + 1), List.length_cons, List.range_succ_eq_map]
      simp only [List.map_cons, List.map_map, List.cons_append, Nat.zero_add, Function.comp_def]
      congr 2
      · refine List.map_congr_left fun n _ => ?_
        congr 1; omega
      · congr 3; omega
  have := this 0
  simpa [rangeList] using this

theorem fold_all (is : List Instr) (tl : Option Instr) (ht : ∀ t, tl = some t → isAppend t = false) : ∀ k,
    (foldConsts (is ++ tl.toList) (opsAll k is tl)).1 = insOf is tl ∧
    markOps (foldConsts (is ++ tl.toList) (opsAll k is tl)).1 (foldConsts (is ++ tl.toList) (opsAll k is tl)).2.1 = opsOf k is tl ∧
    (foldConsts (is ++ tl.toList) (opsAll k is tl)).2.2 = (is ++ tl.toList).map (fun i => (constOf i).getD (.sym .under)) := by
  induction is with
  | nil =>
    intro k
    cases tl with
    | none => exact ⟨rfl, rfl, rfl⟩
    | some t =>
      have := ht t rfl
      cases hc : constOf t <;> simp [foldConsts, opsAll, hc, insOf, opsOf, markOps, this]
  | cons i is ih =>
    intro k
    obtain ⟨a, b, c⟩ := ih (k + 1)
    cases hc : constOf i with
    | some v => simp [foldConsts, opsAll, hc, insOf, opsOf, b, c]; simpa [insOf] using a
    | none =>
      simp only [List.cons_append, opsAll, foldConsts, hc, insOf, opsOf, markOps, b, c, List.map_cons]
      refine ⟨?_, ?_, rfl⟩
      · rw [a]; simp [hc, insOf]
      · cases isAppend i <;> simp [Op.toAppend]

theorem optSubst_ok (is : List Instr) (tl : Option Instr) (ht : ∀ t, tl = some t → isAppend t = false) :
    optSubst (wildList is.length tl.isSome) (rangeList is.length tl.isSome) (is ++ tl.toList) = .ok (sbO is tl) := by
  unfold optSubst sbO
  obtain ⟨a, b, c⟩ := fold_all is tl ht 0
  split_ifs with h1 h2
  · rw [replace_fold is tl _ (all_const_plugs _ h1), ok_bind]
  · rw [rangeList_all]
    rcases hf : foldConsts (is ++ tl.toList) (opsAll 0 is tl) with ⟨x, y, z⟩
    rw [hf] at a b c
    simp only at a b c ⊢
    rw [replace_fold is tl z c, ok_bind, b, a]
  · have hn : (is ++ tl.toList).any (fun i => (constOf i).isSome) = false := by simpa using h2
    have hb := replace_fold is tl _ rfl
    rw [any_const_plugs _ hn] at hb
    have hid : replaceSlots (wildList is.length tl.isSome) (List.replicate (is ++ tl.toList).length (.sym .under)) = .ok (wildList is.length tl.isSome) := by
      clear h1 h2 hb hn a b c ht
      induction is with
      | nil => cases tl <;> simp [wildList, replaceSlots, List.replicate_succ]
      | cons i is ih =>
        simp only [List.length_cons, wildList, List.cons_append, List.replicate_succ, replaceSlots, if_true, ih, ok_bind]
    rw [hid] at hb
    have hins : insOf is tl = is ++ tl.toList := by
      unfold insOf
      rw [List.filter_eq_self]
      intro i hi
      rw [List.any_eq_false] at hn
      simpa using hn i hi
    have hops : foldConsts (is ++ tl.toList) (opsAll 0 is tl) = (is ++ tl.toList, opsAll 0 is tl, List.replicate (is ++ tl.toList).length (.sym .under)) := by
      clear h1 h2 hb hid hins a b c ht
      have : ∀ k, foldConsts (is ++ tl.toList) (opsAll k is tl) = (is ++ tl.toList, opsAll k is tl, List.replicate (is ++ tl.toList).length (.sym .under)) := by
        induction is with
        | nil =>
          intro k
          cases tl with
          | none => rfl
          | some t =>
            have : constOf t = none := by simpa using hn
            simp [foldConsts, opsAll, this, List.replicate_succ]
        | cons i is ih =>
          intro k
          simp only [List.cons_append, List.any_cons, Bool.or_eq_false_iff] at hn
          have : constOf i = none := by simpa using hn.1
          simp [foldConsts, opsAll, this, ih hn.2 (k + 1), List.replicate_succ]
      exact this 0
    rw [hops] at b
    simp only at b
    rw [rangeList_all, hins, b, Res.ok.inj hb]

/-- an instruction of a template is never that of an ellipsis -/
theorem famO_notAppend (gp : GetPat) (k : Nat) (t : Tm) : isAppend (famO gp k t).1 = false ∧ ∀ i, (famO gp k t).2.2 = some i → isAppend i = false := by
  induction t generalizing k with
  | var x => exact ⟨rfl, by rintro i ⟨⟩; rfl⟩
  | const a => exact ⟨rfl, by rintro i ⟨⟩; rfl⟩
  | nil => exact ⟨rfl, by rintro i ⟨⟩⟩
  | cons t u _ ihu => exact ⟨by simp only [fam, sbO]; split_ifs <;> rfl, (ihu k).2⟩
  | ell t u _ ihu => exact ⟨by simp only [fam, sbO]; split_ifs <;> rfl, (ihu k).2⟩
  | vec t _ => exact ⟨rfl, by rintro i ⟨⟩; rfl⟩

theorem opt_ok (gp : GetPat) (k : Nat) (t : Tm) : optimize (famC gp k t).1 = .ok (famO gp k t).1 ∧
    optimizeL ((famC gp k t).2.1 ++ (famC gp k t).2.2.toList) = .ok ((famO gp k t).2.1 ++ (famO gp k t).2.2.toList) ∧
    (famC gp k t).2.1.length = (famO gp k t).2.1.length ∧ (famC gp k t).2.2.isSome = (famO gp k t).2.2.isSome := by
  induction t generalizing k with
  | var x => exact ⟨rfl, rfl, rfl, rfl⟩
  | const a => exact ⟨rfl, rfl, rfl, rfl⟩
  | nil => exact ⟨rfl, rfl, rfl, rfl⟩
  | cons t u iht ihu =>
    obtain ⟨a, _, _⟩ := iht k
    obtain ⟨_, b, c, d⟩ := ihu k
    have e : optimizeL ((famC gp k (.cons t u)).2.1 ++ (famC gp k (.cons t u)).2.2.toList) = .ok ((famO gp k (.cons t u)).2.1 ++ (famO gp k (.cons t u)).2.2.toList) := by
      simp only [fam, List.cons_append, optimizeL, a, ok_bind, b]
    refine ⟨?_, e, by simp [fam, c], d⟩
    have hs := optSubst_ok (famO gp k (.cons t u)).2.1 (famO gp k (.cons t u)).2.2 (famO_notAppend gp k (.cons t u)).2
    simp only [fam] at e hs
    simp only [fam, mkSubst, optimize, e, ok_bind, List.length_cons, c, d]
    exact hs
  | ell t u iht ihu =>
    obtain ⟨a, _, _⟩ := iht (k + 1)
    obtain ⟨_, b, c, d⟩ := ihu k
    have f : optimize (apC gp t k (famC gp (k + 1) t).1) = .ok (apC gp t k (famO gp (k + 1) t).1) := by simp only [apC, optimize, a, ok_bind]
    have e : optimizeL ((famC gp k (.ell t u)).2.1 ++ (famC gp k (.ell t u)).2.2.toList) = .ok ((famO gp k (.ell t u)).2.1 ++ (famO gp k (.ell t u)).2.2.toList) := by
      simp only [fam, List.cons_append, optimizeL, f, ok_bind, b]
    refine ⟨?_, e, by simp [fam, c], d⟩
    have hs := optSubst_ok (famO gp k (.ell t u)).2.1 (famO gp k (.ell t u)).2.2 (famO_notAppend gp k (.ell t u)).2
    simp only [fam] at e hs
    simp only [fam, mkSubst, optimize, e, ok_bind, List.length_cons, c, d]
    exact hs
  | vec t iht =>
    obtain ⟨a, _, _⟩ := iht k
    have e : optimize (famC gp k (.vec t)).1 = .ok (famO gp k (.vec t)).1 := by simp only [fam, optimize, a, ok_bind]
    refine ⟨e, ?_, rfl, rfl⟩
    simp only [fam] at e
    simp only [fam, List.nil_append, Option.toList, optimizeL, e, ok_bind]

/-- What `do-template` makes of a template. -/
theorem doTemplate_ok (gp : GetPat) (t : Tm) (h : TWF (depths gp) 0 t) (fuel : Nat) (hf : t.size ≤ fuel) (c : Nat) :
    doTemplate gp fuel (toSyntax t.dat) c = .ok (build (famO gp 0 t).1 [] c) := by
  simp only [doTemplate, (parse_ok gp t h fuel hf).1, ok_bind, (comp_ok gp t h).1, (opt_ok gp 0 t).1]

end Minim.Sc
