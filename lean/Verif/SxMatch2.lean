import Verif.SxMatch

set_option autoImplicit false

/-! # The generated matchers decide the matching relation: list patterns -/

namespace Minim.Sc

/-- all elements of `l` match `p`, and `σ` collects the assignments -/
def EllP (p : Pat) (l : List V) (σ : Nm → BV) : Prop :=
  ∃ τs : List (Nm → BV), List.Forall₂ (M p) l τs ∧ ∀ x ∈ p.names, σ x = .many (τs.map (· x))

theorem M_ell_nil {p : Pat} {l : List V} {σ : Nm → BV} : M (.ell p .nil) (listV l) σ ↔ EllP p l σ := by
  simp only [M, Pat.len]
  constructor
  · rintro ⟨l', r, h1, h2, rfl, h4⟩
    rw [appV_null] at h1
    rw [listV_inj h1]; exact h4
  · intro h
    exact ⟨l, .null, (appV_null l).symm, rfl, rfl, h⟩

theorem M_ell_nil_list {p : Pat} {d : V} {σ : Nm → BV} (h : M (.ell p .nil) d σ) : isList d = true := by
  obtain ⟨l, r, rfl, _, hr, _⟩ := h
  simp only [M] at hr; subst hr
  rw [appV_null]; simp

theorem EllP_nil_fit (p : Pat) : Fit (EllP p []) ((Pat.ell p .nil).vars 0) (listV (List.replicate (p.vars 0).length .null)) := by
  refine .inr ⟨_, rfl, ?_, fun σ => ?_⟩
  · simp only [Pat.vars, vars_succ, List.append_nil]
    generalize p.vars 0 = xs
    induction xs with
    | nil => exact .nil
    | cons xk xs ih => exact .cons ⟨[], rfl, by simp⟩ ih
  · have e : EllP p [] σ ↔ ∀ x ∈ (p.vars 0).map Prod.fst, σ x = .many [] := by
      constructor
      · rintro ⟨τs, h1, h2⟩
        cases h1; simpa [Pat.names] using h2
      · intro h; exact ⟨[], .nil, by simpa [Pat.names] using h⟩
    rw [e]
    simp only [Pat.vars, vars_succ, List.append_nil]
    generalize p.vars 0 = xs
    induction xs with
    | nil => simp [Bind]
    | cons xk xs ih =>
      simp only [Bind, List.map_cons, List.length_cons, List.replicate_succ, List.forall₂_cons, List.mem_cons, forall_eq_or_imp]
      exact and_congr (by simp [bv, rawList]) ih

/-- The rows of an ellipsis. -/
theorem rows_ok {p : Pat} {f : V → Res V} {l : List V} (h : ∀ a ∈ l, Outcome .head p a (f (toSyntax a))) :
    (∃ rs, mapRes f (l.map toSyntax) = .ok rs ∧ List.Forall₂ (fun a r => Fit (M p a) (p.vars 0) r) l rs) ∨
    (mapRes f (l.map toSyntax) = .err ∧ ∃ a ∈ l, ¬ Calm .head p a) := by
  induction l with
  | nil => exact .inl ⟨[], rfl, .nil⟩
  | cons a l ih =>
    have ih := ih fun b hb => h b (List.mem_cons_of_mem _ hb)
    rcases h a (by simp) with ⟨v, h1, h2⟩ | ⟨h1, h2⟩
    · rcases ih with ⟨rs, h3, h4⟩ | ⟨h3, b, hb, h4⟩
      · exact .inl ⟨v :: rs, by simp [mapRes, h1, h3], .cons h2 h4⟩
      · exact .inr ⟨by simp [mapRes, h1, h3], b, List.mem_cons_of_mem _ hb, h4⟩
    · exact .inr ⟨by simp [mapRes, h1], a, by simp, h2⟩

theorem transpose_ok {p : Pat} (hn : p.names.Nodup) {l rs : List V} (h : List.Forall₂ (fun a r => Fit (M p a) (p.vars 0) r) l rs) (hne : l ≠ []) (env : Env) :
    ∃ u, run transposeCode (upd env .tmp (listV rs)) = .ok u ∧ Fit (EllP p l) ((Pat.ell p .nil).vars 0) u := by
  have hr : rs ≠ [] := by rintro rfl; cases h; exact hne rfl
  obtain ⟨u, h1, h2⟩ := Fit.rows hn h hr
  refine ⟨u, ?_, ?_⟩
  · have e1 : listV rs ≠ .null := by cases rs with | nil => exact absurd rfl hr | cons _ _ => simp [listV]
    simp [transposeCode, run, upd_same, listV_ne_fls, e1, ofBool, h1]
  · have e : (Pat.ell p .nil).vars 0 = (p.vars 0).map fun xk => (xk.1, xk.2 + 1) := by simp [Pat.vars, vars_succ]
    rw [e]; exact h2

theorem M_cons {p q : Pat} {a b : V} {σ : Nm → BV} : M (.cons p q) (.cons a b) σ ↔ M p a σ ∧ M q b σ := by
  simp only [M, V.cons.injEq]
  constructor
  · rintro ⟨a', b', ⟨rfl, rfl⟩, h⟩; exact h
  · intro h; exact ⟨a, b, ⟨rfl, rfl⟩, h⟩

theorem M_cons_no {p q : Pat} {d : V} (h : ∀ a b, d ≠ .cons a b) (σ : Nm → BV) : ¬ M (.cons p q) d σ := by
  rintro ⟨a, b, h1, _⟩; exact h a b h1

theorem calm_cons {m : Mode} (hm : m ≠ .elem) {p q : Pat} {d : V} : Calm m (.cons p q) d ↔
    (p = .wild → d = .null ∨ ∃ a b, d = .cons a b) ∧
      (∀ a b, d = .cons a b → Calm .head p a ∧ Calm .tail q b) ∧ CalmAfter q d := by
  cases m with
  | elem => exact absurd rfl hm
  | _ => rw [Calm]; intro h; cases h

theorem calm_ell {m : Mode} {p q : Pat} {d : V} : Calm m (.ell p q) d ↔ (∀ a ∈ elems d, Calm .head p a) ∧
      ∀ l r, d = appV l r → (spine r = q.len ∨ (q.proper = true ∧ isList d = false ∧ spine r = q.len + 1)) → Calm .tail q r := by
  rw [Calm]

theorem hasEll_cnt {q : Pat} (h : q.hasEll = true) : 1 ≤ q.cnt := by
  cases q <;> simp [Pat.hasEll, Pat.cnt] at *

theorem head_class {lits : List Nm} {p : Pat} (h : WF lits p) (hw : p ≠ .wild) (hv : ∀ x, p ≠ .var x) :
    (p = .nil ∨ ∃ a, p = .atom a) ∧ (stxPair (toSyntax p.dat) || stxVector (toSyntax p.dat)) = false ∧ p.vars 0 = [] ∨
    (stxPair (toSyntax p.dat) || stxVector (toSyntax p.dat)) = true := by
  cases p with
  | wild => exact absurd rfl hw
  | var x => exact absurd rfl (hv x)
  | atom a =>
    left
    obtain ⟨h, _⟩ := h
    cases a <;> simp [isAtom] at h <;> simp [Pat.dat, toSyntax, stxPair, stxVector, Pat.vars]
  | nil => left; simp [Pat.dat, toSyntax, stxPair, stxVector, Pat.vars]
  | _ => right; simp [Pat.dat, toSyntax, stxPair, stxVector]

/-- The loop over the elements of a list pattern without ellipsis or with an ellipsis at its end. -/
theorem loop_ok {lits : List Nm} (q : Pat) (hw : WF lits q) (hn : q.names.Nodup) (hv : q.isVec = false) (he : q.endEll = true)
    (H : ∀ p' : Pat, p'.size < q.size → WF lits p' → p'.names.Nodup → GenOK lits p') :
    ∀ n, 2 * q.size - 1 ≤ n → ∀ be idx arg, be = idx + q.cnt →
    ∃ c, genLoop lits n be q.hasEll q.proper (toSyntax q.dat) idx arg = .ok c ∧
    ∀ env, (run arg env = .err → run c env = .err) ∧
      ∀ d x m, Pure d → m ≠ .elem → IsM m d x → run arg env = .ok x → Outcome m q d (run c env) := by
  induction q with
  | vec p _ => simp [Pat.isVec] at hv
  | nil =>
    intro n hn be idx arg hb
    obtain ⟨n, rfl⟩ : ∃ k, n = k + 1 := ⟨n - 1, by simp [Pat.size] at hn; omega⟩
    obtain ⟨c, h1, h2⟩ := datum_ok (lits := lits) (p := .nil) trivial (.inl rfl) arg
    refine ⟨c, ?_, fun env => ⟨(h2 env).1, fun d x m hd _ hx hr => (h2 env).2 d x m hd hx hr⟩⟩
    simp only [Pat.cnt, Nat.add_zero] at hb
    rw [genLoop, if_pos (by simp [Pat.proper, hb])]
    exact h1
  | wild =>
    intro n hn be idx arg hb
    obtain ⟨n, rfl⟩ : ∃ k, n = k + 1 := ⟨n - 1, by simp [Pat.size] at hn; omega⟩
    obtain ⟨c, h1, h2⟩ := datum_ok (lits := lits) (p := .wild) trivial (.inr (.inl rfl)) arg
    refine ⟨c, ?_, fun env => ⟨(h2 env).1, fun d x m hd _ hx hr => (h2 env).2 d x m hd hx hr⟩⟩
    simp only [Pat.cnt] at hb
    rw [genLoop, if_pos (by simp [Pat.proper, hb])]
    exact h1
  | var y =>
    intro n hn be idx arg hb
    obtain ⟨n, rfl⟩ : ∃ k, n = k + 1 := ⟨n - 1, by simp [Pat.size] at hn; omega⟩
    obtain ⟨c, h1, h2⟩ := datum_ok hw (.inr (.inr (.inl ⟨_, rfl⟩))) arg
    refine ⟨c, ?_, fun env => ⟨(h2 env).1, fun d x m hd _ hx hr => (h2 env).2 d x m hd hx hr⟩⟩
    simp only [Pat.cnt] at hb
    rw [genLoop, if_pos (by simp [Pat.proper, hb])]
    exact h1
  | atom a =>
    intro n hn be idx arg hb
    obtain ⟨n, rfl⟩ : ∃ k, n = k + 1 := ⟨n - 1, by simp [Pat.size] at hn; omega⟩
    obtain ⟨c, h1, h2⟩ := datum_ok hw (.inr (.inr (.inr ⟨_, rfl⟩))) arg
    refine ⟨c, ?_, fun env => ⟨(h2 env).1, fun d x m hd _ hx hr => (h2 env).2 d x m hd hx hr⟩⟩
    simp only [Pat.cnt] at hb
    rw [genLoop, if_pos (by simp [Pat.proper, hb])]
    exact h1
  | ell p q _ _ =>
    intro n hfuel be idx arg hb
    simp only [Pat.endEll, decide_eq_true_eq] at he
    subst he
    simp only [Pat.size] at hfuel
    obtain ⟨n, rfl⟩ : ∃ k, n = k + 1 := ⟨n - 1, by omega⟩
    simp only [names_ell] at hn
    have hnp : p.names.Nodup := (List.nodup_append.1 hn).1
    obtain ⟨c, h1, h2⟩ := H p (by simp [Pat.size]; omega) hw.1 hnp n (by omega) (.var .e)
    have hg := getVars_ok hw.1 n (by omega) 0 []
    refine ⟨.app .e (.ite (.stxList (.var .e)) (.ite (.stxNull (.var .e)) (.nulls (p.vars 0).length)
      (.app .tmp transposeCode (.mapF .e c (.stxToList (.var .e))))) .fls) arg, ?_, fun env => ⟨fun h => by simp [run, h], ?_⟩⟩
    · simp only [Pat.cnt, Nat.zero_add] at hb
      have hi : idx ≠ be := by omega
      have hi2 : idx + 1 = be := hb.symm
      have h0 : stxCar (toSyntax (Pat.ell p .nil).dat) = .ok (toSyntax p.dat) ∧
        stxCdr (toSyntax (Pat.ell p .nil).dat) = .ok (pairTail (.cons (.sym .dots) .null)) := ⟨rfl, rfl⟩
      rw [genLoop]
      simp only [Pat.proper, Pat.hasEll, if_true, hi, if_false, h0, ok_bind, hg, h1, hi2, decide_true, Bool.and_self, List.append_nil, List.length_reverse]
    · intro d x m hd hm hx hr
      by_cases hl : isList d = true
      · obtain ⟨l, rfl⟩ := isList_iff.1 hl
        have hsl : stxList x = true := by
          rcases hx.is with rfl | rfl
          · cases l with
            | nil => rfl
            | cons a l => simp only [listV, toSyntax, stxList, pairTail_listV]; rw [isList_cons, isList_listV]
          · rw [pairTail_listV]; cases l with
            | nil => rfl
            | cons a l => show isList _ = true; rw [isList_listV]
        cases l with
        | nil =>
          have hxn : stxNull x = true := hx.null.2
          refine .inl ⟨_, ?_, (EllP_nil_fit p).congr fun σ => M_ell_nil.symm⟩
          simp only [run, hr, ok_bind, upd_same, hsl, hxn, ofBool, if_true]
          simp
        | cons a l =>
          have hxn : stxNull x = false := hx.pair.2.1
          have hpl := Pure_listV.1 hd
          have hxl : stxToList x = listV ((a :: l).map toSyntax) := by
            rcases hx.is with rfl | rfl
            · simp only [listV, toSyntax, stxToList, pairTail_listV, List.map_cons]
              rw [isList_cons, isList_listV, if_pos rfl]
            · rw [pairTail_listV]
              show (match rawList (listV _) with | some xs => if xs.all isStx then _ else V.fls | none => V.fls) = _
              simp only [rawList_listV]
              rw [if_pos]
              rw [List.all_eq_true]
              intro y hy
              obtain ⟨z, _, rfl⟩ := List.mem_map.1 hy
              exact isStx_toSyntax z
          have hrows := rows_ok (p := p) (f := fun y => run c (upd (upd env .e x) .e y)) (l := a :: l) (by
            intro b hb
            refine (h2 _).2 b (toSyntax b) .head (hpl b hb) (by simp) rfl ?_
            simp [run, upd_same])
          have hrun : run (.app .e (.ite (.stxList (.var .e)) (.ite (.stxNull (.var .e)) (.nulls (p.vars 0).length)
              (.app .tmp transposeCode (.mapF .e c (.stxToList (.var .e))))) .fls) arg) env =
              (do let ys ← mapRes (fun y => run c (upd (upd env .e x) .e y)) ((a :: l).map toSyntax)
                  run transposeCode (upd (upd env .e x) .tmp (listV ys))) := by
            simp only [run, hr, ok_bind, upd_same, hsl, hxn, ofBool, if_true, hxl, rawList_listV, listV_ne_fls, if_false]
            simp only [reduceCtorEq, if_false, if_true]
            cases mapRes (fun y => run c (upd (upd env .e x) .e y)) ((a :: l).map toSyntax) <;> rfl
          rw [hrun]
          rcases hrows with ⟨rs, h3, h4⟩ | ⟨h3, b, hb, h4⟩
          · obtain ⟨u, h5, h6⟩ := transpose_ok hnp h4 (by simp) (upd env .e x)
            rw [h3, ok_bind, h5]
            exact .inl ⟨u, rfl, h6.congr fun σ => M_ell_nil.symm⟩
          · rw [h3]
            refine .inr ⟨rfl, fun hc => h4 ?_⟩
            rw [calm_ell] at hc
            exact hc.1 b (by rw [elems_listV]; exact hb)
      · have hl' : isList d = false := by simpa using hl
        have hsl : stxList x = false := by
          rcases hx.is with rfl | rfl
          · cases d with
            | null => simp [isList, rawList] at hl'
            | cons a b =>
              simp only [toSyntax, stxList]
              rw [isList_cons, isList_pairTail hd.2]; simpa using hl'
            | stx e => exact absurd hd (by simp [Pure])
            | _ => simp [toSyntax, stxList, isList, rawList]
          · cases d with
            | null => simp [isList, rawList] at hl'
            | cons a b =>
              simp only [pairTail, stxList]
              rw [isList_cons, isList_pairTail hd.2]; simpa using hl'
            | stx e => exact absurd hd (by simp [Pure])
            | _ => simp [pairTail, stxList, isList, rawList]
        refine .inl ⟨.fls, ?_, Fit.no fun σ h => hl (M_ell_nil_list h)⟩
        simp [run, hr, upd_same, hsl, ofBool]
  | cons p q _ ihq =>
    intro n hfuel be idx arg hb
    simp only [Pat.size] at hfuel
    obtain ⟨n, rfl⟩ : ∃ k, n = k + 1 := ⟨n - 1, by omega⟩
    simp only [names_cons] at hn
    have hnp : p.names.Nodup := (List.nodup_append.1 hn).1
    have hnq : q.names.Nodup := (List.nodup_append.1 hn).2.1
    simp only [Pat.cnt] at hb
    obtain ⟨c2, hc2, hr2⟩ := ihq hw.2.1 hnq hw.2.2 he (fun p' hp' => H p' (by simp only [Pat.size]; omega)) n (by omega) be (idx + 1) cdrE (by omega)
    have h0 : stxCar (toSyntax (Pat.cons p q).dat) = .ok (toSyntax p.dat) ∧ stxCdr (toSyntax (Pat.cons p q).dat) = .ok (pairTail q.dat) := ⟨rfl, rfl⟩
    have hif : (if (Pat.cons p q).proper = true then idx = be else idx + 1 = be) = False := by
      by_cases hp : q.proper = true
      · simp only [Pat.proper, hp, if_true, eq_iff_iff, iff_false]; omega
      · simp only [Pat.proper, hp, if_false, eq_iff_iff, iff_false]
        have : 1 ≤ q.cnt := by cases q <;> simp [Pat.proper, Pat.cnt] at *
        rw [if_neg (by simp)]
        omega
    have hel : (q.hasEll && decide (idx + 1 = be)) = false := by
      cases hq : q.hasEll with
      | false => rfl
      | true => have := hasEll_cnt hq; simp; omega
    -- the run of the rest on a pair
    have rest : ∀ env a b x m, IsM m (.cons a b) x → Pure b → Outcome .tail q b (run c2 (upd env .e x)) := by
      intro env a b x m hx hpb
      refine (hr2 _).2 b (pairTail b) .tail hpb (by simp) rfl ?_
      simp [run, upd_same, hx.pair.2.2.2]
    have restErr : ∀ env x, stxCdr x = .err → run c2 (upd env .e x) = .err := by
      intro env x hx
      exact (hr2 _).1 (by simp [run, upd_same, hx])
    by_cases hpw : p = .wild
    · subst hpw
      refine ⟨.app .e (.ite (.stxNullF (.var .e)) .fls c2) arg, ?_, fun env => ⟨fun h => by simp [run, h], ?_⟩⟩
      · rw [genLoop]
        have : isWild (toSyntax Pat.wild.dat) = true := by simp [isWild_dat (lits := lits) (p := .wild) trivial]
        rw [if_neg (by rw [hif]; exact id)]
        simp only [h0, ok_bind, patTail_pairTail, Pat.hasEll, hel, this, if_true, Bool.false_eq_true, if_false]
        simp only [Pat.proper]
        rw [hc2]; rfl
      · intro d x m hd hm hx hr
        have hrun : run (.app .e (.ite (.stxNullF (.var .e)) .fls c2) arg) env =
            if stxNull x = true then .ok .fls else run c2 (upd env .e x) := by
          cases hnx : stxNull x <;> simp [run, hr, upd_same, stxNullF, hnx]
        rw [hrun]
        by_cases hdn : d = .null
        · subst hdn
          rw [if_pos hx.null.2]
          exact .inl ⟨_, rfl, Fit.no (M_cons_no (by simp))⟩
        by_cases hdc : ∃ a b, d = .cons a b
        · obtain ⟨a, b, rfl⟩ := hdc
          rw [if_neg (by simp [hx.pair.2.1])]
          rcases rest env a b x m hx hd.2 with ⟨v, h1, h2⟩ | ⟨h1, h2⟩
          · refine .inl ⟨v, h1, ?_⟩
            simpa [Pat.vars] using h2.congr (Q := M (.cons .wild q) (.cons a b)) fun σ => by rw [M_cons]; simp [M]
          · refine .inr ⟨h1, fun hc => h2 ?_⟩
            rw [calm_cons hm] at hc
            exact (hc.2.1 a b rfl).2
        · have ho := hx.other hd hdn fun a b h => hdc ⟨a, b, h⟩
          rw [if_neg (by simp [ho.2.1]), restErr _ _ ho.2.2.1]
          refine .inr ⟨rfl, fun hc => ?_⟩
          rw [calm_cons hm] at hc
          rcases hc.1 rfl with h | h
          · exact hdn h
          · exact hdc h
    · have hnw : isWild (toSyntax p.dat) = false := by simp [isWild_dat hw.1, hpw]
      -- whatever is done with a pair, other data do not match
      have key : ∀ body : Code,
          (∀ env a b x m, m ≠ .elem → IsM m (.cons a b) x → Pure (.cons a b) → Outcome m (.cons p q) (.cons a b) (run body (upd env .e x))) →
          ∀ env, (run arg env = .err → run (.app .e (.ite (.stxPair (.var .e)) body .fls) arg) env = .err) ∧
            ∀ d x m, Pure d → m ≠ .elem → IsM m d x → run arg env = .ok x →
              Outcome m (.cons p q) d (run (.app .e (.ite (.stxPair (.var .e)) body .fls) arg) env) := by
        intro body hbody env
        refine ⟨fun h => by simp [run, h], ?_⟩
        intro d x m hd hm hx hr
        by_cases hdc : ∃ a b, d = .cons a b
        · obtain ⟨a, b, rfl⟩ := hdc
          have : run (.app .e (.ite (.stxPair (.var .e)) body .fls) arg) env = run body (upd env .e x) := by
            simp [run, hr, upd_same, hx.pair.1, ofBool]
          rw [this]
          exact hbody env a b x m hm hx hd
        · have hsp : stxPair x = false := by
            by_cases hdn : d = .null
            · subst hdn; exact hx.null.1
            · exact (hx.other hd hdn fun a b h => hdc ⟨a, b, h⟩).1
          refine .inl ⟨.fls, by simp [run, hr, upd_same, hsp, ofBool], Fit.no (M_cons_no fun a b h => hdc ⟨a, b, h⟩)⟩
      by_cases hpv : ∃ y, p = .var y
      · obtain ⟨y, rfl⟩ := hpv
        refine ⟨.app .e (.ite (.stxPair (.var .e)) (.consF carE c2) .fls) arg, ?_, key _ ?_⟩
        · rw [genLoop]
          have := isVariable_dat hw.1 hpw
          rw [if_neg (by rw [hif]; exact id)]
          simp only [h0, ok_bind, patTail_pairTail, Pat.hasEll, hel, hnw, this, if_true, Bool.false_eq_true, if_false]
          simp only [Pat.proper]
          rw [hc2]; rfl
        · intro env a b x m hm hx hd
          rcases rest env a b x m hx hd.2 with ⟨v, h1, h2⟩ | ⟨h1, h2⟩
          · have hv1 : Fit (M (.var y) a) ((Pat.var y).vars 0) (.cons (toSyntax a) .null) := Fit.var (strip_both hd.1).1 (toSyntax_idem a)
            obtain ⟨u, h3, h4⟩ := hv1.and h2
            refine .inl ⟨u, ?_, ?_⟩
            · have : Res.ok (Sc.consF (toSyntax a) v) = Res.ok u := by
                rw [← h3]
                rcases h2 with ⟨rfl, _⟩ | ⟨vs, rfl, _⟩
                · simp [Sc.consF, Sc.appendF]
                · rw [show V.cons (toSyntax a) .null = listV [toSyntax a] from rfl, appendF_listV]
                  simp [Sc.consF, listV_ne_fls, listV]
              simp only [run, upd_same, ok_bind, hx.pair.2.2.1, h1]
              exact this
            · exact h4.congr fun σ => M_cons.symm
          · refine .inr ⟨by simp [run, upd_same, hx.pair.2.2.1, h1], fun hc => h2 ?_⟩
            rw [calm_cons hm] at hc
            exact (hc.2.1 a b rfl).2
      · have hnv : isVariable lits (toSyntax p.dat) = false := by
          rw [isVariable_dat hw.1 hpw]
          cases p <;> simp at hpv ⊢
        obtain ⟨c1, hc1, hr1⟩ := H p (by simp only [Pat.size]; omega) hw.1 hnp n (by omega) carE
        have first : ∀ env a b x m, IsM m (.cons a b) x → Pure a → Outcome .head p a (run c1 (upd env .e x)) := by
          intro env a b x m hx hpa
          refine (hr1 _).2 a (toSyntax a) .head hpa (by simp) rfl ?_
          simp [run, upd_same, hx.pair.2.2.1]
        rcases head_class hw.1 hpw (fun y h => hpv ⟨y, h⟩) with ⟨_, hcl, hvs⟩ | hcl
        · refine ⟨.app .e (.ite (.stxPair (.var .e)) (.ite c1 c2 .fls) .fls) arg, ?_, key _ ?_⟩
          · rw [genLoop, if_neg (by rw [hif]; exact id)]
            simp only [h0, ok_bind, patTail_pairTail, Pat.hasEll, hel, hnw, hnv, hcl, if_true, Bool.false_eq_true, if_false]
            simp only [Pat.proper]
            rw [hc1, ok_bind, hc2]; rfl
          · intro env a b x m hm hx hd
            rcases first env a b x m hx hd.1 with ⟨v1, h1, h2⟩ | ⟨h1, h2⟩
            · rcases h2 with ⟨rfl, h2⟩ | ⟨vs, rfl, hl, h2⟩
              · exact .inl ⟨.fls, by simp [run, h1], Fit.no fun σ h => h2 σ (M_cons.1 h).1⟩
              · have : vs = [] := List.eq_nil_of_length_eq_zero (by rw [hl.length, hvs]; rfl)
                subst this
                have hP : ∀ σ, M p a σ := fun σ => (h2 σ).2 (by rw [hvs]; exact .nil)
                have hrun : run (.ite c1 c2 .fls) (upd env .e x) = run c2 (upd env .e x) := by simp [run, h1, listV]
                rw [hrun]
                rcases rest env a b x m hx hd.2 with ⟨v, h3, h4⟩ | ⟨h3, h4⟩
                · refine .inl ⟨v, h3, ?_⟩
                  have := h4.congr (Q := M (.cons p q) (.cons a b)) fun σ => by rw [M_cons]; simp [hP σ]
                  simpa [Pat.vars, hvs] using this
                · refine .inr ⟨h3, fun hc => h4 ?_⟩
                  rw [calm_cons hm] at hc
                  exact (hc.2.1 a b rfl).2
            · refine .inr ⟨by simp [run, h1], fun hc => h2 ?_⟩
              rw [calm_cons hm] at hc
              exact (hc.2.1 a b rfl).1
        · refine ⟨.app .e (.ite (.stxPair (.var .e)) (.appendF c1 c2) .fls) arg, ?_, key _ ?_⟩
          · rw [genLoop, if_neg (by rw [hif]; exact id)]
            simp only [h0, ok_bind, patTail_pairTail, Pat.hasEll, hel, hnw, hnv, hcl, if_true, Bool.false_eq_true, if_false]
            simp only [Pat.proper]
            rw [hc1, ok_bind, hc2]; rfl
          · intro env a b x m hm hx hd
            rcases first env a b x m hx hd.1 with ⟨v1, h1, h2⟩ | ⟨h1, h2⟩
            · rcases rest env a b x m hx hd.2 with ⟨v, h3, h4⟩ | ⟨h3, h4⟩
              · obtain ⟨u, h5, h6⟩ := h2.and h4
                exact .inl ⟨u, by simp [run, h1, h3, h5], h6.congr fun σ => M_cons.symm⟩
              · refine .inr ⟨by simp [run, h1, h3], fun hc => h4 ?_⟩
                rw [calm_cons hm] at hc
                exact (hc.2.1 a b rfl).2
            · refine .inr ⟨by simp [run, h1], fun hc => h2 ?_⟩
              rw [calm_cons hm] at hc
              exact (hc.2.1 a b rfl).1

end Minim.Sc
