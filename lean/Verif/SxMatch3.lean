import Verif.SxMatch2

set_option autoImplicit false

/-! # The generated matchers decide the matching relation: ellipses in the middle, vectors -/

namespace Minim.Sc

theorem countP_both (d : V) (be ae : Nat) (el : Bool) : countP (toSyntax d) be ae el = countP (pairTail d) be ae el := by
  cases d with
  | stx e => cases e <;> rfl
  | _ => simp [toSyntax, pairTail, countP]

theorem countP_no {lits : List Nm} {q : Pat} (hw : WF lits q) (h : q.hasEll = false) (be ae : Nat) (el : Bool) :
    countP (pairTail q.dat) be ae el = .ok (if el then (be, ae + q.cnt, el, q.proper) else (be + q.cnt, ae, el, q.proper)) := by
  induction q generalizing be ae with
  | nil => cases el <;> simp [Pat.dat, pairTail, countP, Pat.cnt, Pat.proper]
  | ell p q => simp [Pat.hasEll] at h
  | cons p q _ ih =>
    have := isDots_dat hw.1
    cases el <;> simp only [Pat.dat, pairTail, countP, this, Bool.false_eq_true, if_false, if_true] <;> rw [ih hw.2.1 h] <;>
      simp [Pat.cnt, Pat.proper] <;> omega
  | atom a =>
    obtain ⟨ha, _⟩ := hw
    cases a <;> simp [isAtom] at ha <;> cases el <;> simp [Pat.dat, pairTail, countP, Pat.cnt, Pat.proper]
  | _ => cases el <;> simp [Pat.dat, pairTail, countP, Pat.cnt, Pat.proper]

theorem countP_all {lits : List Nm} {q : Pat} (hw : WF lits q) (be : Nat) :
    countP (pairTail q.dat) be 0 false = .ok (be + q.cntB, q.cntA, q.hasEll, q.proper) := by
  induction q generalizing be with
  | nil => simp [Pat.dat, pairTail, countP, Pat.cntB, Pat.cntA, Pat.hasEll, Pat.proper]
  | ell p q _ _ =>
    have := isDots_dat hw.1
    have h2 : isDots (toSyntax (.sym .dots)) = true := by simp [toSyntax, isDots, identOf]
    simp only [Pat.dat, pairTail, countP, this, h2, Bool.false_eq_true, if_false, if_true]
    rw [if_neg (by omega), countP_no hw.2.1 hw.2.2.2]
    simp [Pat.cntB, Pat.cntA, Pat.hasEll, Pat.proper]
  | cons p q _ ih =>
    have := isDots_dat hw.1
    simp only [Pat.dat, pairTail, countP, this, Bool.false_eq_true, if_false]
    rw [ih hw.2.1]
    simp [Pat.cntB, Pat.cntA, Pat.hasEll, Pat.proper]; omega
  | atom a =>
    obtain ⟨ha, _⟩ := hw
    cases a <;> simp [isAtom] at ha <;> simp [Pat.dat, pairTail, countP, Pat.cntB, Pat.cntA, Pat.hasEll, Pat.proper]
  | _ => simp [Pat.dat, pairTail, countP, Pat.cntB, Pat.cntA, Pat.hasEll, Pat.proper]

/-- where the counting of `split-stx-list` starts -/
def m0 (d : V) (prop : Bool) : Int := if prop then (if isList d then 0 else -1) else 1

theorem split_tail {d : V} (hd : Pure d) {n : Int} (hn : 1 ≤ n) (prop : Bool) :
    ∃ l r, d = appV l r ∧ splitLoop n prop (pairTail d) = (l.map toSyntax, pairTail r, m0 d prop + spine r) ∧
      m0 d prop + spine r ≤ n ∧ (l ≠ [] → m0 d prop + spine r = n) := by
  induction d with
  | cons a d _ ih =>
    obtain ⟨l, r, h1, h2, h3, h4⟩ := ih hd.2
    have hm : m0 (.cons a d) prop = m0 d prop := by simp [m0]
    by_cases hlt : m0 d prop + spine r < n
    · have hl : l = [] := by by_contra hne; have := h4 hne; omega
      subst hl
      simp only [appV_nil] at h1
      subst h1
      refine ⟨[], .cons a d, rfl, ?_, ?_, by simp⟩
      · simp only [pairTail, splitLoop, h2, hlt, if_true, hm, spine, List.map_nil]
        push_cast; rw [add_assoc]
      · rw [hm]; simp only [spine]; push_cast; omega
    · refine ⟨a :: l, r, by rw [h1]; rfl, ?_, by rw [hm]; exact h3, fun _ => by rw [hm]; omega⟩
      simp only [pairTail, splitLoop, h2, hlt, if_false, hm, List.map_cons]
  | stx e => exact absurd hd (by simp [Pure])
  | null => refine ⟨[], .null, rfl, ?_, ?_, by simp⟩ <;> cases prop <;> simp [pairTail, splitLoop, m0, spine, stxNull, isList, rawList] <;> omega
  | _ => refine ⟨[], _, rfl, ?_, ?_, by simp⟩ <;> cases prop <;> simp [pairTail, splitLoop, m0, spine, stxNull, isList, rawList] <;> omega

theorem split_ok {d x : V} {m : Mode} (hm : m ≠ .elem) (hx : IsM m d x) (hd : Pure d) {n : Nat} (hn : 1 ≤ n) (prop : Bool) :
    ∃ l r post m', d = appV l r ∧ m' ≠ .elem ∧ IsM m' r post ∧
      splitStx x n prop = (l.map toSyntax, post, decide (m0 d prop + spine r = n)) ∧
      m0 d prop + spine r ≤ n ∧ (l ≠ [] → m0 d prop + spine r = n) := by
  obtain ⟨l, r, h1, h2, h3, h4⟩ := split_tail hd (n := n) (by omega) prop
  have hh : x = pairTail d ∨ x = toSyntax d := by rcases hx.is with h | h <;> simp [h]
  rcases hh with rfl | rfl
  · exact ⟨l, r, pairTail r, .tail, h1, by simp, rfl, by simp [splitStx, h2], h3, h4⟩
  · cases d with
    | cons a d =>
      simp only [pairTail, splitLoop] at h2
      by_cases hlt : (splitLoop n prop (pairTail d)).2.2 < n
      · simp only [hlt, if_true, Prod.mk.injEq] at h2
        have hl : l = [] := by simpa using h2.1.symm
        subst hl
        simp only [appV_nil] at h1; subst h1
        refine ⟨[], _, toSyntax (.cons a d), .head, rfl, by simp, rfl, ?_, h3, h4⟩
        simp [splitStx, toSyntax, splitLoop, hlt, h2.2.2]
      · simp only [hlt, if_false, Prod.mk.injEq] at h2
        refine ⟨l, r, pairTail r, .tail, h1, by simp, rfl, ?_, h3, h4⟩
        rw [h2.2.2] at hlt
        simp only [splitStx, toSyntax, splitLoop, h2, hlt, if_false]
    | null =>
      cases l with
      | cons _ _ => simp at h1
      | nil =>
        simp only [appV_nil] at h1; subst h1
        refine ⟨[], .null, .stx .null, .head, rfl, by simp, rfl, ?_, h3, by simp⟩
        simp [pairTail, splitLoop, stxNull] at h2
        simp [toSyntax, splitStx, splitLoop, stxNull, spine, h2]
    | stx e => exact absurd hd (by simp [Pure])
    | _ =>
      cases l with
      | cons _ _ => simp at h1
      | nil =>
        simp only [appV_nil] at h1; subst h1
        exact ⟨[], _, _, .head, rfl, by simp, rfl, by simp [splitStx, toSyntax, pairTail] at h2 ⊢; simp [h2], h3, by simp⟩

theorem spine_dat {lits : List Nm} {q : Pat} (hw : WF lits q) (h : q.hasEll = false) : spine q.dat = q.len ∧ isList q.dat = q.proper ∧
    (q.cnt : Int) = m0 q.dat q.proper + q.len := by
  induction q with
  | cons p q _ ih =>
    obtain ⟨h1, h2, h3⟩ := ih hw.2.1 h
    refine ⟨by simp [Pat.dat, spine, Pat.len, h1], by simp [Pat.dat, h2, Pat.proper], ?_⟩
    simp [m0, Pat.dat, Pat.proper, Pat.cnt, Pat.len] at h3 ⊢
    omega
  | ell p q => simp [Pat.hasEll] at h
  | atom a =>
    obtain ⟨ha, _⟩ := hw
    cases a <;> simp [isAtom] at ha <;> simp [Pat.dat, spine, Pat.len, isList, rawList, Pat.proper, Pat.cnt, m0]
  | _ => simp [Pat.dat, spine, Pat.len, isList, rawList, Pat.proper, Pat.cnt, m0]

theorem dat_split {P : Pat} (h : P.hasEll = true) : ∃ L, L ≠ [] ∧ P.dat = appV L P.postP.dat ∧ P.preP.dat = listV L := by
  induction P with
  | cons p q _ ih =>
    obtain ⟨L, h1, h2, h3⟩ := ih h
    exact ⟨p.dat :: L, by simp, by simp [Pat.dat, Pat.postP, h2], by simp [Pat.preP, Pat.dat, h3, listV]⟩
  | ell p q _ _ => exact ⟨[p.dat, .sym .dots], by simp, by simp [Pat.dat, Pat.postP], by simp [Pat.preP, Pat.dat, listV]⟩
  | _ => simp [Pat.hasEll] at h

theorem post_facts {lits : List Nm} {P : Pat} (hw : WF lits P) (h : P.hasEll = true) :
    WF lits P.postP ∧ P.postP.hasEll = false ∧ P.cntA = P.postP.cnt ∧ P.proper = P.postP.proper ∧ WF lits P.preP ∧ P.postP.isVec = false := by
  induction P with
  | cons p q _ ih =>
    obtain ⟨h1, h2, h3, h4, h5, h6⟩ := ih hw.2.1 h
    refine ⟨h1, h2, h3, h4, ⟨hw.1, h5, ?_⟩, h6⟩
    cases q <;> simp [Pat.hasEll, Pat.preP, Pat.isVec] at h ⊢
  | ell p q _ _ => exact ⟨hw.2.1, hw.2.2.2, rfl, rfl, ⟨hw.1, trivial, rfl, rfl⟩, hw.2.2.1⟩
  | _ => simp [Pat.hasEll] at h

theorem vars_split {P : Pat} (h : P.hasEll = true) (k : Nat) : P.vars k = P.preP.vars k ++ P.postP.vars k := by
  induction P with
  | cons p q _ ih => simp [Pat.vars, Pat.preP, Pat.postP, ih h]
  | ell p q _ _ => simp [Pat.vars, Pat.preP, Pat.postP]
  | _ => simp [Pat.hasEll] at h

theorem size_split {P : Pat} (h : P.hasEll = true) (hq : P.postP ≠ .nil) : P.preP.size < P.size ∧ P.postP.size < P.size := by
  induction P with
  | cons p q _ ih =>
    obtain ⟨h1, h2⟩ := ih h hq
    simp only [Pat.preP, Pat.postP, Pat.size] at *; omega
  | ell p q _ _ =>
    simp only [Pat.preP, Pat.postP, Pat.size] at *
    have := size_pos p
    have : 2 ≤ q.size := by cases q <;> simp [Pat.size] at *; have := size_pos ‹Pat›; omega
    omega
  | _ => simp [Pat.hasEll] at h

theorem M_split {P : Pat} (h : P.hasEll = true) (d : V) (σ : Nm → BV) :
    M P d σ ↔ ∃ l r, d = appV l r ∧ spine r = P.postP.len ∧ M P.preP (listV l) σ ∧ M P.postP r σ := by
  induction P generalizing d with
  | cons p q _ ih =>
    constructor
    · rintro ⟨a, b, rfl, h1, h2⟩
      obtain ⟨l, r, rfl, h3, h4, h5⟩ := (ih h b).1 h2
      exact ⟨a :: l, r, rfl, h3, by simp only [Pat.preP, listV]; exact M_cons.2 ⟨h1, h4⟩, h5⟩
    · rintro ⟨l, r, rfl, h3, h4, h5⟩
      cases l with
      | nil => exact absurd h4 (M_cons_no (by simp [listV]) σ)
      | cons a l =>
        simp only [Pat.preP, listV] at h4
        have := M_cons.1 h4
        exact ⟨a, appV l r, rfl, this.1, (ih h _).2 ⟨l, r, rfl, h3, this.2, h5⟩⟩
  | ell p q _ _ =>
    simp only [Pat.preP, Pat.postP, M_ell_nil]
    simp only [M]
    constructor
    · rintro ⟨l, r, h1, h2, h3, h4⟩; exact ⟨l, r, h1, h2, h4, h3⟩
    · rintro ⟨l, r, h1, h2, h3, h4⟩; exact ⟨l, r, h1, h2, h4, h3⟩
  | _ => simp [Pat.hasEll] at h

theorem M_proper {q : Pat} (hp : q.proper = true) {d : V} {σ : Nm → BV} (h : M q d σ) : isList d = true := by
  induction q generalizing d with
  | nil => simp only [M] at h; subst h; rfl
  | cons p q _ ih => obtain ⟨a, b, rfl, _, h2⟩ := h; simpa using ih hp h2
  | ell p q _ ih => obtain ⟨l, r, rfl, _, h2, _⟩ := h; rw [isList_appV]; exact ih hp h2
  | _ => simp [Pat.proper] at hp

theorem calm_head {p : Pat} {d : V} (h : Calm .tail p d) : Calm .head p d := by
  cases p with
  | atom a => rw [Calm]; intro h; cases h
  | cons p q => rw [calm_cons (by simp)] at *; exact h
  | ell p q => rw [calm_ell] at *; exact h
  | vec p => rw [Calm] at *; exact h
  | _ => simp [Calm]

theorem calm_any {m : Mode} (hm : m ≠ .elem) {p : Pat} {d : V} (h : Calm .tail p d) : Calm m p d := by
  cases m with
  | tail => exact h
  | head => exact calm_head h
  | elem => exact absurd rfl hm

theorem calmAfter_pre {P : Pat} (h : P.hasEll = true) (d : V) : CalmAfter P.preP d := by
  induction P with
  | cons p q _ ih => simp only [Pat.preP, CalmAfter]; exact ih h
  | ell p q _ _ => simp only [Pat.preP, CalmAfter]; intro l r _ _; simp [Calm]
  | _ => simp [Pat.hasEll] at h

theorem calm_pre {m : Mode} (hm : m ≠ .elem) {P : Pat} (h : P.hasEll = true) {l : List V} {r : V} (hc : Calm m P (appV l r)) : Calm .tail P.preP (listV l) := by
  induction P generalizing m l with
  | cons p q _ ih =>
    rw [calm_cons hm] at hc
    simp only [Pat.preP]
    rw [calm_cons (by simp)]
    refine ⟨fun _ => ?_, ?_, calmAfter_pre h _⟩
    · cases l with
      | nil => exact .inl rfl
      | cons a l => exact .inr ⟨_, _, rfl⟩
    · intro a b hab
      cases l with
      | nil => simp [listV] at hab
      | cons a' l =>
        simp only [listV, V.cons.injEq] at hab
        obtain ⟨rfl, rfl⟩ := hab
        have := hc.2.1 _ _ rfl
        exact ⟨this.1, ih (by simp) h this.2⟩
  | ell p q _ _ =>
    rw [calm_ell] at hc
    simp only [Pat.preP]
    rw [calm_ell]
    refine ⟨fun a ha => hc.1 a ?_, fun _ _ _ _ => by simp [Calm]⟩
    rw [elems_appV]; simp only [elems_listV] at ha; simp [ha]
  | _ => simp [Pat.hasEll] at h

theorem calm_post {m : Mode} (hm : m ≠ .elem) {P : Pat} (h : P.hasEll = true) {l : List V} {r : V} (hc : Calm m P (appV l r))
    (hs : spine r = P.postP.len ∨ (P.postP.proper = true ∧ isList (appV l r) = false ∧ spine r = P.postP.len + 1)) : Calm .tail P.postP r := by
  have hA : CalmAfter P (appV l r) := by
    cases P with
    | cons p q => rw [calm_cons hm] at hc; simp only [CalmAfter]; exact hc.2.2
    | ell p q => rw [calm_ell] at hc; simp only [CalmAfter]; exact hc.2
    | _ => simp [Pat.hasEll] at h
  clear hc
  induction P with
  | cons p q _ ih => exact ih h hs (by simpa only [CalmAfter] using hA)
  | ell p q _ _ => simp only [CalmAfter] at hA; exact hA l r rfl hs
  | _ => simp [Pat.hasEll] at h

theorem names_split {P : Pat} (h : P.hasEll = true) : P.names = P.preP.names ++ P.postP.names := by
  simp [Pat.names, vars_split h]

/-- Patterns behind the ellipsis. -/
theorem mid_ok {lits : List Nm} {P : Pat} (hw : WF lits P) (hn : P.names.Nodup) (h : P.hasEll = true) (hq : P.postP ≠ .nil)
    (H : ∀ p' : Pat, p'.size < P.size → WF lits p' → p'.names.Nodup → GenOK lits p') : GenOK lits P := by
  intro n hfuel arg
  obtain ⟨hs1, hs2⟩ := size_split h hq
  obtain ⟨n, rfl⟩ : ∃ k, n = k + 1 := ⟨n - 1, by omega⟩
  obtain ⟨hwq, hqe, hca, hpr, hwp, hqv⟩ := post_facts hw h
  rw [names_split h] at hn
  have hn' := List.nodup_append.1 hn
  obtain ⟨c1, hc1, hr1⟩ := H _ hs1 hwp hn'.1 n (by omega) (.var .pre)
  obtain ⟨c2, hc2, hr2⟩ := H _ hs2 hwq hn'.2.1 n (by omega) (.var .post)
  have hcnt1 : 1 ≤ P.postP.cnt := by
    cases hh : P.postP with
    | nil => exact absurd hh hq
    | _ => simp [Pat.cnt]
  obtain ⟨hsp, hil, hci⟩ := spine_dat hwq hqe
  have hpair : stxPair (toSyntax P.dat) = true := by
    cases P <;> simp [Pat.hasEll] at h <;> simp [Pat.dat, toSyntax, stxPair]
  refine ⟨.split arg P.cntA P.proper (.ite (.var .okq) (.appendF c1 c2) .fls), ?_, fun env => ⟨fun he => by simp [run, he], ?_⟩⟩
  · -- the pattern is split like the datum
    obtain ⟨L, hL1, hL2, hL3⟩ := dat_split h
    obtain ⟨l, r, post, m', h1, h2, h3, h4, h5, h6⟩ := split_ok (m := .head) (by simp) rfl hw.pure.1 (n := P.cntA) (by omega) P.proper
    have hm0 : m0 P.dat P.proper = m0 P.postP.dat P.postP.proper := by
      rw [hL2, hpr]; simp [m0, isList_appV]
    have hlne : l ≠ [] := by
      rintro rfl
      simp only [appV_nil] at h1
      rw [← h1, hm0] at h5
      have : spine P.dat = L.length + P.postP.len := by rw [hL2, spine_appV, hsp]
      have : 0 < L.length := List.length_pos_of_ne_nil hL1
      omega
    have hr : spine r = spine P.postP.dat := by
      have := h6 hlne
      rw [hm0, hca] at this
      rw [hsp]; omega
    obtain ⟨rfl, rfl⟩ := appV_inj (hL2.symm.trans h1) hr.symm
    have hpre : toSyntax (listV (L.map toSyntax)) = toSyntax P.preP.dat := by
      rw [hL3, ← toSyntax_pairTail (listV L), pairTail_listV]
    have hpost : toSyntax post = toSyntax P.postP.dat := by
      rcases h3.is with rfl | rfl
      · exact toSyntax_idem _
      · exact toSyntax_pairTail _
    have h0 : P.cntA ≠ 0 := by omega
    rw [gen]
    simp only [hpair, if_true, countP_both, countP_all hw, ok_bind, h, h0, h4, hpre, hpost, hc1, hc2]
    simp
  · intro d x m hd hm hx hr
    obtain ⟨l, r, post, m', h1, h2, h3, h4, h5, h6⟩ := split_ok hm hx hd (n := P.cntA) (by omega) P.proper
    have hdp := hd
    rw [h1, Pure_appV] at hdp
    have hr0 : run (.split arg P.cntA P.proper (.ite (.var .okq) (.appendF c1 c2) .fls)) env =
        run (.ite (.var .okq) (.appendF c1 c2) .fls) (upd (upd (upd env .pre (listV (l.map toSyntax))) .post post) .okq (ofBool (decide (m0 d P.proper + spine r = P.cntA)))) := by
      simp only [run, hr, ok_bind, h4]
    rw [hr0]
    by_cases hok : m0 d P.proper + spine r = P.cntA
    · set env' := upd (upd (upd env .pre (listV (l.map toSyntax))) .post post) .okq (ofBool (decide (m0 d P.proper + spine r = P.cntA))) with henv
      have hrun : run (.ite (.var .okq) (.appendF c1 c2) .fls) env' = (do
          let x ← run c1 env'
          let y ← run c2 env'
          Sc.appendF x y) := by
        have : env' .okq = some .tru := by simp [henv, upd_same, hok, ofBool]
        simp [run, this]
      rw [hrun]
      have o1 := (hr1 env').2 (listV l) (listV (l.map toSyntax)) .tail (Pure_listV.2 hdp.1) (by simp)
        (by rw [IsM, pairTail_listV]) (by simp [run, henv, upd])
      have o2 := (hr2 env').2 r post m' hdp.2 h2 h3 (by simp [run, henv, upd])
      -- either the split is the one the relation asks for, or nothing matches
      have hcase : spine r = P.postP.len ∨ (P.postP.proper = true ∧ isList d = false ∧ spine r = P.postP.len + 1) := by
        rw [hca, hci, hpr] at hok
        unfold m0 at hok
        rw [hil] at hok
        cases hpp : P.postP.proper with
        | false => rw [hpp] at hok; left; simpa using hok
        | true =>
          rw [hpp] at hok
          cases hdl : isList d with
          | true => rw [hdl] at hok; left; simpa using hok
          | false => rw [hdl] at hok; right; refine ⟨rfl, rfl, ?_⟩; simp at hok; omega
      have hM : ∀ σ, (M P.preP (listV l) σ ∧ M P.postP r σ) ↔ M P d σ := by
        intro σ
        rcases hcase with hc | ⟨hc1, hc2, _⟩
        · rw [M_split h]
          constructor
          · intro hh; exact ⟨l, r, h1, hc, hh⟩
          · rintro ⟨l', r', h7, h8, h9⟩
            obtain ⟨rfl, rfl⟩ := appV_inj (h1.symm.trans h7) (hc.trans h8.symm)
            exact h9
        · constructor
          · rintro ⟨_, hh⟩
            have := M_proper hc1 hh
            rw [h1, isList_appV] at hc2
            rw [this] at hc2; cases hc2
          · intro hh
            have := M_proper (hpr.trans hc1) hh
            rw [this] at hc2; cases hc2
      rcases o1 with ⟨v1, e1, f1⟩ | ⟨e1, f1⟩
      · rcases o2 with ⟨v2, e2, f2⟩ | ⟨e2, f2⟩
        · obtain ⟨u, e3, f3⟩ := f1.and f2
          refine .inl ⟨u, by simp [e1, e2, e3], ?_⟩
          rw [vars_split h]
          exact f3.congr hM
        · refine .inr ⟨by simp [e1, e2], fun hc => f2 (calm_any h2 ?_)⟩
          rw [h1] at hc hcase
          exact calm_post hm h hc hcase
      · refine .inr ⟨by simp [e1], fun hc => f1 ?_⟩
        rw [h1] at hc
        exact calm_pre hm h hc
    · refine .inl ⟨.fls, by simp [run, upd_same, hok, ofBool], Fit.no ?_⟩
      intro σ hh
      have hl : l = [] := by by_contra hne; exact hok (h6 hne)
      subst hl
      simp only [appV_nil] at h1; subst h1
      obtain ⟨l', r', h7, h8, h9, h10⟩ := (M_split h d σ).1 hh
      have hsd : spine d = l'.length + P.postP.len := by rw [h7, spine_appV, h8]
      have hlt : m0 d P.proper + spine d < P.cntA := by omega
      rw [hca, hci] at hlt
      have hm0 : m0 d P.proper = m0 P.postP.dat P.postP.proper := by
        rw [hpr]; unfold m0; rw [hil]
        cases hpp : P.postP.proper with
        | false => rfl
        | true =>
          have := M_proper (hpr.trans hpp) hh
          simp [this]
      rw [hm0] at hlt
      omega

/-! ### vectors -/

theorem elems_map {lits : List Nm} {p : Pat} (hw : WF lits p) (hp : p.proper = true) : pairTail p.dat = listV ((elems p.dat).map toSyntax) := by
  obtain ⟨l, hl⟩ := isList_iff.1 (hw.pure.2 hp)
  rw [hl, pairTail_listV, elems_listV]

theorem countV_end {lits : List Nm} {p : Pat} (hw : WF lits p) (hp : p.proper = true) (he : p.endEll = true) (be : Nat) :
    countV ((elems p.dat).map toSyntax) be 0 false = .ok (be + p.cntB, 0, p.hasEll) := by
  induction p generalizing be with
  | nil => simp [Pat.dat, elems, countV, Pat.cntB, Pat.hasEll]
  | cons p q _ ih =>
    have := isDots_dat hw.1
    simp only [Pat.dat, elems, List.map_cons, countV, this, Bool.false_eq_true, if_false]
    rw [ih hw.2.1 hp he]
    simp [Pat.cntB, Pat.hasEll]; omega
  | ell p q _ _ =>
    simp only [Pat.endEll, decide_eq_true_eq] at he
    subst he
    have h1 := isDots_dat hw.1
    have h2 : isDots (toSyntax (.sym .dots)) = true := by simp [toSyntax, isDots, identOf]
    simp only [Pat.dat, elems, List.map_cons, countV, h1, h2, Bool.false_eq_true, if_false, if_true]
    rw [if_neg (by omega)]
    simp [countV, Pat.cntB, Pat.hasEll]
  | _ => simp [Pat.proper] at hp

theorem vecRef_ok (xs : List V) (i : Nat) (a : V) (h : xs[i]? = some a) :
    vecRef (toSyntax (.vec (listV xs))) (.num i) = .ok (toSyntax a) := by
  simp [vecRef, toSyntax, syntaxE, pairTail_listV, h]

theorem vecLen_ok (xs : List V) : (do let v ← syntaxE (toSyntax (.vec (listV xs))); vecLen v) = .ok (.num xs.length) := by
  simp [toSyntax, syntaxE, vecLen, pairTail_listV]

theorem drop_cons {xs : List V} {i : Nat} (h : i < xs.length) : ∃ a, xs[i]? = some a ∧ xs.drop i = a :: xs.drop (i + 1) := by
  exact ⟨xs[i], by simp [h], by rw [List.drop_eq_getElem_cons h]⟩

/-- a step of the chains: one element, then the rest -/
theorem vstep {lits : List Nm} {p q : Pat} {n : Nat} (hg : GenOK lits p) (hsz : 2 * p.size ≤ n) (i : Nat) :
    ∃ c, gen lits n (toSyntax p.dat) (.vecRef (.var .e) (.num i)) = .ok c ∧
      ∀ r env (xs : List V), env .e = some (toSyntax (.vec (listV xs))) → (∀ a ∈ xs, Pure a) → i < xs.length →
        Outcome .elem q (listV (xs.drop (i + 1))) (run r env) → Outcome .elem (.cons p q) (listV (xs.drop i)) (run (.appendF c r) env) := by
  obtain ⟨c, h1, h2⟩ := hg n hsz (.vecRef (.var .e) (.num i))
  refine ⟨c, h1, ?_⟩
  intro r env xs he hp hi ho
  obtain ⟨a, ha, hd⟩ := drop_cons hi
  rw [hd]
  have o1 := (h2 env).2 a (toSyntax a) .head (hp a (List.mem_of_getElem? ha)) (by simp) rfl
    (by simp [run, he, vecRef_ok xs i a ha])
  rcases o1 with ⟨v1, e1, f1⟩ | ⟨e1, f1⟩
  · rcases ho with ⟨v2, e2, f2⟩ | ⟨e2, f2⟩
    · obtain ⟨u, e3, f3⟩ := f1.and f2
      exact .inl ⟨u, by simp [run, e1, e2, e3], f3.congr fun σ => M_cons.symm⟩
    · refine .inr ⟨by simp [run, e1, e2], fun hc => f2 ?_⟩
      rw [listV, Calm] at hc
      exact (hc _ _ rfl).2
  · refine .inr ⟨by simp [run, e1], fun hc => f1 ?_⟩
    rw [listV, Calm] at hc
    exact (hc _ _ rfl).1

theorem chain_ok {lits : List Nm} (n : Nat) (p : Pat) (hw : WF lits p) (hn : p.names.Nodup) (hp : p.proper = true) (he : p.hasEll = false)
    (H : ∀ p' : Pat, p'.size < p.size → WF lits p' → p'.names.Nodup → GenOK lits p') (hf : 2 * p.size ≤ n) (i : Nat) :
    ∃ c, genChain (gen lits n) i ((elems p.dat).map toSyntax) = .ok c ∧ ∀ env (xs : List V), env .e = some (toSyntax (.vec (listV xs))) →
      (∀ a ∈ xs, Pure a) → xs.length = i + p.len → Outcome .elem p (listV (xs.drop i)) (run c env) := by
  induction p generalizing i with
  | nil =>
    refine ⟨.null, rfl, ?_⟩
    intro env xs _ _ hl
    simp only [Pat.len, Nat.add_zero] at hl
    rw [← hl, List.drop_length]
    exact .inl ⟨.null, rfl, Fit.one fun σ => rfl⟩
  | cons p q _ ih =>
    simp only [names_cons] at hn
    have hn' := List.nodup_append.1 hn
    simp only [Pat.size] at hf
    obtain ⟨r, hr1, hr2⟩ := ih hw.2.1 hn'.2.1 hp he (fun p' h => H p' (by simp only [Pat.size]; omega)) (by omega) (i + 1)
    obtain ⟨c, hc1, hc2⟩ := vstep (q := q) (H p (by simp only [Pat.size]; omega) hw.1 hn'.1) (n := n) (by omega) i
    refine ⟨.appendF c r, ?_, ?_⟩
    · simp only [Pat.dat, elems, List.map_cons, genChain, hc1, ok_bind, hr1]
    · intro env xs he hpx hl
      simp only [Pat.len] at hl
      exact hc2 r env xs he hpx (by omega) (hr2 env xs he hpx (by omega))
  | ell p q => simp [Pat.hasEll] at he
  | _ => simp [Pat.proper] at hp

theorem front_ok {lits : List Nm} (n : Nat) (last : Code) (p : Pat) (hw : WF lits p) (hn : p.names.Nodup) (hp : p.proper = true) (he : p.hasEll = true) (hee : p.endEll = true)
    (H : ∀ p' : Pat, p'.size < p.size → WF lits p' → p'.names.Nodup → GenOK lits p') (hf : 2 * p.size ≤ n) (i k : Nat) (hk : k + 1 = i + p.cntB)
    (hlast : ∀ env (xs : List V), env .e = some (toSyntax (.vec (listV xs))) → (∀ a ∈ xs, Pure a) → k ≤ xs.length →
      Outcome .elem (.ell p.ellP .nil) (listV (xs.drop k)) (run last env)) :
    ∃ c, genFront (gen lits n) (.ok last) i (((elems p.dat).map toSyntax).take (p.cntB - 1)) = .ok c ∧ ∀ env (xs : List V),
      env .e = some (toSyntax (.vec (listV xs))) → (∀ a ∈ xs, Pure a) → k ≤ xs.length → Outcome .elem p (listV (xs.drop i)) (run c env) := by
  induction p generalizing i with
  | cons p q _ ih =>
    simp only [names_cons] at hn
    have hn' := List.nodup_append.1 hn
    simp only [Pat.size] at hf
    simp only [Pat.cntB] at hk
    have hcb : 1 ≤ q.cntB := by cases q <;> simp [Pat.hasEll, Pat.cntB] at he ⊢
    obtain ⟨r, hr1, hr2⟩ := ih hw.2.1 hn'.2.1 hp he hee (fun p' h => H p' (by simp only [Pat.size]; omega)) (by omega) (i + 1) (by omega) hlast
    obtain ⟨c, hc1, hc2⟩ := vstep (q := q) (H p (by simp only [Pat.size]; omega) hw.1 hn'.1) (n := n) (by omega) i
    refine ⟨.appendF c r, ?_, ?_⟩
    · have : (Pat.cons p q).cntB - 1 = (q.cntB - 1) + 1 := by simp only [Pat.cntB]; omega
      rw [this]
      simp only [Pat.dat, elems, List.map_cons, List.take_succ_cons, genFront, hc1, ok_bind, hr1]
    · intro env xs he hpx hl
      exact hc2 r env xs he hpx (by omega) (hr2 env xs he hpx hl)
  | ell p q _ _ =>
    simp only [Pat.endEll, decide_eq_true_eq] at hee
    subst hee
    simp only [Pat.cntB] at hk
    have : k = i := by omega
    subst this
    exact ⟨last, by simp [Pat.cntB, genFront], fun env xs he hpx hl => hlast env xs he hpx hl⟩
  | _ => simp [Pat.hasEll] at he

theorem rangeLoop_ok (xs : List V) (k : Nat) : ∀ m t, k + t + m = xs.length →
    rangeLoop (toSyntax (.vec (listV xs))) k m t = .ok ((xs.drop (k + t)).map toSyntax) := by
  intro m
  induction m with
  | zero => intro t h; rw [show k + t = xs.length by omega, List.drop_length]; rfl
  | succ m ih =>
    intro t h
    obtain ⟨a, ha, hd⟩ := drop_cons (xs := xs) (i := k + t) (by omega)
    rw [rangeLoop, show ((k : Int) + (t : Int)) = ((k + t : Nat) : Int) by push_cast; rfl, vecRef_ok xs _ a ha, ok_bind,
      show ((t : Int) + 1) = ((t + 1 : Nat) : Int) by push_cast; rfl, ih (t + 1) (by omega), hd]
    rfl

theorem ellP_facts {lits : List Nm} {p : Pat} (hw : WF lits p) (hp : p.proper = true) (he : p.hasEll = true) (hee : p.endEll = true) :
    WF lits p.ellP ∧ p.ellP.size < p.size ∧ (p.names.Nodup → p.ellP.names.Nodup) ∧ ((elems p.dat).map toSyntax)[p.cntB - 1]? = some (toSyntax p.ellP.dat) ∧ 1 ≤ p.cntB := by
  induction p with
  | cons p q _ ih =>
    obtain ⟨h1, h2, h3, h4, h5⟩ := ih hw.2.1 hp he hee
    refine ⟨h1, by simp only [Pat.ellP, Pat.size]; omega, ?_, ?_, by simp [Pat.cntB]⟩
    · intro hn; rw [names_cons] at hn; exact h3 (List.nodup_append.1 hn).2.1
    · have : (Pat.cons p q).cntB - 1 = (q.cntB - 1) + 1 := by simp only [Pat.cntB]; omega
      rw [this]
      simpa [Pat.dat, elems, Pat.ellP] using h4
  | ell p q _ _ =>
    refine ⟨hw.1, by simp only [Pat.ellP, Pat.size]; omega, ?_, by simp [Pat.dat, elems, Pat.cntB, Pat.ellP], by simp [Pat.cntB]⟩
    intro hn; rw [names_ell] at hn; exact (List.nodup_append.1 hn).1
  | _ => simp [Pat.hasEll] at he

theorem M_len {p : Pat} (hp : p.proper = true) (he : p.hasEll = false) {xs : List V} {σ : Nm → BV} (h : M p (listV xs) σ) : xs.length = p.len := by
  induction p generalizing xs with
  | nil => cases xs with
    | nil => rfl
    | cons a l => simp [M, listV] at h
  | cons p q _ ih => cases xs with
    | nil => exact absurd h (M_cons_no (by simp [listV]) σ)
    | cons a l => have := ih hp he (M_cons.1 h).2; simp [Pat.len, this]
  | ell p q => simp [Pat.hasEll] at he
  | _ => simp [Pat.proper] at hp

theorem M_len_ell {p : Pat} (hp : p.proper = true) (he : p.hasEll = true) {xs : List V} {σ : Nm → BV} (h : M p (listV xs) σ) : p.cntB - 1 ≤ xs.length := by
  induction p generalizing xs with
  | cons p q _ ih => cases xs with
    | nil => exact absurd h (M_cons_no (by simp [listV]) σ)
    | cons a l => have := ih hp he (M_cons.1 h).2; simp [Pat.cntB]; omega
  | ell p q => simp [Pat.cntB]
  | _ => simp [Pat.hasEll] at he

theorem vec_ok {lits : List Nm} {p : Pat} (hw : WF lits (.vec p)) (hn : p.names.Nodup)
    (H : ∀ p' : Pat, p'.size < (Pat.vec p).size → WF lits p' → p'.names.Nodup → GenOK lits p') : GenOK lits (.vec p) := by
  intro n hfuel arg
  simp only [Pat.size] at hfuel
  obtain ⟨n, rfl⟩ : ∃ k, n = k + 1 := ⟨n - 1, by omega⟩
  obtain ⟨hwp, hpp, hee⟩ := hw
  have H' : ∀ p' : Pat, p'.size < p.size → WF lits p' → p'.names.Nodup → GenOK lits p' := fun p' h => H p' (by simp only [Pat.size]; omega)
  have hel : stxVecElems (toSyntax (Pat.vec p).dat) = .ok ((elems p.dat).map toSyntax) := by
    simp [Pat.dat, stxVecElems, toSyntax, syntaxE, elems_map hwp hpp]
  have hcnt := countV_end hwp hpp hee 0
  simp only [Nat.zero_add] at hcnt
  have hp0 : stxPair (toSyntax (Pat.vec p).dat) = false ∧ stxVector (toSyntax (Pat.vec p).dat) = true := by simp [Pat.dat, toSyntax, stxPair, stxVector]
  -- it suffices to know the matcher for the elements
  have key : ∀ body : Code, (∀ env (xs : List V), env .e = some (toSyntax (.vec (listV xs))) → (∀ a ∈ xs, Pure a) → Outcome .elem p (listV xs) (run body env)) →
      ∀ env, (run arg env = .err → run (.app .e (.ite (.stxVector (.var .e)) body .fls) arg) env = .err) ∧
        ∀ d x m, Pure d → m ≠ .elem → IsM m d x → run arg env = .ok x →
          Outcome m (.vec p) d (run (.app .e (.ite (.stxVector (.var .e)) body .fls) arg) env) := by
    intro body hb env
    refine ⟨fun h => by simp [run, h], ?_⟩
    intro d x m hd hm hx hr
    by_cases hv : ∃ es, d = .vec es
    · obtain ⟨es, rfl⟩ := hv
      obtain ⟨xs, rfl⟩ := isList_iff.1 hd.2
      have hxe : x = toSyntax (.vec (listV xs)) := by rcases hx.is with h | h <;> simp [h, toSyntax, pairTail]
      subst hxe
      have hrun : run (.app .e (.ite (.stxVector (.var .e)) body .fls) arg) env = run body (upd env .e (toSyntax (.vec (listV xs)))) := by
        simp [run, hr, upd_same, toSyntax, stxVector, ofBool]
      rw [hrun]
      rcases hb (upd env .e (toSyntax (.vec (listV xs)))) xs (upd_same _ _ _) (Pure_listV.1 hd.1) with ⟨v, h1, h2⟩ | ⟨h1, h2⟩
      · exact .inl ⟨v, h1, h2.congr fun σ => by simp [M]⟩
      · refine .inr ⟨h1, fun hc => h2 ?_⟩
        rw [Calm] at hc; exact hc _ rfl
    · have : stxVector x = false := by
        rcases hx.is with rfl | rfl <;> cases d <;> simp [toSyntax, pairTail, stxVector] <;> first | exact absurd ⟨_, rfl⟩ hv | exact absurd hd (by simp [Pure])
      refine .inl ⟨.fls, by simp [run, hr, upd_same, this, ofBool], Fit.no ?_⟩
      rintro σ ⟨es, rfl, _⟩
      exact hv ⟨es, rfl⟩
  cases hhe : p.hasEll with
  | false =>
    obtain ⟨c, hc1, hc2⟩ := chain_ok n p hwp hn hpp hhe H' (by omega) 0
    have hlen : ((elems p.dat).map toSyntax).length = p.len := by
      obtain ⟨l, hl⟩ := isList_iff.1 (hwp.pure.2 hpp)
      have := (spine_dat hwp hhe).1
      rw [hl] at this ⊢
      simpa using this
    refine ⟨.app .e (.ite (.stxVector (.var .e)) (.ite (.eqn (.vecLen (.syntaxE (.var .e))) (.num ((elems p.dat).map toSyntax).length)) c .fls) .fls) arg, ?_, key _ ?_⟩
    · rw [gen]
      simp only [hp0, Bool.false_eq_true, if_false, if_true, hel, ok_bind, genVec, hcnt, hhe, hc1]
    · intro env xs he hpx
      have hb : (do let v ← run (.vecLen (.syntaxE (.var .e))) env; numOp (fun a b => ofBool (decide (a = b))) v (.num p.len)) = Res.ok (ofBool (decide ((xs.length : Int) = p.len))) := by
        have := vecLen_ok xs
        simp only [run, he, ok_bind]
        rw [this]; rfl
      have hrun : run (.ite (.eqn (.vecLen (.syntaxE (.var .e))) (.num ((elems p.dat).map toSyntax).length)) c .fls) env =
          if xs.length = p.len then run c env else .ok .fls := by
        rw [hlen]
        have hb' : run (.eqn (.vecLen (.syntaxE (.var .e))) (.num p.len)) env = Res.ok (ofBool (decide ((xs.length : Int) = p.len))) := hb
        rw [run, hb', ok_bind]
        by_cases h : xs.length = p.len
        · simp [h, ofBool]
        · have : ¬ ((xs.length : Int) = p.len) := by omega
          simp [h, this, ofBool, run]
      rw [hrun]
      split_ifs with h
      · exact hc2 env xs he hpx (by omega)
      · exact .inl ⟨_, rfl, Fit.no fun σ hm => h (M_len hpp hhe hm)⟩
  | true =>
    obtain ⟨hwe, hse, hne, hge, hcb⟩ := ellP_facts hwp hpp hhe hee
    obtain ⟨c0, hc1, hc2⟩ := H _ (by simp only [Pat.size]; omega) hwe (hne hn) n (by omega) (.var .e)
    have hgv := getVars_ok hwe n (by omega) 0 []
    set k := p.cntB - 1 with hk
    let rows : Code := .mapF .e c0 (.range (.var .e) k (.var .rep))
    let ell : Code := .app .rep (.ite (.eqn (.var .rep) (.num 0)) (.nulls (p.ellP.vars 0).length) (.app .tmp transposeCode rows)) (repCode k)
    let last : Code := .appendF ell (.app .rep .null (repCode k))
    have hrep : ∀ env (xs : List V), env .e = some (toSyntax (.vec (listV xs))) → k ≤ xs.length → run (repCode k) env = .ok (.num ((xs.length - k : Nat) : Int)) := by
      intro env xs he hl
      have := vecLen_ok xs
      simp only [repCode, run, he, ok_bind]
      rw [this]
      simp only [ok_bind, numOp]
      congr 2; omega
    have hlast : ∀ env (xs : List V), env .e = some (toSyntax (.vec (listV xs))) → (∀ a ∈ xs, Pure a) → k ≤ xs.length →
        Outcome .elem (.ell p.ellP .nil) (listV (xs.drop k)) (run last env) := by
      intro env xs he hpx hl
      have hr := hrep env xs he hl
      have e2 : run (.app .rep .null (repCode k)) env = .ok .null := by simp [run, hr]
      have e1 : run last env = (do let v ← run ell env; Sc.appendF v .null) := by
        show (do let x ← run ell env; let y ← run (.app .rep .null (repCode k)) env; Sc.appendF x y) = _
        rw [e2]; rfl
      have e3 : ∀ v, Fit (M (.ell p.ellP .nil) (listV (xs.drop k))) ((Pat.ell p.ellP .nil).vars 0) v → Sc.appendF v .null = .ok v := by
        intro v hv
        rcases hv with ⟨rfl, _⟩ | ⟨vs, rfl, _⟩
        · simp [Sc.appendF]
        · simp [Sc.appendF, listV_ne_fls]
      suffices Outcome .elem (.ell p.ellP .nil) (listV (xs.drop k)) (run ell env) by
        rw [e1]
        rcases this with ⟨v, h1, h2⟩ | ⟨h1, h2⟩
        · exact .inl ⟨v, by rw [h1, ok_bind, e3 v h2], h2⟩
        · exact .inr ⟨by rw [h1]; rfl, h2⟩
      set env1 := upd env .rep (.num ((xs.length - k : Nat) : Int)) with henv1
      by_cases hz : xs.length = k
      · have hdr : xs.drop k = [] := by rw [← hz, List.drop_length]
        rw [hdr]
        refine .inl ⟨_, ?_, (EllP_nil_fit p.ellP).congr fun σ => M_ell_nil.symm⟩
        have h0 : (xs.length - k : Nat) = 0 := by omega
        simp [ell, run, hr, h0, upd_same, numOp, ofBool]
      · have hz' : ¬ (((xs.length - k : Nat) : Int) = 0) := by omega
        have hrange : run (.range (.var .e) k (.var .rep)) env1 = .ok (listV ((xs.drop k).map toSyntax)) := by
          have hx : env1 .e = some (toSyntax (.vec (listV xs))) := by rw [henv1, upd_other _ _ (by simp)]; exact he
          have hrr : env1 .rep = some (.num ((xs.length - k : Nat) : Int)) := upd_same _ _ _
          have := rangeLoop_ok xs k (xs.length - k) 0 (by omega)
          simp only [run, hx, hrr, ok_bind]
          rw [if_neg (by omega), Int.toNat_natCast, show (0 : Int) = ((0 : Nat) : Int) from rfl, this]
          rfl
        have hrows := rows_ok (p := p.ellP) (f := fun y => run c0 (upd env1 .e y)) (l := xs.drop k) (by
          intro a ha
          refine (hc2 _).2 a (toSyntax a) .head (hpx a (List.mem_of_mem_drop ha)) (by simp) rfl ?_
          simp [run, upd_same])
        have hrun : run ell env = (do
            let ys ← mapRes (fun y => run c0 (upd env1 .e y)) ((xs.drop k).map toSyntax)
            run transposeCode (upd env1 .tmp (listV ys))) := by
          have h1 : run ell env = run (.app .tmp transposeCode rows) env1 := by
            have hrr : env1 .rep = some (.num ((xs.length - k : Nat) : Int)) := upd_same _ _ _
            show (do let v ← run (repCode k) env; run _ (upd env .rep v)) = _
            rw [hr, ok_bind]
            simp only [← henv1]
            rw [run]
            simp only [run, hrr, ok_bind, numOp, hz', ofBool, decide_false, Bool.false_eq_true, if_false, if_true]
          rw [h1]
          show (do let v ← run (.mapF .e c0 (.range (.var .e) k (.var .rep))) env1; run transposeCode (upd env1 .tmp v)) = _
          rw [run, hrange]
          simp only [ok_bind, listV_ne_fls, if_false, rawList_listV]
          cases mapRes (fun y => run c0 (upd env1 .e y)) ((xs.drop k).map toSyntax) <;> rfl
        rw [hrun]
        rcases hrows with ⟨rs, h3, h4⟩ | ⟨h3, b, hb, h4⟩
        · obtain ⟨u, h5, h6⟩ := transpose_ok (hne hn) h4 (by intro h; have := congrArg List.length h; simp at this; omega) env1
          rw [h3, ok_bind, h5]
          exact .inl ⟨u, rfl, h6.congr fun σ => M_ell_nil.symm⟩
        · rw [h3]
          refine .inr ⟨rfl, fun hc => h4 ?_⟩
          rw [calm_ell] at hc
          exact hc.1 b (by rw [elems_listV]; exact hb)
    obtain ⟨c, hf1, hf2⟩ := front_ok n last p hwp hn hpp hhe hee H' (by omega) 0 k (by omega) hlast
    refine ⟨.app .e (.ite (.stxVector (.var .e)) (.ite (.ge (.vecLen (.syntaxE (.var .e))) (.num k)) c .fls) .fls) arg, ?_, key _ ?_⟩
    · rw [gen]
      have hkk : ((p.cntB : Int) - 1) = (k : Int) := by omega
      simp only [hp0, Bool.false_eq_true, if_false, if_true, hel, ok_bind, genVec, hcnt, hhe, Nat.add_zero, ← hk]
      rw [hge]
      simp only [ok_bind, hgv, hc1, List.take_zero, genAfter, hkk, List.append_nil, List.length_reverse]
      rw [show genFront (gen lits n) (Res.ok last) 0 _ = _ from hf1]
      rfl
    · intro env xs he hpx
      have hb : (do let v ← run (.vecLen (.syntaxE (.var .e))) env; numOp (fun a b => ofBool (decide (a ≥ b))) v (.num k)) = Res.ok (ofBool (decide ((xs.length : Int) ≥ k))) := by
        have := vecLen_ok xs
        simp only [run, he, ok_bind]
        rw [this]; rfl
      have hrun : run (.ite (.ge (.vecLen (.syntaxE (.var .e))) (.num k)) c .fls) env =
          if k ≤ xs.length then run c env else .ok .fls := by
        have hb' : run (.ge (.vecLen (.syntaxE (.var .e))) (.num k)) env = Res.ok (ofBool (decide ((xs.length : Int) ≥ k))) := hb
        rw [run, hb', ok_bind]
        by_cases h : k ≤ xs.length
        · simp [h, ofBool]
        · have : ¬ ((k : Int) ≤ xs.length) := by omega
          simp [h, ofBool, run]
      rw [hrun]
      split_ifs with h
      · exact hf2 env xs he hpx h
      · exact .inl ⟨_, rfl, Fit.no fun σ hm => h (M_len_ell hpp hhe hm)⟩

/-- The matcher made for a pattern decides whether a datum matches it. -/
theorem gen_ok {lits : List Nm} (p : Pat) (hw : WF lits p) (hn : p.names.Nodup) : GenOK lits p := by
  induction hk : p.size using Nat.strong_induction_on generalizing p with
  | _ k ih =>
    have H : ∀ p' : Pat, p'.size < p.size → WF lits p' → p'.names.Nodup → GenOK lits p' := fun p' h hw' hn' => ih p'.size (by omega) p' hw' hn' rfl
    have leaf : (p = .nil ∨ p = .wild ∨ (∃ x, p = .var x) ∨ ∃ a, p = .atom a) → GenOK lits p := by
      intro hl n hfuel arg
      have := size_pos p
      obtain ⟨n, rfl⟩ : ∃ k, n = k + 1 := ⟨n - 1, by omega⟩
      obtain ⟨c, h1, h2⟩ := datum_ok hw hl arg
      refine ⟨c, ?_, fun env => ⟨(h2 env).1, fun d x m hd _ hx hr => (h2 env).2 d x m hd hx hr⟩⟩
      have hnp : stxPair (toSyntax p.dat) = false ∧ stxVector (toSyntax p.dat) = false := by
        rcases hl with rfl | rfl | ⟨x, rfl⟩ | ⟨a, rfl⟩
        · exact ⟨rfl, rfl⟩
        · exact ⟨rfl, rfl⟩
        · exact ⟨rfl, rfl⟩
        · obtain ⟨ha, _⟩ := hw
          cases a <;> simp [isAtom] at ha <;> exact ⟨rfl, rfl⟩
      rw [gen]
      simp only [hnp, Bool.false_eq_true, if_false, h1]
    have list : p.isVec = false → stxPair (toSyntax p.dat) = true → GenOK lits p := by
      intro hv hpair
      by_cases hm : p.hasEll = true ∧ p.postP ≠ .nil
      · exact mid_ok hw hn hm.1 hm.2 H
      · have he : p.endEll = true := by
          clear hpair H leaf ih hk hv
          induction p with
          | cons p q _ ih => exact ih hw.2.1 (by rw [names_cons] at hn; exact (List.nodup_append.1 hn).2.1) hm
          | ell p q _ _ => simp [Pat.endEll, Pat.hasEll, Pat.postP] at hm ⊢; exact hm
          | _ => rfl
        have hc : p.cntB = p.cnt ∧ p.cntA = 0 := by
          clear hpair H leaf ih hk hv hw hn hm
          induction p with
          | cons p q _ ih => have := ih he; simp [Pat.cntB, Pat.cnt, Pat.cntA, this]
          | ell p q _ _ => simp [Pat.endEll] at he; subst he; simp [Pat.cntB, Pat.cnt, Pat.cntA]
          | _ => simp [Pat.cntB, Pat.cnt, Pat.cntA]
        intro n hfuel arg
        have := size_pos p
        obtain ⟨n, rfl⟩ : ∃ k, n = k + 1 := ⟨n - 1, by omega⟩
        obtain ⟨c, h1, h2⟩ := loop_ok p hw hn hv he H n (by omega) (0 + p.cntB) 0 arg (by rw [hc.1])
        refine ⟨c, ?_, h2⟩
        rw [gen]
        simp only [hpair, if_true, countP_both, countP_all hw, ok_bind, hc.2, decide_true, Bool.or_true, h1]
    cases p with
    | vec p => exact vec_ok hw hn H
    | cons p q => exact list rfl rfl
    | ell p q => exact list rfl rfl
    | nil => exact leaf (.inl rfl)
    | wild => exact leaf (.inr (.inl rfl))
    | var x => exact leaf (.inr (.inr (.inl ⟨x, rfl⟩)))
    | atom a => exact leaf (.inr (.inr (.inr ⟨a, rfl⟩)))

end Minim.Sc
