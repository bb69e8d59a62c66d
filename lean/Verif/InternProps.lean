import Verif.InternLemmas
import Verif.FaslIdent
import Verif.FaslProps

set_option autoImplicit false
set_option linter.unusedSectionVars false

/-! # Properties of symbols (C05, C15, C16) -/

namespace Minim.Intern

open Minim.Hash

theorem start_empty : ∀ x ∈ start.tab.flat, False := by
  intro x hx
  obtain ⟨b, hb, hx⟩ := List.mem_flatten.1 hx
  rw [List.eq_of_mem_replicate hb] at hx
  cases hx

/-! ## C15 -/

/-- output `i` of a run, with the state before and after it -/
theorem run_at {hash : Name → Nat} {ops : List Op} {st st' : St} {outs : List Sym} (h : run hash st ops = .ok (outs, st'))
    {i : Nat} {op : Op} (hi : ops[i]? = some op) :
    ∃ o1 st1 s st2 o2, run hash st (ops.take i) = .ok (o1, st1) ∧ step hash st1 op = .ok (s, st2) ∧
      run hash st2 (ops.drop (i + 1)) = .ok (o2, st') ∧ outs = o1 ++ s :: o2 ∧ o1.length = i ∧ outs[i]? = some s := by
  obtain ⟨hlt, hget⟩ := List.getElem?_eq_some_iff.1 hi
  have e : ops = ops.take i ++ op :: ops.drop (i + 1) := by
    rw [← hget, ← List.drop_eq_getElem_cons hlt, List.take_append_drop]
  rw [e] at h
  obtain ⟨o1, st1, o2, h1, h2, rfl, hl⟩ := run_append _ _ h
  rw [run] at h2
  obtain ⟨⟨s, st2⟩, h3, h2⟩ := Res.bind_eq_ok.1 h2
  obtain ⟨⟨o3, st3⟩, h4, h2⟩ := Res.bind_eq_ok.1 h2
  cases h2
  have hl : o1.length = i := by rw [hl, List.length_take]; omega
  exact ⟨o1, st1, s, st2, o3, h1, h3, h4, rfl, hl, by rw [List.getElem?_append_right (by omega), hl]; simp⟩

/-- C15, one direction, for every number of symbols: an interned symbol has the requested name, and symbols interned for
different names are different objects. -/
theorem C15_sound (hash : Name → Nat) (ops : List Op) (outs : List Sym) (st : St)
    (h : run hash start ops = .ok (outs, st)) (i j : Nat) (a b : Name) (x y : Sym)
    (hi : ops[i]? = some (.intern a)) (hj : ops[j]? = some (.intern b)) (hx : outs[i]? = some x) (hy : outs[j]? = some y) :
    x.name = a ∧ (x.id = y.id → a = b) := by
  obtain ⟨_, _, A, m, _, ho⟩ := run_made ops inv_start made_start h
  have name : ∀ {i : Nat} {a : Name} {x : Sym}, ops[i]? = some (.intern a) → outs[i]? = some x → x.name = a := by
    intro i a x hi hx
    obtain ⟨o1, st1, s, st2, o2, h1, h2, _, _, _, hs⟩ := run_at h hi
    rw [hx] at hs; cases hs
    exact step_name (run_inv _ inv_start h1) h2
  refine ⟨name hi hx, fun hid => ?_⟩
  have := m.inj x (ho x (List.mem_of_getElem? hx)) y (ho y (List.mem_of_getElem? hy)) hid
  rw [← name hi hx, ← name hj hy, this]

/-- C15, other direction, in part: after any history, take a name never interned before.  If interning it does not make
the table grow (or growing does not change its bucket), then after any further history, with any number of growths,
interning the name gives that object again and does not change the table.  Missing: names whose first interning makes
the table grow (`C15_negated`). -/
theorem C15_canonical_partial (hash : Name → Nat) (ops ops' : List Op) (outs outs' : List Sym) (st st1 st2 : St)
    (h : run hash start ops = .ok (outs, st)) (nm : Name) (hnew : Op.intern nm ∉ ops) (s : Sym)
    (h1 : intern hash st nm = .ok (s, st1))
    (hok : 4 * st.tab.size ≤ 3 * st.tab.alloc ∨ hash nm % st.tab.alloc = hash nm % st1.tab.alloc)
    (h2 : run hash st1 ops' = .ok (outs', st2)) : intern hash st2 nm = .ok (s, st2) := by
  have inv := run_inv ops inv_start h
  have names := run_names ops (N := fun x => x ≠ nm) inv_start (fun x hx => (start_empty x hx).elim)
    (fun nm' hm => by rintro rfl; exact hnew hm) h
  exact good_intern (run_good ops' (inv_step inv (op := .intern nm) h1) (first_good inv names h1 hok) h2)

/-- tables in which nothing is out of place, with the list of names they hold -/
structure Small (hash : Name → Nat) (st : St) (D : List Name) : Prop where
  inv : Inv st
  alloc : st.tab.alloc = 8209
  nodup : D.Nodup
  size : D.length = st.tab.size
  names : ∀ nm, nm ∈ D ↔ ∃ x ∈ st.tab.flat, x.name = nm
  good : ∀ x ∈ st.tab.flat, Good hash st x.name x

theorem small_start (hash : Name → Nat) : Small hash start [] := by
  refine ⟨inv_start, rfl, List.nodup_nil, rfl, fun nm => ⟨by simp, ?_⟩, fun x hx => (start_empty x hx).elim⟩
  rintro ⟨x, hx, _⟩
  exact (start_empty x hx).elim

theorem small_insert {hash : Name → Nat} {st : St} {D : List Name} (sm : Small hash st D) {nm : Name} (hnm : nm ∉ D)
    (hs : D.length ≤ 6156) : ∃ st', intern hash st nm = .ok (⟨st.next, nm⟩, st') ∧ Small hash st' (nm :: D) := by
  have hno : ∀ x ∈ st.tab.flat, x.name ≠ nm := fun x hx h => hnm ((sm.names nm).2 ⟨x, hx, h⟩)
  have hr : resizeIfNeeded hash st.tab = .ok st.tab := by
    unfold resizeIfNeeded
    rw [if_neg (by rw [sm.alloc, ← sm.size]; omega)]
  have he : intern hash st nm = .ok (⟨st.next, nm⟩,
      { st with tab := insertAt st.tab (hash nm % st.tab.alloc) ⟨st.next, nm⟩, next := st.next + 1 }) := by
    unfold intern
    simp only
    have : (st.tab.buckets.getD (hash nm % st.tab.alloc) []).find? (fun s => s.name == nm) = none := by
      rw [List.find?_eq_none]
      intro x hx
      have := hno x ((mem_flatten_iff _ _).2 ⟨_, hx⟩)
      simpa using this
    rw [this]
    simp only [hr, Res.ok_bind, Res.pure_eq]
  refine ⟨_, he, ?_⟩
  have hg := first_good sm.inv hno he (Or.inl (by rw [sm.alloc, ← sm.size]; omega))
  refine ⟨inv_step sm.inv (op := .intern nm) he, sm.alloc, List.nodup_cons.2 ⟨hnm, sm.nodup⟩, by simp [insertAt, sm.size], ?_, ?_⟩
  · intro nm'
    rw [List.mem_cons, sm.names]
    constructor
    · rintro (rfl | ⟨x, hx, hxn⟩)
      · exact ⟨_, (insert_mem sm.inv hr nm' ⟨st.next, nm'⟩ _).2 (Or.inl rfl), rfl⟩
      · exact ⟨x, (insert_mem sm.inv hr nm _ _).2 (Or.inr hx), hxn⟩
    · rintro ⟨x, hx, hxn⟩
      rcases (insert_mem sm.inv hr nm _ _).1 hx with rfl | hx
      · exact Or.inl hxn.symm
      · exact Or.inr ⟨x, hx, hxn⟩
  · intro x hx
    rcases (insert_mem sm.inv hr nm _ _).1 hx with rfl | hx
    · exact hg
    · exact good_step sm.inv (op := .intern nm) (sm.good x hx) he

theorem small_step {hash : Name → Nat} {st : St} {D : List Name} (sm : Small hash st D) {nm : Name} {L : List Name}
    (hD : ∀ x ∈ D, x ∈ L) (hnm : nm ∈ L) (hL : L.length ≤ 6157) :
    ∃ s st' D', intern hash st nm = .ok (s, st') ∧ Small hash st' D' ∧ (∀ x ∈ D', x ∈ L) ∧ Good hash st' nm s := by
  by_cases hin : nm ∈ D
  · obtain ⟨x, hx, rfl⟩ := (sm.names nm).1 hin
    exact ⟨x, st, D, good_intern (sm.good x hx), sm, hD, sm.good x hx⟩
  · have hsub : (nm :: D).length ≤ L.length := by
      refine (List.subperm_of_subset (List.nodup_cons.2 ⟨hin, sm.nodup⟩) ?_).length_le
      intro x hx
      rcases List.mem_cons.1 hx with rfl | hx
      · exact hnm
      · exact hD x hx
    simp only [List.length_cons] at hsub
    obtain ⟨st', h1, sm'⟩ := small_insert sm hin (by omega)
    refine ⟨_, st', nm :: D, h1, sm', ?_, ?_⟩
    · intro x hx
      rcases List.mem_cons.1 hx with rfl | hx
      · exact hnm
      · exact hD x hx
    · have hno : ∀ x ∈ st.tab.flat, x.name ≠ nm := fun x hx h => hin ((sm.names nm).2 ⟨x, hx, h⟩)
      exact first_good sm.inv hno h1 (Or.inl (by rw [sm.alloc, ← sm.size]; omega))

theorem small_run {hash : Name → Nat} {L : List Name} (hL : L.length ≤ 6157) (ops : List Op) :
    ∀ {st st' : St} {D : List Name} {outs : List Sym}, Small hash st D → (∀ x ∈ D, x ∈ L) →
    (∀ nm, Op.intern nm ∈ ops → nm ∈ L) → run hash st ops = .ok (outs, st') →
    ∀ (i : Nat) (nm : Name), ops[i]? = some (Op.intern nm) → ∃ s, outs[i]? = some s ∧ Good hash st' nm s := by
  induction ops with
  | nil => intro st st' D outs sm hD hN h i nm hi; simp at hi
  | cons op ops ih =>
    intro st st' D outs sm hD hN h i nm hi
    obtain ⟨⟨o, st1⟩, h1, h⟩ := Res.bind_eq_ok.1 h
    obtain ⟨⟨os, st2⟩, h2, h⟩ := Res.bind_eq_ok.1 h
    cases h
    have key : ∃ D1, Small hash st1 D1 ∧ (∀ x ∈ D1, x ∈ L) ∧ (op = .intern nm → Good hash st1 nm o) := by
      cases op with
      | intern nm' =>
        obtain ⟨s, st3, D1, e1, e2, e3, e4⟩ := small_step sm hD (hN nm' (by simp)) hL
        simp only [step] at h1
        rw [e1] at h1; cases h1
        refine ⟨D1, e2, e3, ?_⟩
        intro he; cases he; exact e4
      | gensym pre =>
        simp only [step, gensym] at h1
        split at h1
        · cases h1
          refine ⟨D, ⟨⟨sm.inv.pos, sm.inv.len, sm.inv.ptr⟩, sm.alloc, sm.nodup, sm.size, sm.names, ?_⟩, hD, fun h => by cases h⟩
          intro x hx
          have g := sm.good x hx
          exact ⟨g.name, g.here, g.only⟩
        · cases h1
    obtain ⟨D1, sm1, hD1, hg⟩ := key
    cases i with
    | zero =>
      simp only [List.getElem?_cons_zero, Option.some.injEq] at hi
      exact ⟨o, rfl, run_good ops sm1.inv (hg hi) h2⟩
    | succ i => exact ih sm1 hD1 (fun nm hm => hN nm (List.mem_cons_of_mem _ hm)) h2 i nm (by simpa using hi)

/-- C15, in part: while at most 6157 different names are interned, two interned symbols are the same object exactly when
their names are equal.  The bound is sharp (`C15_negated`). -/
theorem C15_small_partial (hash : Name → Nat) (L : List Name) (hL : L.length ≤ 6157) (ops : List Op)
    (hops : ∀ nm, Op.intern nm ∈ ops → nm ∈ L) (outs : List Sym) (st : St) (h : run hash start ops = .ok (outs, st))
    (i j : Nat) (a b : Name) (x y : Sym) (hi : ops[i]? = some (.intern a)) (hj : ops[j]? = some (.intern b))
    (hx : outs[i]? = some x) (hy : outs[j]? = some y) : x.id = y.id ↔ a = b := by
  refine ⟨(C15_sound hash ops outs st h i j a b x y hi hj hx hy).2, ?_⟩
  rintro rfl
  obtain ⟨s, hs, g⟩ := small_run hL ops (small_start hash) (by simp) hops h i a hi
  obtain ⟨s', hs', g'⟩ := small_run hL ops (small_start hash) (by simp) hops h j a hj
  rw [hx] at hs; cases hs
  rw [hy] at hs'; cases hs'
  rw [g'.only x ((mem_flatten_iff _ _).2 ⟨_, g.here⟩) g.name]

/-- many different names: "a", "aa", "aaa", … -/
def aNames (n : Nat) : List Name := (List.range n).map (fun i => List.replicate (i + 1) 97#8)

/-- the name "b" -/
def bName : Name := [98#8]

theorem distinct_run (hash : Name → Nat) : ∀ (l : List Name) (st : St) (D : List Name), Small hash st D →
    (∀ x ∈ l, x ∉ D) → l.Nodup → D.length + l.length ≤ 6157 →
    ∃ outs st' D', run hash st (l.map Op.intern) = .ok (outs, st') ∧ Small hash st' D' ∧
      D'.length = D.length + l.length ∧ (∀ x, x ∈ D' ↔ x ∈ D ∨ x ∈ l) := by
  intro l
  induction l with
  | nil => intro st D sm _ _ _; exact ⟨[], st, D, rfl, sm, rfl, by simp⟩
  | cons nm l ih =>
    intro st D sm hd hn hl
    simp only [List.length_cons] at hl
    obtain ⟨st1, h1, sm1⟩ := small_insert sm (hd nm (by simp)) (by omega)
    obtain ⟨hn1, hn2⟩ := List.nodup_cons.1 hn
    obtain ⟨outs, st', D', h2, sm2, hlen, hmem⟩ := ih st1 (nm :: D) sm1
      (fun x hx hx' => by
        rcases List.mem_cons.1 hx' with rfl | h
        · exact hn1 hx
        · exact hd x (by simp [hx]) h) hn2 (by simp only [List.length_cons]; omega)
    refine ⟨⟨st.next, nm⟩ :: outs, st', D', ?_, sm2, by rw [hlen]; simp only [List.length_cons]; omega, ?_⟩
    · rw [List.map_cons, run]
      simp only [step, h1, Res.ok_bind, h2, Res.pure_eq]
    · intro x; rw [hmem]; simp only [List.mem_cons]; tauto

theorem aNames_nodup (n : Nat) : (aNames n).Nodup := by
  refine (List.nodup_range).map ?_
  intro i j h
  have := congrArg List.length h
  simpa using this

theorem bName_not_mem (n : Nat) : bName ∉ aNames n := by
  intro h
  obtain ⟨i, _, hi⟩ := List.mem_map.1 h
  have : (98#8 : Byte) ∈ List.replicate (i + 1) 97#8 := by rw [hi]; simp [bName]
  have := List.eq_of_mem_replicate this
  exact absurd this (by decide)

/-- An interning that makes the table grow and changes the bucket of the name leaves the new symbol where it cannot be
found. -/
theorem stale_index {hash : Name → Nat} {st : St} (inv : Inv st) {nm : Name} (hnew : ∀ x ∈ st.tab.flat, x.name ≠ nm)
    (hgrow : 3 * st.tab.alloc < 4 * st.tab.size) {n : Nat} (hn : bucketSizes[st.tab.ptr + 1]? = some n)
    (hne : hash nm % st.tab.alloc ≠ hash nm % n) (hsmall : 4 * (st.tab.size + 1) ≤ 3 * n) :
    ∃ s st1 s' st2, intern hash st nm = .ok (s, st1) ∧ intern hash st1 nm = .ok (s', st2) ∧ s.id ≠ s'.id := by
  have hr : resizeIfNeeded hash st.tab = .ok { ptr := st.tab.ptr + 1, alloc := n, buckets := rehash hash n st.tab.buckets, size := st.tab.size } := by
    unfold resizeIfNeeded resize
    rw [if_pos hgrow, hn]
  have hpos : 0 < n := by have := sizes_increasing _ _ _ inv.ptr hn; omega
  obtain ⟨h1, h2, h3⟩ := rehash_spec hash n hpos st.tab.buckets
  have hi : hash nm % st.tab.alloc < (rehash hash n st.tab.buckets).length := by
    rw [h1]; exact Nat.lt_trans (Nat.mod_lt _ inv.pos) (sizes_increasing _ _ _ inv.ptr hn)
  have none1 : (st.tab.buckets.getD (hash nm % st.tab.alloc) []).find? (fun s => s.name == nm) = none := by
    rw [List.find?_eq_none]
    intro x hx
    simpa using hnew x ((mem_flatten_iff _ _).2 ⟨_, hx⟩)
  have e1 : ∃ st1 : St, intern hash st nm = .ok (⟨st.next, nm⟩, st1) ∧ st1.next = st.next + 1 ∧ st1.tab =
      insertAt { ptr := st.tab.ptr + 1, alloc := n, buckets := rehash hash n st.tab.buckets, size := st.tab.size }
        (hash nm % st.tab.alloc) ⟨st.next, nm⟩ := by
    unfold intern
    simp only [none1, hr, Res.ok_bind, Res.pure_eq]
    exact ⟨_, rfl, rfl, rfl⟩
  obtain ⟨st1, e1, hnx, htab⟩ := e1
  have none2 : (st1.tab.buckets.getD (hash nm % st1.tab.alloc) []).find? (fun s => s.name == nm) = none := by
    rw [htab]
    simp only [insertAt]
    rw [pushSym_getD _ _ _ _ hi, if_neg hne, List.find?_eq_none]
    intro x hx
    simpa using hnew x ((h2 x).1 ((mem_flatten_iff _ _).2 ⟨_, hx⟩))
  have hr2 : resizeIfNeeded hash st1.tab = .ok st1.tab := by
    unfold resizeIfNeeded
    rw [if_neg]
    rw [htab]; simp only [insertAt]; omega
  have e2 : ∃ st2 : St, intern hash st1 nm = .ok (⟨st1.next, nm⟩, st2) := by
    unfold intern
    simp only [none2, hr2, Res.ok_bind, Res.pure_eq]
    exact ⟨_, rfl⟩
  obtain ⟨st2, e2⟩ := e2
  exact ⟨_, st1, _, st2, e1, e2, by rw [hnx]; simp⟩

/-- C15 is violated: after interning the 6157 names "a", "aa", "aaa", …, interning "b" twice in a row gives two different
symbols. -/
theorem C15_negated : ∃ outs st s st1 s' st2,
    run symHash start ((aNames 6157).map Op.intern) = .ok (outs, st) ∧
    intern symHash st bName = .ok (s, st1) ∧ intern symHash st1 bName = .ok (s', st2) ∧ s.id ≠ s'.id := by
  obtain ⟨outs, st, D, h, sm, hl, hm⟩ := distinct_run symHash (aNames 6157) start [] (small_start _) (by simp)
    (aNames_nodup _) (by simp [aNames])
  have hlen : st.tab.size = 6157 := by rw [← sm.size, hl]; simp [aNames]
  have hptr : st.tab.ptr = 9 := by
    have h1 := sm.inv.ptr
    rw [sm.alloc] at h1
    have key : ∀ i : Fin 59, bucketSizes[i.val]? = some 8209 → i.val = 9 := by decide
    obtain ⟨hlt, _⟩ := List.getElem?_eq_some_iff.1 h1
    exact key ⟨st.tab.ptr, hlt⟩ h1
  have hnew : ∀ x ∈ st.tab.flat, x.name ≠ bName := by
    intro x hx hxn
    have := (hm bName).1 ((sm.names bName).2 ⟨x, hx, hxn⟩)
    rcases this with h | h
    · cases h
    · exact bName_not_mem _ h
  obtain ⟨s, st1, s', st2, h1, h2, h3⟩ := stale_index (hash := symHash) (n := 16411) sm.inv hnew (by rw [sm.alloc, hlen]; decide)
    (by rw [hptr]; decide) (by rw [sm.alloc]; decide) (by rw [hlen]; decide)
  exact ⟨outs, st, s, st1, s', st2, h, h1, h2, h3⟩

/-- the hypotheses of `C15_canonical_partial` and `C15_small_partial` are met, here with a colliding hash -/
example : ∃ outs st, run (fun _ => 0) start ([bName, [97#8], bName].map Op.intern) = .ok (outs, st) := by
  obtain ⟨st1, h1, sm1⟩ := small_insert (small_start (fun _ => 0)) (nm := bName) (by simp) (by simp)
  obtain ⟨st2, h2, sm2⟩ := small_insert sm1 (nm := [97#8]) (by decide) (by simp)
  obtain ⟨x, hx, hn⟩ := (sm2.names bName).1 (by simp)
  have h3 := good_intern (sm2.good x hx)
  rw [hn] at h3
  refine ⟨[⟨0, bName⟩, ⟨st1.next, [97#8]⟩, x], st2, ?_⟩
  simp only [List.map_cons, List.map_nil, run, step, h1, h2, h3, Res.ok_bind, Res.pure_eq]
  rfl

/-! ## C16 -/

theorem never_again {hash : Name → Nat} (ops : List Op) : ∀ {st st' : St} {outs A : List Sym} {g : Sym}, Inv st → Made st A →
    g ∈ A → g ∉ st.tab.flat → run hash st ops = .ok (outs, st') → ∀ x ∈ outs, x.id ≠ g.id := by
  induction ops with
  | nil => intro st st' outs A g _ _ _ _ h; cases h; simp
  | cons op ops ih =>
    intro st st' outs A g inv m hg hgt h
    obtain ⟨⟨o, st1⟩, h1, h⟩ := Res.bind_eq_ok.1 h
    obtain ⟨⟨os, st2⟩, h2, h⟩ := Res.bind_eq_ok.1 h
    cases h
    obtain ⟨A1, m1, s1, ho, hcase⟩ := made_step inv m h1
    have hne : o.id ≠ g.id := by
      rcases hcase with ⟨ho1, _⟩ | ⟨ho1, _⟩
      · intro he
        exact hgt (m.inj o (m.tab o ho1) g hg he ▸ ho1)
      · have := m.fresh g hg; omega
    have hgt1 : g ∉ st1.tab.flat := by
      intro hin
      cases op with
      | intern nm =>
        rcases intern_cases inv h1 with ⟨_, _, rfl⟩ | ⟨_, ho2, t, ht, rfl⟩
        · exact hgt hin
        · rcases (insert_mem inv ht nm o g).1 hin with rfl | hin
          · exact hne rfl
          · exact hgt hin
      | gensym pre =>
        simp only [step, gensym] at h1
        split at h1
        · cases h1; exact hgt hin
        · cases h1
    intro x hx
    rcases List.mem_cons.1 hx with rfl | hx
    · exact hne
    · exact ih (inv_step inv h1) m1 (s1 g hg) hgt1 h2 x hx

/-- C16: a generated symbol is a different object from every symbol interned or generated before it and after it, even
from one with the same spelling. -/
theorem C16_gensym_fresh (hash : Name → Nat) (ops : List Op) (outs : List Sym) (st : St)
    (h : run hash start ops = .ok (outs, st)) (i j : Nat) (pre : Name) (g x : Sym) (hi : ops[i]? = some (.gensym pre))
    (hij : i ≠ j) (hg : outs[i]? = some g) (hx : outs[j]? = some x) : x.id ≠ g.id := by
  obtain ⟨o1, st1, s, st2, o2, h1, h2, h3, rfl, hl, hs⟩ := run_at h hi
  rw [hg] at hs; cases hs
  have inv1 := run_inv _ inv_start h1
  obtain ⟨_, _, A, m, _, ho⟩ := run_made _ inv_start made_start h1
  obtain ⟨A', m', s1, hgA, hcase⟩ := made_step inv1 m h2
  simp only [step, gensym] at h2
  split at h2
  · cases h2
    by_cases hlt : j < i
    · rw [List.getElem?_append_left (by omega)] at hx
      have := m.fresh x (ho x (List.mem_of_getElem? hx))
      simp only; omega
    · rw [List.getElem?_append_right (by omega)] at hx
      obtain ⟨k, hk⟩ : ∃ k, j - o1.length = k + 1 := ⟨j - o1.length - 1, by omega⟩
      rw [hk, List.getElem?_cons_succ] at hx
      refine never_again _ (inv_step (hash := hash) inv1 (op := .gensym pre) (by simp only [step, gensym]; rw [if_pos (by assumption)])) m' hgA ?_ h3 x
        (List.mem_of_getElem? hx)
      intro hin
      have := m.fresh _ (m.tab _ hin)
      simp only at this; omega
  · cases h2

/-- two generated symbols with an interned symbol of the same spelling between them -/
example : ∃ outs st, run (fun _ => 0) start [.gensym [116#8], .intern [116#8, 48#8], .gensym [116#8]] = .ok (outs, st) ∧
    outs.map Sym.name = [[116#8, 48#8], [116#8, 48#8], [116#8, 49#8]] ∧ outs.map Sym.id = [0, 1, 2] := by
  obtain ⟨st1, h1, sm1⟩ := small_insert (st := { start with next := 1, counter := 1 }) (D := []) (hash := fun _ => 0)
    ⟨⟨by decide, List.length_replicate, by decide⟩, rfl, List.nodup_nil, rfl,
      fun nm => ⟨by simp, by rintro ⟨x, hx, _⟩; exact (start_empty x hx).elim⟩, fun x hx => (start_empty x hx).elim⟩
    (nm := [116#8, 48#8]) (by simp) (by simp)
  have hst : st1.counter = 1 ∧ st1.next = 2 := by
    rcases intern_cases ⟨by decide, List.length_replicate, by decide⟩ h1 with ⟨h, _, _⟩ | ⟨_, _, t, _, rfl⟩
    · exact (start_empty _ ((mem_flatten_iff _ _).2 ⟨_, h⟩)).elim
    · exact ⟨rfl, rfl⟩
  refine ⟨[⟨0, [116#8, 48#8]⟩, ⟨1, [116#8, 48#8]⟩, ⟨2, [116#8, 49#8]⟩], { st1 with next := 3, counter := 2 }, ?_, by decide, by decide⟩
  have e0 : gensym start [116#8] = .ok (⟨0, [116#8, 48#8]⟩, { start with next := 1, counter := 1 }) := rfl
  have e2 : gensym st1 [116#8] = .ok (⟨2, [116#8, 49#8]⟩, { st1 with next := 3, counter := 2 }) := by
    unfold gensym
    rw [hst.1, hst.2]; rfl
  simp only [run, step, e0, Res.ok_bind, h1, e2, Res.pure_eq]

end Minim.Intern

/-! ## C05 -/

namespace Minim.FaslIdent

open Minim.Fasl Minim.Intern

/-- reading back what was written builds the objects of the same tree -/
theorem reload_eq (hash : Name → Nat) (st : St) (x : Obj) (h : serialisable (erase x) = true) :
    reload hash st x = build hash (erase x) st := by
  obtain ⟨b, hb, hr⟩ := C02_object_round_trip _ h
  have := hr []
  rw [List.append_nil] at this
  simp only [reload, hb, Res.ok_bind, this]

mutual
/-- the symbols of an object, left to right (specification) -/
def symbols : Obj → List Sym
  | .leaf _ => []
  | .sym s => [s]
  | .pair _ a d => symbols a ++ symbols d
  | .vec _ es => symbolsList es
  | .baseRtd => []
  | .record _ r fs => symbols r ++ symbolsList fs
/-- see `symbols` -/
def symbolsList : List Obj → List Sym
  | [] => []
  | o :: os => symbols o ++ symbolsList os
end

mutual
/-- leaves are data without parts and symbols (well-formedness of the object representation) -/
def leafOk : Obj → Bool
  | .leaf (.sym _) => false
  | .leaf (.pair _ _) => false
  | .leaf (.vec _) => false
  | .leaf .baseRtd => false
  | .leaf (.record _ _) => false
  | .leaf _ => true
  | .sym _ => true
  | .pair _ a d => leafOk a && leafOk d
  | .vec _ es => leafOkList es
  | .baseRtd => true
  | .record _ r fs => leafOk r && leafOkList fs
/-- see `leafOk` -/
def leafOkList : List Obj → Bool
  | [] => true
  | o :: os => leafOk o && leafOkList os
end

/-- the symbol is what interning its name gives (true of interned symbols by C15) -/
def Canonical (hash : Name → Nat) (tab : Tab) (s : Sym) : Prop :=
  ∀ n c, intern hash ⟨tab, n, c⟩ s.name = .ok (s, ⟨tab, n, c⟩)

mutual
theorem build_symbols (hash : Name → Nat) (tab : Tab) : (x : Obj) → leafOk x = true →
    (∀ s ∈ symbols x, Canonical hash tab s) → ∀ n c, ∃ x' n', build hash (erase x) ⟨tab, n, c⟩ = .ok (x', ⟨tab, n', c⟩) ∧
      symbols x' = symbols x ∧ erase x' = erase x
  | .leaf d, hl, _, n, c => by
    cases d <;> first | exact ⟨_, n, rfl, rfl, rfl⟩ | simp [leafOk] at hl
  | .sym s, _, hc, n, c => by
    have := hc s (by simp [symbols]) n c
    refine ⟨.sym s, n, ?_, rfl, rfl⟩
    simp only [erase, build, this, Res.ok_bind, Res.pure_eq]
  | .pair a x y, hl, hc, n, c => by
    simp only [leafOk, Bool.and_eq_true] at hl
    simp only [symbols, List.mem_append] at hc
    obtain ⟨x', n1, h1, h2, h3⟩ := build_symbols hash tab x hl.1 (fun s hs => hc s (Or.inl hs)) n c
    obtain ⟨y', n2, h4, h5, h6⟩ := build_symbols hash tab y hl.2 (fun s hs => hc s (Or.inr hs)) n1 c
    refine ⟨.pair n2 x' y', n2 + 1, ?_, by simp [symbols, h2, h5], by simp [erase, h3, h6]⟩
    simp only [erase, build, h1, h4, Res.ok_bind, Res.pure_eq, alloc]
  | .vec a es, hl, hc, n, c => by
    simp only [leafOk] at hl
    simp only [symbols] at hc
    obtain ⟨es', n1, h1, h2, h3⟩ := buildList_symbols hash tab es hl hc n c
    refine ⟨.vec n1 es', n1 + 1, ?_, by simp [symbols, h2], by simp [erase, h3]⟩
    simp only [erase, build, h1, Res.ok_bind, Res.pure_eq, alloc]
  | .baseRtd, _, _, n, c => ⟨.baseRtd, n, rfl, rfl, rfl⟩
  | .record a r fs, hl, hc, n, c => by
    simp only [leafOk, Bool.and_eq_true] at hl
    simp only [symbols, List.mem_append] at hc
    obtain ⟨x', n1, h1, h2, h3⟩ := build_symbols hash tab r hl.1 (fun s hs => hc s (Or.inl hs)) n c
    obtain ⟨y', n2, h4, h5, h6⟩ := buildList_symbols hash tab fs hl.2 (fun s hs => hc s (Or.inr hs)) n1 c
    refine ⟨.record n2 x' y', n2 + 1, ?_, by simp [symbols, h2, h5], by simp [erase, h3, h6]⟩
    simp only [erase, build, h1, h4, Res.ok_bind, Res.pure_eq, alloc]
theorem buildList_symbols (hash : Name → Nat) (tab : Tab) : (xs : List Obj) → leafOkList xs = true →
    (∀ s ∈ symbolsList xs, Canonical hash tab s) → ∀ n c, ∃ xs' n', buildList hash (eraseList xs) ⟨tab, n, c⟩ = .ok (xs', ⟨tab, n', c⟩) ∧
      symbolsList xs' = symbolsList xs ∧ eraseList xs' = eraseList xs
  | [], _, _, n, _ => ⟨[], n, rfl, rfl, rfl⟩
  | x :: xs, hl, hc, n, c => by
    simp only [leafOkList, Bool.and_eq_true] at hl
    simp only [symbolsList, List.mem_append] at hc
    obtain ⟨x', n1, h1, h2, h3⟩ := build_symbols hash tab x hl.1 (fun s hs => hc s (Or.inl hs)) n c
    obtain ⟨y', n2, h4, h5, h6⟩ := buildList_symbols hash tab xs hl.2 (fun s hs => hc s (Or.inr hs)) n1 c
    refine ⟨x' :: y', n2, ?_, by simp [symbolsList, h2, h5], by simp [eraseList, h3, h6]⟩
    simp only [eraseList, buildList, h1, h4, Res.ok_bind, Res.pure_eq]
end

theorem good_canonical {hash : Name → Nat} {st : St} {nm : Name} {s : Sym} (g : Good hash st nm s) :
    Canonical hash st.tab s := by
  intro n c
  rw [g.name]
  exact good_intern (st := ⟨st.tab, n, c⟩) ⟨g.name, g.here, g.only⟩

/-- C05, in part: in any object all of whose symbols are what interning their names returns, every symbol is read back as
the very same object, in the same place.  Missing: generated symbols, and interned symbols that were lost in a growth of
the table (`C05_negated_gensym`, `C15_negated`). -/
theorem C05_symbols_partial (hash : Name → Nat) (st : St) (x : Obj) (hs : serialisable (erase x) = true)
    (hl : leafOk x = true) (hc : ∀ s ∈ symbols x, Canonical hash st.tab s) :
    ∃ x' st', reload hash st x = .ok (x', st') ∧ symbols x' = symbols x ∧ erase x' = erase x ∧ st'.tab = st.tab := by
  obtain ⟨x', n', h1, h2, h3⟩ := build_symbols hash st.tab x hl hc st.next st.counter
  exact ⟨x', ⟨st.tab, n', st.counter⟩, by rw [reload_eq hash st x hs]; exact h1, h2, h3, rfl⟩

/-- `(a . #(a))` after interning "a" -/
example : ∃ (st : St) (s : Sym), intern symHash start [97#8] = .ok (s, st) ∧
    let x : Obj := .pair 5 (.sym s) (.vec 6 [.sym s]);
    serialisable (erase x) = true ∧ leafOk x = true ∧ ∀ s' ∈ symbols x, Canonical symHash st.tab s' := by
  obtain ⟨st, h, sm⟩ := small_insert (small_start symHash) (nm := [97#8]) (by simp) (by simp)
  refine ⟨st, _, h, by decide, by decide, ?_⟩
  have g := first_good inv_start (fun x hx => (start_empty x hx).elim) h (Or.inl (by decide))
  simp only [symbols, symbolsList, List.append_nil, List.cons_append, List.nil_append, List.mem_cons, List.not_mem_nil, or_false, or_self]
  rintro s' rfl
  exact good_canonical g

/-- C05 is violated for generated symbols, always: after any history, a generated symbol written and read back is a
different object. -/
theorem C05_negated_gensym (hash : Name → Nat) (ops : List Op) (outs : List Sym) (st : St)
    (h : run hash start ops = .ok (outs, st)) (i : Nat) (pre : Name) (g : Sym) (hi : ops[i]? = some (.gensym pre))
    (hg : outs[i]? = some g) (hser : serialisable (.sym g.name) = true) (x : Obj) (st' : St)
    (hr : reload hash st (.sym g) = .ok (x, st')) :
    ∃ s, x = .sym s ∧ intern hash st g.name = .ok (s, st') ∧ s.id ≠ g.id := by
  rw [reload_eq hash st (.sym g) hser] at hr
  simp only [erase, build] at hr
  obtain ⟨⟨s, st1⟩, h1, hr⟩ := Res.bind_eq_ok.1 hr
  cases hr
  refine ⟨s, rfl, h1, ?_⟩
  have hrun : run hash start (ops ++ [.intern g.name]) = .ok (outs ++ [s], st1) := by
    have : ∀ (ops : List Op) (st0 : St) (outs : List Sym), run hash st0 ops = .ok (outs, st) →
        run hash st0 (ops ++ [.intern g.name]) = .ok (outs ++ [s], st1) := by
      intro ops
      induction ops with
      | nil => intro st0 outs h; cases h; simp only [List.nil_append, run, step, h1, Res.ok_bind, Res.pure_eq]
      | cons op ops ih =>
        intro st0 outs h
        rw [run] at h
        obtain ⟨⟨o, st2⟩, h2, h⟩ := Res.bind_eq_ok.1 h
        obtain ⟨⟨os, st3⟩, h3, h⟩ := Res.bind_eq_ok.1 h
        cases h
        rw [List.cons_append, run, h2]
        simp only [Res.ok_bind, ih _ _ h3, Res.pure_eq, List.cons_append]
    exact this ops start outs h
  have hlen := (run_made ops inv_start made_start h).2.1
  obtain ⟨hlt, _⟩ := List.getElem?_eq_some_iff.1 hi
  refine C16_gensym_fresh hash _ _ _ hrun i ops.length pre g s (by rw [List.getElem?_append_left hlt]; exact hi) (by omega)
    (by rw [List.getElem?_append_left (by omega)]; exact hg) (by rw [List.getElem?_append_right (by omega), hlen]; simp)

/-- the hypotheses of `C05_negated_gensym`: a generated symbol "t0" -/
example : ∃ outs st, run symHash start [.gensym [116#8]] = .ok (outs, st) ∧ outs[0]? = some ⟨0, [116#8, 48#8]⟩ ∧
    serialisable (.sym [116#8, 48#8]) = true ∧ ∃ x st', reload symHash st (.sym ⟨0, [116#8, 48#8]⟩) = .ok (x, st') := by
  refine ⟨[⟨0, [116#8, 48#8]⟩], { start with next := 1, counter := 1 }, rfl, rfl, by decide, ?_⟩
  rw [reload_eq _ _ _ (by decide)]
  obtain ⟨st1, h1, _⟩ := small_insert (st := { start with next := 1, counter := 1 }) (D := []) (hash := symHash)
    ⟨⟨by decide, List.length_replicate, by decide⟩, rfl, List.nodup_nil, rfl,
      fun nm => ⟨by simp, by rintro ⟨x, hx, _⟩; exact (start_empty x hx).elim⟩, fun x hx => (start_empty x hx).elim⟩
    (nm := [116#8, 48#8]) (by simp) (by simp)
  refine ⟨.sym ⟨1, [116#8, 48#8]⟩, st1, ?_⟩
  simp only [erase, build, h1, Res.ok_bind, Res.pure_eq]

mutual
/-- all records in the object were allocated at `n` or later -/
def recordsFrom (n : Nat) : Obj → Prop
  | .leaf _ => True
  | .sym _ => True
  | .pair _ a d => recordsFrom n a ∧ recordsFrom n d
  | .vec _ es => recordsFromList n es
  | .baseRtd => True
  | .record i r fs => n ≤ i ∧ recordsFrom n r ∧ recordsFromList n fs
/-- see `recordsFrom` -/
def recordsFromList (n : Nat) : List Obj → Prop
  | [] => True
  | o :: os => recordsFrom n o ∧ recordsFromList n os
end

theorem intern_next {hash : Name → Nat} {st st' : St} {nm : Name} {s : Sym} (h : intern hash st nm = .ok (s, st')) :
    st.next ≤ st'.next := by
  unfold intern at h
  simp only at h
  split at h
  · cases h; exact Nat.le_refl _
  · obtain ⟨t, _, h⟩ := Res.bind_eq_ok.1 h
    cases h; simp

mutual
theorem recordsFrom_mono {n m : Nat} (h : n ≤ m) : (x : Obj) → recordsFrom m x → recordsFrom n x
  | .leaf _, _ => trivial
  | .sym _, _ => trivial
  | .pair _ a d, hx => ⟨recordsFrom_mono h a hx.1, recordsFrom_mono h d hx.2⟩
  | .vec _ es, hx => recordsFromList_mono h es hx
  | .baseRtd, _ => trivial
  | .record _ r fs, hx => ⟨Nat.le_trans h hx.1, recordsFrom_mono h r hx.2.1, recordsFromList_mono h fs hx.2.2⟩
theorem recordsFromList_mono {n m : Nat} (h : n ≤ m) : (xs : List Obj) → recordsFromList m xs → recordsFromList n xs
  | [], _ => trivial
  | x :: xs, hx => ⟨recordsFrom_mono h x hx.1, recordsFromList_mono h xs hx.2⟩
end

mutual
theorem build_new (hash : Name → Nat) : (d : Datum) → ∀ {st st' : St} {x : Obj}, build hash d st = .ok (x, st') →
    st.next ≤ st'.next ∧ recordsFrom st.next x
  | .sym s, st, st', x, h => by
    simp only [build] at h
    obtain ⟨⟨s, st1⟩, h1, h⟩ := Res.bind_eq_ok.1 h
    cases h
    exact ⟨intern_next h1, trivial⟩
  | .pair a d, st, st', x, h => by
    simp only [build] at h
    obtain ⟨⟨x1, st1⟩, h1, h⟩ := Res.bind_eq_ok.1 h
    obtain ⟨⟨x2, st2⟩, h2, h⟩ := Res.bind_eq_ok.1 h
    cases h
    obtain ⟨a1, a2⟩ := build_new hash a h1
    obtain ⟨b1, b2⟩ := build_new hash d h2
    simp only at b1
    exact ⟨by simp only [alloc]; omega, a2, recordsFrom_mono a1 _ b2⟩
  | .vec es, st, st', x, h => by
    simp only [build] at h
    obtain ⟨⟨x1, st1⟩, h1, h⟩ := Res.bind_eq_ok.1 h
    cases h
    obtain ⟨a1, a2⟩ := buildList_new hash es h1
    exact ⟨by simp only [alloc]; omega, a2⟩
  | .record r fs, st, st', x, h => by
    simp only [build] at h
    obtain ⟨⟨x1, st1⟩, h1, h⟩ := Res.bind_eq_ok.1 h
    obtain ⟨⟨x2, st2⟩, h2, h⟩ := Res.bind_eq_ok.1 h
    cases h
    obtain ⟨a1, a2⟩ := build_new hash r h1
    obtain ⟨b1, b2⟩ := buildList_new hash fs h2
    simp only at b1
    exact ⟨by simp only [alloc]; omega, by simp only [alloc]; omega, a2, recordsFromList_mono a1 _ b2⟩
  | .baseRtd, st, st', x, h => by simp only [build] at h; cases h; exact ⟨Nat.le_refl _, trivial⟩
  | .null, st, st', x, h => by simp only [build] at h; cases h; exact ⟨Nat.le_refl _, trivial⟩
  | .tru, st, st', x, h => by simp only [build] at h; cases h; exact ⟨Nat.le_refl _, trivial⟩
  | .fls, st, st', x, h => by simp only [build] at h; cases h; exact ⟨Nat.le_refl _, trivial⟩
  | .eof, st, st', x, h => by simp only [build] at h; cases h; exact ⟨Nat.le_refl _, trivial⟩
  | .void, st, st', x, h => by simp only [build] at h; cases h; exact ⟨Nat.le_refl _, trivial⟩
  | .emptyVec, st, st', x, h => by simp only [build] at h; cases h; exact ⟨Nat.le_refl _, trivial⟩
  | .str _, st, st', x, h => by simp only [build] at h; cases h; exact ⟨Nat.le_refl _, trivial⟩
  | .fix _, st, st', x, h => by simp only [build] at h; cases h; exact ⟨Nat.le_refl _, trivial⟩
  | .chr _, st, st', x, h => by simp only [build] at h; cases h; exact ⟨Nat.le_refl _, trivial⟩
  | .other _, st, st', x, h => by simp only [build] at h; cases h; exact ⟨Nat.le_refl _, trivial⟩
theorem buildList_new (hash : Name → Nat) : (ds : List Datum) → ∀ {st st' : St} {xs : List Obj}, buildList hash ds st = .ok (xs, st') →
    st.next ≤ st'.next ∧ recordsFromList st.next xs
  | [], st, st', x, h => by simp only [buildList] at h; cases h; exact ⟨Nat.le_refl _, trivial⟩
  | d :: ds, st, st', x, h => by
    simp only [buildList] at h
    obtain ⟨⟨x1, st1⟩, h1, h⟩ := Res.bind_eq_ok.1 h
    obtain ⟨⟨x2, st2⟩, h2, h⟩ := Res.bind_eq_ok.1 h
    cases h
    obtain ⟨a1, a2⟩ := build_new hash d h1
    obtain ⟨b1, b2⟩ := buildList_new hash ds h2
    simp only at b1
    exact ⟨by simp only; omega, a2, recordsFromList_mono a1 _ b2⟩
end

theorem recordsFromList_get {n : Nat} : (xs : List Obj) → recordsFromList n xs → ∀ (i : Nat) (x : Obj), xs[i]? = some x → recordsFrom n x
  | [], _, i, x, h => by simp at h
  | y :: ys, hy, 0, x, h => by simp at h; subst h; exact hy.1
  | y :: ys, hy, i + 1, x, h => recordsFromList_get ys hy.2 i x (by simpa using h)

theorem isA_new {n t : Nat} (ht : t < n) (r0 : Obj) (fs0 : List Obj) (fuel : Nat) : ∀ (x : Obj), recordsFrom n x →
    isA (.record t r0 fs0) fuel x = false := by
  induction fuel with
  | zero => intro x _; rfl
  | succ k ih =>
    intro x hx
    rw [isA]
    have : eqRtd (.record t r0 fs0) x = false := by
      cases x <;> simp only [eqRtd, recordsFrom] at *
      · simp only [beq_eq_false_iff_ne]; omega
    rw [this]
    simp only [Bool.false_eq_true, if_false]
    cases hp : rtdParent x with
    | none => rfl
    | some p =>
      refine ih p ?_
      cases x with
      | record i r fs =>
        unfold rtdParent at hp
        simp only at hp
        split at hp
        · cases hp
        · rename_i o ho _
          simp only [Option.some.injEq] at hp
          subst hp
          exact recordsFromList_get fs hx.2.2 1 _ (by assumption)
        · cases hp
      | _ => simp [rtdParent] at hp

/-- C05 is violated for records, always: a record read back is not an instance of its own record type any more, for any
record type that existed before reading. -/
theorem C05_negated_record (hash : Name → Nat) (st st' : St) (a t : Nat) (r : Obj) (tfs fs : List Obj)
    (hs : serialisable (erase (.record a (.record t r tfs) fs)) = true) (ht : t < st.next) (x' : Obj)
    (hr : reload hash st (.record a (.record t r tfs) fs) = .ok (x', st')) :
    ∃ a' rtd' fs', x' = .record a' rtd' fs' ∧ (∀ fuel, isA (.record t r tfs) fuel rtd' = false) ∧
      (∀ fuel, isA (.record t r tfs) (fuel + 1) (.record t r tfs) = true) := by
  rw [reload_eq _ _ _ hs] at hr
  simp only [erase, build] at hr
  obtain ⟨⟨x1, st1⟩, h1, hr⟩ := Res.bind_eq_ok.1 hr
  obtain ⟨⟨x2, st2⟩, h2, hr⟩ := Res.bind_eq_ok.1 hr
  cases hr
  refine ⟨_, _, _, rfl, fun fuel => ?_, fun fuel => by simp [isA, eqRtd]⟩
  have h1' : build hash (.record (erase r) (eraseList tfs)) st = .ok (x1, st1) := by simpa only [erase, build] using h1
  exact isA_new ht r tfs fuel x1 (build_new hash _ h1').2

/-- an instance of a record type without name and parent -/
example : let x : Obj := .record 8 (.record 3 .baseRtd [.leaf .fls, .leaf .fls]) [.leaf (.fix 1#64)];
    serialisable (erase x) = true ∧ ∃ x' st', reload symHash { start with next := 10 } x = .ok (x', st') := by
  refine ⟨by decide, ?_⟩
  rw [reload_eq _ _ _ (by decide)]
  exact ⟨_, _, rfl⟩

/-- C05, in part, for record types: an object written and read back is a record type descriptor exactly if it was one. -/
theorem C05_rtd_partial (hash : Name → Nat) (st st' : St) (a : Nat) (fs : List Obj) (x' : Obj)
    (hs : serialisable (erase (.record a .baseRtd fs)) = true)
    (hr : reload hash st (.record a .baseRtd fs) = .ok (x', st')) : ∃ a' fs', x' = .record a' .baseRtd fs' := by
  rw [reload_eq _ _ _ hs] at hr
  simp only [erase, build] at hr
  obtain ⟨⟨x2, st2⟩, h2, hr⟩ := Res.bind_eq_ok.1 hr
  obtain ⟨⟨x3, st3⟩, h3, hr⟩ := Res.bind_eq_ok.1 hr
  cases hr
  cases h2
  exact ⟨_, _, rfl⟩

end Minim.FaslIdent
