import Verif.Intern
import Mathlib.Data.List.Nodup
import Mathlib.Data.List.Perm.Subperm

set_option autoImplicit false
set_option linter.unusedSectionVars false

/-! # Lemmas about the symbol table -/

namespace Minim.Intern

open Minim.Hash

theorem sizes_increasing (i n m : Nat) (h1 : bucketSizes[i]? = some n) (h2 : bucketSizes[i + 1]? = some m) : n < m := by
  have key : List.Pairwise (· < ·) bucketSizes := by decide
  obtain ⟨hi, rfl⟩ := List.getElem?_eq_some_iff.1 h1
  obtain ⟨hj, rfl⟩ := List.getElem?_eq_some_iff.1 h2
  exact List.pairwise_iff_getElem.1 key i (i + 1) hi hj (Nat.lt_succ_self i)

theorem pushSym_length (bs : List (List Sym)) (i : Nat) (s : Sym) : (pushSym bs i s).length = bs.length := by
  simp [pushSym]

theorem pushSym_getD (bs : List (List Sym)) (i j : Nat) (s : Sym) (hi : i < bs.length) :
    (pushSym bs i s).getD j [] = if i = j then s :: bs.getD i [] else bs.getD j [] := by
  unfold pushSym
  simp only [List.getD_eq_getElem?_getD, List.getElem?_set]
  split
  · subst i; simp [hi]
  · rfl

theorem mem_flatten_iff (bs : List (List Sym)) (x : Sym) : x ∈ bs.flatten ↔ ∃ j, x ∈ bs.getD j [] := by
  constructor
  · intro h
    obtain ⟨b, hb, hx⟩ := List.mem_flatten.1 h
    obtain ⟨j, hj, rfl⟩ := List.getElem_of_mem hb
    exact ⟨j, by simpa [List.getD_eq_getElem?_getD, hj] using hx⟩
  · rintro ⟨j, hx⟩
    by_cases hj : j < bs.length
    · rw [List.getD_eq_getElem?_getD, List.getElem?_eq_getElem hj] at hx
      exact List.mem_flatten.2 ⟨bs[j], List.getElem_mem hj, hx⟩
    · rw [List.getD_eq_getElem?_getD, List.getElem?_eq_none_iff.2 (by omega)] at hx
      cases hx

theorem pushSym_mem (bs : List (List Sym)) (i : Nat) (s x : Sym) (hi : i < bs.length) :
    x ∈ (pushSym bs i s).flatten ↔ x = s ∨ x ∈ bs.flatten := by
  rw [mem_flatten_iff, mem_flatten_iff]
  constructor
  · rintro ⟨j, hx⟩
    rw [pushSym_getD bs i j s hi] at hx
    split at hx
    · rcases List.mem_cons.1 hx with h | h
      · exact Or.inl h
      · exact Or.inr ⟨i, h⟩
    · exact Or.inr ⟨j, hx⟩
  · rintro (rfl | ⟨j, hx⟩)
    · exact ⟨i, by rw [pushSym_getD bs i i x hi, if_pos rfl]; simp⟩
    · refine ⟨j, ?_⟩
      rw [pushSym_getD bs i j s hi]
      split
      · subst i; exact List.mem_cons_of_mem _ hx
      · exact hx

/-- what the moving loop does to a list of symbols -/
theorem rehash_foldl (hash : Name → Nat) (n : Nat) (hn : 0 < n) (l : List Sym) : ∀ (nb : List (List Sym)), nb.length = n →
    let r := l.foldl (fun nb s => pushSym nb (hash s.name % n) s) nb
    r.length = n ∧ (∀ x, x ∈ r.flatten ↔ x ∈ l ∨ x ∈ nb.flatten) ∧
    (∀ j x, x ∈ nb.getD j [] → x ∈ r.getD j []) ∧ (∀ x ∈ l, x ∈ r.getD (hash x.name % n) []) := by
  induction l with
  | nil => intro nb h; simp [h]
  | cons s l ih =>
    intro nb h
    have hi : hash s.name % n < nb.length := by rw [h]; exact Nat.mod_lt _ hn
    obtain ⟨h1, h2, h3, h4⟩ := ih (pushSym nb (hash s.name % n) s) (by rw [pushSym_length, h])
    have mono : ∀ j x, x ∈ nb.getD j [] → x ∈ (pushSym nb (hash s.name % n) s).getD j [] := by
      intro j x hx
      rw [pushSym_getD _ _ _ _ hi]
      split
      · subst j; exact List.mem_cons_of_mem _ hx
      · exact hx
    refine ⟨h1, ?_, fun j x hx => h3 j x (mono j x hx), ?_⟩
    · intro x
      rw [List.foldl_cons, h2, pushSym_mem _ _ _ _ hi, List.mem_cons]
      tauto
    · intro x hx
      rw [List.foldl_cons]
      rcases List.mem_cons.1 hx with rfl | hx
      · refine h3 _ _ ?_
        rw [pushSym_getD _ _ _ _ hi, if_pos rfl]; simp
      · exact h4 x hx

theorem rehash_spec (hash : Name → Nat) (n : Nat) (hn : 0 < n) (bs : List (List Sym)) :
    (rehash hash n bs).length = n ∧ (∀ x, x ∈ (rehash hash n bs).flatten ↔ x ∈ bs.flatten) ∧
    (∀ x ∈ bs.flatten, x ∈ (rehash hash n bs).getD (hash x.name % n) []) := by
  have := rehash_foldl hash n hn bs.flatten (List.replicate n []) (by simp)
  rw [List.foldl_flatten] at this
  obtain ⟨h1, h2, _, h4⟩ := this
  refine ⟨h1, fun x => ?_, h4⟩
  rw [rehash, h2]
  simp

/-- layout of the table -/
structure Inv (st : St) : Prop where
  pos : 0 < st.tab.alloc
  len : st.tab.buckets.length = st.tab.alloc
  ptr : bucketSizes[st.tab.ptr]? = some st.tab.alloc

theorem inv_start : Inv start := ⟨by decide, List.length_replicate, by decide⟩

/-- The symbol `s` is the only one with name `nm`, and it is where a lookup finds it. -/
structure Good (hash : Name → Nat) (st : St) (nm : Name) (s : Sym) : Prop where
  name : s.name = nm
  here : s ∈ st.tab.buckets.getD (hash nm % st.tab.alloc) []
  only : ∀ x ∈ st.tab.flat, x.name = nm → x = s

theorem resizeIfNeeded_spec {hash : Name → Nat} {st : St} (inv : Inv st) {t : Tab}
    (h : resizeIfNeeded hash st.tab = .ok t) :
    0 < t.alloc ∧ t.buckets.length = t.alloc ∧ bucketSizes[t.ptr]? = some t.alloc ∧ st.tab.alloc ≤ t.alloc ∧
    t.size = st.tab.size ∧
    (∀ x, x ∈ t.flat ↔ x ∈ st.tab.flat) ∧
    (∀ nm s, Good hash st nm s → s ∈ t.buckets.getD (hash nm % t.alloc) []) := by
  unfold resizeIfNeeded at h
  split at h
  · unfold resize at h
    split at h
    · cases h
    · rename_i n hn
      cases h
      have hlt := sizes_increasing _ _ _ inv.ptr hn
      obtain ⟨h1, h2, h3⟩ := rehash_spec hash n (by omega) st.tab.buckets
      refine ⟨by simp only; omega, h1, hn, by simp only; omega, rfl, h2, ?_⟩
      intro nm s g
      have := h3 s ((mem_flatten_iff _ _).2 ⟨_, g.here⟩)
      rw [g.name] at this
      exact this
  · cases h
    exact ⟨inv.pos, inv.len, inv.ptr, Nat.le_refl _, rfl, fun _ => Iff.rfl, fun nm s g => g.here⟩

/-- what interning does -/
theorem intern_cases {hash : Name → Nat} {st st' : St} {nm : Name} {o : Sym} (_ : Inv st)
    (h : intern hash st nm = .ok (o, st')) :
    (o ∈ st.tab.buckets.getD (hash nm % st.tab.alloc) [] ∧ o.name = nm ∧ st' = st) ∨
    ((∀ x ∈ st.tab.buckets.getD (hash nm % st.tab.alloc) [], x.name ≠ nm) ∧ o = ⟨st.next, nm⟩ ∧
      ∃ t, resizeIfNeeded hash st.tab = .ok t ∧
        st' = { st with tab := insertAt t (hash nm % st.tab.alloc) o, next := st.next + 1 }) := by
  unfold intern at h
  simp only at h
  split at h
  · rename_i s hs
    cases h
    exact Or.inl ⟨List.mem_of_find?_eq_some hs, by simpa using List.find?_some hs, rfl⟩
  · rename_i hs
    obtain ⟨t, ht, h⟩ := Res.bind_eq_ok.1 h
    cases h
    refine Or.inr ⟨fun x hx => by simpa using List.find?_eq_none.1 hs x hx, rfl, t, ht, rfl⟩

theorem insert_mem {st : St} (inv : Inv st) {hash : Name → Nat} {t : Tab} (h : resizeIfNeeded hash st.tab = .ok t)
    (nm : Name) (o x : Sym) : x ∈ (insertAt t (hash nm % st.tab.alloc) o).flat ↔ x = o ∨ x ∈ st.tab.flat := by
  obtain ⟨h1, h2, h3, h4, _, h5, h6⟩ := resizeIfNeeded_spec inv h
  have hi : hash nm % st.tab.alloc < t.buckets.length := by
    rw [h2]; exact Nat.lt_of_lt_of_le (Nat.mod_lt _ inv.pos) h4
  have := pushSym_mem t.buckets _ o x hi
  unfold Tab.flat insertAt at *
  rw [this, h5]

theorem inv_step {hash : Name → Nat} {st st' : St} {op : Op} {o : Sym} (inv : Inv st)
    (h : step hash st op = .ok (o, st')) : Inv st' := by
  cases op with
  | intern nm =>
    rcases intern_cases inv h with ⟨_, _, rfl⟩ | ⟨_, rfl, t, ht, rfl⟩
    · exact inv
    · obtain ⟨h1, h2, h3, h4, _⟩ := resizeIfNeeded_spec inv ht
      exact ⟨h1, by simp only [insertAt, pushSym_length]; exact h2, h3⟩
  | gensym pre =>
    simp only [step, gensym] at h
    split at h
    · cases h; exact ⟨inv.pos, inv.len, inv.ptr⟩
    · cases h

/-- a lookup finds a good symbol and changes nothing -/
theorem good_intern {hash : Name → Nat} {st : St} {nm : Name} {s : Sym} (g : Good hash st nm s) :
    intern hash st nm = .ok (s, st) := by
  unfold intern
  simp only
  cases hf : (st.tab.buckets.getD (hash nm % st.tab.alloc) []).find? (fun s => s.name == nm) with
  | none =>
    have := List.find?_eq_none.1 hf s g.here
    simp [g.name] at this
  | some x =>
    have h1 := List.mem_of_find?_eq_some hf
    have h2 := List.find?_some hf
    rw [g.only x ((mem_flatten_iff _ _).2 ⟨_, h1⟩) (by simpa using h2)]

theorem good_step {hash : Name → Nat} {st st' : St} {op : Op} {o : Sym} {nm : Name} {s : Sym} (inv : Inv st)
    (g : Good hash st nm s) (h : step hash st op = .ok (o, st')) : Good hash st' nm s := by
  cases op with
  | intern nm' =>
    rcases intern_cases inv h with ⟨_, _, rfl⟩ | ⟨hn, rfl, t, ht, rfl⟩
    · exact g
    · obtain ⟨h1, h2, h3, h4, _, h5, h6⟩ := resizeIfNeeded_spec inv ht
      have hne : nm' ≠ nm := by rintro rfl; exact hn s g.here g.name
      have hi : hash nm' % st.tab.alloc < t.buckets.length := by
        rw [h2]; exact Nat.lt_of_lt_of_le (Nat.mod_lt _ inv.pos) h4
      refine ⟨g.name, ?_, ?_⟩
      · have := h6 nm s g
        simp only [insertAt]
        rw [pushSym_getD _ _ _ _ hi]
        split
        · rename_i he; rw [he]; exact List.mem_cons_of_mem _ this
        · exact this
      · intro x hx hxn
        rcases (insert_mem inv ht nm' _ x).1 hx with rfl | hx
        · exact absurd hxn hne
        · exact g.only x hx hxn
  | gensym pre =>
    simp only [step, gensym] at h
    split at h
    · cases h; exact ⟨g.name, g.here, g.only⟩
    · cases h

/-- bookkeeping: `A` has all symbols ever made, addresses identify them -/
structure Made (st : St) (A : List Sym) : Prop where
  tab : ∀ x ∈ st.tab.flat, x ∈ A
  fresh : ∀ x ∈ A, x.id < st.next
  inj : ∀ x ∈ A, ∀ y ∈ A, x.id = y.id → x = y

theorem made_start : Made start [] := by
  refine ⟨?_, by simp, by simp⟩
  intro x hx
  obtain ⟨b, hb, hx⟩ := List.mem_flatten.1 hx
  rw [List.eq_of_mem_replicate hb] at hx
  cases hx

theorem made_cons {st st' : St} {A : List Sym} (m : Made st A) {o : Sym} (ho : o.id = st.next) (hn : st'.next = st.next + 1)
    (ht : ∀ x ∈ st'.tab.flat, x = o ∨ x ∈ st.tab.flat) : Made st' (o :: A) := by
  refine ⟨?_, ?_, ?_⟩
  · intro x hx
    rcases ht x hx with rfl | h
    · simp
    · exact List.mem_cons_of_mem _ (m.tab x h)
  · intro x hx
    rcases List.mem_cons.1 hx with rfl | h
    · omega
    · have := m.fresh x h; omega
  · intro x hx y hy hxy
    rcases List.mem_cons.1 hx with hx1 | hx1 <;> rcases List.mem_cons.1 hy with hy1 | hy1
    · rw [hx1, hy1]
    · have := m.fresh y hy1; rw [← hxy, hx1] at this; omega
    · have := m.fresh x hx1; rw [hxy, hy1] at this; omega
    · exact m.inj x hx1 y hy1 hxy

theorem made_step {hash : Name → Nat} {st st' : St} {op : Op} {o : Sym} {A : List Sym} (inv : Inv st) (m : Made st A)
    (h : step hash st op = .ok (o, st')) :
    ∃ A', Made st' A' ∧ (∀ x ∈ A, x ∈ A') ∧ o ∈ A' ∧
      ((o ∈ st.tab.flat ∧ st' = st) ∨ (o.id = st.next ∧ st'.next = st.next + 1)) := by
  cases op with
  | intern nm =>
    rcases intern_cases inv h with ⟨ho, _, rfl⟩ | ⟨hn, ho, t, ht, rfl⟩
    · have hf := (mem_flatten_iff _ _).2 ⟨_, ho⟩
      exact ⟨A, m, fun _ h => h, m.tab o hf, Or.inl ⟨hf, rfl⟩⟩
    · refine ⟨o :: A, made_cons m (by rw [ho]) rfl (fun x hx => (insert_mem inv ht nm o x).1 hx), fun x hx => List.mem_cons_of_mem _ hx,
        by simp, Or.inr ⟨by rw [ho], rfl⟩⟩
  | gensym pre =>
    simp only [step, gensym] at h
    split at h
    · cases h
      exact ⟨⟨st.next, pre ++ digits st.counter⟩ :: A, made_cons m rfl rfl (fun x hx => Or.inr hx), fun x hx => List.mem_cons_of_mem _ hx, by simp, Or.inr ⟨rfl, rfl⟩⟩
    · cases h

theorem step_name {hash : Name → Nat} {st st' : St} {nm : Name} {o : Sym} (inv : Inv st)
    (h : step hash st (.intern nm) = .ok (o, st')) : o.name = nm := by
  rcases intern_cases inv h with ⟨_, h, _⟩ | ⟨_, rfl, _⟩
  · exact h
  · rfl

theorem run_made {hash : Name → Nat} (ops : List Op) : ∀ {st st' : St} {outs : List Sym} {A : List Sym}, Inv st → Made st A →
    run hash st ops = .ok (outs, st') →
    Inv st' ∧ outs.length = ops.length ∧ ∃ A', Made st' A' ∧ (∀ x ∈ A, x ∈ A') ∧ (∀ x ∈ outs, x ∈ A') := by
  induction ops with
  | nil => intro st st' outs A inv m h; cases h; exact ⟨inv, rfl, A, m, fun _ h => h, by simp⟩
  | cons op ops ih =>
    intro st st' outs A inv m h
    obtain ⟨⟨o, st1⟩, h1, h⟩ := Res.bind_eq_ok.1 h
    obtain ⟨⟨os, st2⟩, h2, h⟩ := Res.bind_eq_ok.1 h
    cases h
    obtain ⟨A1, m1, s1, ho, _⟩ := made_step inv m h1
    obtain ⟨i2, l2, A2, m2, s2, ho2⟩ := ih (inv_step inv h1) m1 h2
    refine ⟨i2, by simp [l2], A2, m2, fun x hx => s2 x (s1 x hx), ?_⟩
    intro x hx
    rcases List.mem_cons.1 hx with rfl | hx
    · exact s2 _ ho
    · exact ho2 x hx

theorem run_append {hash : Name → Nat} (ops ops' : List Op) : ∀ {st st' : St} {outs : List Sym},
    run hash st (ops ++ ops') = .ok (outs, st') →
    ∃ o1 st1 o2, run hash st ops = .ok (o1, st1) ∧ run hash st1 ops' = .ok (o2, st') ∧ outs = o1 ++ o2 ∧
      o1.length = ops.length := by
  induction ops with
  | nil => intro st st' outs h; exact ⟨[], st, outs, rfl, h, rfl, rfl⟩
  | cons op ops ih =>
    intro st st' outs h
    rw [List.cons_append, run] at h
    obtain ⟨⟨o, st1⟩, h1, h⟩ := Res.bind_eq_ok.1 h
    obtain ⟨⟨os, st2⟩, h2, h⟩ := Res.bind_eq_ok.1 h
    cases h
    obtain ⟨o1, s1, o2, e1, e2, rfl, hl⟩ := ih h2
    refine ⟨o :: o1, s1, o2, ?_, e2, rfl, by simp [hl]⟩
    rw [run, h1]; simp only [Res.ok_bind, e1, Res.pure_eq]

theorem run_good {hash : Name → Nat} (ops : List Op) : ∀ {st st' : St} {outs : List Sym} {nm : Name} {s : Sym}, Inv st →
    Good hash st nm s → run hash st ops = .ok (outs, st') → Good hash st' nm s := by
  induction ops with
  | nil => intro st st' outs nm s inv g h; cases h; exact g
  | cons op ops ih =>
    intro st st' outs nm s inv g h
    obtain ⟨⟨o, st1⟩, h1, h⟩ := Res.bind_eq_ok.1 h
    obtain ⟨⟨os, st2⟩, h2, h⟩ := Res.bind_eq_ok.1 h
    cases h
    exact ih (inv_step inv h1) (good_step inv g h1) h2

theorem run_inv {hash : Name → Nat} (ops : List Op) : ∀ {st st' : St} {outs : List Sym}, Inv st →
    run hash st ops = .ok (outs, st') → Inv st' := by
  induction ops with
  | nil => intro st st' outs inv h; cases h; exact inv
  | cons op ops ih =>
    intro st st' outs inv h
    obtain ⟨⟨o, st1⟩, h1, h⟩ := Res.bind_eq_ok.1 h
    obtain ⟨⟨os, st2⟩, h2, h⟩ := Res.bind_eq_ok.1 h
    cases h
    exact ih (inv_step inv h1) h2

/-- names in the table were interned -/
theorem run_names {hash : Name → Nat} (ops : List Op) : ∀ {st st' : St} {outs : List Sym} {N : Name → Prop}, Inv st →
    (∀ x ∈ st.tab.flat, N x.name) → (∀ nm, Op.intern nm ∈ ops → N nm) → run hash st ops = .ok (outs, st') →
    ∀ x ∈ st'.tab.flat, N x.name := by
  induction ops with
  | nil => intro st st' outs N inv hN _ h; cases h; exact hN
  | cons op ops ih =>
    intro st st' outs N inv hN ho h
    obtain ⟨⟨o, st1⟩, h1, h⟩ := Res.bind_eq_ok.1 h
    obtain ⟨⟨os, st2⟩, h2, h⟩ := Res.bind_eq_ok.1 h
    cases h
    refine ih (inv_step inv h1) ?_ (fun nm h => ho nm (List.mem_cons_of_mem _ h)) h2
    cases op with
    | intern nm =>
      rcases intern_cases inv h1 with ⟨_, _, rfl⟩ | ⟨_, rfl, t, ht, rfl⟩
      · exact hN
      · intro x hx
        rcases (insert_mem inv ht nm _ x).1 hx with rfl | hx
        · exact ho nm (by simp)
        · exact hN x hx
    | gensym pre =>
      simp only [step, gensym] at h1
      split at h1
      · cases h1; exact hN
      · cases h1

/-- the first interning of a name establishes `Good`, unless it makes the table grow and changes the bucket -/
theorem first_good {hash : Name → Nat} {st st' : St} {nm : Name} {o : Sym} (inv : Inv st)
    (hnew : ∀ x ∈ st.tab.flat, x.name ≠ nm) (h : intern hash st nm = .ok (o, st'))
    (hok : 4 * st.tab.size ≤ 3 * st.tab.alloc ∨ hash nm % st.tab.alloc = hash nm % st'.tab.alloc) : Good hash st' nm o := by
  rcases intern_cases inv h with ⟨ho, hnm, rfl⟩ | ⟨hn, rfl, t, ht, rfl⟩
  · exact absurd hnm (hnew o ((mem_flatten_iff _ _).2 ⟨_, ho⟩))
  · obtain ⟨h1, h2, h3, h4, _, h5, h6⟩ := resizeIfNeeded_spec inv ht
    have hi : hash nm % st.tab.alloc < t.buckets.length := by
      rw [h2]; exact Nat.lt_of_lt_of_le (Nat.mod_lt _ inv.pos) h4
    have heq : hash nm % st.tab.alloc = hash nm % t.alloc := by
      rcases hok with hs | hs
      · unfold resizeIfNeeded at ht
        rw [if_neg (by omega)] at ht
        cases ht; rfl
      · simpa [insertAt] using hs
    refine ⟨rfl, ?_, ?_⟩
    · simp only [insertAt]
      rw [pushSym_getD _ _ _ _ hi, if_pos heq]
      simp
    · intro x hx hxn
      rcases (insert_mem inv ht nm _ x).1 hx with rfl | hx
      · rfl
      · exact absurd hxn (hnew x hx)

end Minim.Intern
