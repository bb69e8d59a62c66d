import Verif.HashScmLemmas

set_option autoImplicit false

/-!
# Properties of Scheme hashtables (C08 - C11)

Specification: as for native tables, a list of finite maps `K → Option V`, with the additional operations.
-/

namespace Minim.Hash

section
variable {K V : Type}

/-- the abstract meaning of the Scheme operations (specification) -/
def sAbsStep (eqv : K → K → Bool) (ms : List (K → Option V)) : SOp K V → List (K → Option V)
  | .make => ms ++ [(fun _ => none : K → Option V)]
  | .copy t => match ms[t]? with
    | none => ms
    | some m => ms ++ [m]
  | .clear t => ms.set t (fun _ => none : K → Option V)
  | .set t k v => match ms[t]? with
    | none => ms
    | some m => ms.set t (fun k' => if eqv k k' = true then some v else m k')
  | .delete t k => match ms[t]? with
    | none => ms
    | some m => ms.set t (fun k' => if eqv k k' = true then none else m k')
  | .update t k f d => match ms[t]? with
    | none => ms
    | some m => match (m k).or d with
      | none => ms
      | some v => ms.set t (fun k' => if eqv k k' = true then some (f v) else m k')

/-- the abstract meaning of a history (specification) -/
def sAbsRun (eqv : K → K → Bool) : List (K → Option V) → List (SOp K V) → List (K → Option V)
  | ms, [] => ms
  | ms, op :: ops => sAbsRun eqv (sAbsStep eqv ms op) ops

variable {hash : K → Word} {eqv : K → K → Bool}

theorem SRel.absent {w : SW K V} {ms : List (K → Option V)} (r : SRel hash eqv w ms) {t : Nat}
    (ht : w.tables[t]? = none) : ms[t]? = none := by
  rw [List.getElem?_eq_none_iff] at *; rw [← r.rel.len, live_length]; exact ht

theorem SRel.step_ok {w w' : SW K V} {ms : List (K → Option V)} (cons : Consistent hash eqv)
    (r : SRel hash eqv w ms) (op : SOp K V) (e : w.step hash eqv op = .ok w') :
    SRel hash eqv w' (sAbsStep eqv ms op) := by
  cases op with
  | make =>
    simp only [SW.step, scmMake, mkStore] at e
    obtain ⟨s, hs, e⟩ := Res.bind_eq_ok.1 e
    obtain ⟨n, hn, hs⟩ := Res.bind_eq_ok.1 hs
    cases hs; cases e
    obtain ⟨h1, h2⟩ := push_live r.inv w.heap ⟨n, List.replicate n [], 0⟩
    refine ⟨h1, ?_⟩
    rw [h2]
    refine r.rel.push (wf_empty _ (findSize_spec hn).1) (Nat.le_refl _) (fun _ _ => rfl) ?_ ?_
    · simp [Store.flat]
    · simp [Maps, Store.flat]
  | copy t =>
    simp only [SW.step, scmCopy] at e
    simp only [sAbsStep]
    cases ht : w.tables[t]? with
    | none => rw [ht] at e; cases e
    | some sid =>
      rw [ht] at e; cases e
      obtain ⟨m, hm, hmaps⟩ := r.lookup ht
      rw [hm]
      obtain ⟨i1, i2⟩ := push_live r.inv (copyStore w.heap (w.store sid)).1 (copyStore w.heap (w.store sid)).2
      refine ⟨i1, ?_⟩
      simp only [i2]
      obtain ⟨h1, h2, h3, h4, h5⟩ := copyStore_spec (r.wf ht)
      refine r.rel.push h1 h3 h4 h5 ?_
      intro k v
      rw [h2, hmaps]
  | clear t =>
    simp only [SW.step, scmClear] at e
    simp only [sAbsStep]
    cases ht : w.tables[t]? with
    | none => rw [ht] at e; cases e
    | some sid =>
      rw [ht] at e; cases e
      refine r.set ht (putStore_upd r.inv ht _) (M := fun _ _ => False)
        ⟨wf_empty _ (by decide), ?_, Nat.le_refl _, fun _ _ _ => rfl, fun _ _ => rfl, ?_⟩ ?_
      · simp [Maps, Store.flat, clearStore]
      · simp [Store.flat, clearStore]
      · simp
  | set t k v =>
    simp only [SW.step] at e
    simp only [sAbsStep]
    cases ht : w.tables[t]? with
    | none => simp only [scmSet, ht] at e; cases e
    | some sid =>
      obtain ⟨h', s', hu, he⟩ := scmSet_upd cons r.inv ht (r.wf ht) e
      obtain ⟨m, hm, hmaps⟩ := r.lookup ht
      rw [hm]
      refine r.set ht hu he ?_
      intro k' v'
      unfold setM
      split
      · simp [eq_comm]
      · exact hmaps k' v'
  | delete t k =>
    simp only [SW.step] at e
    simp only [sAbsStep]
    cases ht : w.tables[t]? with
    | none => simp only [scmDelete, ht] at e; cases e
    | some sid =>
      obtain ⟨s', hu, he⟩ := scmDelete_upd cons r.inv ht (r.wf ht) e
      obtain ⟨m, hm, hmaps⟩ := r.lookup ht
      rw [hm]
      refine r.set ht hu he ?_
      intro k' v'
      unfold delM
      rw [hmaps k' v']
      cases eqv k k' <;> simp
  | update t k f d =>
    simp only [SW.step] at e
    simp only [sAbsStep]
    cases ht : w.tables[t]? with
    | none => simp only [scmUpdate, ht] at e; cases e
    | some sid =>
      obtain ⟨h', s', v0, hu, hv, he⟩ := scmUpdate_upd cons r.inv ht (r.wf ht) e
      obtain ⟨m, hm, hmaps⟩ := r.lookup ht
      rw [hm]
      have hor : (m k).or d = some v0 := by
        rcases hv with hv | ⟨hv, rfl⟩
        · rw [(hmaps k v0).1 hv]; rfl
        · cases hmk : m k with
          | none => rfl
          | some v => exact absurd ((hmaps k v).2 hmk) (hv v)
      simp only [hor]
      refine r.set ht hu he ?_
      intro k' v'
      unfold setM
      split
      · simp [eq_comm]
      · exact hmaps k' v'

theorem insertCell_no_err {w : SW K V} {t sid : Nat} {k : K} {v : V} : insertCell hash w t sid k v ≠ .err := by
  intro h
  unfold insertCell at h
  rcases Res.bind_eq_err.1 h with h | ⟨a, _, h⟩
  · unfold incrSize at h
    simp only at h
    split at h
    · unfold adjust mkStore findSize at h
      rcases Res.bind_eq_err.1 h with h | ⟨a, _, h⟩
      · rcases Res.bind_eq_err.1 h with h | ⟨a, _, h⟩
        · split at h <;> cases h
        · cases h
      · cases h
    · cases h
  · cases h

theorem SRel.step_err {w : SW K V} {ms : List (K → Option V)} (cons : Consistent hash eqv)
    (r : SRel hash eqv w ms) (op : SOp K V) (e : w.step hash eqv op = .err) : sAbsStep eqv ms op = ms := by
  cases op with
  | make => simp only [SW.step, scmMake, mkStore] at e; cases e
  | copy t =>
    simp only [SW.step, scmCopy] at e
    cases ht : w.tables[t]? with
    | none => simp only [sAbsStep, r.absent ht]
    | some sid => rw [ht] at e; cases e
  | clear t =>
    simp only [SW.step, scmClear] at e
    cases ht : w.tables[t]? with
    | none => simp only [sAbsStep]; exact List.set_eq_of_length_le (List.getElem?_eq_none_iff.1 (r.absent ht))
    | some sid => rw [ht] at e; cases e
  | set t k v =>
    simp only [SW.step, scmSet] at e
    cases ht : w.tables[t]? with
    | none => simp only [sAbsStep, r.absent ht]
    | some sid =>
      rw [ht] at e
      simp only at e
      split at e
      · cases e
      · rcases Res.bind_eq_err.1 e with e | ⟨a, _, e⟩
        · exact absurd e insertCell_no_err
        · cases e
  | delete t k =>
    simp only [SW.step, scmDelete] at e
    cases ht : w.tables[t]? with
    | none => simp only [sAbsStep, r.absent ht]
    | some sid =>
      rw [ht] at e
      simp only at e
      split at e
      · cases e
      · unfold decrSize at e
        simp only at e
        split at e
        · unfold adjust mkStore findSize at e
          rcases Res.bind_eq_err.1 e with h | ⟨a, _, h⟩
          · rcases Res.bind_eq_err.1 h with h | ⟨a, _, h⟩
            · split at h <;> cases h
            · cases h
          · cases h
        · cases e
  | update t k f d =>
    simp only [SW.step, scmUpdate] at e
    cases ht : w.tables[t]? with
    | none => simp only [sAbsStep, r.absent ht]
    | some sid =>
      rw [ht] at e
      simp only at e
      split at e
      · cases e
      · rename_i hc
        cases d with
        | none =>
          obtain ⟨m, hm, hmaps⟩ := r.lookup ht
          simp only [sAbsStep, hm]
          have : m k = none := by
            cases hmk : m k with
            | none => rfl
            | some v =>
              obtain ⟨c, h1, h2, _⟩ := (hmaps k v).2 hmk
              rw [findCell_none cons (r.wf ht) hc c h1] at h2; cases h2
          rw [this]; rfl
        | some d =>
          simp only [Res.ok_bind] at e
          rcases Res.bind_eq_err.1 e with e | ⟨a, _, e⟩
          · exact absurd e insertCell_no_err
          · cases e

theorem SRel.run {w w' : SW K V} {ms : List (K → Option V)} (cons : Consistent hash eqv)
    (r : SRel hash eqv w ms) (ops : List (SOp K V)) (e : w.run hash eqv ops = .ok w') :
    SRel hash eqv w' (sAbsRun eqv ms ops) := by
  induction ops generalizing w ms with
  | nil => cases e; exact r
  | cons op ops ih =>
    rw [SW.run] at e
    rw [sAbsRun]
    cases hs : w.step hash eqv op with
    | ok w1 => rw [hs] at e; exact ih (r.step_ok cons op hs) e
    | err => rw [hs] at e; rw [r.step_err cons op hs]; exact ih r e
    | ub => rw [hs] at e; cases e
    | oof => rw [hs] at e; cases e

theorem SRel.empty (h : Heap K V) : SRel hash eqv ⟨h, [], []⟩ [] :=
  ⟨⟨by simp, by simp⟩, Rel.empty h⟩

theorem SRel.find {w : SW K V} {ms : List (K → Option V)} (cons : Consistent hash eqv) (r : SRel hash eqv w ms)
    {t sid : Nat} (ht : w.tables[t]? = some sid) {m : K → Option V} (hm : ms[t]? = some m) (k : K) :
    (findCell hash eqv w.heap (w.store sid) k).map w.heap.val = m k := by
  obtain ⟨m', hm', hmaps⟩ := r.lookup ht
  rw [hm] at hm'; cases hm'
  apply Option.ext
  intro v
  rw [← hmaps k v]
  exact find_iff_maps cons (r.wf ht) k v

end

/-! ## C08 -/

section
variable {K V : Type} {hash : K → Word} {eqv : K → K → Bool}

/-- C08 (and C10: the maps are independent): after any history of make, copy, clear, set!, delete! and update! on any
number of tables, `hashtable-ref` with and without default and `hashtable-contains?` answer for every key of every
table what the finite maps answer; a table that does not exist in one world does not exist in the other. -/
theorem C08_scheme_map (cons : Consistent hash eqv) (h : Heap K V) (ops : List (SOp K V)) (w : SW K V)
    (e : SW.run hash eqv ⟨h, [], []⟩ ops = .ok w) (t : Nat) (k : K) (d : V) :
    match (sAbsRun eqv [] ops)[t]? with
    | none => w.tables[t]? = none
    | some m =>
      scmRef hash eqv w t k = (match m k with | some v => .ok v | none => .err) ∧
      scmRefDefault hash eqv w t k d = .ok ((m k).getD d) ∧
      scmContains hash eqv w t k = .ok (m k).isSome := by
  have r := SRel.run cons (SRel.empty h) ops e
  split
  · rename_i hm
    rw [List.getElem?_eq_none_iff] at *
    rw [← live_length, r.rel.len]; exact hm
  · rename_i m hm
    cases ht : w.tables[t]? with
    | none => rw [r.absent ht] at hm; cases hm
    | some sid =>
      have hf := r.find cons ht hm k
      unfold scmRef scmRefDefault scmContains
      rw [ht, ← hf]
      simp only
      cases findCell hash eqv w.heap (w.store sid) k <;> exact ⟨rfl, rfl, rfl⟩

/-- C08, size: after any history `hashtable-size` is the number of distinct keys present. -/
theorem C08_size (cons : Consistent hash eqv) (h : Heap K V) (ops : List (SOp K V)) (w : SW K V)
    (e : SW.run hash eqv ⟨h, [], []⟩ ops = .ok w) (t : Nat) (m : K → Option V) (hm : (sAbsRun eqv [] ops)[t]? = some m) :
    ∃ n, scmSize w t = .ok n ∧ ∃ ks : List K, ks.length = n ∧ ks.Pairwise (fun a b => eqv a b = false) ∧
      ∀ k, (m k).isSome = true ↔ ∃ k' ∈ ks, eqv k' k = true := by
  have r := SRel.run cons (SRel.empty h) ops e
  cases ht : w.tables[t]? with
  | none => rw [r.absent ht] at hm; cases hm
  | some sid =>
    have wf := r.wf ht
    obtain ⟨m', hm', hmaps⟩ := r.lookup ht
    rw [hm] at hm'; cases hm'
    refine ⟨(w.store sid).count, by simp only [scmSize, ht], (w.store sid).flat.map w.heap.key, by rw [List.length_map]; exact wf.count.symm,
      List.pairwise_map.2 wf.uniq, ?_⟩
    intro k
    constructor
    · intro hk
      obtain ⟨v, hv⟩ := Option.isSome_iff_exists.1 hk
      obtain ⟨c, h1, h2, _⟩ := (hmaps k v).2 hv
      exact ⟨_, List.mem_map_of_mem h1, h2⟩
    · rintro ⟨k', hk', h2⟩
      obtain ⟨c, h1, rfl⟩ := List.mem_map.1 hk'
      rw [(hmaps k (w.heap.val c)).1 ⟨c, h1, h2, rfl⟩]; rfl

theorem adjust_ok {w : SW K V} {t sid n2 : Nat} (hn : n2 ≤ 4611686018427388039) : ∃ s2, adjust hash w t sid n2 =
    .ok { w with stores := w.stores ++ [s2], tables := w.tables.set t w.stores.length } ∧ s2.count = (w.store sid).count := by
  obtain ⟨n, hn⟩ := findSize_ok hn
  unfold adjust mkStore
  simp only [hn, Res.ok_bind, Res.pure_eq]
  exact ⟨_, rfl, rfl⟩

/-- all stores count at most `n` -/
def SW.le (w : SW K V) (n : Nat) : Prop := ∀ s ∈ w.stores, s.count ≤ n

theorem SW.le.store {w : SW K V} {n : Nat} (h : w.le n) (i : Nat) : (w.store i).count ≤ n := by
  unfold SW.store
  rw [List.getD_eq_getElem?_getD]
  cases hi : w.stores[i]? with
  | none => simp
  | some s => exact h s (List.mem_of_getElem? hi)

theorem SW.le.put {w : SW K V} {n : Nat} (h : w.le n) (i : Nat) {s : Store} (hs : s.count ≤ n) : (w.putStore i s).le n := by
  intro s' hs'
  rcases List.mem_or_eq_of_mem_set hs' with h1 | rfl
  · exact h s' h1
  · exact hs

theorem SW.le.mono {w : SW K V} {n m : Nat} (h : w.le n) (hm : n ≤ m) : w.le m := fun s hs => by
  have := h s hs; omega

theorem adjust_le {w : SW K V} {t sid n2 n : Nat} (h : w.le n) (hn : n2 ≤ 4611686018427388039) :
    ∃ w', adjust hash w t sid n2 = .ok w' ∧ w'.le n := by
  obtain ⟨s2, h1, h2⟩ := adjust_ok (hash := hash) (w := w) (t := t) (sid := sid) hn
  refine ⟨_, h1, ?_⟩
  intro s hs
  rcases List.mem_append.1 hs with hs | hs
  · exact h s hs
  · simp at hs; subst hs; rw [h2]; exact h.store sid

theorem insertCell_le {w : SW K V} {t sid n : Nat} (k : K) (v : V) (h : w.le n) (hn : n < 4611686018427388039) :
    ∃ w' c, insertCell hash w t sid k v = .ok (w', c) ∧ w'.le (n + 1) := by
  have hs := h.store sid
  unfold insertCell incrSize
  simp only
  have hb : ({ w with heap := (w.heap.alloc k v).1 } : SW K V).le n := h
  have h1 := hb.put sid (s := (w.store sid).setBucket (hash k) ((w.heap.alloc k v).2 :: (w.store sid).bucket (hash k))) hs
  have h2 := h1.store sid
  have h3 := (h1.mono (Nat.le_succ n)).put sid (s := { (SW.store (SW.putStore { w with heap := (w.heap.alloc k v).1 } sid
    ((w.store sid).setBucket (hash k) ((w.heap.alloc k v).2 :: (w.store sid).bucket (hash k)))) sid) with
      count := (SW.store (SW.putStore { w with heap := (w.heap.alloc k v).1 } sid
    ((w.store sid).setBucket (hash k) ((w.heap.alloc k v).2 :: (w.store sid).bucket (hash k)))) sid).count + 1 }) (by simp only; omega)
  split
  · obtain ⟨w', h4, h5⟩ := adjust_le (hash := hash) (t := t) (sid := sid) (n2 := (SW.store (SW.putStore { w with heap := (w.heap.alloc k v).1 } sid
    ((w.store sid).setBucket (hash k) ((w.heap.alloc k v).2 :: (w.store sid).bucket (hash k)))) sid).count + 1) h3 (by omega)
    exact ⟨w', _, by rw [h4]; rfl, h5⟩
  · exact ⟨_, _, rfl, h3⟩

theorem step_le (op : SOp K V) {w : SW K V} {n : Nat} (h : w.le n) (hn : n < 4611686018427388039) :
    w.step hash eqv op = .err ∨ ∃ w', w.step hash eqv op = .ok w' ∧ w'.le (n + 1) := by
  cases op with
  | make =>
    right
    obtain ⟨m, hm⟩ := findSize_ok (hint := 0) (by omega)
    refine ⟨_, by simp only [SW.step, scmMake, mkStore, hm, Res.ok_bind, Res.pure_eq]; rfl, ?_⟩
    intro s hs
    rcases List.mem_append.1 hs with hs | hs
    · have := h s hs; omega
    · simp at hs; subst hs; simp
  | copy t =>
    simp only [SW.step, scmCopy]
    cases w.tables[t]? with
    | none => exact Or.inl rfl
    | some sid =>
      right
      refine ⟨_, rfl, ?_⟩
      intro s hs
      rcases List.mem_append.1 hs with hs | hs
      · have := h s hs; omega
      · simp at hs; subst hs
        have := h.store sid
        simp only [copyStore]; omega
  | clear t =>
    simp only [SW.step, scmClear]
    cases w.tables[t]? with
    | none => exact Or.inl rfl
    | some sid => exact Or.inr ⟨_, rfl, (h.mono (Nat.le_succ n)).put sid (by simp [clearStore])⟩
  | set t k v =>
    simp only [SW.step, scmSet]
    cases w.tables[t]? with
    | none => exact Or.inl rfl
    | some sid =>
      right
      simp only
      split
      · exact ⟨_, rfl, h.mono (Nat.le_succ n)⟩
      · obtain ⟨w', c, h1, h2⟩ := insertCell_le (hash := hash) (t := t) (sid := sid) k v h hn
        exact ⟨{ w' with heap := w'.heap.setVal c v }, by rw [h1]; rfl, h2⟩
  | delete t k =>
    simp only [SW.step, scmDelete]
    cases w.tables[t]? with
    | none => exact Or.inl rfl
    | some sid =>
      right
      simp only
      split
      · exact ⟨_, rfl, h.mono (Nat.le_succ n)⟩
      · rename_i b _
        unfold decrSize
        simp only
        have h1 := h.put sid (s := (w.store sid).setBucket (hash k) b) (h.store sid)
        have h2 := h1.store sid
        have h3 := h1.put sid (s := { (SW.store (SW.putStore w sid ((w.store sid).setBucket (hash k) b)) sid) with
          count := (SW.store (SW.putStore w sid ((w.store sid).setBucket (hash k) b)) sid).count - 1 }) (by simp only; omega)
        split
        · obtain ⟨w', h4, h5⟩ := adjust_le (hash := hash) (t := t) (sid := sid) (n2 :=
            (SW.store (SW.putStore w sid ((w.store sid).setBucket (hash k) b)) sid).count - 1) h3 (by omega)
          exact ⟨w', h4, h5.mono (Nat.le_succ n)⟩
        · exact ⟨_, rfl, h3.mono (Nat.le_succ n)⟩
  | update t k f d =>
    simp only [SW.step, scmUpdate]
    cases w.tables[t]? with
    | none => exact Or.inl rfl
    | some sid =>
      simp only
      split
      · exact Or.inr ⟨_, rfl, h.mono (Nat.le_succ n)⟩
      · cases d with
        | none => exact Or.inl rfl
        | some d =>
          right
          obtain ⟨w', c, h1, h2⟩ := insertCell_le (hash := hash) (t := t) (sid := sid) k (f d) h hn
          exact ⟨_, by simp only [Res.ok_bind, h1]; rfl, h2⟩

theorem srun_ok (ops : List (SOp K V)) : ∀ (w : SW K V) (n : Nat), w.le n → n + ops.length ≤ 4611686018427388039 →
    ∃ w', w.run hash eqv ops = .ok w' := by
  induction ops with
  | nil => intro w n _ _; exact ⟨w, rfl⟩
  | cons op ops ih =>
    intro w n h hn
    simp only [List.length_cons] at hn
    rw [SW.run]
    rcases step_le (hash := hash) (eqv := eqv) op h (by omega) with h1 | ⟨w1, h1, h2⟩
    · rw [h1]; exact ih w n h (by omega)
    · rw [h1]; exact ih w1 (n + 1) h2 (by omega)

end

/-- C08, no undefined behaviour: every history of at most 4611686018427388039 operations runs to its end, with any hash
and equivalence procedures. -/
theorem C08_runs {K V : Type} {hash : K → Word} {eqv : K → K → Bool} (h : Heap K V) (ops : List (SOp K V))
    (hl : ops.length ≤ 4611686018427388039) : ∃ w, SW.run hash eqv ⟨h, [], []⟩ ops = .ok w :=
  srun_ok ops ⟨h, [], []⟩ 0 (by simp [SW.le]) (by omega)

/-- a history with a collision modulo 13, updates of a present and an absent key, a deletion and a copy -/
def sampleSOps : List (SOp Word Nat) :=
  [.make, .set 0 3#64 1, .set 0 16#64 2, .update 0 3#64 (· + 10) none, .update 0 7#64 (· + 1) none,
   .update 0 7#64 (· + 1) (some 5), .copy 0, .delete 0 16#64, .set 1 16#64 9, .clear 5]

/-- identity hash and equality, consistent -/
theorem word_consistent : Consistent (fun k : Word => k) (fun a b => a == b) :=
  ⟨by simp, by intro a b h; simpa using (beq_iff_eq.1 h).symm, by simp, by simp⟩

example : ∃ w, SW.run (fun k : Word => k) (fun a b => a == b) ⟨⟨fun _ => (0#64, 0), 0⟩, [], []⟩ sampleSOps = .ok w :=
  C08_runs _ _ (by simp [sampleSOps])

example : ((sAbsRun (fun a b => a == b) [] sampleSOps).map
    fun m => [m 3#64, m 16#64, m 7#64]) = [[some 11, none, some 6], [some 11, some 9, some 6]] := by decide

/-! ## C09 -/

section
variable {K V : Type} {hash : K → Word} {eqv : K → K → Bool}

theorem set_append_replicate {α : Type} (a : List (Option α)) (x : α) (n : Nat) :
    (a ++ List.replicate (n + 1) none).set a.length (some x) = (a ++ [some x]) ++ List.replicate n none := by
  induction a with
  | nil => rfl
  | cons y a ih => simp only [List.cons_append, List.length_cons, List.set_cons_succ, ih]

theorem vecSet_next {α : Type} (a : List (Option α)) (x : α) (n : Nat) :
    vecSet (a ++ List.replicate (n + 1) none) a.length x = .ok ((a ++ [some x]) ++ List.replicate n none) := by
  unfold vecSet
  rw [if_pos (by simp), set_append_replicate]

theorem entriesLoop_eq (h : Heap K V) (cs : List Nat) : ∀ (ks : List (Option K)) (vs : List (Option V)),
    ks.length = vs.length →
    entriesLoop h cs ks.length (ks ++ List.replicate cs.length none) (vs ++ List.replicate cs.length none) =
      .ok (ks ++ cs.map (fun c => some (h.key c)), vs ++ cs.map (fun c => some (h.val c))) := by
  induction cs with
  | nil => intro ks vs _; simp [entriesLoop]
  | cons c cs ih =>
    intro ks vs hl
    rw [entriesLoop, List.length_cons, vecSet_next]
    simp only [Res.ok_bind]
    rw [hl, vecSet_next]
    simp only [Res.ok_bind]
    have := ih (ks ++ [some (h.key c)]) (vs ++ [some (h.val c)]) (by simp [hl])
    simp only [List.length_append, List.length_cons, List.length_nil, Nat.zero_add, hl] at this
    rw [this]
    simp

theorem fillLoop_eq {α : Type} (f : Nat → α) (cs : List Nat) : ∀ (a : List (Option α)),
    fillLoop f cs a.length (a ++ List.replicate cs.length none) = .ok (a ++ cs.map (fun c => some (f c))) := by
  induction cs with
  | nil => intro a; simp [fillLoop]
  | cons c cs ih =>
    intro a
    rw [fillLoop, List.length_cons, vecSet_next]
    simp only [Res.ok_bind]
    have := ih (a ++ [some (f c)])
    simp only [List.length_append, List.length_cons, List.length_nil, Nat.zero_add] at this
    rw [this]
    simp

/-- C09: after any history `hashtable-entries` returns two vectors of length `hashtable-size` with every slot filled;
the keys are pairwise inequivalent, the value at each position is the one bound to the key at that position, and every
bound key is equivalent to a listed one.  `hashtable-keys` and `hashtable-vals` return these same two vectors. -/
theorem C09_entries (cons : Consistent hash eqv) (h : Heap K V) (ops : List (SOp K V)) (w : SW K V)
    (e : SW.run hash eqv ⟨h, [], []⟩ ops = .ok w) (t : Nat) (m : K → Option V) (hm : (sAbsRun eqv [] ops)[t]? = some m) :
    ∃ (ks : List K) (vs : List V), scmSize w t = .ok ks.length ∧ vs.length = ks.length ∧
      scmEntries w t = .ok (ks.map some, vs.map some) ∧
      scmKeys w t = .ok (ks.map some) ∧ scmVals w t = .ok (vs.map some) ∧
      ks.Pairwise (fun a b => eqv a b = false) ∧
      (∀ (i : Nat) (k : K) (v : V), ks[i]? = some k → vs[i]? = some v → m k = some v) ∧
      (∀ k, (m k).isSome = true → ∃ k' ∈ ks, eqv k' k = true) := by
  have r := SRel.run cons (SRel.empty h) ops e
  cases ht : w.tables[t]? with
  | none => rw [r.absent ht] at hm; cases hm
  | some sid =>
    have wf := r.wf ht
    obtain ⟨m', hm', hmaps⟩ := r.lookup ht
    rw [hm] at hm'; cases hm'
    have hcell : (w.store sid).cells = (w.store sid).flat.reverse := cells_eq _
    have hlen : (w.store sid).count = (w.store sid).cells.length := by rw [hcell, List.length_reverse]; exact wf.count
    have hu : (w.store sid).cells.Pairwise (fun a b => eqv (w.heap.key a) (w.heap.key b) = false) :=
      (pairwise_perm cons (cells_perm (w.store sid))).2 wf.uniq
    refine ⟨(w.store sid).cells.map w.heap.key, (w.store sid).cells.map w.heap.val, ?_, by simp, ?_, ?_, ?_,
      List.pairwise_map.2 hu, ?_, ?_⟩
    · simp only [scmSize, ht, List.length_map, hlen]
    · have := entriesLoop_eq w.heap (w.store sid).cells [] [] rfl
      simp only [scmEntries, ht, hlen]
      simpa [Function.comp_def] using this
    · have := fillLoop_eq w.heap.key (w.store sid).cells []
      simp only [scmKeys, ht, hlen]
      simpa [Function.comp_def] using this
    · have := fillLoop_eq w.heap.val (w.store sid).cells []
      simp only [scmVals, ht, hlen]
      simpa [Function.comp_def] using this
    · intro i k v hk hv
      rw [List.getElem?_map] at hk hv
      cases hc : (w.store sid).cells[i]? with
      | none => rw [hc] at hk; cases hk
      | some c =>
        rw [hc] at hk hv; cases hk; cases hv
        exact (hmaps _ _).1 ⟨c, (cells_perm _).mem_iff.1 (List.mem_of_getElem? hc), cons.refl _, rfl⟩
    · intro k hk
      obtain ⟨v, hv⟩ := Option.isSome_iff_exists.1 hk
      obtain ⟨c, h1, h2, _⟩ := (hmaps k v).2 hv
      exact ⟨_, List.mem_map_of_mem ((cells_perm _).mem_iff.2 h1), h2⟩

end

example : (sAbsRun (fun a b => a == b) [] sampleSOps)[1]?.isSome = true := by decide

/-! ## C10 -/

section
variable {K V : Type} {hash : K → Word} {eqv : K → K → Bool}

/-- operations that work on table `t` (specification) -/
def SOp.on (t : Nat) : SOp K V → Bool
  | .make => false
  | .copy _ => false
  | .clear t' => t' == t
  | .set t' _ _ => t' == t
  | .delete t' _ => t' == t
  | .update t' _ _ _ => t' == t

theorem sAbsStep_other {t : Nat} {op : SOp K V} (hop : op.on t = false) {ms : List (K → Option V)} (ht : t < ms.length) :
    (sAbsStep eqv ms op)[t]? = ms[t]? ∧ t < (sAbsStep eqv ms op).length := by
  cases op with
  | make => simp only [sAbsStep]; rw [List.getElem?_append_left ht]; simp; omega
  | copy t' =>
    simp only [sAbsStep]
    split
    · exact ⟨rfl, ht⟩
    · rw [List.getElem?_append_left ht]; simp; omega
  | clear t' =>
    have : ¬ t' = t := by simpa [SOp.on] using hop
    simp only [sAbsStep, List.getElem?_set, this, if_false, List.length_set]; exact ⟨trivial, ht⟩
  | set t' k v =>
    have : ¬ t' = t := by simpa [SOp.on] using hop
    simp only [sAbsStep]
    split
    · exact ⟨rfl, ht⟩
    · simp only [List.getElem?_set, this, if_false, List.length_set]; exact ⟨trivial, ht⟩
  | delete t' k =>
    have : ¬ t' = t := by simpa [SOp.on] using hop
    simp only [sAbsStep]
    split
    · exact ⟨rfl, ht⟩
    · simp only [List.getElem?_set, this, if_false, List.length_set]; exact ⟨trivial, ht⟩
  | update t' k f d =>
    have : ¬ t' = t := by simpa [SOp.on] using hop
    simp only [sAbsStep]
    split
    · exact ⟨rfl, ht⟩
    · split
      · exact ⟨rfl, ht⟩
      · simp only [List.getElem?_set, this, if_false, List.length_set]; exact ⟨trivial, ht⟩

theorem sAbsRun_other {t : Nat} (ops : List (SOp K V)) : ∀ (ms : List (K → Option V)), (∀ op ∈ ops, op.on t = false) →
    t < ms.length → (sAbsRun eqv ms ops)[t]? = ms[t]? := by
  induction ops with
  | nil => intro ms _ _; rfl
  | cons op ops ih =>
    intro ms h ht
    obtain ⟨h1, h2⟩ := sAbsStep_other (eqv := eqv) (h op (by simp)) ht
    rw [sAbsRun, ih _ (fun op hop => h op (by simp [hop])) h2, h1]

theorem sAbsRun_append (ops ops' : List (SOp K V)) : ∀ (ms : List (K → Option V)),
    sAbsRun eqv ms (ops ++ ops') = sAbsRun eqv (sAbsRun eqv ms ops) ops' := by
  induction ops with
  | nil => intro ms; rfl
  | cons op ops ih => intro ms; simp only [List.cons_append, sAbsRun, ih]

/-- C10: take any history, copy table `t`, then do anything that does not work on the copy (or on the original): the copy
(the original) still answers as it did right after copying, which is also how the original answered before. -/
theorem C10_copy_independent (cons : Consistent hash eqv) (h : Heap K V) (ops ops' : List (SOp K V)) (w w' : SW K V)
    (t sid : Nat) (e : SW.run hash eqv ⟨h, [], []⟩ ops = .ok w) (ht : w.tables[t]? = some sid)
    (e' : SW.run hash eqv ⟨h, [], []⟩ (ops ++ .copy t :: ops') = .ok w') (t' : Nat)
    (htt : t' = t ∨ t' = w.tables.length) (hon : ∀ op ∈ ops', op.on t' = false) (k : K) :
    scmRef hash eqv w' t' k = scmRef hash eqv w t k := by
  have r := SRel.run cons (SRel.empty h) ops e
  have r' := SRel.run cons (SRel.empty h) _ e'
  obtain ⟨m, hm, _⟩ := r.lookup ht
  have hlen : (sAbsRun eqv [] ops).length = w.tables.length := by rw [← r.rel.len, live_length]
  have hl : t < w.tables.length := (List.getElem?_eq_some_iff.1 ht).1
  have hcopy : sAbsStep eqv (sAbsRun eqv [] ops) (.copy t) = sAbsRun eqv [] ops ++ [m] := by simp only [sAbsStep, hm]
  have hm' : (sAbsRun eqv [] (ops ++ .copy t :: ops'))[t']? = some m := by
    rw [sAbsRun_append, sAbsRun, hcopy]
    have hlt' : t' < (sAbsRun eqv [] ops ++ [m]).length := by
      rw [List.length_append, hlen]; simp; omega
    rw [sAbsRun_other ops' _ hon hlt']
    rcases htt with rfl | rfl
    · rw [List.getElem?_append_left (by omega), hm]
    · rw [← hlen, List.getElem?_append_right (by omega)]; simp
  have a1 := C08_scheme_map cons h ops w e t k (h.val 0)
  have a2 := C08_scheme_map cons h _ w' e' t' k (h.val 0)
  rw [hm] at a1
  rw [hm'] at a2
  rw [a1.1, a2.1]

end

/-- the hypotheses of `C10_copy_independent` on a concrete history -/
example : ∃ w w' : SW Word Nat, ∃ sid,
    SW.run (fun k : Word => k) (fun a b => a == b) ⟨⟨fun _ => (0#64, 0), 0⟩, [], []⟩ [.make, .set 0 3#64 1] = .ok w ∧
    w.tables[0]? = some sid ∧
    SW.run (fun k : Word => k) (fun a b => a == b) ⟨⟨fun _ => (0#64, 0), 0⟩, [], []⟩
      ([.make, .set 0 3#64 1] ++ .copy 0 :: [.set 0 3#64 2, .delete 0 3#64]) = .ok w' ∧
    ∀ op ∈ ([.set 0 3#64 2, .delete 0 3#64] : List (SOp Word Nat)), op.on 1 = false :=
  ⟨_, _, 0, rfl, rfl, rfl, by simp [SOp.on]⟩

/-! ## C11 -/

/-- an updater that runs a history and returns a value computed from the old one (specification) -/
def updater {K V : Type} (hash : K → Word) (eqv : K → K → Bool) (inner : List (SOp K V)) (f : V → V) :
    V → SW K V → Res (V × SW K V) :=
  fun v w => do
    let w ← w.run hash eqv inner
    pure (f v, w)

/-- update key `k` of table 0 with an updater that runs `inner`, after the history `before`; then look up `k2`, the size
and the keys (for the counterexamples) -/
def observe (before inner : List (SOp Word Nat)) (k : Word) (d : Option Nat) (k2 : Word) :
    Res (Res Nat × Res Nat × Res (List (Option Word))) := do
  let w ← SW.run (fun k : Word => k) (fun a b => a == b) ⟨⟨fun _ => (0#64, 0), 0⟩, [], []⟩ before
  let w ← scmUpdate (fun k => k) (fun a b => a == b) w 0 k (updater (fun k => k) (fun a b => a == b) inner (· + 1)) d
  pure (scmRef (fun k => k) (fun a b => a == b) w 0 k2, scmSize w 0, scmKeys w 0)

/-- C11 is violated: an updater that sets the missing key leaves two bindings for it. -/
theorem C11_negated_duplicate : observe [.make] [.set 0 3#64 5] 3#64 (some 0) 3#64 =
    .ok (.ok 1, .ok 2, .ok [some 3#64, some 3#64]) := by decide

/-- C11 is violated: an updater that deletes the key makes its own result vanish. -/
theorem C11_negated_delete : observe [.make, .set 0 3#64 5] [.delete 0 3#64] 3#64 none 3#64 =
    .ok (.err, .ok 0, .ok []) := by decide

/-- `n` bindings, of the keys 100, 101, ... (for the counterexamples) -/
def filled (n : Nat) : List (SOp Word Nat) := .make :: (List.range n).map (fun i => .set 0 (BitVec.ofNat 64 (100 + i)) 0)

/-- an outcome whose lookup raised (for the counterexamples) -/
def lookupFails (r : Res (Res Nat × Res Nat × Res (List (Option Word)))) : Bool :=
  match r with
  | .ok (.err, _, _) => true
  | _ => false

/-- C11 is violated: if the updater deletes so many bindings that the table shrinks, its result for a missing key goes to
the abandoned store and is lost. -/
theorem C11_negated_shrink :
    lookupFails (observe (filled 60) ((List.range 40).map fun i => .delete 0 (BitVec.ofNat 64 (100 + i))) 200#64 (some 0) 200#64)
      = true := by decide +kernel

/-- C11 is violated: if the updater adds two bindings, the first of which makes the table grow, the update of a missing
key brings the abandoned store back and the second binding (key 501) is lost. -/
theorem C11_negated_growth :
    lookupFails (observe (filled 13) [.set 0 500#64 7, .set 0 501#64 8] 200#64 (some 0) 501#64) = true := by decide +kernel

section
variable {K V : Type} {hash : K → Word} {eqv : K → K → Bool}

theorem store_of_live {w : SW K V} {t sid : Nat} (ht : w.tables[t]? = some sid) {s : Store} (h : w.live[t]? = some s) :
    w.store sid = s := by
  rw [live_get ht] at h; exact Option.some.inj h

/-- what an operation on another table leaves alone -/
theorem step_frame {w w' : SW K V} {ms : List (K → Option V)} (cons : Consistent hash eqv) (r : SRel hash eqv w ms)
    (op : SOp K V) (e : w.step hash eqv op = .ok w') {t sid : Nat} (hop : op.on t = false) (ht : w.tables[t]? = some sid) :
    w'.tables[t]? = some sid ∧ w'.store sid = w.store sid := by
  have key : ∀ {t' : Nat} {h' : Heap K V} {s' : Store}, t ≠ t' → Upd w t' h' s' w' →
      w'.tables[t]? = some sid ∧ w'.store sid = w.store sid := by
    intro t' h' s' hne u
    have h1 := u.tabs t sid hne ht
    refine ⟨h1, store_of_live h1 ?_⟩
    rw [u.live, List.getElem?_set, if_neg (Ne.symm hne)]
    exact live_get ht
  have push : ∀ (h' : Heap K V) (s' : Store), w' = ⟨h', w.stores ++ [s'], w.tables ++ [w.stores.length]⟩ →
      w'.tables[t]? = some sid ∧ w'.store sid = w.store sid := by
    rintro h' s' rfl
    refine ⟨?_, store_append_old (r.inv.lt t sid ht) _ _ _⟩
    simp only
    rw [List.getElem?_append_left (List.getElem?_eq_some_iff.1 ht).1, ht]
  cases op with
  | make =>
    simp only [SW.step, scmMake, mkStore] at e
    obtain ⟨s, hs, e⟩ := Res.bind_eq_ok.1 e
    cases e
    exact push _ _ rfl
  | copy t' =>
    simp only [SW.step, scmCopy] at e
    split at e
    · cases e
    · cases e; exact push _ _ rfl
  | clear t' =>
    have hne : t ≠ t' := by rintro rfl; simp [SOp.on] at hop
    simp only [SW.step, scmClear] at e
    split at e
    · cases e
    · rename_i sid' ht'
      cases e
      exact key hne (putStore_upd r.inv ht' _)
  | set t' k v =>
    have hne : t ≠ t' := by rintro rfl; simp [SOp.on] at hop
    simp only [SW.step] at e
    cases ht' : w.tables[t']? with
    | none => simp only [scmSet, ht'] at e; cases e
    | some sid' =>
      obtain ⟨h', s', hu, _⟩ := scmSet_upd cons r.inv ht' (r.wf ht') e
      exact key hne hu
  | delete t' k =>
    have hne : t ≠ t' := by rintro rfl; simp [SOp.on] at hop
    simp only [SW.step] at e
    cases ht' : w.tables[t']? with
    | none => simp only [scmDelete, ht'] at e; cases e
    | some sid' =>
      obtain ⟨s', hu, _⟩ := scmDelete_upd cons r.inv ht' (r.wf ht') e
      exact key hne hu
  | update t' k f d =>
    have hne : t ≠ t' := by rintro rfl; simp [SOp.on] at hop
    simp only [SW.step] at e
    cases ht' : w.tables[t']? with
    | none => simp only [scmUpdate, ht'] at e; cases e
    | some sid' =>
      obtain ⟨h', s', v0, hu, _⟩ := scmUpdate_upd cons r.inv ht' (r.wf ht') e
      exact key hne hu

theorem run_frame (cons : Consistent hash eqv) (ops : List (SOp K V)) {t sid : Nat} : ∀ {w w' : SW K V}
    {ms : List (K → Option V)}, SRel hash eqv w ms → w.run hash eqv ops = .ok w' → (∀ op ∈ ops, op.on t = false) →
    w.tables[t]? = some sid → w'.tables[t]? = some sid ∧ w'.store sid = w.store sid := by
  induction ops with
  | nil => intro w w' ms _ e _ ht; cases e; exact ⟨ht, rfl⟩
  | cons op ops ih =>
    intro w w' ms r e hon ht
    rw [SW.run] at e
    cases hs : w.step hash eqv op with
    | ok w1 =>
      rw [hs] at e
      obtain ⟨h1, h2⟩ := step_frame cons r op hs (hon op (by simp)) ht
      obtain ⟨h3, h4⟩ := ih (r.step_ok cons op hs) e (fun o ho => hon o (by simp [ho])) h1
      exact ⟨h3, h4.trans h2⟩
    | err => rw [hs] at e; exact ih r e (fun o ho => hon o (by simp [ho])) ht
    | ub => rw [hs] at e; cases e
    | oof => rw [hs] at e; cases e

/-- an operation keeps the keys of existing cells -/
theorem step_keys {w w' : SW K V} {ms : List (K → Option V)} (cons : Consistent hash eqv) (r : SRel hash eqv w ms)
    (op : SOp K V) (e : w.step hash eqv op = .ok w') : w.heap.next ≤ w'.heap.next ∧
    ∀ c, c < w.heap.next → w'.heap.key c = w.heap.key c := by
  cases op with
  | make =>
    simp only [SW.step, scmMake, mkStore] at e
    obtain ⟨s, hs, e⟩ := Res.bind_eq_ok.1 e
    cases e
    exact ⟨Nat.le_refl _, fun _ _ => rfl⟩
  | copy t' =>
    simp only [SW.step, scmCopy] at e
    split at e
    · cases e
    · rename_i sid ht
      cases e
      obtain ⟨_, _, h3, h4, _⟩ := copyStore_spec (r.wf ht)
      exact ⟨h3, fun c hc => by simp only [Heap.key, h4 c hc]⟩
  | clear t' =>
    simp only [SW.step, scmClear] at e
    split at e
    · cases e
    · cases e; exact ⟨Nat.le_refl _, fun _ _ => rfl⟩
  | set t' k v =>
    simp only [SW.step] at e
    cases ht' : w.tables[t']? with
    | none => simp only [scmSet, ht'] at e; cases e
    | some sid' =>
      obtain ⟨h', s', hu, he⟩ := scmSet_upd cons r.inv ht' (r.wf ht') e
      rw [hu.heap]; exact ⟨he.next, he.keys⟩
  | delete t' k =>
    simp only [SW.step] at e
    cases ht' : w.tables[t']? with
    | none => simp only [scmDelete, ht'] at e; cases e
    | some sid' =>
      obtain ⟨s', hu, he⟩ := scmDelete_upd cons r.inv ht' (r.wf ht') e
      rw [hu.heap]; exact ⟨he.next, he.keys⟩
  | update t' k f d =>
    simp only [SW.step] at e
    cases ht' : w.tables[t']? with
    | none => simp only [scmUpdate, ht'] at e; cases e
    | some sid' =>
      obtain ⟨h', s', v0, hu, _, he⟩ := scmUpdate_upd cons r.inv ht' (r.wf ht') e
      rw [hu.heap]; exact ⟨he.next, he.keys⟩

theorem run_keys (cons : Consistent hash eqv) (ops : List (SOp K V)) : ∀ {w w' : SW K V} {ms : List (K → Option V)},
    SRel hash eqv w ms → w.run hash eqv ops = .ok w' → w.heap.next ≤ w'.heap.next ∧
    ∀ c, c < w.heap.next → w'.heap.key c = w.heap.key c := by
  induction ops with
  | nil => intro w w' ms _ e; cases e; exact ⟨Nat.le_refl _, fun _ _ => rfl⟩
  | cons op ops ih =>
    intro w w' ms r e
    rw [SW.run] at e
    cases hs : w.step hash eqv op with
    | ok w1 =>
      rw [hs] at e
      obtain ⟨h1, h2⟩ := step_keys cons r op hs
      obtain ⟨h3, h4⟩ := ih (r.step_ok cons op hs) e
      exact ⟨by omega, fun c hc => (h4 c (by omega)).trans (h2 c hc)⟩
    | err => rw [hs] at e; exact ih r e
    | ub => rw [hs] at e; cases e
    | oof => rw [hs] at e; cases e

/-- C11, in part: if the updater's own operations leave the structure of the table alone (the same store with the same
cells; values may change, other tables may change in any way), the update is the set operation after the updater's
operations: the table binds the key, once, to the updater's result and everything else is as the updater left it.
Missing: updaters that insert into or delete from the table, for which the claim is false (`C11_negated_duplicate`,
`C11_negated_delete`, `C11_negated_shrink`, `C11_negated_growth`). -/
theorem C11_update_partial (cons : Consistent hash eqv) (h : Heap K V) (ops inner : List (SOp K V)) (w w1 w' : SW K V)
    (t sid : Nat) (k : K) (f : V → V) (d : Option V) (m : K → Option V)
    (e : SW.run hash eqv ⟨h, [], []⟩ ops = .ok w) (ht : w.tables[t]? = some sid)
    (hm : (sAbsRun eqv [] ops)[t]? = some m)
    (e1 : w.run hash eqv inner = .ok w1) (ht1 : w1.tables[t]? = some sid) (hs1 : w1.store sid = w.store sid)
    (e' : scmUpdate hash eqv w t k (updater hash eqv inner f) d = .ok w') :
    ∃ v0, (m k).or d = some v0 ∧
      ∀ (t' : Nat) (k' : K), scmRef hash eqv w' t' k' =
        match (sAbsRun eqv [] (ops ++ inner ++ [.set t k (f v0)]))[t']? with
        | none => .err
        | some m' => match m' k' with
          | none => .err
          | some v => .ok v := by
  have r := SRel.run cons (SRel.empty h) ops e
  have r1 := r.run cons inner e1
  obtain ⟨m0, hm0, hmaps⟩ := r.lookup ht
  rw [hm] at hm0; cases hm0
  obtain ⟨m1, hm1, hmaps1⟩ := r1.lookup ht1
  have hk := run_keys cons inner r e1
  have wf := r.wf ht
  have wf1 := r1.wf ht1
  have habs : ∀ v0, sAbsRun eqv [] (ops ++ inner ++ [.set t k (f v0)]) =
      (sAbsRun eqv (sAbsRun eqv [] ops) inner).set t (fun k' => if eqv k k' = true then some (f v0) else m1 k') := by
    intro v0
    rw [sAbsRun_append, sAbsRun_append]
    simp only [sAbsRun, sAbsStep, hm1]
  have hset : ∀ v0 k' v', setM eqv (Maps eqv w1.heap (w1.store sid).flat) k (f v0) k' v' ↔
      (if eqv k k' = true then some (f v0) else m1 k') = some v' := by
    intro v0 k' v'
    unfold setM
    split
    · simp [eq_comm]
    · exact hmaps1 k' v'
  have main : ∃ v0, (m k).or d = some v0 ∧ SRel hash eqv w' (sAbsRun eqv [] (ops ++ inner ++ [.set t k (f v0)])) := by
    unfold scmUpdate at e'
    rw [ht] at e'
    simp only [updater] at e'
    split at e'
    · rename_i c hc
      simp only [e1, Res.ok_bind, Res.pure_eq] at e'
      cases e'
      obtain ⟨h1, h2⟩ := findCell_some wf hc
      refine ⟨w.heap.val c, ?_, ?_⟩
      · rw [(hmaps k (w.heap.val c)).1 ⟨c, h1, h2, rfl⟩]; rfl
      · rw [habs]
        refine r1.set ht1 (Upd.same r1.inv ht1 _) (Effect.setVal (k := k) cons wf1 (f (w.heap.val c)) (by rw [hs1]; exact h1)
          (by rw [hk.2 c (wf.fresh c h1)]; exact h2)) (hset _)
    · rename_i hc
      have hn := findCell_none cons wf hc
      cases d with
      | none => cases e'
      | some d =>
        simp only [e1, Res.ok_bind, Res.pure_eq] at e'
        obtain ⟨⟨w2, c⟩, h2, e'⟩ := Res.bind_eq_ok.1 e'
        cases e'
        have hn1 : ∀ c ∈ (w1.store sid).flat, eqv (w1.heap.key c) k = false := by
          intro c hc
          rw [hs1] at hc
          rw [hk.2 c (wf.fresh c hc)]; exact hn c hc
        obtain ⟨_, s', hu, he⟩ := insertCell_upd cons r1.inv ht1 wf1 hn1 h2
        refine ⟨d, ?_, ?_⟩
        · cases hmk : m k with
          | none => rfl
          | some v =>
            obtain ⟨c, h1, h2, _⟩ := (hmaps k v).2 hmk
            rw [hn c h1] at h2; cases h2
        · rw [habs]
          exact r1.set ht1 hu he (hset d)
  obtain ⟨v0, hv, r'⟩ := main
  refine ⟨v0, hv, ?_⟩
  intro t' k'
  unfold scmRef
  cases ht' : w'.tables[t']? with
  | none => rw [r'.absent ht']
  | some sid' =>
    obtain ⟨m', hm', _⟩ := r'.lookup ht'
    rw [hm']
    simp only
    rw [← r'.find cons ht' hm' k']
    cases findCell hash eqv w'.heap (w'.store sid') k' <;> rfl

/-- C11, in part: the structure is left alone when the updater does not use the table at all. -/
theorem C11_unrelated_partial (cons : Consistent hash eqv) (h : Heap K V) (ops inner : List (SOp K V)) (w w1 : SW K V)
    (t sid : Nat) (e : SW.run hash eqv ⟨h, [], []⟩ ops = .ok w) (ht : w.tables[t]? = some sid)
    (e1 : w.run hash eqv inner = .ok w1) (hon : ∀ op ∈ inner, op.on t = false) :
    w1.tables[t]? = some sid ∧ w1.store sid = w.store sid :=
  run_frame cons inner (SRel.run cons (SRel.empty h) ops e) e1 hon ht

end

/-- the hypotheses of `C11_update_partial` with an updater that changes another binding of the same table and fills
another table -/
example : ∃ w w1 w' : SW Word Nat,
    SW.run (fun k : Word => k) (fun a b => a == b) ⟨⟨fun _ => (0#64, 0), 0⟩, [], []⟩ [.make, .make, .set 0 3#64 1, .set 0 4#64 1] = .ok w ∧
    w.run (fun k : Word => k) (fun a b => a == b) [.set 0 4#64 2, .set 1 9#64 9] = .ok w1 ∧
    w.tables[0]? = some 0 ∧ w1.tables[0]? = some 0 ∧ w1.store 0 = w.store 0 ∧
    scmUpdate (fun k : Word => k) (fun a b => a == b) w 0 3#64
      (updater (fun k : Word => k) (fun a b => a == b) [.set 0 4#64 2, .set 1 9#64 9] (· + 1)) none = .ok w' ∧
    scmRef (fun k : Word => k) (fun a b => a == b) w' 0 3#64 = .ok 2 ∧
    scmRef (fun k : Word => k) (fun a b => a == b) w' 0 4#64 = .ok 2 :=
  ⟨_, _, _, rfl, rfl, rfl, rfl, rfl, rfl, rfl, rfl⟩

end Minim.Hash
