import Verif.HashLemmas

set_option autoImplicit false

/-!
# Properties of native hashtables (C06, C07, native part of C10)

Specification: an abstract world is a list of finite maps `K → Option V`; `absStep` says what each operation means.
It mentions neither buckets nor cells.
-/

namespace Minim.Hash

section
variable {K V : Type}

/-- the abstract meaning of the native operations (specification) -/
def absStep (eqv : K → K → Bool) (ms : List (K → Option V)) : NOp K V → List (K → Option V)
  | .make _ => ms ++ [(fun _ => none : K → Option V)]
  | .copy t => match ms[t]? with
    | none => ms
    | some m => ms ++ [m]
  | .clear t => ms.set t (fun _ => none : K → Option V)
  | .set t k v => match ms[t]? with
    | none => ms
    | some m => ms.set t (fun k' => if eqv k k' = true then some v else m k')

/-- the abstract meaning of a history (specification) -/
def absRun (eqv : K → K → Bool) : List (K → Option V) → List (NOp K V) → List (K → Option V)
  | ms, [] => ms
  | ms, op :: ops => absRun eqv (absStep eqv ms op) ops

/-- what the abstract world answers (specification) -/
def absFind (ms : List (K → Option V)) (t : Nat) (k : K) : Option V :=
  match ms[t]? with
  | none => none
  | some m => m k

/-- invariant and abstraction of a world of native tables -/
structure Rel (hash : K → Word) (eqv : K → K → Bool) (h : Heap K V) (ts : List Store) (ms : List (K → Option V)) :
    Prop where
  len : ts.length = ms.length
  wf : ∀ (i : Nat) (s : Store), ts[i]? = some s → WF hash eqv h s
  disj : ∀ (i j : Nat) (s t : Store), ts[i]? = some s → ts[j]? = some t → i ≠ j → ∀ c ∈ s.flat, c ∉ t.flat
  maps : ∀ (i : Nat) (s : Store) (m : K → Option V), ts[i]? = some s → ms[i]? = some m → ∀ k v, Maps eqv h s.flat k v ↔ m k = some v

variable {hash : K → Word} {eqv : K → K → Bool}

theorem Rel.set {h h' : Heap K V} {ts : List Store} {ms : List (K → Option V)} (r : Rel hash eqv h ts ms) {t : Nat}
    {s s' : Store} {m' : K → Option V} (ht : ts[t]? = some s) {M : K → V → Prop}
    (e : Effect hash eqv h s h' s' M) (hM : ∀ k v, M k v ↔ m' k = some v) :
    Rel hash eqv h' (ts.set t s') (ms.set t m') := by
  have hlt : t < ts.length := (List.getElem?_eq_some_iff.1 ht).1
  have other : ∀ {i s1}, ts[i]? = some s1 → t ≠ i → ∀ c ∈ s1.flat, h'.get c = h.get c := by
    intro i s1 hi hne c hc
    exact e.frame c ((r.wf i s1 hi).fresh c hc) (fun hcs => r.disj t i s s1 ht hi hne c hcs hc)
  refine ⟨by simp [r.len], ?_, ?_, ?_⟩
  · intro i s1 hi
    rw [List.getElem?_set] at hi
    split at hi
    · rename_i hii
      cases hi; exact e.wf
    · rename_i hii
      exact (r.wf i s1 hi).frame e.next (fun c hc => e.keys c ((r.wf i s1 hi).fresh c hc))
  · intro i j s1 s2 hi hj hij c hc1 hc2
    rw [List.getElem?_set] at hi hj
    split at hi
    · rename_i hii
      subst hii
      cases hi
      rw [if_neg hij] at hj
      rcases e.owned c hc1 with h1 | h1
      · exact r.disj _ _ s s2 ht hj hij c h1 hc2
      · have := (r.wf j s2 hj).fresh c hc2; omega
    · split at hj
      · rename_i hjj
        subst hjj
        cases hj
        rcases e.owned c hc2 with h1 | h1
        · exact r.disj _ _ s1 s hi ht hij c hc1 h1
        · have := (r.wf i s1 hi).fresh c hc1; omega
      · exact r.disj _ _ s1 s2 hi hj hij c hc1 hc2
  · intro i s1 m1 hi hm k v
    rw [List.getElem?_set] at hi hm
    split at hi
    · rename_i hii
      subst hii
      cases hi
      rw [if_pos rfl, if_pos (by rw [← r.len]; exact hlt)] at hm; cases hm
      rw [e.maps, hM]
    · rename_i hii
      rw [if_neg hii] at hm
      rw [Maps.frame (other hi hii)]
      exact r.maps i s1 m1 hi hm k v

theorem Rel.push {h h' : Heap K V} {ts : List Store} {ms : List (K → Option V)} (r : Rel hash eqv h ts ms)
    {s' : Store} {m' : K → Option V} (w : WF hash eqv h' s') (hn : h.next ≤ h'.next)
    (hold : ∀ c, c < h.next → h'.get c = h.get c) (hnew : ∀ c ∈ s'.flat, h.next ≤ c)
    (hM : ∀ k v, Maps eqv h' s'.flat k v ↔ m' k = some v) :
    Rel hash eqv h' (ts ++ [s']) (ms ++ [m']) := by
  have split : ∀ {i s1}, (ts ++ [s'])[i]? = some s1 → (ts[i]? = some s1) ∨ (i = ts.length ∧ s1 = s') := by
    intro i s1 hi
    rw [List.getElem?_append] at hi
    split at hi
    · exact Or.inl hi
    · have hlt := (List.getElem?_eq_some_iff.1 hi).1
      simp at hlt
      have e : i - ts.length = 0 := by omega
      rw [e] at hi
      right; refine ⟨by omega, by simpa using hi.symm⟩
  refine ⟨by simp [r.len], ?_, ?_, ?_⟩
  · intro i s1 hi
    rcases split hi with hi | ⟨_, rfl⟩
    · exact (r.wf i s1 hi).frame hn (fun c hc => by unfold Heap.key; rw [hold c ((r.wf i s1 hi).fresh c hc)])
    · exact w
  · intro i j s1 s2 hi hj hij c hc1 hc2
    rcases split hi with hi0 | ⟨hi', rfl⟩ <;> rcases split hj with hj0 | ⟨hj', rfl⟩
    · exact r.disj _ _ _ _ hi0 hj0 hij c hc1 hc2
    · have := (r.wf i s1 hi0).fresh c hc1; have := hnew c hc2; omega
    · have := (r.wf j s2 hj0).fresh c hc2; have := hnew c hc1; omega
    · omega
  · intro i s1 m1 hi hm k v
    rcases split hi with hi | ⟨hi', rfl⟩
    · have hlt := (List.getElem?_eq_some_iff.1 hi).1
      rw [List.getElem?_append, if_pos (by rw [← r.len]; exact hlt)] at hm
      rw [Maps.frame (fun c hc => hold c ((r.wf i s1 hi).fresh c hc))]
      exact r.maps i s1 m1 hi hm k v
    · subst hi'
      rw [r.len, List.getElem?_append_right (by omega)] at hm
      simp at hm; subst hm
      exact hM k v

theorem Rel.step {w w' : World K V} {ms : List (K → Option V)} (cons : Consistent hash eqv)
    (r : Rel hash eqv w.heap w.tables ms) (op : NOp K V) (e : w.step hash eqv op = .ok w') :
    Rel hash eqv w'.heap w'.tables (absStep eqv ms op) := by
  cases op with
  | make hint =>
    simp only [World.step, mkStore] at e
    obtain ⟨s, hs, e⟩ := Res.bind_eq_ok.1 e
    obtain ⟨n, hn, hs⟩ := Res.bind_eq_ok.1 hs
    cases hs; cases e
    refine r.push (wf_empty _ (findSize_spec hn).1) (Nat.le_refl _) (fun _ _ => rfl) ?_ ?_
    · simp [Store.flat]
    · simp [Maps, Store.flat]
  | copy t =>
    simp only [World.step] at e
    simp only [absStep]
    cases ht : w.tables[t]? with
    | none =>
      rw [ht] at e; cases e
      have : ms[t]? = none := by rw [List.getElem?_eq_none_iff] at *; rw [← r.len]; exact ht
      rw [this]; exact r
    | some s =>
      rw [ht] at e; cases e
      have hlt : t < ms.length := by rw [← r.len]; exact (List.getElem?_eq_some_iff.1 ht).1
      rw [List.getElem?_eq_getElem hlt]
      obtain ⟨h1, h2, h3, h4, h5⟩ := copyStore_spec (r.wf t s ht)
      refine r.push h1 h3 h4 h5 ?_
      intro k v
      rw [h2, r.maps t s _ ht (List.getElem?_eq_getElem hlt)]
  | clear t =>
    simp only [World.step] at e
    simp only [absStep]
    cases ht : w.tables[t]? with
    | none =>
      rw [ht] at e; cases e
      rw [List.set_eq_of_length_le (by rw [← r.len]; exact List.getElem?_eq_none_iff.1 ht)]; exact r
    | some s =>
      rw [ht] at e; cases e
      refine r.set ht (M := fun _ _ => False) ⟨wf_empty _ (by decide), ?_, Nat.le_refl _, fun _ _ _ => rfl, fun _ _ => rfl, ?_⟩ ?_
      · simp [Maps, Store.flat, clearStore]
      · simp [Store.flat, clearStore]
      · simp
  | set t k v =>
    simp only [World.step] at e
    simp only [absStep]
    cases ht : w.tables[t]? with
    | none =>
      rw [ht] at e; cases e
      have : ms[t]? = none := by rw [List.getElem?_eq_none_iff] at *; rw [← r.len]; exact ht
      rw [this]; exact r
    | some s =>
      rw [ht] at e
      simp only at e
      obtain ⟨⟨h', s'⟩, hs, e⟩ := Res.bind_eq_ok.1 e
      cases e
      have hlt : t < ms.length := by rw [← r.len]; exact (List.getElem?_eq_some_iff.1 ht).1
      rw [List.getElem?_eq_getElem hlt]
      refine r.set ht (eqSet_effect cons (r.wf t s ht) hs) ?_
      intro k' v'
      split
      · simp [eq_comm]
      · exact r.maps t s _ ht (List.getElem?_eq_getElem hlt) k' v'

theorem Rel.run {w w' : World K V} {ms : List (K → Option V)} (cons : Consistent hash eqv)
    (r : Rel hash eqv w.heap w.tables ms) (ops : List (NOp K V)) (e : w.run hash eqv ops = .ok w') :
    Rel hash eqv w'.heap w'.tables (absRun eqv ms ops) := by
  induction ops generalizing w ms with
  | nil => cases e; exact r
  | cons op ops ih =>
    obtain ⟨w1, h1, h2⟩ := Res.bind_eq_ok.1 e
    exact ih (r.step cons op h1) h2

theorem Rel.empty (h : Heap K V) : Rel hash eqv h [] [] := ⟨rfl, by simp, by simp, by simp⟩

theorem Rel.find {w : World K V} {ms : List (K → Option V)} (cons : Consistent hash eqv)
    (r : Rel hash eqv w.heap w.tables ms) (t : Nat) (k : K) : w.find hash eqv t k = absFind ms t k := by
  unfold World.find absFind
  cases ht : w.tables[t]? with
  | none =>
    have : ms[t]? = none := by rw [List.getElem?_eq_none_iff] at *; rw [← r.len]; exact ht
    rw [this]
  | some s =>
    have hlt : t < ms.length := by rw [← r.len]; exact (List.getElem?_eq_some_iff.1 ht).1
    rw [List.getElem?_eq_getElem hlt]
    have h1 := find_iff_maps cons (r.wf t s ht) k
    have h2 := r.maps t s _ ht (List.getElem?_eq_getElem hlt) k
    apply Option.ext
    intro v
    simp only
    rw [h1, h2]

end

/-! ## `eq-hash` agrees with `eq?` -/

/-- `eq?` is an equivalence and eq objects have equal hashes, whatever the objects in memory. -/
theorem eq_consistent (obj : Word → EqKind) : Consistent (eqHash obj) (eqp obj) where
  refl := by intro k; simp [eqp]
  symm := by
    intro a b h
    by_cases hab : a = b
    · subst hab; exact h
    · have hba : ¬ b = a := fun h => hab h.symm
      unfold eqp at *
      rw [if_neg hab] at h
      rw [if_neg hba]
      revert h
      cases obj a <;> cases obj b <;> simp only [beq_iff_eq, Bool.false_eq_true, false_implies] <;> exact fun h => h.symm
  trans := by
    intro a b c h1 h2
    by_cases hac : a = c
    · simp [eqp, hac]
    by_cases hab : a = b
    · subst hab; exact h2
    by_cases hbc : b = c
    · subst hbc; exact h1
    unfold eqp at *
    rw [if_neg hab] at h1
    rw [if_neg hbc] at h2
    rw [if_neg hac]
    revert h1 h2
    cases obj a <;> cases obj b <;> cases obj c <;> simp
    · rintro rfl rfl; rfl
    · rintro rfl rfl; rfl
  hash := by
    intro a b h
    by_cases hab : a = b
    · subst hab; rfl
    · unfold eqp at h
      rw [if_neg hab] at h
      unfold eqHash
      revert h
      cases obj a <;> cases obj b <;> simp
      · rintro rfl; rfl
      · rintro rfl; rfl

/-! ## C06 -/

/-- C06 (and the native part of C10): in every history of native tables (make, copy, clear, set on any number of
tables sharing the heap) every lookup in every table answers what the finite maps answer. -/
theorem C06_native_map {V : Type} (obj : Word → EqKind) (h : Heap Word V) (ops : List (NOp Word V)) (w : World Word V)
    (e : World.run (eqHash obj) (eqp obj) ⟨h, []⟩ ops = .ok w) (t : Nat) (k : Word) :
    w.find (eqHash obj) (eqp obj) t k = absFind (absRun (eqp obj) [] ops) t k :=
  (Rel.run (eq_consistent obj) (Rel.empty h) ops e).find (eq_consistent obj) t k

/-- C06 for any hash function consistent with any equivalence. -/
theorem C06_native_map_any {K V : Type} {hash : K → Word} {eqv : K → K → Bool} (cons : Consistent hash eqv)
    (h : Heap K V) (ops : List (NOp K V)) (w : World K V) (e : World.run hash eqv ⟨h, []⟩ ops = .ok w) (t : Nat) (k : K) :
    w.find hash eqv t k = absFind (absRun eqv [] ops) t k :=
  (Rel.run cons (Rel.empty h) ops e).find cons t k

section
variable {K V : Type} {hash : K → Word} {eqv : K → K → Bool}

theorem findSize_ok {hint : Nat} (h : hint ≤ 4611686018427388039) : ∃ n, findSize hint = .ok n := by
  unfold findSize
  cases hf : bucketSizes.find? (fun s => decide (hint ≤ s)) with
  | some s => exact ⟨s, rfl⟩
  | none =>
    rw [List.find?_eq_none] at hf
    have := hf 4611686018427388039 (by decide)
    simp at this; omega

theorem eqSet_ok {h : Heap K V} {s : Store} {k : K} {v : V} (hc : s.count < 4611686018427388039) :
    ∃ h' s', eqSet hash eqv h s k v = .ok (h', s') ∧ s'.count ≤ s.count + 1 := by
  unfold eqSet
  simp only
  split
  · exact ⟨_, _, rfl, by omega⟩
  · split
    · unfold eqResize
      obtain ⟨n, hn⟩ := findSize_ok (hint := s.count + 1) (by omega)
      have hcnt : (s.setBucket (hash k) ((h.alloc k v).2 :: s.bucket (hash k))).count + 1 = s.count + 1 := rfl
      simp only [hcnt, hn, Res.ok_bind, Res.pure_eq]
      exact ⟨_, _, rfl, Nat.le_refl _⟩
    · exact ⟨_, _, rfl, Nat.le_refl _⟩

/-- every `make` in the history asks for a size the size table covers (specification) -/
def hintsOk : List (NOp K V) → Prop
  | [] => True
  | .make hint :: ops => hint ≤ 4611686018427388039 ∧ hintsOk ops
  | _ :: ops => hintsOk ops

theorem run_ok (ops : List (NOp K V)) : ∀ (w : World K V) (n : Nat), (∀ s ∈ w.tables, s.count ≤ n) →
    n + ops.length ≤ 4611686018427388039 → hintsOk ops → ∃ w', w.run hash eqv ops = .ok w' := by
  induction ops with
  | nil => intro w n _ _ _; exact ⟨w, rfl⟩
  | cons op ops ih =>
    intro w n hw hn hh
    simp only [List.length_cons] at hn
    have : ∃ w1, w.step hash eqv op = .ok w1 ∧ (∀ s ∈ w1.tables, s.count ≤ n + 1) := by
      cases op with
      | make hint =>
        obtain ⟨m, hm⟩ := findSize_ok hh.1
        refine ⟨_, by simp [World.step, mkStore, hm]; rfl, ?_⟩
        intro s hs
        rcases List.mem_append.1 hs with hs | hs
        · have := hw s hs; omega
        · simp at hs; subst hs; simp
      | copy t =>
        simp only [World.step]
        cases ht : w.tables[t]? with
        | none => exact ⟨_, rfl, fun s hs => by have := hw s hs; omega⟩
        | some s0 =>
          refine ⟨_, rfl, ?_⟩
          intro s hs
          rcases List.mem_append.1 hs with hs | hs
          · have := hw s hs; omega
          · simp at hs; subst hs
            have := hw s0 (List.mem_of_getElem? ht)
            simp only [copyStore]; omega
      | clear t =>
        simp only [World.step]
        cases ht : w.tables[t]? with
        | none => exact ⟨_, rfl, fun s hs => by have := hw s hs; omega⟩
        | some s0 =>
          refine ⟨_, rfl, ?_⟩
          intro s hs
          rcases List.mem_or_eq_of_mem_set hs with hs | hs
          · have := hw s hs; omega
          · subst hs; simp [clearStore]
      | set t k v =>
        simp only [World.step]
        cases ht : w.tables[t]? with
        | none => exact ⟨_, rfl, fun s hs => by have := hw s hs; omega⟩
        | some s0 =>
          have h0 := hw s0 (List.mem_of_getElem? ht)
          obtain ⟨h', s', he, hc⟩ := eqSet_ok (hash := hash) (eqv := eqv) (h := w.heap) (s := s0) (k := k) (v := v) (by omega)
          refine ⟨⟨h', w.tables.set t s'⟩, by simp only [he, Res.ok_bind]; rfl, ?_⟩
          intro s hs
          rcases List.mem_or_eq_of_mem_set hs with hs | hs
          · have := hw s hs; omega
          · subst hs; omega
    obtain ⟨w1, h1, h2⟩ := this
    have hh' : hintsOk ops := by cases op <;> first | exact hh.2 | exact hh
    obtain ⟨w2, h3⟩ := ih w1 (n + 1) h2 (by omega) hh'
    exact ⟨w2, by rw [World.run, h1]; exact h3⟩

end

/-- C06, no undefined behaviour: a history of fewer than 4611686018427388039 operations with sane size hints runs. -/
theorem C06_runs {K V : Type} {hash : K → Word} {eqv : K → K → Bool} (h : Heap K V) (ops : List (NOp K V))
    (hl : ops.length ≤ 4611686018427388039) (hh : hintsOk ops) : ∃ w, World.run hash eqv ⟨h, []⟩ ops = .ok w :=
  run_ok ops ⟨h, []⟩ 0 (by simp) (by omega) hh

/-- a history with a collision, a copy taken between two writes and a clear -/
def sampleOps : List (NOp Word Nat) :=
  [.make 0, .set 0 16#64 1, .set 0 17#64 2, .copy 0, .set 0 16#64 3, .clear 1, .set 1 5#64 9, .copy 7]

example : sampleOps.length ≤ 4611686018427388039 ∧ hintsOk sampleOps := by simp [sampleOps, hintsOk]

example : absFind (absRun (eqp (fun _ => .other)) [] sampleOps) 0 16#64 = some 3 := by decide

/-! ## C07 -/

/-- C07: after any history every table's size is the number of its distinct keys (there is a list of that many pairwise
different keys, and exactly the keys equivalent to one of them are found), it does not exceed the number of buckets, and
the number of buckets is one of the fixed sizes. -/
theorem C07_size_and_load {K V : Type} {hash : K → Word} {eqv : K → K → Bool} (cons : Consistent hash eqv)
    (h : Heap K V) (ops : List (NOp K V)) (w : World K V) (e : World.run hash eqv ⟨h, []⟩ ops = .ok w)
    (t : Nat) (s : Store) (ht : w.tables[t]? = some s) :
    (∃ ks : List K, ks.length = s.count ∧ ks.Pairwise (fun a b => eqv a b = false) ∧
      ∀ k, (w.find hash eqv t k).isSome = true ↔ ∃ k' ∈ ks, eqv k' k = true) ∧
    s.count ≤ s.alloc ∧ s.alloc ∈ bucketSizes ∧ s.buckets.length = s.alloc := by
  have r := Rel.run cons (Rel.empty h) ops e
  have wf := r.wf t s ht
  have load : ∀ (ops : List (NOp K V)) (w w' : World K V) (ms), Rel hash eqv w.heap w.tables ms →
      (∀ s ∈ w.tables, s.count ≤ s.alloc) → w.run hash eqv ops = .ok w' → ∀ s ∈ w'.tables, s.count ≤ s.alloc := by
    intro ops
    induction ops with
    | nil => intro w w' _ _ hw e; cases e; exact hw
    | cons op ops ih =>
      intro w w' ms r hw e
      obtain ⟨w1, h1, h2⟩ := Res.bind_eq_ok.1 e
      refine ih w1 w' _ (r.step cons op h1) ?_ h2
      cases op with
      | make hint =>
        simp only [World.step, mkStore] at h1
        obtain ⟨s, hs, h1⟩ := Res.bind_eq_ok.1 h1
        obtain ⟨n, hn, hs⟩ := Res.bind_eq_ok.1 hs
        cases hs; cases h1
        intro s hs
        rcases List.mem_append.1 hs with hs | hs
        · exact hw s hs
        · simp at hs; subst hs; simp
      | copy t =>
        simp only [World.step] at h1
        cases ht : w.tables[t]? with
        | none => rw [ht] at h1; cases h1; exact hw
        | some s0 =>
          rw [ht] at h1; cases h1
          intro s hs
          rcases List.mem_append.1 hs with hs | hs
          · exact hw s hs
          · simp at hs; subst hs; exact hw s0 (List.mem_of_getElem? ht)
      | clear t =>
        simp only [World.step] at h1
        cases ht : w.tables[t]? with
        | none => rw [ht] at h1; cases h1; exact hw
        | some s0 =>
          rw [ht] at h1; cases h1
          intro s hs
          rcases List.mem_or_eq_of_mem_set hs with hs | hs
          · exact hw s hs
          · subst hs; simp [clearStore]
      | set t k v =>
        simp only [World.step] at h1
        cases ht : w.tables[t]? with
        | none => rw [ht] at h1; cases h1; exact hw
        | some s0 =>
          rw [ht] at h1
          obtain ⟨⟨h', s'⟩, he, h1⟩ := Res.bind_eq_ok.1 h1
          cases h1
          have h0 := hw s0 (List.mem_of_getElem? ht)
          intro s hs
          rcases List.mem_or_eq_of_mem_set hs with hs | hs
          · exact hw s hs
          · subst hs
            unfold eqSet at he
            simp only at he
            split at he
            · cases he; exact h0
            · split at he
              · obtain ⟨s'', hs, he⟩ := Res.bind_eq_ok.1 he
                cases he
                unfold eqResize at hs
                obtain ⟨n, hn, hs⟩ := Res.bind_eq_ok.1 hs
                cases hs
                exact (findSize_spec hn).2
              · cases he; simp only; omega
  refine ⟨⟨s.flat.map w.heap.key, by simp [wf.count], by rw [List.pairwise_map]; exact wf.uniq, ?_⟩,
    load ops ⟨h, []⟩ w [] (Rel.empty h) (by simp) e s (List.mem_of_getElem? ht), wf.size, wf.len⟩
  intro k
  unfold World.find
  rw [ht]
  simp only [Option.isSome_map, List.mem_map]
  cases hc : findCell hash eqv w.heap s k with
  | none =>
    have := findCell_none cons wf hc
    simp only [Option.isSome_none, Bool.false_eq_true, false_iff]
    rintro ⟨_, ⟨c, h1, rfl⟩, h2⟩
    rw [this c h1] at h2; cases h2
  | some c =>
    simp only [Option.isSome_some, true_iff]
    obtain ⟨h1, h2⟩ := findCell_some wf hc
    exact ⟨_, ⟨c, h1, rfl⟩, h2⟩

/-- C07, growth: when setting a key changes the number of buckets, the table grew and the new number of buckets is the
smallest of the fixed sizes that holds all keys. -/
theorem C07_growth {K V : Type} {hash : K → Word} {eqv : K → K → Bool} (h h' : Heap K V) (s s' : Store) (k : K) (v : V)
    (e : eqSet hash eqv h s k v = .ok (h', s')) (hne : s'.alloc ≠ s.alloc) :
    s.alloc < s'.alloc ∧ s'.count ≤ s'.alloc ∧ ∀ n ∈ bucketSizes, s'.count ≤ n → s'.alloc ≤ n := by
  have sorted : bucketSizes.Pairwise (· ≤ ·) := by decide
  have least : ∀ (l : List Nat) (hint n : Nat), l.Pairwise (· ≤ ·) → l.find? (fun s => decide (hint ≤ s)) = some n →
      ∀ m ∈ l, hint ≤ m → n ≤ m := by
    intro l
    induction l with
    | nil => intro hint n _ h; cases h
    | cons a l ih =>
      intro hint n hp hf m hm hle
      rw [List.pairwise_cons] at hp
      rw [List.find?_cons] at hf
      split at hf
      · cases hf
        rcases List.mem_cons.1 hm with rfl | hm
        · exact Nat.le_refl _
        · exact hp.1 m hm
      · rename_i hd
        rcases List.mem_cons.1 hm with rfl | hm
        · simp at hd; omega
        · exact ih hint n hp.2 hf m hm hle
  unfold eqSet at e
  simp only at e
  split at e
  · cases e; exact absurd rfl hne
  · split at e
    · rename_i hlt
      obtain ⟨s'', hs, e⟩ := Res.bind_eq_ok.1 e
      cases e
      unfold eqResize at hs
      obtain ⟨n, hn, hs⟩ := Res.bind_eq_ok.1 hs
      cases hs
      have h1 := findSize_spec hn
      simp only [Store.setBucket] at *
      refine ⟨by omega, h1.2, ?_⟩
      unfold findSize at hn
      split at hn
      · rename_i hf; cases hn
        exact least _ _ _ sorted hf
      · cases hn
    · cases e; exact absurd rfl hne

/-- keys that all collide, in a table holding 13 of them: the next insertion grows it to 29 buckets -/
def fullStore : Store := { alloc := 13, buckets := List.range 13 :: List.replicate 12 [], count := 13 }

example : (match eqSet (fun _ : Nat => 0#64) (fun a b => a == b) (⟨fun c => (c, c), 13⟩ : Heap Nat Nat) fullStore 13 5 with
    | .ok (_, s) => s.alloc | _ => 0) = 29 := by decide +kernel

end Minim.Hash
