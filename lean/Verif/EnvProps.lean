import Verif.EnvLemmas

set_option autoImplicit false
set_option linter.unusedSectionVars false

/-!
# Properties of top-level environments (C12 - C14, C69, C70)

Specification: an environment is a finite map from names to a value (`none`: the unbound object left by a forward
reference) and a mutability flag.  `eAbsStep` says what each operation means; no buckets, cells or hashes.
-/

namespace Minim.Env

open Minim.Hash

section
variable {K V : Type} [DecidableEq K]

/-- the abstract meaning of the operations (specification) -/
def eAbsStep (ms : List (EMap K V)) : EOp K V → List (EMap K V)
  | .new => ms ++ [(fun _ => none : EMap K V)]
  | .copyAll e f => match ms[e]? with
    | none => ms
    | some m => ms ++ [(fun k => (m k).map (fun p => (p.1, f)) : EMap K V)]
  | .copySyms e f syms => match ms[e]? with
    | none => ms
    | some m => ms ++ [(fun k => if k ∈ syms then (m k).map (fun p => (p.1, f)) else none : EMap K V)]
  | .set e k v => match ms[e]? with
    | none => ms
    | some m => ms.set e (fun k' => if k' = k then some (some v, ((m k).map Prod.snd).getD true) else m k')
  | .cell e k => match ms[e]? with
    | none => ms
    | some m => match m k with
      | some _ => ms
      | none => ms.set e (fun k' => if k' = k then some (none, true) else m k')
  | .rebind e k v => match ms[e]? with
    | none => ms
    | some m => match m k with
      | none => ms
      | some p => ms.set e (fun k' => if k' = k then some (some v, p.2) else m k')

/-- the abstract meaning of a history (specification) -/
def eAbsRun : List (EMap K V) → List (EOp K V) → List (EMap K V)
  | ms, [] => ms
  | ms, op :: ops => eAbsRun (eAbsStep ms op) ops

/-- the content of environment `e` (specification) -/
def content (ms : List (EMap K V)) (e : Nat) : EMap K V :=
  match ms[e]? with
  | none => fun _ => none
  | some m => m

/-- no symbol list passed to `copy-environment` has a name twice (specification) -/
def distinctLists : List (EOp K V) → Prop
  | [] => True
  | .copySyms _ _ syms :: ops => syms.Nodup ∧ distinctLists ops
  | _ :: ops => distinctLists ops

variable {hash : K → Word}

/-- invariant and abstraction -/
def ERel (hash : K → Word) (w : EW K V) (ms : List (EMap K V)) : Prop :=
  Rel hash same w.heap w.envs (ms.map (lift hash))

theorem ERel.len {w : EW K V} {ms : List (EMap K V)} (r : ERel hash w ms) : w.envs.length = ms.length := by
  have := Rel.len r; rwa [List.length_map] at this

theorem ERel.absent {w : EW K V} {ms : List (EMap K V)} (r : ERel hash w ms) {e : Nat} (he : w.envs[e]? = none) :
    ms[e]? = none := by
  rw [List.getElem?_eq_none_iff] at *; rw [← r.len]; exact he

theorem ERel.get {w : EW K V} {ms : List (EMap K V)} (r : ERel hash w ms) {e : Nat} {s : Store}
    (he : w.envs[e]? = some s) : ∃ m, ms[e]? = some m ∧ WF hash same w.heap s ∧ Stored hash w.heap s ∧
      ∀ k v, Maps same w.heap s.flat k v ↔ lift hash m k = some v := by
  have hlt : e < ms.length := by rw [← r.len]; exact (List.getElem?_eq_some_iff.1 he).1
  have hm : ms[e]? = some ms[e] := List.getElem?_eq_getElem hlt
  have hmaps := Rel.maps r e s (lift hash ms[e]) he (by rw [List.getElem?_map, hm]; rfl)
  refine ⟨ms[e], hm, Rel.wf r e s he, ?_, hmaps⟩
  intro c hc
  have := (hmaps (w.heap.key c) (w.heap.val c)).1 ⟨c, hc, by simp, rfl⟩
  exact (lift_some.1 this).2

theorem ERel.set {w : EW K V} {ms : List (EMap K V)} (r : ERel hash w ms) {e : Nat} {s : Store}
    (he : w.envs[e]? = some s) {h' : Heap K (EVal V)} {s' : Store} {M : K → EVal V → Prop} {m' : EMap K V}
    (eff : Effect hash same w.heap s h' s' M) (hM : ∀ k v, M k v ↔ lift hash m' k = some v) :
    ERel hash ⟨h', w.envs.set e s'⟩ (ms.set e m') := by
  unfold ERel
  rw [List.map_set]
  exact Rel.set r he eff hM

theorem ERel.push {w : EW K V} {ms : List (EMap K V)} (r : ERel hash w ms) {h' : Heap K (EVal V)}
    {s' : Store} {m' : EMap K V} (wf : WF hash same h' s') (hn : w.heap.next ≤ h'.next)
    (hold : ∀ c, c < w.heap.next → h'.get c = w.heap.get c) (hnew : ∀ c ∈ s'.flat, w.heap.next ≤ c)
    (hM : ∀ k v, Maps same h' s'.flat k v ↔ lift hash m' k = some v) :
    ERel hash ⟨h', w.envs ++ [s']⟩ (ms ++ [m']) := by
  unfold ERel
  rw [List.map_append]
  exact Rel.push r wf hn hold hnew hM

theorem set_maps {M : K → EVal V → Prop} {m : EMap K V} (hM : ∀ k v, M k v ↔ lift hash m k = some v) (k : K)
    (p : Option V × Bool) (k' : K) (v' : EVal V) : setM same M k ⟨p.1, hash k, p.2⟩ k' v' ↔
      lift hash (fun k' => if k' = k then some p else m k') k' = some v' := by
  unfold setM
  by_cases hk : k = k'
  · subst hk
    simp only [same, beq_self_eq_true, if_true, lift, Option.map_some, Option.some.injEq]
    exact eq_comm
  · have hk' : ¬ k' = k := fun h => hk h.symm
    have : lift hash (fun k' => if k' = k then some p else m k') k' = lift hash m k' := by
      unfold lift; simp only [if_neg hk']
    rw [this, if_neg (by simpa [same] using hk)]
    exact hM k' v'

theorem setCell_effect {h : Heap K (EVal V)} {s : Store} {m : EMap K V} (wf : WF hash same h s)
    (hmaps : ∀ k v, Maps same h s.flat k v ↔ lift hash m k = some v) {k : K} {c : Nat} (hc1 : c ∈ s.flat)
    (hc2 : same (h.key c) k = true) (v : V) : ∃ p, m k = some p ∧
      Effect hash same h s (setCell h c (some v)) s (setM same (Maps same h s.flat) k ⟨some v, hash k, p.2⟩) := by
  have hm := lift_some.1 ((hmaps k (h.val c)).1 ⟨c, hc1, hc2, rfl⟩)
  refine ⟨_, hm.1, ?_⟩
  have := Effect.setVal (same_consistent hash) wf { h.val c with val := some v } hc1 hc2
  refine Effect.of_eq this ?_
  intro k' v'
  unfold setM
  simp only [hm.2]

theorem maps_none {h : Heap K (EVal V)} {s : Store} {m : EMap K V} {k : K}
    (hmaps : ∀ k v, Maps same h s.flat k v ↔ lift hash m k = some v) (hn : ∀ c ∈ s.flat, same (h.key c) k = false) :
    m k = none := by
  cases hm : m k with
  | none => rfl
  | some p =>
    have : lift hash m k = some ⟨p.1, hash k, p.2⟩ := by unfold lift; rw [hm]; rfl
    obtain ⟨c, h1, h2, _⟩ := (hmaps _ _).2 this
    rw [hn c h1] at h2; cases h2

theorem ERel.step {w w' : EW K V} {ms : List (EMap K V)} (r : ERel hash w ms) (op : EOp K V)
    (hd : distinctLists [op]) (e : w.step hash op = .ok w') : ERel hash w' (eAbsStep ms op) := by
  have cons := same_consistent hash
  cases op with
  | new =>
    simp only [EW.step, mkEnv] at e
    obtain ⟨s, hs, e⟩ := Res.bind_eq_ok.1 e
    obtain ⟨n, hn, hs⟩ := Res.bind_eq_ok.1 hs
    cases hs; cases e
    refine r.push (wf_empty _ (findSize_spec hn).1) (Nat.le_refl _) (fun _ _ => rfl) ?_ ?_
    · simp [Store.flat]
    · simp [Maps, Store.flat, lift]
  | copyAll e1 f =>
    simp only [EW.step] at e
    simp only [eAbsStep]
    cases he : w.envs[e1]? with
    | none => rw [he] at e; cases e; rw [r.absent he]; exact r
    | some s =>
      rw [he] at e; cases e
      obtain ⟨m, hm, wf, _, hmaps⟩ := r.get he
      rw [hm]
      obtain ⟨h1, h2, h3, h4, h5⟩ := copyEnv_spec f wf
      refine r.push h1 h3 h4 h5 ?_
      intro k v
      rw [h2]
      constructor
      · rintro ⟨v', hv, rfl⟩
        have := lift_some.1 ((hmaps k v').1 hv)
        exact lift_some.2 ⟨by simp [this.1], this.2⟩
      · intro hv
        obtain ⟨a, b⟩ := lift_some.1 hv
        cases hmk : m k with
        | none => simp [hmk] at a
        | some p =>
          rw [hmk] at a
          simp only [Option.map_some, Option.some.injEq, Prod.mk.injEq] at a
          refine ⟨⟨p.1, hash k, p.2⟩, (hmaps k _).2 (lift_some.2 ⟨hmk, rfl⟩), ?_⟩
          cases v; simp_all
  | copySyms e1 f syms =>
    simp only [EW.step] at e
    simp only [eAbsStep]
    cases he : w.envs[e1]? with
    | none => rw [he] at e; cases e; rw [r.absent he]; exact r
    | some s =>
      rw [he] at e
      simp only [copySyms, mkEnv] at e
      obtain ⟨⟨h1, s1⟩, hs, e⟩ := Res.bind_eq_ok.1 e
      cases e
      obtain ⟨s2, hs2, hs⟩ := Res.bind_eq_ok.1 hs
      obtain ⟨n, hn, hs2⟩ := Res.bind_eq_ok.1 hs2
      cases hs2
      obtain ⟨m, hm, wf, st, hmaps⟩ := r.get he
      rw [hm]
      obtain ⟨i1, i2, i3, i4, i5⟩ := copySymsLoop_spec f wf st syms w.heap ⟨n, List.replicate n [], 0⟩ (Nat.le_refl _)
        (fun _ _ => rfl) (wf_empty _ (findSize_spec hn).1) (by simp [Store.flat]) hd.1 (by simp [Maps, Store.flat])
      simp only [Res.pure_eq, Res.ok.injEq] at hs
      rw [hs] at i1 i2 i3 i4 i5
      refine r.push i1 i3 i4 i5 ?_
      intro k v
      rw [i2]
      have hno : ¬ Maps same w.heap (Store.flat ⟨n, List.replicate n [], 0⟩) k v := by simp [Maps, Store.flat]
      constructor
      · rintro (h1 | ⟨h1, v', hv, rfl⟩)
        · exact absurd h1 hno
        · have := lift_some.1 ((hmaps k v').1 hv)
          exact lift_some.2 ⟨by simp [h1, this.1], this.2⟩
      · intro hv
        right
        obtain ⟨a, b⟩ := lift_some.1 hv
        split at a
        · rename_i hk
          refine ⟨hk, ?_⟩
          cases hmk : m k with
          | none => simp [hmk] at a
          | some p =>
            rw [hmk] at a
            simp only [Option.map_some, Option.some.injEq, Prod.mk.injEq] at a
            refine ⟨⟨p.1, hash k, p.2⟩, (hmaps k _).2 (lift_some.2 ⟨hmk, rfl⟩), ?_⟩
            cases v; simp_all
        · cases a
  | set e1 k v =>
    simp only [EW.step] at e
    simp only [eAbsStep]
    cases he : w.envs[e1]? with
    | none => rw [he] at e; cases e; rw [r.absent he]; exact r
    | some s =>
      rw [he] at e
      simp only at e
      obtain ⟨⟨h1, s1⟩, hs, e⟩ := Res.bind_eq_ok.1 e
      cases e
      obtain ⟨m, hm, wf, st, hmaps⟩ := r.get he
      rw [hm]
      simp only
      unfold envSet at hs
      rw [envFind_eq] at hs
      split at hs
      · rename_i c hc
        cases hs
        obtain ⟨hc1, hc2⟩ := findCell_some wf hc
        obtain ⟨p, hp, eff⟩ := setCell_effect wf hmaps hc1 hc2 v
        refine r.set he eff ?_
        rw [hp]
        exact set_maps hmaps k (some v, p.2)
      · rename_i hc
        obtain ⟨⟨h2, s2, c⟩, hi, hs⟩ := Res.bind_eq_ok.1 hs
        cases hs
        have hn := findCell_none cons wf hc
        obtain ⟨eff, _⟩ := envInsert_effect wf st hn hi
        refine r.set he eff ?_
        rw [maps_none hmaps hn]
        exact set_maps hmaps k (some v, true)
  | cell e1 k =>
    simp only [EW.step] at e
    simp only [eAbsStep]
    cases he : w.envs[e1]? with
    | none => rw [he] at e; cases e; rw [r.absent he]; exact r
    | some s =>
      rw [he] at e
      simp only at e
      obtain ⟨⟨h1, s1, c1⟩, hs, e⟩ := Res.bind_eq_ok.1 e
      cases e
      obtain ⟨m, hm, wf, st, hmaps⟩ := r.get he
      rw [hm]
      simp only
      unfold envCell at hs
      rw [envFind_eq] at hs
      split at hs
      · rename_i c hc
        cases hs
        obtain ⟨hc1, hc2⟩ := findCell_some wf hc
        rw [(lift_some.1 ((hmaps k _).1 ⟨_, hc1, hc2, rfl⟩)).1]
        simp only
        obtain ⟨hlt, hget⟩ := List.getElem?_eq_some_iff.1 he
        rw [← hget, List.set_getElem_self]
        exact r
      · rename_i hc
        have hn := findCell_none cons wf hc
        obtain ⟨eff, _⟩ := envInsert_effect wf st hn hs
        rw [maps_none hmaps hn]
        exact r.set he eff (set_maps hmaps k (none, true))
  | rebind e1 k v =>
    simp only [EW.step] at e
    simp only [eAbsStep]
    cases he : w.envs[e1]? with
    | none => rw [he] at e; cases e; rw [r.absent he]; exact r
    | some s =>
      rw [he] at e
      simp only at e
      obtain ⟨h1, hs, e⟩ := Res.bind_eq_ok.1 e
      cases e
      obtain ⟨m, hm, wf, st, hmaps⟩ := r.get he
      rw [hm]
      simp only
      unfold envRebind at hs
      rw [envFind_eq] at hs
      split at hs
      · rename_i c hc
        cases hs
        obtain ⟨hc1, hc2⟩ := findCell_some wf hc
        obtain ⟨p, hp, eff⟩ := setCell_effect wf hmaps hc1 hc2 v
        rw [hp]
        have := r.set he eff (set_maps hmaps k (some v, p.2))
        obtain ⟨hlt, hget⟩ := List.getElem?_eq_some_iff.1 he
        rw [← hget, List.set_getElem_self] at this
        exact this
      · cases hs

theorem distinct_cons {op : EOp K V} {ops : List (EOp K V)} (h : distinctLists (op :: ops)) :
    distinctLists [op] ∧ distinctLists ops := by
  cases op <;> first | exact ⟨⟨h.1, trivial⟩, h.2⟩ | exact ⟨trivial, h⟩

theorem ERel.run {w w' : EW K V} {ms : List (EMap K V)} (r : ERel hash w ms) (ops : List (EOp K V))
    (hd : distinctLists ops) (e : w.run hash ops = .ok w') : ERel hash w' (eAbsRun ms ops) := by
  induction ops generalizing w ms with
  | nil => cases e; exact r
  | cons op ops ih =>
    obtain ⟨h1, h2⟩ := distinct_cons hd
    obtain ⟨w1, hs, e⟩ := Res.bind_eq_ok.1 e
    exact ih (r.step op h1 hs) h2 e

theorem ERel.empty (h : Heap K (EVal V)) : ERel hash ⟨h, []⟩ [] := Rel.empty h

theorem symbols_eq (h : Heap K (EVal V)) (s : Store) : envSymbols h s = (s.flat.map h.key).reverse := by
  have inner : ∀ (b : List Nat) (acc : List K),
      b.foldl (fun acc c => h.key c :: acc) acc = (b.map h.key).reverse ++ acc := by
    intro b
    induction b with
    | nil => simp
    | cons c b ih => intro acc; simp [ih]
  have outer : ∀ (bs : List (List Nat)) (acc : List K),
      bs.foldl (fun acc b => b.foldl (fun acc c => h.key c :: acc) acc) acc = (bs.flatten.map h.key).reverse ++ acc := by
    intro bs
    induction bs with
    | nil => simp
    | cons b bs ih =>
      intro acc
      rw [List.foldl_cons, ih, inner, List.flatten_cons, List.map_append, List.reverse_append, List.append_assoc]
  unfold envSymbols Store.flat
  rw [outer, List.append_nil]

theorem find_content {w : EW K V} {ms : List (EMap K V)} (r : ERel hash w ms) {e : Nat} {s : Store}
    (he : w.envs[e]? = some s) (k : K) :
    (envFind hash w.heap s k).map (fun c => ((w.heap.val c).val, (w.heap.val c).mutable)) = content ms e k := by
  obtain ⟨m, hm, wf, st, hmaps⟩ := r.get he
  unfold content
  rw [hm, envFind_eq]
  simp only
  cases hc : findCell hash same w.heap s k with
  | none => rw [maps_none hmaps (findCell_none (same_consistent hash) wf hc)]; rfl
  | some c =>
    obtain ⟨hc1, hc2⟩ := findCell_some wf hc
    rw [(lift_some.1 ((hmaps k (w.heap.val c)).1 ⟨c, hc1, hc2, rfl⟩)).1]; rfl

end

/-! ## C12 -/

section
variable {K V : Type} [DecidableEq K] {hash : K → Word}

/-- C12, in part: after any history of creation, copying, environment-set!, definitions, captures and `set!` over any
number of environments, every lookup in every environment is what the finite maps say, and the symbol list has exactly
the bound names, each once.  Missing: copies made from symbol lists with repetitions, for which the claim is false
(`C12_negated_duplicates`). -/
theorem C12_env_map_partial (h : Heap K (EVal V)) (ops : List (EOp K V)) (hd : distinctLists ops) (w : EW K V)
    (e : EW.run hash ⟨h, []⟩ ops = .ok w) (i : Nat) (k : K) :
    w.ref hash i k = (content (eAbsRun [] ops) i k).map Prod.fst ∧
    w.lookup hash i k = (match content (eAbsRun [] ops) i k with
      | some (some v, _) => .ok v
      | _ => .err) ∧
    (w.symbols i).Nodup ∧ (k ∈ w.symbols i ↔ (content (eAbsRun [] ops) i k).isSome = true) := by
  have r := ERel.run (ERel.empty h) ops hd e
  unfold EW.ref EW.lookup EW.symbols
  cases he : w.envs[i]? with
  | none =>
    have : content (eAbsRun [] ops) i k = none := by unfold content; rw [r.absent he]
    rw [this]; simp
  | some s =>
    have hf := find_content r he k
    obtain ⟨m, hm, wf, st, hmaps⟩ := r.get he
    refine ⟨?_, ?_, ?_, ?_⟩
    · rw [← hf]; simp only [envRef, Option.map_map]; rfl
    · rw [← hf]
      simp only [envLookup]
      cases envFind hash w.heap s k with
      | none => rfl
      | some c =>
        simp only [Option.map_some]
        cases (w.heap.val c).val <;> rfl
    · simp only [symbols_eq]
      rw [List.Nodup, List.pairwise_reverse]
      refine List.pairwise_map.2 (wf.uniq.imp ?_)
      intro a b hab
      intro heq
      simp [same, heq] at hab
    · simp only [symbols_eq, List.mem_reverse, List.mem_map]
      rw [← hf, envFind_eq]
      constructor
      · rintro ⟨c, hc, rfl⟩
        cases hc' : findCell hash same w.heap s (w.heap.key c) with
        | none =>
          have := findCell_none (same_consistent hash) wf hc' c hc
          simp [same] at this
        | some d => rfl
      · intro hs
        cases hc' : findCell hash same w.heap s k with
        | none => rw [hc'] at hs; cases hs
        | some d =>
          obtain ⟨h1, h2⟩ := findCell_some wf hc'
          exact ⟨d, h1, by simpa [same] using h2⟩

/-- C12, in part, for `environment-ref` itself: a name without binding gives the failure value (or calls the failure
procedure), a bound name gives its value.  Missing: a value that is the failure procedure itself
(`C12_negated_fail`). -/
theorem C12_scheme_ref_partial [DecidableEq V] (h : Heap K (EVal V)) (ops : List (EOp K V)) (hd : distinctLists ops)
    (w : EW K V) (e : EW.run hash ⟨h, []⟩ ops = .ok w) (i : Nat) (s : Store) (hi : w.envs[i]? = some s) (k : K)
    (isProc : V → Bool) (fail : V) :
    (content (eAbsRun [] ops) i k = none →
      schemeRef hash isProc w.heap s k fail = if isProc fail = true then .callFail else .value (some fail)) ∧
    (∀ v b, content (eAbsRun [] ops) i k = some (v, b) → v ≠ some fail ∨ isProc fail = false →
      schemeRef hash isProc w.heap s k fail = .value v) := by
  have a := (C12_env_map_partial h ops hd w e i k).1
  unfold EW.ref at a
  rw [hi] at a
  simp only at a
  constructor
  · intro hc
    rw [hc] at a
    simp [schemeRef, a]
  · intro v b hc hv
    rw [hc] at a
    simp only [Option.map_some] at a
    simp only [schemeRef, a, Option.getD_some]
    split
    · rename_i hvf
      rcases hv with hv | hv
      · exact absurd hvf hv
      · rw [hv, hvf]; rfl
    · rfl

end

/-- an empty heap of cells with natural numbers as symbols and values -/
def heap0 : Heap Nat (EVal Nat) := ⟨fun _ => (0, ⟨none, 0#64, false⟩), 0⟩

/-- a hash function with collisions -/
def hash0 (k : Nat) : Word := BitVec.ofNat 64 (k / 2)

/-- a history with collisions, a forward reference, both kinds of copies and a `set!` -/
def sampleEOps : List (EOp Nat Nat) :=
  [.new, .set 0 4 1, .set 0 5 2, .cell 0 9, .copyAll 0 false, .copySyms 0 true [5, 7, 9], .rebind 0 4 8, .set 1 9 3,
   .set 2 7 6]

example : distinctLists sampleEOps := by simp [sampleEOps, distinctLists]

example : (EW.run hash0 ⟨heap0, []⟩ sampleEOps).bind (fun w => .ok [w.ref hash0 0 4, w.ref hash0 1 4, w.ref hash0 2 9,
    w.ref hash0 2 4]) = .ok [some (some 8), some (some 1), some none, none] := by decide

/-- the lookup of a name in environment 0 after a history (for the counterexamples) -/
def refAfter (ops : List (EOp Nat Nat)) (i k : Nat) : Res (Option (Option Nat)) :=
  (EW.run hash0 ⟨heap0, []⟩ ops).bind (fun w => .ok (w.ref hash0 i k))

/-- C12 is violated: a closure that refers to a name never set makes `environment-ref` answer with the unbound object
instead of the failure value, and the name is listed. -/
theorem C12_negated_forward_reference :
    refAfter [.new, .cell 0 7] 0 7 = .ok (some none) ∧
    (EW.run hash0 ⟨heap0, []⟩ [.new, .cell 0 7]).bind (fun w => .ok (w.symbols 0)) = .ok [7] := by decide

/-- C12 is violated: looking up a name bound to a procedure with that same procedure as failure argument calls the
procedure. -/
theorem C12_negated_fail :
    (EW.run hash0 ⟨heap0, []⟩ [.new, .set 0 7 3]).bind (fun w => match w.envs[0]? with
      | some s => .ok (w.ref hash0 0 7, schemeRef hash0 (fun _ => true) w.heap s 7 3)
      | none => .err) = .ok (some (some 3), .callFail) := by decide

/-- C12 is violated: `(copy-environment e #t '(x x))` gives two cells for `x`; the name is listed twice, and an
assignment is undone when the environment grows, because growing reverses the buckets. -/
theorem C12_negated_duplicates :
    (EW.run hash0 ⟨heap0, []⟩ [.new, .set 0 7 1, .copySyms 0 true [7, 7]]).bind (fun w => .ok (w.symbols 1)) = .ok [7, 7] ∧
    refAfter ([.new, .set 0 7 1, .copySyms 0 true [7, 7], .set 1 7 2] ++ (List.range 12).map (fun i => .set 1 (100 + i) 0)) 1 7
      = .ok (some (some 2)) ∧
    refAfter ([.new, .set 0 7 1, .copySyms 0 true [7, 7], .set 1 7 2] ++ (List.range 13).map (fun i => .set 1 (100 + i) 0)) 1 7
      = .ok (some (some 1)) := by decide +kernel

/-! ### no undefined behaviour -/

section
variable {K V : Type} [DecidableEq K] {hash : K → Word}

/-- the number of bindings a history can create (specification) -/
def weight : List (EOp K V) → Nat
  | [] => 0
  | .copySyms _ _ syms :: ops => syms.length + weight ops + 1
  | _ :: ops => weight ops + 1

/-- every `set!` is of a name bound at that time (specification) -/
def rebindsBound : List (EMap K V) → List (EOp K V) → Prop
  | _, [] => True
  | ms, .rebind e k v :: ops => (e < ms.length → (content ms e k).isSome = true) ∧ rebindsBound (eAbsStep ms (.rebind e k v)) ops
  | ms, op :: ops => rebindsBound (eAbsStep ms op) ops

theorem envInsert_ok {h : Heap K (EVal V)} {s : Store} (k : K) (v : Option V) (hc : 4 * s.count ≤ 4611686018427388039) :
    ∃ h' s' c, envInsert hash h s k v = .ok (h', s', c) ∧ s'.count = s.count + 1 := by
  have : ∃ s1, envGrow h s = .ok s1 ∧ s1.count = s.count := by
    unfold envGrow
    split
    · obtain ⟨n, hn⟩ := findSize_ok hc
      exact ⟨⟨n, s.flat.foldl (pushE h n) (List.replicate n []), s.count⟩, by simp only [envResize, hn, Res.ok_bind, Res.pure_eq], rfl⟩
    · exact ⟨s, rfl, rfl⟩
  obtain ⟨s1, h1, h2⟩ := this
  unfold envInsert
  simp only [h1, Res.ok_bind, Res.pure_eq]
  exact ⟨_, _, _, rfl, by simp [Store.setBucket, h2]⟩

theorem copySymsLoop_count (m : Bool) (s : Store) (syms : List K) : ∀ (h : Heap K (EVal V)) (s2 : Store),
    (copySymsLoop hash m s syms h s2).2.count ≤ s2.count + syms.length := by
  induction syms with
  | nil => intro h s2; simp [copySymsLoop]
  | cons k ks ih =>
    intro h s2
    rw [copySymsLoop]
    split
    · have := ih h s2; simp only [List.length_cons]; omega
    · refine Nat.le_trans (ih _ _) ?_
      simp only [List.length_cons, Store.setBucket]; omega

theorem step_ok {w : EW K V} {ms : List (EMap K V)} (r : ERel hash w ms) (op : EOp K V) (n : Nat)
    (hn : ∀ s ∈ w.envs, s.count ≤ n) (hw : 4 * (n + weight [op]) ≤ 4611686018427388039) (hb : rebindsBound ms [op]) :
    ∃ w', w.step hash op = .ok w' ∧ ∀ s ∈ w'.envs, s.count ≤ n + weight [op] := by
  have mono : ∀ s ∈ w.envs, s.count ≤ n + weight [op] := fun s hs => by have := hn s hs; omega
  cases op with
  | new =>
    obtain ⟨m, hm⟩ := findSize_ok (hint := 4 * 0) (by omega)
    refine ⟨_, by simp only [EW.step, mkEnv, hm, Res.ok_bind, Res.pure_eq]; rfl, ?_⟩
    intro s hs
    rcases List.mem_append.1 hs with hs | hs
    · exact mono s hs
    · simp at hs; subst hs; simp
  | copyAll e f =>
    simp only [EW.step]
    cases he : w.envs[e]? with
    | none => exact ⟨w, rfl, mono⟩
    | some s0 =>
      refine ⟨_, rfl, ?_⟩
      intro s hs
      rcases List.mem_append.1 hs with hs | hs
      · exact mono s hs
      · simp at hs; subst hs; exact mono s0 (List.mem_of_getElem? he)
  | copySyms e f syms =>
    simp only [EW.step]
    cases he : w.envs[e]? with
    | none => exact ⟨w, rfl, mono⟩
    | some s0 =>
      simp only [weight] at hw
      obtain ⟨m, hm⟩ := findSize_ok (hint := 4 * syms.length) (by omega)
      refine ⟨_, by simp only [copySyms, mkEnv, hm, Res.ok_bind, Res.pure_eq]; rfl, ?_⟩
      intro s hs
      rcases List.mem_append.1 hs with hs | hs
      · exact mono s hs
      · simp at hs; subst hs
        have := copySymsLoop_count (hash := hash) f s0 syms w.heap ⟨m, List.replicate m [], 0⟩
        simp only [weight] at *; omega
  | set e k v =>
    simp only [EW.step]
    cases he : w.envs[e]? with
    | none => exact ⟨w, rfl, mono⟩
    | some s0 =>
      have h0 := hn s0 (List.mem_of_getElem? he)
      simp only [weight] at hw mono ⊢
      simp only [envSet]
      cases hf : envFind hash w.heap s0 k with
      | some c =>
        refine ⟨_, rfl, ?_⟩
        intro s hs
        rcases List.mem_or_eq_of_mem_set hs with hs | rfl
        · exact mono s hs
        · omega
      | none =>
        obtain ⟨h', s', c, h1, h2⟩ := envInsert_ok (hash := hash) (h := w.heap) (s := s0) k (some v) (by omega)
        refine ⟨⟨h', w.envs.set e s'⟩, by simp only [h1, Res.ok_bind]; rfl, ?_⟩
        intro s hs
        rcases List.mem_or_eq_of_mem_set hs with hs | rfl
        · exact mono s hs
        · omega
  | cell e k =>
    simp only [EW.step]
    cases he : w.envs[e]? with
    | none => exact ⟨w, rfl, mono⟩
    | some s0 =>
      have h0 := hn s0 (List.mem_of_getElem? he)
      simp only [weight] at hw mono ⊢
      simp only [envCell]
      cases hf : envFind hash w.heap s0 k with
      | some c =>
        refine ⟨_, rfl, ?_⟩
        intro s hs
        rcases List.mem_or_eq_of_mem_set hs with hs | rfl
        · exact mono s hs
        · omega
      | none =>
        obtain ⟨h', s', c, h1, h2⟩ := envInsert_ok (hash := hash) (h := w.heap) (s := s0) k (none : Option V) (by omega)
        refine ⟨⟨h', w.envs.set e s'⟩, by simp only [h1, Res.ok_bind]; rfl, ?_⟩
        intro s hs
        rcases List.mem_or_eq_of_mem_set hs with hs | rfl
        · exact mono s hs
        · omega
  | rebind e k v =>
    simp only [EW.step]
    cases he : w.envs[e]? with
    | none => exact ⟨w, rfl, mono⟩
    | some s0 =>
      have hs := hb.1 (by rw [← r.len]; exact (List.getElem?_eq_some_iff.1 he).1)
      rw [← find_content r he k] at hs
      simp only [envRebind]
      cases hf : envFind hash w.heap s0 k with
      | some c => exact ⟨_, rfl, mono⟩
      | none => rw [hf] at hs; cases hs

theorem weight_cons (op : EOp K V) (ops : List (EOp K V)) : weight (op :: ops) = weight [op] + weight ops := by
  cases op <;> simp only [weight] <;> omega

theorem rebinds_cons {ms : List (EMap K V)} {op : EOp K V} {ops : List (EOp K V)} (h : rebindsBound ms (op :: ops)) :
    rebindsBound ms [op] ∧ rebindsBound (eAbsStep ms op) ops := by
  cases op <;> first | exact ⟨⟨h.1, trivial⟩, h.2⟩ | exact ⟨trivial, h⟩

theorem run_ok (ops : List (EOp K V)) : ∀ (w : EW K V) (ms : List (EMap K V)) (n : Nat), ERel hash w ms →
    (∀ s ∈ w.envs, s.count ≤ n) → 4 * (n + weight ops) ≤ 4611686018427388039 → distinctLists ops → rebindsBound ms ops →
    ∃ w', w.run hash ops = .ok w' := by
  induction ops with
  | nil => intro w _ _ _ _ _ _ _; exact ⟨w, rfl⟩
  | cons op ops ih =>
    intro w ms n r hn hw hd hb
    rw [weight_cons] at hw
    obtain ⟨hb1, hb2⟩ := rebinds_cons hb
    obtain ⟨hd1, hd2⟩ := distinct_cons hd
    obtain ⟨w1, h1, h2⟩ := step_ok r op n hn (by omega) hb1
    obtain ⟨w2, h3⟩ := ih w1 _ _ (r.step op hd1 h1) h2 (by omega) hd2 hb2
    exact ⟨w2, by rw [EW.run, h1]; exact h3⟩

/-- C12/C70, in part: a history with at most about 10^18 bindings in which every `set!` is of a bound name never runs
into undefined behaviour. -/
theorem C70_defined_partial (h : Heap K (EVal V)) (ops : List (EOp K V)) (hw : 4 * weight ops ≤ 4611686018427388039)
    (hd : distinctLists ops) (hb : rebindsBound [] ops) : ∃ w, EW.run hash ⟨h, []⟩ ops = .ok w :=
  run_ok ops ⟨h, []⟩ [] 0 (ERel.empty h) (by simp) (by omega) hd hb

end

example : 4 * weight sampleEOps ≤ 4611686018427388039 ∧ distinctLists sampleEOps ∧ rebindsBound [] sampleEOps := by
  simp [sampleEOps, weight, distinctLists, rebindsBound, eAbsStep, content]

/-- C70 is violated: `set!` of a name without binding dereferences the object #f as a pair. -/
theorem C70_negated_set_undefined (k v : Nat) : EW.run hash0 ⟨heap0, []⟩ [.new, .rebind 0 k v] = .ub := by
  have : findSize 0 = .ok 13 := by decide
  simp only [EW.run, EW.step, mkEnv, Nat.mul_zero, this, Res.ok_bind, Res.pure_eq, List.nil_append,
    List.getElem?_cons_zero, envRebind]
  have : envFind hash0 heap0 ⟨13, List.replicate 13 [], 0⟩ k = none := by
    unfold envFind Store.bucket
    rw [replicate_getD]; rfl
  rw [this]; rfl

/-! ## C13 -/

section
variable {K V : Type} [DecidableEq K] {hash : K → Word}

/-- operations that work on environment `e` (specification) -/
def EOp.on (e : Nat) : EOp K V → Bool
  | .new => false
  | .copyAll _ _ => false
  | .copySyms _ _ _ => false
  | .set e' _ _ => e' == e
  | .cell e' _ => e' == e
  | .rebind e' _ _ => e' == e

theorem eAbsStep_other {e : Nat} {op : EOp K V} (hop : op.on e = false) {ms : List (EMap K V)} (he : e < ms.length) :
    (eAbsStep ms op)[e]? = ms[e]? ∧ e < (eAbsStep ms op).length := by
  have app : ∀ m : EMap K V, (ms ++ [m])[e]? = ms[e]? ∧ e < (ms ++ [m]).length := fun m => by
    rw [List.getElem?_append_left he]; simp; omega
  have set : ∀ (e' : Nat) (m : EMap K V), ¬ e' = e → (ms.set e' m)[e]? = ms[e]? ∧ e < (ms.set e' m).length :=
    fun e' m h => by simp only [List.getElem?_set, h, if_false, List.length_set]; exact ⟨trivial, he⟩
  cases op with
  | new => exact app _
  | copyAll e' f => simp only [eAbsStep]; split; exact ⟨rfl, he⟩; exact app _
  | copySyms e' f syms => simp only [eAbsStep]; split; exact ⟨rfl, he⟩; exact app _
  | set e' k v =>
    have : ¬ e' = e := by simpa [EOp.on] using hop
    simp only [eAbsStep]; split; exact ⟨rfl, he⟩; exact set _ _ this
  | cell e' k =>
    have : ¬ e' = e := by simpa [EOp.on] using hop
    simp only [eAbsStep]; split; exact ⟨rfl, he⟩; split; exact ⟨rfl, he⟩; exact set _ _ this
  | rebind e' k v =>
    have : ¬ e' = e := by simpa [EOp.on] using hop
    simp only [eAbsStep]; split; exact ⟨rfl, he⟩; split; exact ⟨rfl, he⟩; exact set _ _ this

theorem eAbsRun_other {e : Nat} (ops : List (EOp K V)) : ∀ (ms : List (EMap K V)), (∀ op ∈ ops, op.on e = false) →
    e < ms.length → (eAbsRun ms ops)[e]? = ms[e]? := by
  induction ops with
  | nil => intro ms _ _; rfl
  | cons op ops ih =>
    intro ms h he
    obtain ⟨h1, h2⟩ := eAbsStep_other (h op (by simp)) he
    rw [eAbsRun, ih _ (fun op hop => h op (by simp [hop])) h2, h1]

theorem eAbsRun_append (ops ops' : List (EOp K V)) : ∀ (ms : List (EMap K V)),
    eAbsRun ms (ops ++ ops') = eAbsRun (eAbsRun ms ops) ops' := by
  induction ops with
  | nil => intro ms; rfl
  | cons op ops ih => intro ms; simp only [List.cons_append, eAbsRun, ih]

/-- C13, in part: take any history, copy the bindings of the listed names, and do anything that does not work on the copy:
the copy answers for the listed names as the original did at the time of copying and has no other bindings.  And if
nothing afterwards works on the original, it answers as before.  Missing: symbol lists with repetitions
(`C12_negated_duplicates`). -/
theorem C13_copy_partial (h : Heap K (EVal V)) (ops ops' : List (EOp K V)) (e : Nat) (f : Bool) (syms : List K)
    (w w' : EW K V) (hd : distinctLists (ops ++ .copySyms e f syms :: ops'))
    (hd1 : distinctLists ops) (hrun : EW.run hash ⟨h, []⟩ ops = .ok w) (he : e < w.envs.length)
    (hrun' : EW.run hash ⟨h, []⟩ (ops ++ .copySyms e f syms :: ops') = .ok w') (k : K) :
    ((∀ op ∈ ops', op.on w.envs.length = false) →
      w'.ref hash w.envs.length k = if k ∈ syms then w.ref hash e k else none) ∧
    ((∀ op ∈ ops', op.on e = false) → w'.ref hash e k = w.ref hash e k) := by
  have r := ERel.run (ERel.empty h) ops hd1 hrun
  have hlen := r.len
  have a := (C12_env_map_partial h ops hd1 w hrun e k).1
  have b := fun i => (C12_env_map_partial h _ hd w' hrun' i k).1
  have he' : e < (eAbsRun [] ops).length := by omega
  have hm : (eAbsRun [] ops)[e]? = some (eAbsRun [] ops)[e] := List.getElem?_eq_getElem he'
  have hst : eAbsRun [] (ops ++ .copySyms e f syms :: ops') = eAbsRun (eAbsRun [] ops ++
      [(fun k => if k ∈ syms then ((eAbsRun [] ops)[e] k).map (fun p => (p.1, f)) else none : EMap K V)]) ops' := by
    rw [eAbsRun_append, eAbsRun]
    simp only [eAbsStep, hm]
  constructor
  · intro hon
    rw [b, a, hst]
    unfold content
    rw [eAbsRun_other ops' _ hon (by rw [List.length_append, hlen]; simp), hm, hlen,
      List.getElem?_append_right (Nat.le_refl _)]
    simp only [Nat.sub_self, List.getElem?_cons_zero]
    split
    · simp [Option.map_map, Function.comp_def]
    · rfl
  · intro hon
    rw [b, a, hst]
    unfold content
    rw [eAbsRun_other ops' _ hon (by rw [List.length_append]; omega), List.getElem?_append_left he']

/-- C13 for complete copies: `make-base-environment` copies everything, and so does `copy-environment` without a symbol
list, which passes `environment-symbols` (prelude.min:2341-2342): that list has no repetitions and all bound names. -/
theorem C13_full_copy (h : Heap K (EVal V)) (ops ops' : List (EOp K V)) (e : Nat) (f : Bool) (op : EOp K V)
    (w w' : EW K V) (hd1 : distinctLists ops) (hd2 : distinctLists ops')
    (hrun : EW.run hash ⟨h, []⟩ ops = .ok w) (he : e < w.envs.length)
    (hop : op = .copyAll e f ∨ op = .copySyms e f (w.symbols e))
    (hrun' : EW.run hash ⟨h, []⟩ (ops ++ op :: ops') = .ok w') (k : K)
    (i : Nat) (hi : i = e ∨ i = w.envs.length) (hon : ∀ op ∈ ops', op.on i = false) :
    w'.ref hash i k = w.ref hash e k := by
  have hsyms := fun k => (C12_env_map_partial h ops hd1 w hrun e k).2.2
  have happ : ∀ (l : List (EOp K V)), distinctLists l → distinctLists ops' → distinctLists (l ++ ops') := by
    intro l
    induction l with
    | nil => intro _ h; exact h
    | cons o l ih =>
      intro h1 h2
      obtain ⟨h3, h4⟩ := distinct_cons h1
      have := ih h4 h2
      cases o <;> first | exact ⟨h3.1, this⟩ | exact this
  have happ2 : ∀ (l l' : List (EOp K V)), distinctLists l → distinctLists l' → distinctLists (l ++ l') := by
    intro l l'
    induction l with
    | nil => intro _ h; exact h
    | cons o l ih =>
      intro h1 h2
      obtain ⟨h3, h4⟩ := distinct_cons h1
      have := ih h4 h2
      cases o <;> first | exact ⟨h3.1, this⟩ | exact this
  rcases hop with rfl | rfl
  · have hd : distinctLists (ops ++ .copyAll e f :: ops') := happ2 _ _ hd1 hd2
    have r := ERel.run (ERel.empty h) ops hd1 hrun
    have hlen := r.len
    have a := (C12_env_map_partial h ops hd1 w hrun e k).1
    have b := (C12_env_map_partial h _ hd w' hrun' i k).1
    have he' : e < (eAbsRun [] ops).length := by omega
    have hm : (eAbsRun [] ops)[e]? = some (eAbsRun [] ops)[e] := List.getElem?_eq_getElem he'
    rw [a, b, eAbsRun_append, eAbsRun]
    simp only [eAbsStep, hm]
    unfold content
    rw [eAbsRun_other ops' _ hon (by rw [List.length_append]; simp; omega)]
    rcases hi with rfl | rfl
    · rw [List.getElem?_append_left he']
    · rw [hlen, List.getElem?_append_right (Nat.le_refl _), hm]
      simp [Option.map_map, Function.comp_def]
  · have hd : distinctLists (ops ++ .copySyms e f (w.symbols e) :: ops') := happ2 _ _ hd1 ⟨(hsyms k).1, hd2⟩
    obtain ⟨c1, c2⟩ := C13_copy_partial h ops ops' e f (w.symbols e) w w' hd hd1 hrun he hrun' k
    rcases hi with rfl | rfl
    · exact c2 hon
    · rw [c1 hon]
      split
      · rfl
      · rename_i hk
        have a := (C12_env_map_partial h ops hd1 w hrun e k).1
        rw [a]
        cases hc : content (eAbsRun [] ops) e k with
        | none => rfl
        | some p => exact absurd ((hsyms k).2.2 (by rw [hc]; rfl)) hk

end

/-- the hypotheses of `C13_copy_partial` and `C13_full_copy` on a concrete history -/
example : ∃ w w' : EW Nat Nat, EW.run hash0 ⟨heap0, []⟩ [.new, .set 0 4 1, .set 0 5 2] = .ok w ∧ 0 < w.envs.length ∧
    EW.run hash0 ⟨heap0, []⟩ ([.new, .set 0 4 1, .set 0 5 2] ++ .copySyms 0 true [4, 6] :: [.set 0 4 9, .rebind 0 5 7]) = .ok w' ∧
    (∀ op ∈ ([.set 0 4 9, .rebind 0 5 7] : List (EOp Nat Nat)), op.on w.envs.length = false) ∧
    distinctLists ([.new, .set 0 4 1, .set 0 5 2] ++ .copySyms 0 true [4, 6] :: [.set 0 4 9, .rebind 0 5 7] : List (EOp Nat Nat)) :=
  ⟨_, _, rfl, by decide, rfl, by simp [EOp.on], by simp [distinctLists]⟩

/-! ## C14 -/

/-- C14 is violated: an environment copied with mutable? = #f accepts an assignment. -/
theorem C14_negated_set : refAfter [.new, .set 0 7 1, .copyAll 0 false, .set 1 7 2] 1 7 = .ok (some (some 2)) ∧
    refAfter [.new, .set 0 7 1, .copySyms 0 false [7], .set 1 7 2] 1 7 = .ok (some (some 2)) := by decide

section
variable {K V : Type} [DecidableEq K] {hash : K → Word}

/-- the mutability recorded in the cell of a name -/
def EW.flag (hash : K → Word) (w : EW K V) (e : Nat) (k : K) : Option Bool :=
  match w.envs[e]? with
  | none => none
  | some s => (envFind hash w.heap s k).map (fun c => (w.heap.val c).mutable)

theorem flag_content (h : Heap K (EVal V)) (ops : List (EOp K V)) (hd : distinctLists ops) (w : EW K V)
    (e : EW.run hash ⟨h, []⟩ ops = .ok w) (i : Nat) (k : K) :
    w.flag hash i k = (content (eAbsRun [] ops) i k).map Prod.snd := by
  have r := ERel.run (ERel.empty h) ops hd e
  unfold EW.flag
  cases he : w.envs[i]? with
  | none => unfold content; rw [r.absent he]; rfl
  | some s => rw [← find_content r he k]; simp only [Option.map_map]; rfl

theorem flag_step {ms : List (EMap K V)} {i : Nat} {k : K} {b : Bool} (op : EOp K V)
    (hc : (content ms i k).map Prod.snd = some b) : (content (eAbsStep ms op) i k).map Prod.snd = some b := by
  have hlt : i < ms.length := by
    by_cases h : i < ms.length
    · exact h
    · unfold content at hc
      rw [List.getElem?_eq_none_iff.2 (by omega)] at hc; cases hc
  have app : ∀ m : EMap K V, (content (ms ++ [m]) i k).map Prod.snd = some b := by
    intro m; unfold content at *; rw [List.getElem?_append_left hlt]; exact hc
  have set : ∀ (e k1 p m), ms[e]? = some m → (k1 = k → i = e → p.2 = b) →
      (content (ms.set e (fun k' => if k' = k1 then some p else m k')) i k).map Prod.snd = some b := by
    intro e k1 p m hm hp
    unfold content at *
    rw [List.getElem?_set]
    by_cases hei : e = i
    · subst hei
      rw [hm] at hc
      simp only [hlt, if_true]
      by_cases hk : k = k1
      · rw [if_pos hk]; simp [hp hk.symm rfl]
      · rw [if_neg hk]; exact hc
    · rw [if_neg hei]; exact hc
  cases op with
  | new => exact app _
  | copyAll e f => simp only [eAbsStep]; split; exact hc; exact app _
  | copySyms e f syms => simp only [eAbsStep]; split; exact hc; exact app _
  | set e k1 v =>
    simp only [eAbsStep]
    split
    · exact hc
    · rename_i m hm
      refine set _ _ _ m hm ?_
      rintro rfl rfl
      unfold content at hc
      rw [hm] at hc
      simp only at hc ⊢
      rw [hc]; rfl
  | cell e k1 =>
    simp only [eAbsStep]
    split
    · exact hc
    · rename_i m hm
      split
      · exact hc
      · rename_i hk
        refine set _ _ _ m hm ?_
        rintro rfl rfl
        unfold content at hc
        rw [hm] at hc
        simp only [hk] at hc
        cases hc
  | rebind e k1 v =>
    simp only [eAbsStep]
    split
    · exact hc
    · rename_i m hm
      split
      · exact hc
      · rename_i p hk
        refine set _ _ _ m hm ?_
        rintro rfl rfl
        unfold content at hc
        rw [hm] at hc
        simp only [hk, Option.map_some, Option.some.injEq] at hc
        exact hc

/-- C14, in part: the requested mutability is recorded in every copied binding and no later operation changes it, so the
missing check in `environment_variable_set` would have what it needs.  Missing: the check (`C14_negated_set`). -/
theorem C14_flag_partial (h : Heap K (EVal V)) (ops ops' : List (EOp K V)) (hd : distinctLists (ops ++ ops'))
    (hd1 : distinctLists ops) (w w' : EW K V) (e1 : EW.run hash ⟨h, []⟩ ops = .ok w)
    (e2 : EW.run hash ⟨h, []⟩ (ops ++ ops') = .ok w') (i : Nat) (k : K) (b : Bool) (hf : w.flag hash i k = some b) :
    w'.flag hash i k = some b := by
  rw [flag_content h ops hd1 w e1] at hf
  rw [flag_content h _ hd w' e2, eAbsRun_append]
  clear e2 e1 hd
  induction ops' generalizing ops with
  | nil => exact hf
  | cons op ops' ih =>
    rw [eAbsRun]
    have : ∀ (l : List (EOp K V)) (ms : List (EMap K V)), (content ms i k).map Prod.snd = some b →
        (content (eAbsRun ms l) i k).map Prod.snd = some b := by
      intro l
      induction l with
      | nil => intro ms h; exact h
      | cons o l ihl => intro ms h; exact ihl _ (flag_step o h)
    exact this _ _ (flag_step op hf)

end

example : ∃ w : EW Nat Nat, EW.run hash0 ⟨heap0, []⟩ [.new, .set 0 4 1, .copyAll 0 false] = .ok w ∧
    w.flag hash0 1 4 = some false := ⟨_, rfl, by decide⟩

/-! ## C69 -/

section
variable {K V : Type} [DecidableEq K] {hash : K → Word}

theorem cell_step {w w' : EW K V} {ms : List (EMap K V)} (r : ERel hash w ms) (op : EOp K V)
    (e : w.step hash op = .ok w') {i c : Nat} {s : Store} (hi : w.envs[i]? = some s) (hc : c ∈ s.flat) :
    ∃ s', w'.envs[i]? = some s' ∧ c ∈ s'.flat ∧ w'.heap.key c = w.heap.key c := by
  have cons := same_consistent hash
  have hfresh : c < w.heap.next := (r.get hi).choose_spec.2.1.fresh c hc
  have hlt := (List.getElem?_eq_some_iff.1 hi).1
  have set : ∀ (e1 : Nat) (s1 s2 : Store) (h' : Heap K (EVal V)), w.envs[e1]? = some s1 → (∀ d ∈ s1.flat, d ∈ s2.flat) →
      h'.key c = w.heap.key c → w' = ⟨h', w.envs.set e1 s2⟩ →
      ∃ s', w'.envs[i]? = some s' ∧ c ∈ s'.flat ∧ w'.heap.key c = w.heap.key c := by
    rintro e1 s1 s2 h' he1 hsub hk rfl
    simp only [List.getElem?_set]
    by_cases hei : e1 = i
    · subst hei
      rw [hi] at he1; cases he1
      exact ⟨s2, by simp [hlt], hsub c hc, hk⟩
    · exact ⟨s, by simp [hei, hi], hc, hk⟩
  have app : ∀ (s2 : Store) (h' : Heap K (EVal V)), h'.key c = w.heap.key c → w' = ⟨h', w.envs ++ [s2]⟩ →
      ∃ s', w'.envs[i]? = some s' ∧ c ∈ s'.flat ∧ w'.heap.key c = w.heap.key c := by
    rintro s2 h' hk rfl
    exact ⟨s, by simp only; rw [List.getElem?_append_left hlt, hi], hc, hk⟩
  have refl : w' = w → ∃ s', w'.envs[i]? = some s' ∧ c ∈ s'.flat ∧ w'.heap.key c = w.heap.key c := by
    rintro rfl; exact ⟨s, hi, hc, rfl⟩
  cases op with
  | new =>
    simp only [EW.step] at e
    obtain ⟨s1, hs, e⟩ := Res.bind_eq_ok.1 e
    cases e
    exact app _ _ rfl rfl
  | copyAll e1 f =>
    simp only [EW.step] at e
    split at e
    · cases e; exact refl rfl
    · rename_i s1 he
      cases e
      obtain ⟨m, hm, wf, _⟩ := r.get he
      obtain ⟨_, _, _, h4, _⟩ := copyEnv_spec f wf
      exact app _ _ (by unfold Heap.key; rw [h4 c hfresh]) rfl
  | copySyms e1 f syms =>
    simp only [EW.step] at e
    split at e
    · cases e; exact refl rfl
    · rename_i s1 he
      obtain ⟨⟨h1, s3⟩, hs, e⟩ := Res.bind_eq_ok.1 e
      cases e
      refine app _ _ ?_ rfl
      simp only [copySyms] at hs
      obtain ⟨s2, hs2, hs⟩ := Res.bind_eq_ok.1 hs
      have : ∀ (syms : List K) (h : Heap K (EVal V)) (s2 : Store), c < h.next →
          (copySymsLoop hash f s1 syms h s2).1.key c = h.key c := by
        intro syms
        induction syms with
        | nil => intro h s2 _; rfl
        | cons k ks ih =>
          intro h s2 hlt
          rw [copySymsLoop]
          split
          · exact ih h s2 hlt
          · rw [ih _ _ (by simp; omega)]
            unfold Heap.key
            rw [alloc_get_old _ _ _ hlt]
      have h := this syms w.heap s2 hfresh
      simp only [Res.pure_eq, Res.ok.injEq] at hs
      rw [hs] at h
      exact h
  | set e1 k v =>
    simp only [EW.step] at e
    split at e
    · cases e; exact refl rfl
    · rename_i s1 he
      obtain ⟨⟨h1, s3⟩, hs, e⟩ := Res.bind_eq_ok.1 e
      cases e
      obtain ⟨m, hm, wf, st, hmaps⟩ := r.get he
      unfold envSet at hs
      rw [envFind_eq] at hs
      split at hs
      · cases hs
        exact set e1 s1 s1 _ he (fun _ h => h) (by simp [setCell]) rfl
      · rename_i hcell
        obtain ⟨⟨h2, s2, c'⟩, hin, hs⟩ := Res.bind_eq_ok.1 hs
        cases hs
        obtain ⟨eff, _, _, hsub⟩ := envInsert_effect wf st (findCell_none cons wf hcell) hin
        exact set e1 s1 s2 _ he hsub (eff.keys c hfresh) rfl
  | cell e1 k =>
    simp only [EW.step] at e
    split at e
    · cases e; exact refl rfl
    · rename_i s1 he
      obtain ⟨⟨h1, s3, c3⟩, hs, e⟩ := Res.bind_eq_ok.1 e
      cases e
      obtain ⟨m, hm, wf, st, hmaps⟩ := r.get he
      unfold envCell at hs
      rw [envFind_eq] at hs
      split at hs
      · cases hs
        exact set e1 s1 s1 _ he (fun _ h => h) rfl rfl
      · rename_i hcell
        obtain ⟨eff, _, _, hsub⟩ := envInsert_effect wf st (findCell_none cons wf hcell) hs
        exact set e1 s1 s3 _ he hsub (eff.keys c hfresh) rfl
  | rebind e1 k v =>
    simp only [EW.step] at e
    split at e
    · cases e; exact refl rfl
    · rename_i s1 he
      obtain ⟨h1, hs, e⟩ := Res.bind_eq_ok.1 e
      cases e
      unfold envRebind at hs
      split at hs
      · cases hs
        exact ⟨s, hi, hc, by simp [setCell]⟩
      · cases hs

theorem cell_run (ops : List (EOp K V)) : ∀ {w w' : EW K V} {ms : List (EMap K V)}, ERel hash w ms → distinctLists ops →
    w.run hash ops = .ok w' → ∀ {i c : Nat} {s : Store}, w.envs[i]? = some s → c ∈ s.flat →
    ∃ s', w'.envs[i]? = some s' ∧ c ∈ s'.flat ∧ w'.heap.key c = w.heap.key c := by
  induction ops with
  | nil => intro w w' ms _ _ e i c s hi hc; cases e; exact ⟨s, hi, hc, rfl⟩
  | cons op ops ih =>
    intro w w' ms r hd e i c s hi hc
    obtain ⟨hd1, hd2⟩ := distinct_cons hd
    obtain ⟨w1, h1, e⟩ := Res.bind_eq_ok.1 e
    obtain ⟨s1, hs1, hc1, hk1⟩ := cell_step r op h1 hi hc
    obtain ⟨s2, hs2, hc2, hk2⟩ := ih (r.step op hd1 h1) hd2 e hs1 hc1
    exact ⟨s2, hs2, hc2, hk2.trans hk1⟩

/-- C69: the cell a closure captured for a top-level variable keeps holding that variable's current value, through any
later definitions, assignments, copies and growth of the environment. -/
theorem C69_captured_cell (h : Heap K (EVal V)) (ops ops' : List (EOp K V)) (hd : distinctLists ops)
    (hd' : distinctLists ops') (w w2 : EW K V) (e : EW.run hash ⟨h, []⟩ ops = .ok w) (i : Nat) (s : Store)
    (hi : w.envs[i]? = some s) (k : K) (h1 : Heap K (EVal V)) (s1 : Store) (c : Nat)
    (hcell : envCell hash w.heap s k = .ok (h1, s1, c))
    (e2 : EW.run hash ⟨h1, w.envs.set i s1⟩ ops' = .ok w2) :
    w2.ref hash i k = some (w2.heap.val c).val := by
  have cons := same_consistent hash
  have r := ERel.run (ERel.empty h) ops hd e
  have hstep : w.step hash (.cell i k) = .ok ⟨h1, w.envs.set i s1⟩ := by
    simp only [EW.step, hi, hcell, Res.ok_bind]; rfl
  have r1 := r.step (.cell i k) trivial hstep
  have hlt := (List.getElem?_eq_some_iff.1 hi).1
  have hi1 : (w.envs.set i s1)[i]? = some s1 := by simp [hlt]
  obtain ⟨m, hm, wf, st, hmaps⟩ := r.get hi
  have hc : c ∈ s1.flat ∧ h1.key c = k := by
    unfold envCell at hcell
    rw [envFind_eq] at hcell
    split at hcell
    · rename_i d hd
      cases hcell
      obtain ⟨h1, h2⟩ := findCell_some wf hd
      exact ⟨h1, by simpa [same] using h2⟩
    · rename_i hn
      obtain ⟨_, h2, h3, _⟩ := envInsert_effect wf st (findCell_none cons wf hn) hcell
      exact ⟨h2, h3⟩
  obtain ⟨s2, hs2, hc2, hk2⟩ := cell_run ops' r1 hd' e2 hi1 hc.1
  have r2 := ERel.run r1 ops' hd' e2
  obtain ⟨m2, hm2, wf2, st2, hmaps2⟩ := r2.get hs2
  unfold EW.ref envRef
  rw [hs2]
  simp only
  rw [envFind_eq]
  have hk : w2.heap.key c = k := hk2.trans hc.2
  cases hf : findCell hash same w2.heap s2 k with
  | none =>
    have := findCell_none cons wf2 hf c hc2
    simp [same, hk] at this
  | some d =>
    obtain ⟨hd1, hd2⟩ := findCell_some wf2 hf
    rw [uniq_eq cons wf2.uniq hd1 hc2 hd2 (by simp [same, hk])]
    rfl

end

/-- the hypotheses of `C69_captured_cell`: a forward reference followed by a definition -/
example : ∃ w w2 : EW Nat Nat, ∃ s h1 s1 c, EW.run hash0 ⟨heap0, []⟩ [.new, .set 0 4 1] = .ok w ∧ w.envs[0]? = some s ∧
    envCell hash0 w.heap s 7 = .ok (h1, s1, c) ∧
    EW.run hash0 ⟨h1, w.envs.set 0 s1⟩ [.set 0 7 5, .copyAll 0 true, .set 1 7 6] = .ok w2 ∧
    (w2.heap.val c).val = some 5 :=
  ⟨_, _, _, _, _, _, rfl, rfl, rfl, rfl, rfl⟩

end Minim.Env
