import Verif.Env
import Verif.HashProps
import Verif.HashScmLemmas

set_option autoImplicit false
set_option linter.unusedSectionVars false

/-! Helper lemmas for `Verif.EnvProps`. -/

namespace Minim.Env

open Minim.Hash

section
variable {K V : Type} [DecidableEq K] {hash : K → Word}

/-- comparison by address -/
abbrev same (a b : K) : Bool := a == b

theorem same_consistent (hash : K → Word) : Consistent hash (same : K → K → Bool) :=
  ⟨by simp, by intro a b h; simpa using (beq_iff_eq.1 h).symm, by intro a b c h1 h2; simp_all,
    by intro a b h; rw [beq_iff_eq.1 h]⟩

theorem envFind_eq (h : Heap K (EVal V)) (s : Store) (k : K) :
    envFind hash h s k = findCell hash same h s k := by
  unfold envFind findCell
  generalize s.bucket (hash k) = b
  induction b with
  | nil => rfl
  | cons c b ih =>
    rw [findIn, List.find?_cons]
    cases hc : (h.key c == k)
    · simp only [hc, same]; exact ih
    · simp [same, hc]

/-- The abstract content of an environment: for each bound name its value (`none`: unbound object) and mutability. -/
abbrev EMap (K V : Type) := K → Option (Option V × Bool)

/-- the cells an abstract environment stands for -/
def lift (hash : K → Word) (m : EMap K V) : K → Option (EVal V) :=
  fun k => (m k).map (fun p => ⟨p.1, hash k, p.2⟩)

theorem lift_some {m : EMap K V} {k : K} {v : EVal V} :
    lift hash m k = some v ↔ m k = some (v.val, v.mutable) ∧ v.hash = hash k := by
  unfold lift
  cases hm : m k with
  | none => simp
  | some p =>
    obtain ⟨a, b⟩ := p
    cases v
    simp only [Option.map_some, Option.some.injEq, EVal.mk.injEq, Prod.mk.injEq]
    constructor
    · rintro ⟨h1, h2, h3⟩; exact ⟨⟨h1, h3⟩, h2.symm⟩
    · rintro ⟨⟨h1, h3⟩, h2⟩; exact ⟨h1, h2.symm, h3⟩

/-! #### effects -/

theorem Effect.refl {h : Heap K (EVal V)} {s : Store} (w : WF hash same h s) :
    Effect hash same h s h s (Maps same h s.flat) :=
  ⟨w, fun _ _ => Iff.rfl, Nat.le_refl _, fun _ _ _ => rfl, fun _ _ => rfl, fun _ hc => Or.inl hc⟩

theorem Effect.trans {h h1 h2 : Heap K (EVal V)} {s s1 s2 : Store} {M1 M2 : K → EVal V → Prop}
    (a : Effect hash same h s h1 s1 M1) (b : Effect hash same h1 s1 h2 s2 M2) : Effect hash same h s h2 s2 M2 where
  wf := b.wf
  maps := b.maps
  next := Nat.le_trans a.next b.next
  frame := by
    intro c hc hs
    have := a.next
    rw [b.frame c (by omega) (fun h1 => by rcases a.owned c h1 with h | h; exact hs h; omega), a.frame c hc hs]
  keys := by
    intro c hc
    have := a.next
    rw [b.keys c (by omega), a.keys c hc]
  owned := by
    intro c hc
    have := a.next
    rcases b.owned c hc with h | h
    · exact a.owned c h
    · right; omega

/-- every cell's stored hash is the hash of its key -/
def Stored (hash : K → Word) (h : Heap K (EVal V)) (s : Store) : Prop := ∀ c ∈ s.flat, (h.val c).hash = hash (h.key c)

theorem pushE_foldl (h : Heap K (EVal V)) (n : Nat) (cs : List Nat) (hs : ∀ c ∈ cs, (h.val c).hash = hash (h.key c)) :
    ∀ nb, cs.foldl (pushE h n) nb = cs.foldl (pushCell hash h n) nb := by
  induction cs with
  | nil => intro nb; rfl
  | cons c cs ih =>
    intro nb
    rw [List.foldl_cons, List.foldl_cons, ih (fun d hd => hs d (by simp [hd]))]
    congr 1
    unfold pushE pushCell
    rw [hs c (by simp)]

theorem envInsert_effect {h h' : Heap K (EVal V)} {s s' : Store} {k : K} {v : Option V} {c : Nat}
    (w : WF hash same h s) (st : Stored hash h s) (hnone : ∀ c ∈ s.flat, same (h.key c) k = false)
    (e : envInsert hash h s k v = .ok (h', s', c)) :
    Effect hash same h s h' s' (setM same (Maps same h s.flat) k ⟨v, hash k, true⟩) ∧ c ∈ s'.flat ∧ h'.key c = k ∧
      (∀ d ∈ s.flat, d ∈ s'.flat) := by
  have cons := same_consistent hash
  unfold envInsert at e
  obtain ⟨s1, hs1, e⟩ := Res.bind_eq_ok.1 e
  cases e
  have e1 : Effect hash same h s h s1 (Maps same h s.flat) ∧ s1.flat.Perm s.flat := by
    unfold envGrow at hs1
    split at hs1
    · unfold envResize at hs1
      obtain ⟨n, hn, hs1⟩ := Res.bind_eq_ok.1 hs1
      cases hs1
      rw [pushE_foldl (hash := hash) _ _ _ st]
      exact ⟨Effect.rehash cons (Effect.refl w) (findSize_spec hn).1 (List.Perm.refl _),
        (rehash_wf cons w (findSize_spec hn).1 (List.Perm.refl _)).2⟩
    · cases hs1
      exact ⟨Effect.refl w, List.Perm.refl _⟩
  obtain ⟨e1, p1⟩ := e1
  have hn1 : ∀ c ∈ s1.flat, same (h.key c) k = false := fun c hc => hnone c (p1.mem_iff.1 hc)
  have e2 := Effect.insert cons e1.wf (v := ⟨v, hash k, true⟩) hn1
  have p2 := (insert_wf (v := (⟨v, hash k, true⟩ : EVal V)) cons e1.wf hn1).2
  refine ⟨?_, ?_, ?_, ?_⟩
  · refine Effect.of_eq (Effect.trans e1 e2) ?_
    intro k' v'
    unfold setM
    split
    · exact Iff.rfl
    · exact e1.maps k' v'
  · exact p2.mem_iff.2 (by simp [Heap.alloc])
  · unfold Heap.key; rw [show (h.alloc k ⟨v, hash k, true⟩).2 = h.next from rfl, alloc_get_new]
  · intro d hd
    exact p2.mem_iff.2 (by simp [p1.mem_iff.2 hd])

/-! #### copies -/

/-- a cell's content with the mutability replaced -/
def reflag (mutablep : Bool) (p : K × EVal V) : K × EVal V := (p.1, { p.2 with mutable := mutablep })

theorem copyBucketE_spec (m : Bool) (h : Heap K (EVal V)) (b : List Nat) : ∀ (_ : ∀ c ∈ b, c < h.next),
    (copyBucketE m h b).2 = (List.range' h.next b.length) ∧ (copyBucketE m h b).1.next = h.next + b.length ∧
    (∀ c, c < h.next → (copyBucketE m h b).1.get c = h.get c) ∧
    (copyBucketE m h b).2.map (copyBucketE m h b).1.get = b.map (reflag m ∘ h.get) := by
  induction b generalizing h with
  | nil => intro _; simp [copyBucketE]
  | cons c b ih =>
    intro hb
    simp only [List.mem_cons, forall_eq_or_imp] at hb
    obtain ⟨h1, h2, h3, h4⟩ := ih (h.alloc (h.key c) { h.val c with mutable := m }).1 (fun d hd => by have := hb.2 d hd; simp; omega)
    simp only [copyBucketE, alloc_id, alloc_next, List.length_cons, List.map_cons] at *
    refine ⟨?_, by omega, ?_, ?_⟩
    · rw [h1, List.range'_succ]
    · intro d hd
      rw [h3 d (by omega), alloc_get_old _ _ _ hd]
    · rw [h3 _ (by omega), alloc_get_new, h4]
      congr 1
      apply List.map_congr_left
      intro d hd
      simp only [Function.comp]
      rw [alloc_get_old _ _ _ (hb.2 d hd)]

theorem copyBucketsE_spec (m : Bool) (h : Heap K (EVal V)) (bs : List (List Nat)) : ∀ (_ : ∀ c ∈ bs.flatten, c < h.next),
    (copyBucketsE m h bs).2.flatten = List.range' h.next bs.flatten.length ∧
    (copyBucketsE m h bs).1.next = h.next + bs.flatten.length ∧
    (∀ c, c < h.next → (copyBucketsE m h bs).1.get c = h.get c) ∧
    (copyBucketsE m h bs).2.length = bs.length ∧
    (copyBucketsE m h bs).2.map (fun b => b.map (copyBucketsE m h bs).1.get) = bs.map (fun b => b.map (reflag m ∘ h.get)) := by
  induction bs generalizing h with
  | nil => intro _; simp [copyBucketsE]
  | cons b bs ih =>
    intro hb
    simp only [List.flatten_cons, List.mem_append] at hb
    obtain ⟨a1, a2, a3, a4⟩ := copyBucketE_spec m h b (fun c hc => hb c (Or.inl hc))
    obtain ⟨b1, b2, b3, b4, b5⟩ := ih (copyBucketE m h b).1 (fun c hc => by have := hb c (Or.inr hc); omega)
    simp only [copyBucketsE, List.flatten_cons, List.length_append, List.length_cons, List.map_cons]
    refine ⟨?_, by omega, ?_, by omega, ?_⟩
    · rw [b1, a1, a2, List.range'_append_1]
    · intro c hc; rw [b3 c (by omega), a3 c hc]
    · rw [b5]
      congr 1
      · rw [← a4]
        apply List.map_congr_left
        intro c hc
        rw [a1, List.mem_range'_1] at hc
        exact b3 c (by omega)
      · apply List.map_congr_left
        intro b' hb'
        apply List.map_congr_left
        intro c hc
        simp only [Function.comp]
        rw [a3 c (hb c (Or.inr (List.mem_flatten.2 ⟨b', hb', hc⟩)))]

theorem copyEnv_spec (m : Bool) {h : Heap K (EVal V)} {s : Store} (w : WF hash same h s) :
    WF hash same (copyEnv m h s).1 (copyEnv m h s).2 ∧
    (∀ k v, Maps same (copyEnv m h s).1 (copyEnv m h s).2.flat k v ↔
      ∃ v', Maps same h s.flat k v' ∧ v = { v' with mutable := m }) ∧
    h.next ≤ (copyEnv m h s).1.next ∧ (∀ c, c < h.next → (copyEnv m h s).1.get c = h.get c) ∧
    (∀ c ∈ (copyEnv m h s).2.flat, h.next ≤ c) := by
  obtain ⟨a1, a2, a3, a4, a5⟩ := copyBucketsE_spec m h s.buckets w.fresh
  have hfl : (copyEnv m h s).2.flat = List.range' h.next s.flat.length := a1
  have hmap : (copyEnv m h s).2.flat.map (copyEnv m h s).1.get = s.flat.map (reflag m ∘ h.get) := by
    have := congrArg List.flatten a5
    rw [← List.map_flatten, ← List.map_flatten] at this
    exact this
  have hkeys : (copyEnv m h s).2.flat.map (copyEnv m h s).1.key = s.flat.map h.key := by
    have := congrArg (List.map Prod.fst) hmap
    rw [List.map_map, List.map_map] at this; exact this
  refine ⟨⟨?_, w.size, ?_, ?_, ?_, ?_⟩, ?_, ?_, a3, ?_⟩
  · show (copyBucketsE m h s.buckets).2.length = s.alloc
    rw [a4, w.len]
  · intro i hi c hc
    have hi' : i < (copyBucketsE m h s.buckets).2.length := by rw [a4, w.len]; exact hi
    have hi2 : i < s.buckets.length := by rw [w.len]; exact hi
    have e := congrArg (fun l => l[i]?) a5
    simp only [List.getElem?_map] at e
    rw [List.getElem?_eq_getElem hi', List.getElem?_eq_getElem hi2] at e
    simp only [Option.map_some, Option.some.injEq] at e
    have hc' : c ∈ (copyBucketsE m h s.buckets).2[i] := by
      have : (copyEnv m h s).2.buckets = (copyBucketsE m h s.buckets).2 := rfl
      rw [this, List.getD_eq_getElem?_getD, List.getElem?_eq_getElem hi'] at hc
      exact hc
    have : (copyBucketsE m h s.buckets).1.get c ∈ s.buckets[i].map (reflag m ∘ h.get) := by
      rw [← e]; exact List.mem_map_of_mem hc'
    obtain ⟨d, hd, ed⟩ := List.mem_map.1 this
    have hk : (copyEnv m h s).1.key c = h.key d := by
      show ((copyBucketsE m h s.buckets).1.get c).1 = _
      rw [← ed]; rfl
    rw [hk]
    refine w.idx i hi d ?_
    rw [List.getD_eq_getElem?_getD, List.getElem?_eq_getElem hi2]; exact hd
  · have := w.uniq
    rw [← List.pairwise_map (f := h.key) (R := fun a b => same a b = false), ← hkeys, List.pairwise_map] at this
    exact this
  · rw [hfl, List.length_range']; exact w.count
  · intro c hc
    rw [hfl, List.mem_range'_1] at hc
    show c < (copyBucketsE m h s.buckets).1.next
    rw [a2]; exact hc.2
  · intro k v
    constructor
    · rintro ⟨c, hc, h1, h2⟩
      have : (copyEnv m h s).1.get c ∈ s.flat.map (reflag m ∘ h.get) := by rw [← hmap]; exact List.mem_map_of_mem hc
      obtain ⟨d, hd, ed⟩ := List.mem_map.1 this
      unfold Heap.key at h1; unfold Heap.val at h2
      rw [← ed] at h1 h2
      exact ⟨h.val d, ⟨d, hd, h1, rfl⟩, h2.symm⟩
    · rintro ⟨v', ⟨d, hd, h1, h2⟩, rfl⟩
      have : (reflag m ∘ h.get) d ∈ (copyEnv m h s).2.flat.map (copyEnv m h s).1.get := by
        rw [hmap]; exact List.mem_map_of_mem hd
      obtain ⟨c, hc, ec⟩ := List.mem_map.1 this
      refine ⟨c, hc, ?_, ?_⟩
      · unfold Heap.key; rw [ec]; exact h1
      · unfold Heap.val; rw [ec, ← h2]; rfl
  · show h.next ≤ (copyBucketsE m h s.buckets).1.next
    omega
  · intro c hc
    rw [hfl, List.mem_range'_1] at hc; exact hc.1

/-- the loop of `top_env_copy2`: what holds of the new store while it is filled -/
theorem copySymsLoop_spec (m : Bool) {h0 : Heap K (EVal V)} {s : Store} (w : WF hash same h0 s) (st : Stored hash h0 s)
    (syms : List K) : ∀ (h : Heap K (EVal V)) (s2 : Store), h0.next ≤ h.next →
    (∀ c, c < h0.next → h.get c = h0.get c) → WF hash same h s2 → (∀ c ∈ s2.flat, h0.next ≤ c) → syms.Nodup →
    (∀ k ∈ syms, ∀ v, ¬ Maps same h s2.flat k v) →
    WF hash same (copySymsLoop hash m s syms h s2).1 (copySymsLoop hash m s syms h s2).2 ∧
    (∀ k v, Maps same (copySymsLoop hash m s syms h s2).1 (copySymsLoop hash m s syms h s2).2.flat k v ↔
      Maps same h s2.flat k v ∨ (k ∈ syms ∧ ∃ v', Maps same h0 s.flat k v' ∧ v = { v' with mutable := m })) ∧
    h0.next ≤ (copySymsLoop hash m s syms h s2).1.next ∧
    (∀ c, c < h0.next → (copySymsLoop hash m s syms h s2).1.get c = h0.get c) ∧
    (∀ c ∈ (copySymsLoop hash m s syms h s2).2.flat, h0.next ≤ c) := by
  have cons := same_consistent hash
  induction syms with
  | nil =>
    intro h s2 hn hg w2 ho _ _
    exact ⟨w2, by simp [copySymsLoop], hn, hg, ho⟩
  | cons k ks ih =>
    intro h s2 hn hg w2 ho hnd hnot
    rw [List.nodup_cons] at hnd
    have wh : WF hash same h s := w.frame hn (fun c hc => by unfold Heap.key; rw [hg c (w.fresh c hc)])
    have hm : ∀ k v, Maps same h s.flat k v ↔ Maps same h0 s.flat k v :=
      Maps.frame (fun c hc => hg c (w.fresh c hc))
    rw [copySymsLoop]
    cases hf : envFind hash h s k with
    | none =>
      simp only
      obtain ⟨i1, i2, i3, i4, i5⟩ := ih h s2 hn hg w2 ho hnd.2 (fun k' hk' => hnot k' (by simp [hk']))
      refine ⟨i1, ?_, i3, i4, i5⟩
      intro k' v'
      rw [i2]
      rw [envFind_eq] at hf
      have hnone := findCell_none cons wh hf
      constructor
      · rintro (h1 | ⟨h1, h2⟩)
        · exact Or.inl h1
        · exact Or.inr ⟨by simp [h1], h2⟩
      · rintro (h1 | ⟨h1, v1, h2, h3⟩)
        · exact Or.inl h1
        · rcases List.mem_cons.1 h1 with rfl | h1
          · obtain ⟨c, hc1, hc2, _⟩ := (hm _ _).2 h2
            rw [hnone c hc1] at hc2; cases hc2
          · exact Or.inr ⟨h1, v1, h2, h3⟩
    | some c =>
      simp only
      rw [envFind_eq] at hf
      obtain ⟨hc1, hc2⟩ := findCell_some wh hf
      have hck : h.key c = k := by simpa [same] using hc2
      have hst : (h.val c).hash = hash k := by
        have := st c hc1
        have e1 : h.val c = h0.val c := by unfold Heap.val; rw [hg c (w.fresh c hc1)]
        have e2 : h.key c = h0.key c := by unfold Heap.key; rw [hg c (w.fresh c hc1)]
        rw [e1, this, ← e2, hck]
      have hnone2 : ∀ d ∈ s2.flat, same (h.key d) k = false := by
        intro d hd
        cases hdk : same (h.key d) k
        · rfl
        · exact absurd ⟨d, hd, hdk, rfl⟩ (hnot k (by simp) (h.val d))
      have eff := Effect.insert cons w2 (v := (⟨(h.val c).val, hash k, m⟩ : EVal V)) hnone2
      have perm := (insert_wf (v := (⟨(h.val c).val, hash k, m⟩ : EVal V)) cons w2 hnone2).2
      rw [hst, hck]
      have := eff.next
      have hgnew : ∀ d, d < h0.next → (h.alloc k (⟨(h.val c).val, hash k, m⟩ : EVal V)).1.get d = h0.get d := by
        intro d hd; rw [alloc_get_old _ _ _ (by omega), hg d hd]
      obtain ⟨i1, i2, i3, i4, i5⟩ := ih (h.alloc k (⟨(h.val c).val, hash k, m⟩ : EVal V)).1
        { (s2.setBucket (hash k) (h.next :: s2.bucket (hash k))) with count := s2.count + 1 } (by omega) hgnew eff.wf
        (fun d hd => by rcases eff.owned d hd with h1 | h1; exact ho d h1; omega) hnd.2
        (by
          intro k' hk' v' hmm
          rw [eff.maps] at hmm
          split at hmm
          · rename_i hkk
            rw [show k = k' by simpa [same] using hkk] at hnd
            exact hnd.1 hk'
          · exact hnot k' (by simp [hk']) v' hmm)
      refine ⟨i1, ?_, i3, i4, i5⟩
      intro k' v'
      refine (i2 k' v').trans ?_
      rw [eff.maps]
      have hmk : Maps same h0 s.flat k (h.val c) := (hm _ _).1 ⟨c, hc1, hc2, rfl⟩
      by_cases hkk : same k k' = true
      · have ek : k = k' := by simpa [same] using hkk
        subst ek
        simp only [hkk, if_true]
        constructor
        · rintro (h1 | ⟨h1, _⟩)
          · exact Or.inr ⟨by simp, _, hmk, by rw [h1, hst]⟩
          · exact absurd h1 hnd.1
        · rintro (h1 | ⟨h1, v1, h2, h3⟩)
          · exact absurd h1 (hnot k (by simp) v')
          · left
            have : v1 = h.val c := by
              obtain ⟨d1, hd1, hd2, rfl⟩ := h2
              obtain ⟨d3, hd3, hd4, hd5⟩ := hmk
              rw [← hd5, uniq_eq cons w.uniq hd1 hd3 hd2 hd4]
            rw [h3, this, hst]
      · have hne : k' ≠ k := by rintro rfl; simp [same] at hkk
        simp only [hkk, if_false]
        simp [hne]

end

end Minim.Env
