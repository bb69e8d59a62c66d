import Verif.HashScm
import Verif.HashProps

set_option autoImplicit false

/-! Helper lemmas for `Verif.HashScmProps`. -/

namespace Minim.Hash

section
variable {K V : Type} {hash : K → Word} {eqv : K → K → Bool}

/-- the stores the tables currently use -/
def SW.live (w : SW K V) : List Store := w.tables.map w.store

/-- tables name different, existing stores -/
structure Inv (w : SW K V) : Prop where
  lt : ∀ (i sid : Nat), w.tables[i]? = some sid → sid < w.stores.length
  nodup : ∀ (i j sid : Nat), w.tables[i]? = some sid → w.tables[j]? = some sid → i = j

theorem live_get {w : SW K V} {t sid : Nat} (ht : w.tables[t]? = some sid) : w.live[t]? = some (w.store sid) := by
  simp [SW.live, ht]

theorem live_length (w : SW K V) : w.live.length = w.tables.length := by simp [SW.live]

/-- `w'` differs from `w` in the heap, now `h'`, and in table `t`'s store, now `s'` -/
structure Upd (w : SW K V) (t : Nat) (h' : Heap K V) (s' : Store) (w' : SW K V) : Prop where
  inv : Inv w'
  heap : w'.heap = h'
  live : w'.live = w.live.set t s'
  tabs : ∀ (j sid : Nat), j ≠ t → w.tables[j]? = some sid → w'.tables[j]? = some sid

theorem putStore_upd {w : SW K V} {t sid : Nat} (i : Inv w) (ht : w.tables[t]? = some sid) (s' : Store) :
    Upd w t w.heap s' (w.putStore sid s') := by
  have hlt := i.lt t sid ht
  refine ⟨⟨?_, i.nodup⟩, rfl, ?_, fun _ _ _ h => h⟩
  · intro j sid' hj
    have := i.lt j sid' hj
    simpa [SW.putStore] using this
  · apply List.ext_getElem?
    intro j
    rw [List.getElem?_set]
    simp only [SW.live, SW.putStore, List.getElem?_map, List.length_map]
    cases hj : w.tables[j]? with
    | none =>
      have : ¬ t = j := by rintro rfl; rw [ht] at hj; cases hj
      simp [this]
    | some sid' =>
      by_cases htj : t = j
      · subst htj
        rw [ht] at hj; cases hj
        have hl : t < w.tables.length := (List.getElem?_eq_some_iff.1 ht).1
        simp [SW.store, hlt, hl]
      · have hne : sid ≠ sid' := by
          rintro rfl; exact htj (i.nodup t j _ ht hj)
        simp [SW.store, htj, hne]

theorem putStore_store {w : SW K V} {t sid : Nat} (i : Inv w) (ht : w.tables[t]? = some sid) (s' : Store) :
    (w.putStore sid s').store sid = s' := by
  have hlt := i.lt t sid ht
  simp [SW.store, SW.putStore, hlt]

theorem store_append_old {w : SW K V} {i : Nat} (hi : i < w.stores.length) (h : Heap K V) (s : Store) (ts : List Nat) :
    SW.store { heap := h, stores := w.stores ++ [s], tables := ts } i = w.store i := by
  simp [SW.store, List.getElem?_append, hi]

theorem retarget_upd {w : SW K V} {t sid : Nat} (i : Inv w) (ht : w.tables[t]? = some sid) (s2 : Store) :
    Upd w t w.heap s2 { w with stores := w.stores ++ [s2], tables := w.tables.set t w.stores.length } := by
  have hl : t < w.tables.length := (List.getElem?_eq_some_iff.1 ht).1
  refine ⟨⟨?_, ?_⟩, rfl, ?_, fun j sid' hj h => by simpa [List.getElem?_set, Ne.symm hj] using h⟩
  · intro j sid' hj
    simp only at hj
    rw [List.getElem?_set] at hj
    simp only [List.length_append, List.length_cons, List.length_nil]
    split at hj
    · cases hj; omega
    · have := i.lt j sid' hj; omega
  · intro j j' sid' hj hj'
    simp only at hj hj'
    rw [List.getElem?_set] at hj hj'
    split at hj
    · rename_i h1
      cases hj
      split at hj'
      · rename_i h2; rw [← h1, ← h2]
      · have := i.lt j' _ hj'; omega
    · split at hj'
      · rename_i h2
        cases hj'
        have := i.lt j _ hj; omega
      · exact i.nodup j j' sid' hj hj'
  · apply List.ext_getElem?
    intro j
    rw [List.getElem?_set]
    simp only [SW.live, List.getElem?_map, List.length_map, List.getElem?_set]
    by_cases htj : t = j
    · subst htj
      simp [hl, SW.store]
    · simp only [htj, if_false]
      cases hj : w.tables[j]? with
      | none => simp
      | some sid' =>
        simp only [Option.map_some]
        rw [store_append_old (i.lt j sid' hj)]

theorem Upd.trans {w w1 w2 : SW K V} {t : Nat} {h1 h2 : Heap K V} {s1 s2 : Store} (a : Upd w t h1 s1 w1)
    (b : Upd w1 t h2 s2 w2) : Upd w t h2 s2 w2 :=
  ⟨b.inv, b.heap, by rw [b.live, a.live, List.set_set], fun j sid hj h => b.tabs j sid hj (a.tabs j sid hj h)⟩

theorem Upd.withHeap {w w1 : SW K V} {t : Nat} {h1 : Heap K V} {s1 : Store} (a : Upd w t h1 s1 w1) (h2 : Heap K V) :
    Upd w t h2 s1 { w1 with heap := h2 } :=
  ⟨⟨a.inv.lt, a.inv.nodup⟩, rfl, a.live, a.tabs⟩

theorem Inv.withHeap {w : SW K V} (i : Inv w) (h : Heap K V) : Inv { w with heap := h } := ⟨i.lt, i.nodup⟩

theorem Upd.same {w : SW K V} {t sid : Nat} (i : Inv w) (ht : w.tables[t]? = some sid) (h : Heap K V) :
    Upd w t h (w.store sid) { w with heap := h } := by
  refine ⟨i.withHeap h, rfl, ?_, fun _ _ _ h => h⟩
  have h1 := live_get ht
  obtain ⟨hlt, h2⟩ := List.getElem?_eq_some_iff.1 h1
  have : ({ w with heap := h } : SW K V).live = w.live := rfl
  rw [this, ← h2, List.set_getElem_self]

theorem cells_perm (s : Store) : s.cells.Perm s.flat := by
  unfold Store.cells Store.flat
  rw [cells_foldl, List.append_nil]
  exact List.reverse_perm _

theorem cells_eq (s : Store) : s.cells = s.flat.reverse := by
  unfold Store.cells Store.flat
  rw [cells_foldl, List.append_nil]

/-- `adjust!` keeps everything an effect promised -/
theorem adjust_upd {w w' : SW K V} {t sid n2 : Nat} {h0 : Heap K V} {s0 : Store} {M : K → V → Prop}
    (cons : Consistent hash eqv) (i : Inv w) (ht : w.tables[t]? = some sid)
    (e : Effect hash eqv h0 s0 w.heap (w.store sid) M) (ha : adjust hash w t sid n2 = .ok w') :
    ∃ s', Upd w t w.heap s' w' ∧ Effect hash eqv h0 s0 w.heap s' M ∧ s'.alloc ∈ bucketSizes ∧ n2 ≤ s'.alloc ∧
      s'.count = (w.store sid).count := by
  unfold adjust at ha
  obtain ⟨s2, hs2, ha⟩ := Res.bind_eq_ok.1 ha
  unfold mkStore at hs2
  obtain ⟨n, hn, hs2⟩ := Res.bind_eq_ok.1 hs2
  cases hs2
  cases ha
  have hsz := findSize_spec hn
  exact ⟨_, retarget_upd i ht _, e.rehash cons hsz.1 (cells_perm _), hsz.1, hsz.2, rfl⟩

theorem Effect.of_eq {h h' : Heap K V} {s s' : Store} {M M' : K → V → Prop} (e : Effect hash eqv h s h' s' M)
    (hM : ∀ k v, M k v ↔ M' k v) : Effect hash eqv h s h' s' M' :=
  ⟨e.wf, fun k v => (e.maps k v).trans (hM k v), e.next, e.frame, e.keys, e.owned⟩

/-- what setting `k` to `v` does to a mapping -/
def setM (eqv : K → K → Bool) (M : K → V → Prop) (k : K) (v : V) : K → V → Prop :=
  fun k' v' => if eqv k k' = true then v' = v else M k' v'

theorem insertCell_upd {w w' : SW K V} {t sid : Nat} {k : K} {v : V} {c : Nat} (cons : Consistent hash eqv) (i : Inv w)
    (ht : w.tables[t]? = some sid) (wf : WF hash eqv w.heap (w.store sid))
    (hnone : ∀ c ∈ (w.store sid).flat, eqv (w.heap.key c) k = false)
    (e : insertCell hash w t sid k v = .ok (w', c)) :
    c = w.heap.next ∧ ∃ s', Upd w t (w.heap.alloc k v).1 s' w' ∧
      Effect hash eqv w.heap (w.store sid) (w.heap.alloc k v).1 s' (setM eqv (Maps eqv w.heap (w.store sid).flat) k v) := by
  unfold insertCell at e
  obtain ⟨w1, h1, e⟩ := Res.bind_eq_ok.1 e
  cases e
  refine ⟨rfl, ?_⟩
  have ins := Effect.insert cons wf v hnone
  unfold incrSize at h1
  -- the world after the bucket has been replaced
  have u0 : Upd w t (w.heap.alloc k v).1 (w.store sid) { w with heap := (w.heap.alloc k v).1 } := Upd.same i ht _
  have ht0 : ({ w with heap := (w.heap.alloc k v).1 } : SW K V).tables[t]? = some sid := ht
  have u1 := putStore_upd u0.inv ht0 ((w.store sid).setBucket (hash k) ((w.heap.alloc k v).2 :: (w.store sid).bucket (hash k)))
  have st1 := putStore_store u0.inv ht0 ((w.store sid).setBucket (hash k) ((w.heap.alloc k v).2 :: (w.store sid).bucket (hash k)))
  simp only [st1] at h1
  have u2 := putStore_upd u1.inv ht0
    { ((w.store sid).setBucket (hash k) ((w.heap.alloc k v).2 :: (w.store sid).bucket (hash k))) with
      count := ((w.store sid).setBucket (hash k) ((w.heap.alloc k v).2 :: (w.store sid).bucket (hash k))).count + 1 }
  have st2 := putStore_store u1.inv ht0
    { ((w.store sid).setBucket (hash k) ((w.heap.alloc k v).2 :: (w.store sid).bucket (hash k))) with
      count := ((w.store sid).setBucket (hash k) ((w.heap.alloc k v).2 :: (w.store sid).bucket (hash k))).count + 1 }
  have u := (u0.trans u1).trans u2
  split at h1
  · have ins' := ins
    obtain ⟨s', h2, h3, _⟩ := adjust_upd cons u2.inv ht0 (by rw [st2]; exact ins') h1
    exact ⟨s', u.trans h2, h3⟩
  · cases h1
    exact ⟨_, u, ins⟩

theorem alloc_setVal_new (h : Heap K V) (k : K) (v : V) : (h.alloc k v).1.setVal h.next v = (h.alloc k v).1 := by
  unfold Heap.setVal Heap.alloc
  simp only [Heap.mk.injEq, and_true]
  funext d
  by_cases hd : d = h.next
  · simp [hd]
  · simp [hd]

theorem scmSet_upd {w w' : SW K V} {t sid : Nat} {k : K} {v : V} (cons : Consistent hash eqv) (i : Inv w)
    (ht : w.tables[t]? = some sid) (wf : WF hash eqv w.heap (w.store sid))
    (e : scmSet hash eqv w t k v = .ok w') :
    ∃ h' s', Upd w t h' s' w' ∧
      Effect hash eqv w.heap (w.store sid) h' s' (setM eqv (Maps eqv w.heap (w.store sid).flat) k v) := by
  unfold scmSet at e
  rw [ht] at e
  simp only at e
  split at e
  · rename_i c hc
    cases e
    have := findCell_some wf hc
    exact ⟨_, _, Upd.same i ht _, Effect.setVal cons wf v this.1 this.2⟩
  · rename_i hc
    obtain ⟨⟨w1, c⟩, h1, e⟩ := Res.bind_eq_ok.1 e
    obtain ⟨rfl, s', hu, he⟩ := insertCell_upd cons i ht wf (findCell_none cons wf hc) h1
    cases e
    refine ⟨_, s', hu.withHeap _, ?_⟩
    rw [hu.heap, alloc_setVal_new]; exact he

theorem scmUpdate_upd {w w' : SW K V} {t sid : Nat} {k : K} {f : V → V} {d : Option V} (cons : Consistent hash eqv)
    (i : Inv w) (ht : w.tables[t]? = some sid) (wf : WF hash eqv w.heap (w.store sid))
    (e : scmUpdate hash eqv w t k (fun v w => .ok (f v, w)) d = .ok w') :
    ∃ h' s' v0, Upd w t h' s' w' ∧ (Maps eqv w.heap (w.store sid).flat k v0 ∨
        (∀ v, ¬ Maps eqv w.heap (w.store sid).flat k v) ∧ d = some v0) ∧
      Effect hash eqv w.heap (w.store sid) h' s' (setM eqv (Maps eqv w.heap (w.store sid).flat) k (f v0)) := by
  unfold scmUpdate at e
  rw [ht] at e
  simp only at e
  split at e
  · rename_i c hc
    cases e
    have := findCell_some wf hc
    exact ⟨_, _, w.heap.val c, Upd.same i ht _, Or.inl ⟨c, this.1, this.2, rfl⟩, Effect.setVal cons wf _ this.1 this.2⟩
  · rename_i hc
    cases d with
    | none => cases e
    | some d =>
      simp only [Res.ok_bind] at e
      obtain ⟨⟨w1, c⟩, h1, e⟩ := Res.bind_eq_ok.1 e
      have hn := findCell_none cons wf hc
      obtain ⟨_, s', hu, he⟩ := insertCell_upd cons i ht wf hn h1
      cases e
      refine ⟨_, s', d, hu, Or.inr ⟨?_, rfl⟩, he⟩
      rintro v ⟨c, h1, h2, _⟩
      rw [hn c h1] at h2; cases h2

/-! #### deletion -/

theorem removeIn_some {h : Heap K V} {k : K} {b b' : List Nat} (e : removeIn eqv h k b = some b') :
    ∃ c, eqv (h.key c) k = true ∧ b.Perm (c :: b') := by
  induction b generalizing b' with
  | nil => cases e
  | cons c b ih =>
    rw [removeIn] at e
    split at e
    · rename_i hc; cases e; exact ⟨c, hc, List.Perm.refl _⟩
    · cases hr : removeIn eqv h k b with
      | none => rw [hr] at e; cases e
      | some b1 =>
        rw [hr] at e; cases e
        obtain ⟨d, h1, h2⟩ := ih hr
        exact ⟨d, h1, (h2.cons c).trans (List.Perm.swap _ _ _)⟩

theorem removeIn_none {h : Heap K V} {k : K} {b : List Nat} (e : removeIn eqv h k b = none) :
    findIn eqv h k b = none := by
  induction b with
  | nil => rfl
  | cons c b ih =>
    rw [removeIn] at e
    rw [findIn]
    split at e
    · cases e
    · rename_i hc
      rw [if_neg hc]
      apply ih
      cases hr : removeIn eqv h k b with
      | none => rfl
      | some b1 => rw [hr] at e; cases e

/-- what deleting `k` does to a mapping -/
def delM (eqv : K → K → Bool) (M : K → V → Prop) (k : K) : K → V → Prop :=
  fun k' v' => eqv k k' = false ∧ M k' v'

theorem remove_effect {h : Heap K V} {s : Store} (cons : Consistent hash eqv) (w : WF hash eqv h s) {k : K} {b' : List Nat}
    (e : removeIn eqv h k (s.bucket (hash k)) = some b') :
    Effect hash eqv h s h { (s.setBucket (hash k) b') with count := s.count - 1 } (delM eqv (Maps eqv h s.flat) k) ∧
    1 ≤ s.count := by
  obtain ⟨c, hck, hperm⟩ := removeIn_some e
  have hp := w.alloc_pos
  have hlt : (hash k).toNat % s.alloc < s.buckets.length := by rw [w.len]; exact Nat.mod_lt _ hp
  have hflat : s.flat.Perm (c :: Store.flat { (s.setBucket (hash k) b') with count := s.count - 1 }) := by
    have h1 : s.flat.Perm (s.bucket (hash k) ++ (s.buckets.eraseIdx ((hash k).toNat % s.alloc)).flatten) :=
      flatten_split_perm s.buckets _ hlt
    have h2 : (Store.flat { (s.setBucket (hash k) b') with count := s.count - 1 }).Perm
        (b' ++ (s.buckets.eraseIdx ((hash k).toNat % s.alloc)).flatten) := flatten_set_perm _ _ _ hlt
    refine (h1.trans (hperm.append_right _)).trans ?_
    rw [List.cons_append]
    exact h2.symm.cons c
  have huniq := (pairwise_perm cons hflat).1 w.uniq
  rw [List.pairwise_cons] at huniq
  have hlen := hflat.length_eq
  rw [List.length_cons] at hlen
  have hsub : ∀ d ∈ Store.flat { (s.setBucket (hash k) b') with count := s.count - 1 }, d ∈ s.flat := by
    intro d hd; exact hflat.mem_iff.2 (by simp [hd])
  refine ⟨⟨⟨?_, w.size, ?_, huniq.2, ?_, fun d hd => w.fresh d (hsub d hd)⟩, ?_, Nat.le_refl _, fun _ _ _ => rfl,
    fun _ _ => rfl, fun d hd => Or.inl (hsub d hd)⟩, by rw [w.count]; omega⟩
  · simp [Store.setBucket, w.len]
  · intro i hi d hd
    simp only [Store.setBucket] at hd hi ⊢
    rw [getD_set _ _ _ _ hlt] at hd
    split at hd
    · rename_i hii
      have : d ∈ s.bucket (hash k) := hperm.mem_iff.2 (by simp [hd])
      unfold Store.bucket at this; rw [← hii] at this
      exact w.idx i hi d this
    · exact w.idx i hi d hd
  · show s.count - 1 = _
    exact (Nat.sub_eq_of_eq_add (w.count.trans hlen))
  · intro k' v'
    constructor
    · rintro ⟨d, hd, h1, h2⟩
      refine ⟨?_, d, hsub d hd, h1, h2⟩
      cases hkk : eqv k k'
      · rfl
      · have : eqv (h.key c) (h.key d) = true := cons.trans _ _ _ (cons.trans _ _ _ hck hkk) (cons.symm _ _ h1)
        rw [huniq.1 d hd] at this; cases this
    · rintro ⟨hkk, d, hd, h1, h2⟩
      rcases List.mem_cons.1 (hflat.mem_iff.1 hd) with rfl | hd
      · rw [cons.trans _ _ _ (cons.symm _ _ hck) h1] at hkk; cases hkk
      · exact ⟨d, hd, h1, h2⟩

theorem scmDelete_upd {w w' : SW K V} {t sid : Nat} {k : K} (cons : Consistent hash eqv) (i : Inv w)
    (ht : w.tables[t]? = some sid) (wf : WF hash eqv w.heap (w.store sid))
    (e : scmDelete hash eqv w t k = .ok w') :
    ∃ s', Upd w t w.heap s' w' ∧
      Effect hash eqv w.heap (w.store sid) w.heap s' (delM eqv (Maps eqv w.heap (w.store sid).flat) k) := by
  unfold scmDelete at e
  rw [ht] at e
  simp only at e
  split at e
  · rename_i hr
    cases e
    refine ⟨_, Upd.same i ht w.heap, ⟨wf, ?_, Nat.le_refl _, fun _ _ _ => rfl, fun _ _ => rfl, fun _ h => Or.inl h⟩⟩
    intro k' v'
    have hn := findCell_none cons wf (removeIn_none hr)
    constructor
    · rintro ⟨d, hd, h1, h2⟩
      refine ⟨?_, d, hd, h1, h2⟩
      cases hkk : eqv k k'
      · rfl
      · rw [← hn d hd]
        exact (cons.trans _ _ _ h1 (cons.symm _ _ hkk)).symm
    · rintro ⟨_, h⟩; exact h
  · rename_i b hr
    obtain ⟨eff, h1⟩ := remove_effect cons wf hr
    unfold decrSize at e
    have u1 := putStore_upd i ht ((w.store sid).setBucket (hash k) b)
    have st1 := putStore_store i ht ((w.store sid).setBucket (hash k) b)
    simp only [st1] at e
    have u2 := putStore_upd u1.inv (t := t) (sid := sid) ht
      { ((w.store sid).setBucket (hash k) b) with count := ((w.store sid).setBucket (hash k) b).count - 1 }
    have st2 := putStore_store u1.inv (t := t) (sid := sid) ht
      { ((w.store sid).setBucket (hash k) b) with count := ((w.store sid).setBucket (hash k) b).count - 1 }
    split at e
    · obtain ⟨s', h2, h3, _⟩ := adjust_upd cons u2.inv (t := t) (sid := sid) ht (by rw [st2]; exact eff) e
      exact ⟨s', (u1.trans u2).trans h2, h3⟩
    · cases e
      exact ⟨_, u1.trans u2, eff⟩

/-! #### worlds -/

/-- invariant and abstraction -/
structure SRel (hash : K → Word) (eqv : K → K → Bool) (w : SW K V) (ms : List (K → Option V)) : Prop where
  inv : Inv w
  rel : Rel hash eqv w.heap w.live ms

theorem SRel.wf {w : SW K V} {ms : List (K → Option V)} (r : SRel hash eqv w ms) {t sid : Nat}
    (ht : w.tables[t]? = some sid) : WF hash eqv w.heap (w.store sid) := r.rel.wf t _ (live_get ht)

theorem SRel.lookup {w : SW K V} {ms : List (K → Option V)} (r : SRel hash eqv w ms) {t sid : Nat}
    (ht : w.tables[t]? = some sid) : ∃ m, ms[t]? = some m ∧ ∀ k v, Maps eqv w.heap (w.store sid).flat k v ↔ m k = some v := by
  have hl : t < ms.length := by
    rw [← r.rel.len, live_length]; exact (List.getElem?_eq_some_iff.1 ht).1
  exact ⟨ms[t], List.getElem?_eq_getElem hl, r.rel.maps t _ _ (live_get ht) (List.getElem?_eq_getElem hl)⟩

theorem SRel.set {w w' : SW K V} {ms : List (K → Option V)} (r : SRel hash eqv w ms) {t sid : Nat}
    (ht : w.tables[t]? = some sid) {h' : Heap K V} {s' : Store} {M : K → V → Prop} {m' : K → Option V}
    (u : Upd w t h' s' w') (e : Effect hash eqv w.heap (w.store sid) h' s' M) (hM : ∀ k v, M k v ↔ m' k = some v) :
    SRel hash eqv w' (ms.set t m') := by
  refine ⟨u.inv, ?_⟩
  rw [u.heap, u.live]
  exact r.rel.set (live_get ht) e hM

theorem push_live {w : SW K V} (i : Inv w) (h : Heap K V) (s : Store) :
    Inv { heap := h, stores := w.stores ++ [s], tables := w.tables ++ [w.stores.length] } ∧
    SW.live { heap := h, stores := w.stores ++ [s], tables := w.tables ++ [w.stores.length] } = w.live ++ [s] := by
  have split : ∀ {j sid : Nat}, (w.tables ++ [w.stores.length])[j]? = some sid →
      (w.tables[j]? = some sid) ∨ (j = w.tables.length ∧ sid = w.stores.length) := by
    intro j sid hj
    rw [List.getElem?_append] at hj
    split at hj
    · exact Or.inl hj
    · have hlt := (List.getElem?_eq_some_iff.1 hj).1
      simp at hlt
      have e : j - w.tables.length = 0 := by omega
      rw [e] at hj
      right; exact ⟨by omega, by simpa using hj.symm⟩
  refine ⟨⟨?_, ?_⟩, ?_⟩
  · intro j sid hj
    simp only [List.length_append, List.length_cons, List.length_nil]
    rcases split hj with h | ⟨_, rfl⟩
    · have := i.lt j sid h; omega
    · omega
  · intro j j' sid hj hj'
    rcases split hj with h | ⟨h, rfl⟩ <;> rcases split hj' with h' | ⟨h', e⟩
    · exact i.nodup j j' sid h h'
    · have := i.lt j sid h; omega
    · have := i.lt j' _ h'; omega
    · omega
  · simp only [SW.live, List.map_append, List.map_cons, List.map_nil]
    congr 1
    · apply List.map_congr_left
      intro sid hs
      obtain ⟨j, hj, e⟩ := List.mem_iff_getElem.1 hs
      exact store_append_old (i.lt j sid (by rw [List.getElem?_eq_getElem hj, e])) _ _ _
    · simp [SW.store]

end

end Minim.Hash
