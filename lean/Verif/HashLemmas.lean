import Verif.Hash

/-! Helper lemmas for `Verif.HashProps`. -/

namespace Minim.Hash

/-- A hash function agrees with an equivalence (specification, no source counterpart). -/
structure Consistent {K : Type} (hash : K → Word) (eqv : K → K → Bool) : Prop where
  refl : ∀ k, eqv k k = true
  symm : ∀ a b, eqv a b = true → eqv b a = true
  trans : ∀ a b c, eqv a b = true → eqv b c = true → eqv a c = true
  hash : ∀ a b, eqv a b = true → hash a = hash b

/-! ### lists -/

theorem flatten_set_perm {α : Type} (bs : List (List α)) (i : Nat) (b : List α) (h : i < bs.length) :
    (bs.set i b).flatten.Perm (b ++ (bs.eraseIdx i).flatten) := by
  induction bs generalizing i with
  | nil => simp at h
  | cons a bs ih =>
    cases i with
    | zero => simp
    | succ i =>
      simp only [List.set_cons_succ, List.flatten_cons, List.eraseIdx_cons_succ]
      have := ih i (by simpa using h)
      refine (this.append_left a).trans ?_
      rw [← List.append_assoc, ← List.append_assoc]
      exact List.Perm.append_right _ List.perm_append_comm

theorem flatten_split_perm {α : Type} (bs : List (List α)) (i : Nat) (h : i < bs.length) :
    bs.flatten.Perm (bs.getD i [] ++ (bs.eraseIdx i).flatten) := by
  have := flatten_set_perm bs i (bs.getD i []) h
  have e : bs.set i (bs.getD i []) = bs := by
    rw [List.getD_eq_getElem?_getD, List.getElem?_eq_getElem h]; simp
  rwa [e] at this

theorem cells_foldl {α : Type} (bs : List (List α)) (acc : List α) :
    bs.foldl (fun acc b => b.foldl (fun acc c => c :: acc) acc) acc = bs.flatten.reverse ++ acc := by
  have inner : ∀ (b : List α) (acc : List α), b.foldl (fun acc c => c :: acc) acc = b.reverse ++ acc := by
    intro b
    induction b with
    | nil => simp
    | cons c b ih => intro acc; simp [ih]
  induction bs generalizing acc with
  | nil => simp
  | cons b bs ih => rw [List.foldl_cons, ih, inner]; simp only [List.flatten_cons, List.reverse_append, List.append_assoc]

theorem foldl_flatten {α β : Type} (f : β → α → β) (bs : List (List α)) (acc : β) :
    bs.foldl (fun acc b => b.foldl f acc) acc = bs.flatten.foldl f acc := by
  induction bs generalizing acc with
  | nil => rfl
  | cons b bs ih => simp [ih]

/-! ### sizes -/

theorem bucketSizes_pos : ∀ n ∈ bucketSizes, 0 < n := by decide

theorem findSize_spec {hint n : Nat} (h : findSize hint = .ok n) : n ∈ bucketSizes ∧ hint ≤ n := by
  unfold findSize at h
  split at h
  · rename_i s hs
    cases h
    exact ⟨List.mem_of_find?_eq_some hs, by simpa using List.find?_some hs⟩
  · cases h

/-! ### heaps -/

section
variable {K V : Type}

@[simp] theorem alloc_next (h : Heap K V) (k v) : (h.alloc k v).1.next = h.next + 1 := rfl
@[simp] theorem alloc_id (h : Heap K V) (k v) : (h.alloc k v).2 = h.next := rfl
theorem alloc_get_new (h : Heap K V) (k v) : (h.alloc k v).1.get h.next = (k, v) := by simp [Heap.alloc]
theorem alloc_get_old (h : Heap K V) (k v) {c : Nat} (hc : c < h.next) : (h.alloc k v).1.get c = h.get c := by
  have : c ≠ h.next := by omega
  simp [Heap.alloc, this]
@[simp] theorem setVal_next (h : Heap K V) (c v) : (h.setVal c v).next = h.next := rfl
@[simp] theorem setVal_key (h : Heap K V) (c v d) : (h.setVal c v).key d = h.key d := by
  unfold Heap.setVal Heap.key; by_cases hd : d = c <;> simp [hd]
theorem setVal_val_same (h : Heap K V) (c v) : (h.setVal c v).val c = v := by simp [Heap.setVal, Heap.val]
theorem setVal_get_other (h : Heap K V) {c v d} (hd : d ≠ c) : (h.setVal c v).get d = h.get d := by
  simp [Heap.setVal, hd]

end

/-! ### stores -/

section
variable {K V : Type} {hash : K → Word} {eqv : K → K → Bool}

/-- The representation invariant. -/
structure WF (hash : K → Word) (eqv : K → K → Bool) (h : Heap K V) (s : Store) : Prop where
  len : s.buckets.length = s.alloc
  size : s.alloc ∈ bucketSizes
  idx : ∀ i, i < s.alloc → ∀ c ∈ s.buckets.getD i [], (hash (h.key c)).toNat % s.alloc = i
  uniq : s.flat.Pairwise (fun c d => eqv (h.key c) (h.key d) = false)
  count : s.count = s.flat.length
  fresh : ∀ c ∈ s.flat, c < h.next

/-- key `k` has value `v` in some listed cell -/
def Maps (eqv : K → K → Bool) (h : Heap K V) (cs : List Nat) (k : K) (v : V) : Prop :=
  ∃ c ∈ cs, eqv (h.key c) k = true ∧ h.val c = v

theorem mem_flat {s : Store} {c : Nat} : c ∈ s.flat ↔ ∃ i, i < s.buckets.length ∧ c ∈ s.buckets.getD i [] := by
  unfold Store.flat
  rw [List.mem_flatten]
  constructor
  · rintro ⟨b, hb, hc⟩
    obtain ⟨i, hi, rfl⟩ := List.mem_iff_getElem.1 hb
    exact ⟨i, hi, by rw [List.getD_eq_getElem?_getD, List.getElem?_eq_getElem hi]; exact hc⟩
  · rintro ⟨i, hi, hc⟩
    rw [List.getD_eq_getElem?_getD, List.getElem?_eq_getElem hi] at hc
    exact ⟨_, List.getElem_mem hi, hc⟩

theorem WF.alloc_pos {h : Heap K V} {s : Store} (w : WF hash eqv h s) : 0 < s.alloc := bucketSizes_pos _ w.size

theorem WF.mem_bucket {h : Heap K V} {s : Store} (w : WF hash eqv h s) {c : Nat} :
    c ∈ s.bucket (hash (h.key c)) ↔ c ∈ s.flat := by
  have hp := w.alloc_pos
  rw [mem_flat]
  unfold Store.bucket
  constructor
  · intro hc
    exact ⟨_, by rw [w.len]; exact Nat.mod_lt _ hp, hc⟩
  · rintro ⟨i, hi, hc⟩
    rw [w.len] at hi
    rw [w.idx i hi c hc]; exact hc

theorem findIn_some {h : Heap K V} {k : K} {b : List Nat} {c : Nat} (e : findIn eqv h k b = some c) :
    c ∈ b ∧ eqv (h.key c) k = true := by
  induction b with
  | nil => cases e
  | cons d b ih =>
    rw [findIn] at e
    split at e
    · cases e; rename_i hd; exact ⟨by simp, hd⟩
    · obtain ⟨h1, h2⟩ := ih e; exact ⟨by simp [h1], h2⟩

theorem findIn_none {h : Heap K V} {k : K} {b : List Nat} (e : findIn eqv h k b = none) :
    ∀ c ∈ b, eqv (h.key c) k = false := by
  induction b with
  | nil => simp
  | cons d b ih =>
    rw [findIn] at e
    split at e
    · cases e
    · rename_i hd
      intro c hc
      rcases List.mem_cons.1 hc with rfl | hc
      · simpa using hd
      · exact ih e c hc

theorem bucket_sub_flat {h : Heap K V} {s : Store} (w : WF hash eqv h s) (hv : Word) {c : Nat}
    (hc : c ∈ s.bucket hv) : c ∈ s.flat :=
  mem_flat.2 ⟨hv.toNat % s.alloc, by rw [w.len]; exact Nat.mod_lt _ w.alloc_pos, hc⟩

theorem findCell_some {h : Heap K V} {s : Store} (w : WF hash eqv h s) {k : K} {c : Nat}
    (e : findCell hash eqv h s k = some c) : c ∈ s.flat ∧ eqv (h.key c) k = true := by
  obtain ⟨h1, h2⟩ := findIn_some e
  exact ⟨bucket_sub_flat w _ h1, h2⟩

theorem findCell_none {h : Heap K V} {s : Store} (cons : Consistent hash eqv) (w : WF hash eqv h s) {k : K}
    (e : findCell hash eqv h s k = none) : ∀ c ∈ s.flat, eqv (h.key c) k = false := by
  intro c hc
  cases hcv : eqv (h.key c) k
  · rfl
  · have hb := w.mem_bucket.2 hc
    rw [cons.hash _ _ hcv] at hb
    rw [findIn_none e c hb] at hcv; cases hcv

theorem uniq_eq {h : Heap K V} {cs : List Nat} (cons : Consistent hash eqv)
    (u : cs.Pairwise (fun c d => eqv (h.key c) (h.key d) = false)) {c d : Nat} {k : K}
    (hc : c ∈ cs) (hd : d ∈ cs) (ec : eqv (h.key c) k = true) (ed : eqv (h.key d) k = true) : c = d := by
  have hcd : eqv (h.key c) (h.key d) = true := cons.trans _ _ _ ec (cons.symm _ _ ed)
  have hdc : eqv (h.key d) (h.key c) = true := cons.symm _ _ hcd
  induction u with
  | nil => simp at hc
  | @cons a l hal _ ih =>
    rcases List.mem_cons.1 hc with rfl | hc'
    · rcases List.mem_cons.1 hd with rfl | hd'
      · rfl
      · rw [hal _ hd'] at hcd; cases hcd
    · rcases List.mem_cons.1 hd with rfl | hd'
      · rw [hal _ hc'] at hdc; cases hdc
      · exact ih hc' hd'

/-- the lookup answers the mapping relation -/
theorem find_iff_maps {h : Heap K V} {s : Store} (cons : Consistent hash eqv) (w : WF hash eqv h s) (k : K) (v : V) :
    (findCell hash eqv h s k).map h.val = some v ↔ Maps eqv h s.flat k v := by
  constructor
  · intro e
    cases hc : findCell hash eqv h s k with
    | none => rw [hc] at e; cases e
    | some c =>
      rw [hc] at e; cases e
      obtain ⟨h1, h2⟩ := findCell_some w hc
      exact ⟨c, h1, h2, rfl⟩
  · rintro ⟨c, h1, h2, rfl⟩
    cases hc : findCell hash eqv h s k with
    | none => rw [findCell_none cons w hc c h1] at h2; cases h2
    | some d =>
      obtain ⟨h3, h4⟩ := findCell_some w hc
      rw [uniq_eq cons w.uniq h1 h3 h2 h4]; rfl

theorem pairwise_perm {h : Heap K V} (cons : Consistent hash eqv) {l1 l2 : List Nat} (p : l1.Perm l2) :
    l1.Pairwise (fun c d => eqv (h.key c) (h.key d) = false) ↔ l2.Pairwise (fun c d => eqv (h.key c) (h.key d) = false) := by
  apply List.Perm.pairwise_iff _ p
  intro a b hab
  cases hba : eqv (h.key b) (h.key a)
  · rfl
  · rw [cons.symm _ _ hba] at hab; cases hab

/-- the invariant only looks at the store's own cells, keys included -/
theorem WF.frame {h h' : Heap K V} {s : Store} (w : WF hash eqv h s) (hn : h.next ≤ h'.next)
    (hk : ∀ c ∈ s.flat, h'.key c = h.key c) : WF hash eqv h' s where
  len := w.len
  size := w.size
  idx := by
    intro i hi c hc
    rw [hk c (mem_flat.2 ⟨i, by rw [w.len]; exact hi, hc⟩)]
    exact w.idx i hi c hc
  uniq := by
    refine List.Pairwise.imp_of_mem ?_ w.uniq
    intro a b ha hb hab
    rw [hk a ha, hk b hb]; exact hab
  count := w.count
  fresh := fun c hc => Nat.lt_of_lt_of_le (w.fresh c hc) hn

theorem Maps.frame {h h' : Heap K V} {cs : List Nat} (hk : ∀ c ∈ cs, h'.get c = h.get c) (k : K) (v : V) :
    Maps eqv h' cs k v ↔ Maps eqv h cs k v := by
  constructor
  · rintro ⟨c, hc, h1, h2⟩
    refine ⟨c, hc, ?_, ?_⟩
    · unfold Heap.key at *; rw [← hk c hc]; exact h1
    · unfold Heap.val at *; rw [← hk c hc]; exact h2
  · rintro ⟨c, hc, h1, h2⟩
    refine ⟨c, hc, ?_, ?_⟩
    · unfold Heap.key at *; rw [hk c hc]; exact h1
    · unfold Heap.val at *; rw [hk c hc]; exact h2

theorem Maps.perm {h : Heap K V} {cs cs' : List Nat} (p : ∀ c, c ∈ cs ↔ c ∈ cs') (k : K) (v : V) :
    Maps eqv h cs k v ↔ Maps eqv h cs' k v := by
  unfold Maps
  constructor <;> rintro ⟨c, hc, h1⟩
  · exact ⟨c, (p c).1 hc, h1⟩
  · exact ⟨c, (p c).2 hc, h1⟩

/-! #### make, clear -/

theorem replicate_getD (n i : Nat) : (List.replicate n ([] : List Nat)).getD i [] = [] := by
  rw [List.getD_eq_getElem?_getD]
  by_cases h : i < n
  · simp [h]
  · rw [List.getElem?_eq_none (by simpa using h)]; rfl

theorem flat_replicate (n : Nat) : (List.replicate n ([] : List Nat)).flatten = [] := by simp

theorem wf_empty (h : Heap K V) {n : Nat} (hn : n ∈ bucketSizes) :
    WF hash eqv h { alloc := n, buckets := List.replicate n [], count := 0 } where
  len := by simp
  size := hn
  idx := by intro i _ c hc; rw [replicate_getD] at hc; cases hc
  uniq := by simp [Store.flat]
  count := by simp [Store.flat]
  fresh := by simp [Store.flat]

/-! #### pushing cells into buckets -/

theorem pushCell_length (h : Heap K V) (n nb c) : (pushCell hash h n nb c).length = nb.length := by simp [pushCell]

theorem pushCell_perm (h : Heap K V) {n : Nat} {nb : List (List Nat)} (hn : 0 < n) (hl : nb.length = n) (c : Nat) :
    (pushCell hash h n nb c).flatten.Perm (c :: nb.flatten) := by
  unfold pushCell
  have hlt : (hash (h.key c)).toNat % n < nb.length := by rw [hl]; exact Nat.mod_lt _ hn
  refine (flatten_set_perm _ _ _ hlt).trans ?_
  rw [List.cons_append]
  exact List.Perm.cons _ (flatten_split_perm nb _ hlt).symm

theorem getD_set {α : Type} (l : List (List α)) (i j : Nat) (b : List α) (hi : i < l.length) :
    (l.set i b).getD j [] = if j = i then b else l.getD j [] := by
  simp only [List.getD_eq_getElem?_getD, List.getElem?_set]
  by_cases h : i = j
  · subst h; simp [hi]
  · have : ¬ j = i := fun h' => h h'.symm
    simp [h, this]

theorem pushCell_idx (h : Heap K V) {n : Nat} {nb : List (List Nat)} (hn : 0 < n) (hl : nb.length = n)
    (hidx : ∀ i, i < n → ∀ c ∈ nb.getD i [], (hash (h.key c)).toNat % n = i) (c : Nat) :
    ∀ i, i < n → ∀ d ∈ (pushCell hash h n nb c).getD i [], (hash (h.key d)).toNat % n = i := by
  intro i hi d hd
  unfold pushCell at hd
  rw [getD_set _ _ _ _ (by rw [hl]; exact Nat.mod_lt _ hn)] at hd
  split at hd
  · rename_i hii
    rcases List.mem_cons.1 hd with rfl | hd
    · exact hii.symm
    · rw [← hii] at hd; exact hidx i hi d hd
  · exact hidx i hi d hd

theorem pushCells (h : Heap K V) {n : Nat} (hn : 0 < n) (cs : List Nat) : ∀ (nb : List (List Nat)),
    nb.length = n → (∀ i, i < n → ∀ c ∈ nb.getD i [], (hash (h.key c)).toNat % n = i) →
    (cs.foldl (pushCell hash h n) nb).length = n ∧
    (∀ i, i < n → ∀ c ∈ (cs.foldl (pushCell hash h n) nb).getD i [], (hash (h.key c)).toNat % n = i) ∧
    (cs.foldl (pushCell hash h n) nb).flatten.Perm (cs ++ nb.flatten) := by
  induction cs with
  | nil => intro nb hl hidx; exact ⟨hl, hidx, List.Perm.refl _⟩
  | cons c cs ih =>
    intro nb hl hidx
    obtain ⟨h1, h2, h3⟩ := ih (pushCell hash h n nb c) (by rw [pushCell_length, hl]) (pushCell_idx h hn hl hidx c)
    refine ⟨h1, h2, h3.trans ?_⟩
    refine ((pushCell_perm h hn hl c).append_left cs).trans ?_
    exact List.perm_middle

/-- what any rehash of the cells of `s` into `n` buckets gives -/
theorem rehash_wf {h : Heap K V} {s : Store} (cons : Consistent hash eqv) (w : WF hash eqv h s) {n : Nat}
    (hn : n ∈ bucketSizes) {cs : List Nat} (hp : cs.Perm s.flat) :
    let s' : Store := { alloc := n, buckets := cs.foldl (pushCell hash h n) (List.replicate n []), count := s.count }
    WF hash eqv h s' ∧ s'.flat.Perm s.flat := by
  intro s'
  obtain ⟨h1, h2, h3⟩ := pushCells (hash := hash) h (bucketSizes_pos n hn) cs (List.replicate n []) (by simp)
    (by intro i _ c hc; rw [replicate_getD] at hc; cases hc)
  have hflat : s'.flat.Perm s.flat := by
    have : s'.flat.Perm cs := by
      have e := h3
      rw [flat_replicate, List.append_nil] at e
      exact e
    exact this.trans hp
  refine ⟨⟨h1, hn, h2, (pairwise_perm cons hflat).2 w.uniq, ?_, ?_⟩, hflat⟩
  · rw [hflat.length_eq, ← w.count]
  · intro c hc; exact w.fresh c (hflat.mem_iff.1 hc)

/-- insertion of a fresh cell for an absent key -/
theorem insert_wf {h : Heap K V} {s : Store} (cons : Consistent hash eqv) (w : WF hash eqv h s) {k : K} {v : V}
    (hnone : ∀ c ∈ s.flat, eqv (h.key c) k = false) :
    let s' : Store := { (s.setBucket (hash k) (h.next :: s.bucket (hash k))) with count := s.count + 1 }
    WF hash eqv (h.alloc k v).1 s' ∧ s'.flat.Perm (h.next :: s.flat) := by
  intro s'
  have hp := w.alloc_pos
  have hlt : (hash k).toNat % s.alloc < s.buckets.length := by rw [w.len]; exact Nat.mod_lt _ hp
  have hold : ∀ c ∈ s.flat, (h.alloc k v).1.key c = h.key c := by
    intro c hc; unfold Heap.key; rw [alloc_get_old _ _ _ (w.fresh c hc)]
  have hnew : (h.alloc k v).1.key h.next = k := by unfold Heap.key; rw [alloc_get_new]
  have hflat : s'.flat.Perm (h.next :: s.flat) := by
    refine (flatten_set_perm _ _ _ hlt).trans ?_
    rw [List.cons_append]
    exact List.Perm.cons _ (flatten_split_perm _ _ hlt).symm
  have hw' := w.frame (h' := (h.alloc k v).1) (by simp) hold
  refine ⟨⟨?_, w.size, ?_, ?_, ?_, ?_⟩, hflat⟩
  · simp [s', Store.setBucket, w.len]
  · intro i hi c hc
    simp only [s', Store.setBucket] at hc hi ⊢
    rw [getD_set _ _ _ _ hlt] at hc
    split at hc
    · rename_i hii
      rcases List.mem_cons.1 hc with rfl | hc
      · rw [hnew]; exact hii.symm
      · unfold Store.bucket at hc; rw [← hii] at hc; exact hw'.idx i hi c hc
    · exact hw'.idx i hi c hc
  · rw [pairwise_perm cons hflat, List.pairwise_cons]
    refine ⟨?_, hw'.uniq⟩
    intro c hc
    rw [hnew, hold c hc]
    cases hkc : eqv k (h.key c)
    · rfl
    · have := hnone c hc; rw [cons.symm _ _ hkc] at this; cases this
  · rw [hflat.length_eq]; simp [s', w.count]
  · intro c hc
    rcases List.mem_cons.1 (hflat.mem_iff.1 hc) with rfl | hc
    · simp
    · have := w.fresh c hc; simp; omega

/-- the mapping after a write through an existing cell -/
theorem maps_setVal {h : Heap K V} {cs : List Nat} (cons : Consistent hash eqv)
    (u : cs.Pairwise (fun c d => eqv (h.key c) (h.key d) = false)) {k : K} {c : Nat} (v : V)
    (hc : c ∈ cs) (ec : eqv (h.key c) k = true) (k' : K) (v' : V) :
    Maps eqv (h.setVal c v) cs k' v' ↔ if eqv k k' = true then v' = v else Maps eqv h cs k' v' := by
  constructor
  · rintro ⟨d, hd, e1, e2⟩
    rw [setVal_key] at e1
    split
    · rename_i hk
      have := uniq_eq cons u hc hd (cons.trans _ _ _ ec hk) e1
      subst this
      rw [setVal_val_same] at e2; exact e2.symm
    · rename_i hk
      have hne : d ≠ c := by
        rintro rfl; exact hk (cons.trans _ _ _ (cons.symm _ _ ec) e1)
      refine ⟨d, hd, e1, ?_⟩
      unfold Heap.val at *; rw [setVal_get_other _ hne] at e2; exact e2
  · intro hx
    split at hx
    · rename_i hk
      subst hx
      exact ⟨c, hc, by rw [setVal_key]; exact cons.trans _ _ _ ec hk, setVal_val_same _ _ _⟩
    · rename_i hk
      obtain ⟨d, hd, e1, e2⟩ := hx
      have hne : d ≠ c := by
        rintro rfl; exact hk (cons.trans _ _ _ (cons.symm _ _ ec) e1)
      refine ⟨d, hd, by rw [setVal_key]; exact e1, ?_⟩
      unfold Heap.val at *; rw [setVal_get_other _ hne]; exact e2

/-- the mapping after consing a fresh cell for an absent key -/
theorem maps_insert {h : Heap K V} {cs : List Nat} {k : K} {v : V}
    (hnone : ∀ c ∈ cs, eqv (h.key c) k = false) (hfr : ∀ c ∈ cs, c < h.next) (cons : Consistent hash eqv) (k' : K) (v' : V) :
    Maps eqv (h.alloc k v).1 (h.next :: cs) k' v' ↔ if eqv k k' = true then v' = v else Maps eqv h cs k' v' := by
  have hold : ∀ c ∈ cs, (h.alloc k v).1.get c = h.get c := fun c hc => alloc_get_old _ _ _ (hfr c hc)
  constructor
  · rintro ⟨d, hd, e1, e2⟩
    rcases List.mem_cons.1 hd with rfl | hd
    · unfold Heap.key Heap.val at *
      rw [alloc_get_new] at e1 e2
      rw [if_pos e1]; exact e2.symm
    · unfold Heap.key Heap.val at *
      rw [hold d hd] at e1 e2
      rw [if_neg]
      · exact ⟨d, hd, e1, e2⟩
      · intro hk
        have := hnone d hd
        rw [cons.trans _ _ _ e1 (cons.symm _ _ hk)] at this; cases this
  · intro hx
    split at hx
    · rename_i hk
      subst hx
      exact ⟨h.next, by simp, by unfold Heap.key; rw [alloc_get_new]; exact hk, by unfold Heap.val; rw [alloc_get_new]⟩
    · obtain ⟨d, hd, e1, e2⟩ := hx
      refine ⟨d, by simp [hd], ?_, ?_⟩
      · unfold Heap.key at *; rw [hold d hd]; exact e1
      · unfold Heap.val at *; rw [hold d hd]; exact e2

/-- The effect of one operation on a store, seen from outside: the invariant is kept, the mapping becomes `M`,
only cells of the store or new ones are touched or used. -/
structure Effect (hash : K → Word) (eqv : K → K → Bool) (h : Heap K V) (s : Store) (h' : Heap K V) (s' : Store)
    (M : K → V → Prop) : Prop where
  wf : WF hash eqv h' s'
  maps : ∀ k v, Maps eqv h' s'.flat k v ↔ M k v
  next : h.next ≤ h'.next
  frame : ∀ c, c < h.next → c ∉ s.flat → h'.get c = h.get c
  keys : ∀ c, c < h.next → h'.key c = h.key c
  owned : ∀ c ∈ s'.flat, c ∈ s.flat ∨ h.next ≤ c

theorem Effect.setVal {h : Heap K V} {s : Store} (cons : Consistent hash eqv) (w : WF hash eqv h s) {k : K} {c : Nat}
    (v : V) (hc : c ∈ s.flat) (ec : eqv (h.key c) k = true) :
    Effect hash eqv h s (h.setVal c v) s (fun k' v' => if eqv k k' = true then v' = v else Maps eqv h s.flat k' v') where
  wf := w.frame (by simp) (by simp)
  maps := maps_setVal cons w.uniq v hc ec
  next := by simp
  frame := by
    intro d _ hd
    exact setVal_get_other _ (by rintro rfl; exact hd hc)
  keys := by simp
  owned := fun _ h => Or.inl h

theorem Effect.insert {h : Heap K V} {s : Store} (cons : Consistent hash eqv) (w : WF hash eqv h s) {k : K} (v : V)
    (hnone : ∀ c ∈ s.flat, eqv (h.key c) k = false) :
    Effect hash eqv h s (h.alloc k v).1
      { (s.setBucket (hash k) (h.next :: s.bucket (hash k))) with count := s.count + 1 }
      (fun k' v' => if eqv k k' = true then v' = v else Maps eqv h s.flat k' v') := by
  obtain ⟨h1, h2⟩ := insert_wf (v := v) cons w hnone
  refine ⟨h1, ?_, by simp, ?_, ?_, ?_⟩
  · intro k' v'
    rw [Maps.perm (fun c => h2.mem_iff)]
    exact maps_insert hnone w.fresh cons k' v'
  · intro c hc _; exact alloc_get_old _ _ _ hc
  · intro c hc; unfold Heap.key; rw [alloc_get_old _ _ _ hc]
  · intro c hc
    rcases List.mem_cons.1 (h2.mem_iff.1 hc) with rfl | hc
    · right; exact Nat.le_refl _
    · exact Or.inl hc

/-- a rehash after an effect -/
theorem Effect.rehash {h h' : Heap K V} {s s' : Store} {M : K → V → Prop} (cons : Consistent hash eqv)
    (e : Effect hash eqv h s h' s' M) {n : Nat} (hn : n ∈ bucketSizes) {cs : List Nat} (hp : cs.Perm s'.flat) :
    Effect hash eqv h s h'
      { alloc := n, buckets := cs.foldl (pushCell hash h' n) (List.replicate n []), count := s'.count } M := by
  obtain ⟨h1, h2⟩ := rehash_wf cons e.wf hn hp
  refine ⟨h1, ?_, e.next, e.frame, e.keys, ?_⟩
  · intro k v
    rw [Maps.perm (fun c => h2.mem_iff)]
    exact e.maps k v
  · intro c hc; exact e.owned c (h2.mem_iff.1 hc)

theorem eqSet_effect {h h' : Heap K V} {s s' : Store} (cons : Consistent hash eqv) (w : WF hash eqv h s) {k : K} {v : V}
    (e : eqSet hash eqv h s k v = .ok (h', s')) :
    Effect hash eqv h s h' s' (fun k' v' => if eqv k k' = true then v' = v else Maps eqv h s.flat k' v') := by
  unfold eqSet at e
  simp only at e
  split at e
  · rename_i c hc
    cases e
    have := findCell_some w hc
    exact Effect.setVal cons w v this.1 this.2
  · rename_i hc
    have hnone := findCell_none cons w hc
    have ins := Effect.insert cons w v hnone
    split at e
    · obtain ⟨s'', hs, e⟩ := Res.bind_eq_ok.1 e
      cases e
      unfold eqResize at hs
      obtain ⟨n, hn, hs⟩ := Res.bind_eq_ok.1 hs
      cases hs
      simp only [foldl_flatten]
      exact Effect.rehash cons ins (findSize_spec hn).1 (List.Perm.refl _)
    · cases e
      exact ins

/-! #### copying -/

theorem copyBucket_spec (h : Heap K V) (b : List Nat) : ∀ (_ : ∀ c ∈ b, c < h.next),
    (copyBucket h b).2 = (List.range' h.next b.length) ∧ (copyBucket h b).1.next = h.next + b.length ∧
    (∀ c, c < h.next → (copyBucket h b).1.get c = h.get c) ∧
    (copyBucket h b).2.map (copyBucket h b).1.get = b.map h.get := by
  induction b generalizing h with
  | nil => intro _; simp [copyBucket]
  | cons c b ih =>
    intro hb
    simp only [List.mem_cons, forall_eq_or_imp] at hb
    obtain ⟨h1, h2, h3, h4⟩ := ih (h.alloc (h.key c) (h.val c)).1 (fun d hd => by have := hb.2 d hd; simp; omega)
    simp only [copyBucket, alloc_id, alloc_next, List.length_cons, List.map_cons] at *
    refine ⟨?_, by omega, ?_, ?_⟩
    · rw [h1, List.range'_succ]
    · intro d hd
      rw [h3 d (by omega), alloc_get_old _ _ _ hd]
    · rw [h3 _ (by omega), alloc_get_new, h4]
      congr 1
      apply List.map_congr_left
      intro d hd
      rw [alloc_get_old _ _ _ (hb.2 d hd)]

theorem copyBuckets_spec (h : Heap K V) (bs : List (List Nat)) : ∀ (_ : ∀ c ∈ bs.flatten, c < h.next),
    (copyBuckets h bs).2.flatten = List.range' h.next bs.flatten.length ∧
    (copyBuckets h bs).1.next = h.next + bs.flatten.length ∧
    (∀ c, c < h.next → (copyBuckets h bs).1.get c = h.get c) ∧
    (copyBuckets h bs).2.length = bs.length ∧
    (copyBuckets h bs).2.map (fun b => b.map (copyBuckets h bs).1.get) = bs.map (fun b => b.map h.get) := by
  induction bs generalizing h with
  | nil => intro _; simp [copyBuckets]
  | cons b bs ih =>
    intro hb
    simp only [List.flatten_cons, List.mem_append] at hb
    obtain ⟨a1, a2, a3, a4⟩ := copyBucket_spec h b (fun c hc => hb c (Or.inl hc))
    obtain ⟨b1, b2, b3, b4, b5⟩ := ih (copyBucket h b).1 (fun c hc => by have := hb c (Or.inr hc); omega)
    simp only [copyBuckets, List.flatten_cons, List.length_append, List.length_cons, List.map_cons]
    refine ⟨?_, by omega, ?_, by omega, ?_⟩
    · rw [b1, a1, a2, List.range'_append_1]
    · intro c hc; rw [b3 c (by omega), a3 c hc]
    · rw [b5]
      congr 1
      · rw [← a4]
        apply List.map_congr_left
        intro c hc
        rw [a1, List.mem_range'_1] at hc
        exact b3 c (by omega)
      · apply List.map_congr_left
        intro b' hb'
        apply List.map_congr_left
        intro c hc
        exact a3 c (hb c (Or.inr (List.mem_flatten.2 ⟨b', hb', hc⟩)))

theorem copyStore_spec {h : Heap K V} {s : Store} (w : WF hash eqv h s) :
    WF hash eqv (copyStore h s).1 (copyStore h s).2 ∧
    (∀ k v, Maps eqv (copyStore h s).1 (copyStore h s).2.flat k v ↔ Maps eqv h s.flat k v) ∧
    h.next ≤ (copyStore h s).1.next ∧ (∀ c, c < h.next → (copyStore h s).1.get c = h.get c) ∧
    (∀ c ∈ (copyStore h s).2.flat, h.next ≤ c) := by
  obtain ⟨a1, a2, a3, a4, a5⟩ := copyBuckets_spec h s.buckets w.fresh
  have hfl : (copyStore h s).2.flat = List.range' h.next s.flat.length := a1
  have hmap : (copyStore h s).2.flat.map (copyStore h s).1.get = s.flat.map h.get := by
    have := congrArg List.flatten a5
    rw [← List.map_flatten, ← List.map_flatten] at this
    exact this
  have hkeys : (copyStore h s).2.flat.map (copyStore h s).1.key = s.flat.map h.key := by
    have := congrArg (List.map Prod.fst) hmap
    rw [List.map_map, List.map_map] at this; exact this
  refine ⟨⟨?_, w.size, ?_, ?_, ?_, ?_⟩, ?_, ?_, a3, ?_⟩
  · show (copyBuckets h s.buckets).2.length = s.alloc
    rw [a4, w.len]
  · intro i hi c hc
    have hi' : i < (copyBuckets h s.buckets).2.length := by rw [a4, w.len]; exact hi
    have hi2 : i < s.buckets.length := by rw [w.len]; exact hi
    have e := congrArg (fun l => l[i]?) a5
    simp only [List.getElem?_map] at e
    rw [List.getElem?_eq_getElem hi', List.getElem?_eq_getElem hi2] at e
    simp only [Option.map_some, Option.some.injEq] at e
    have hc' : c ∈ (copyBuckets h s.buckets).2[i] := by
      have : (copyStore h s).2.buckets = (copyBuckets h s.buckets).2 := rfl
      rw [this, List.getD_eq_getElem?_getD, List.getElem?_eq_getElem hi'] at hc
      exact hc
    have : (copyBuckets h s.buckets).1.get c ∈ s.buckets[i].map h.get := by
      rw [← e]; exact List.mem_map_of_mem hc'
    obtain ⟨d, hd, ed⟩ := List.mem_map.1 this
    have hk : (copyStore h s).1.key c = h.key d := by
      show ((copyBuckets h s.buckets).1.get c).1 = _
      rw [← ed]; rfl
    rw [hk]
    refine w.idx i hi d ?_
    rw [List.getD_eq_getElem?_getD, List.getElem?_eq_getElem hi2]; exact hd
  · have := w.uniq
    rw [← List.pairwise_map (f := h.key) (R := fun a b => eqv a b = false), ← hkeys, List.pairwise_map] at this
    exact this
  · rw [hfl, List.length_range']; exact w.count
  · intro c hc
    rw [hfl, List.mem_range'_1] at hc
    show c < (copyBuckets h s.buckets).1.next
    rw [a2]; exact hc.2
  · intro k v
    have aux : ∀ (g : Nat → K × V) (cs : List Nat),
        (∃ c ∈ cs, eqv (g c).1 k = true ∧ (g c).2 = v) ↔ ∃ p ∈ cs.map g, eqv p.1 k = true ∧ p.2 = v := by
      intro g cs
      constructor
      · rintro ⟨c, hc, h⟩; exact ⟨g c, List.mem_map_of_mem hc, h⟩
      · rintro ⟨p, hp, h⟩
        obtain ⟨c, hc, rfl⟩ := List.mem_map.1 hp
        exact ⟨c, hc, h⟩
    unfold Maps Heap.key Heap.val
    rw [aux, aux, hmap]
  · show h.next ≤ (copyBuckets h s.buckets).1.next
    omega
  · intro c hc
    rw [hfl, List.mem_range'_1] at hc; exact hc.1

end

end Minim.Hash
