import Verif.Gc
import Mathlib.Data.List.Perm.Basic
import Mathlib.Data.List.Perm.Subperm
import Mathlib.Data.List.Nodup

set_option autoImplicit false

/-!
# Lemmas on the allocation table
-/

namespace Minim.Gc

/-- Every record is in the bucket of its address, at most one for each address. -/
structure Tab (g : GC) : Prop where
  pos : 0 < g.alloc
  place : ∀ i r, r ∈ g.buckets i → r.addr / 8 % g.alloc = i
  nodup : (g.recs.map Rec.addr).Nodup

theorem GC.slot_lt {g : GC} (h : 0 < g.alloc) (p : Nat) : g.slot p < g.alloc := Nat.mod_lt _ h

theorem mem_recs {g : GC} (h : 0 < g.alloc) (hp : ∀ i r, r ∈ g.buckets i → r.addr / 8 % g.alloc = i) {r : Rec} : r ∈ g.recs ↔ r ∈ g.buckets (g.slot r.addr) := by
  simp only [GC.recs, List.mem_flatMap, List.mem_range]
  constructor
  · rintro ⟨i, _, hr⟩
    have := hp i r hr
    rw [GC.slot, this]; exact hr
  · intro hr
    exact ⟨_, GC.slot_lt h _, hr⟩

theorem mem_of_bucket {g : GC} (h : 0 < g.alloc) (hp : ∀ i r, r ∈ g.buckets i → r.addr / 8 % g.alloc = i) {i : Nat} {r : Rec} (hr : r ∈ g.buckets i) : r ∈ g.recs := by
  rw [mem_recs h hp, GC.slot, hp i r hr]; exact hr

theorem eq_of_addr {l : List Rec} (h : (l.map Rec.addr).Nodup) : ∀ {a b : Rec}, a ∈ l → b ∈ l → a.addr = b.addr → a = b := by
  intro a b ha hb hab
  exact List.inj_on_of_nodup_map h ha hb hab

theorem Tab.get_iff {g : GC} (h : Tab g) {p : Nat} {r : Rec} : g.get p = some r ↔ r ∈ g.recs ∧ r.addr = p := by
  constructor
  · intro hg
    have h1 := List.mem_of_find?_eq_some hg
    have h2 := List.find?_some hg
    simp only [beq_iff_eq] at h2
    exact ⟨mem_of_bucket h.pos h.place h1, h2⟩
  · rintro ⟨hr, rfl⟩
    have hb := (mem_recs h.pos h.place).1 hr
    cases hf : g.get r.addr with
    | none =>
      have := List.find?_eq_none.1 hf r hb
      simp at this
    | some r' =>
      have h1 := mem_of_bucket h.pos h.place (List.mem_of_find?_eq_some hf)
      have h2 := List.find?_some hf
      simp only [beq_iff_eq] at h2
      rw [eq_of_addr h.nodup h1 hr h2]

theorem Tab.get_none {g : GC} (h : Tab g) {p : Nat} : g.get p = none ↔ ∀ r ∈ g.recs, r.addr ≠ p := by
  constructor
  · intro hn r hr hp
    rw [h.get_iff.2 ⟨hr, hp⟩] at hn
    cases hn
  · intro hh
    cases hg : g.get p with
    | none => rfl
    | some r => exact absurd (h.get_iff.1 hg).2 (hh r (h.get_iff.1 hg).1)

theorem Tab.bucket_nodup {g : GC} (h : Tab g) (i : Nat) : ((g.buckets i).map Rec.addr).Nodup := by
  by_cases hi : i < g.alloc
  · have := h.nodup
    rw [GC.recs, List.map_flatMap] at this
    exact (List.nodup_flatMap.1 this).1 i (List.mem_range.2 hi)
  · have : g.buckets i = [] := by
      cases hb : g.buckets i with
      | nil => rfl
      | cons r rs =>
        have := h.place i r (by rw [hb]; simp)
        have := Nat.mod_lt (r.addr / 8) h.pos
        omega
    rw [this]; simp

theorem split_recs (g : GC) {i : Nat} (hi : i < g.alloc) : ∃ A B, g.recs = A ++ g.buckets i ++ B ∧ ∀ c, (g.setBucket i c).recs = A ++ c ++ B := by
  obtain ⟨l1, l2, hl⟩ := List.append_of_mem (List.mem_range.2 hi)
  have hnd := List.nodup_range (n := g.alloc)
  rw [hl] at hnd
  have h1 : i ∉ l1 := fun h => (List.nodup_append.1 hnd).2.2 i h i (by simp) rfl
  have h2 : i ∉ l2 := (List.nodup_cons.1 (List.nodup_append.1 hnd).2.1).1
  refine ⟨l1.flatMap g.buckets, l2.flatMap g.buckets, ?_, fun c => ?_⟩
  · simp [GC.recs, hl, List.flatMap_append, List.append_assoc]
  · have e1 : l1.flatMap (g.setBucket i c).buckets = l1.flatMap g.buckets := by
      refine List.flatMap_congr (fun j hj => ?_)
      simp only [GC.setBucket]
      rw [if_neg (by rintro rfl; exact h1 hj)]
    have e2 : l2.flatMap (g.setBucket i c).buckets = l2.flatMap g.buckets := by
      refine List.flatMap_congr (fun j hj => ?_)
      simp only [GC.setBucket]
      rw [if_neg (by rintro rfl; exact h2 hj)]
    show (List.range g.alloc).flatMap _ = _
    rw [hl, List.flatMap_append, List.flatMap_cons, e1, e2]
    simp [GC.setBucket, List.append_assoc]

/-! ### Changing the table -/

theorem insert_perm (g : GC) (h : 0 < g.alloc) (r : Rec) : (g.insert r).recs.Perm (r :: g.recs) := by
  obtain ⟨A, B, h1, h2⟩ := split_recs g (GC.slot_lt h r.addr)
  rw [GC.insert, h2, h1]
  simp only [List.append_assoc, List.cons_append]
  exact List.perm_middle

theorem insert_place {g : GC} (hp : ∀ i r, r ∈ g.buckets i → r.addr / 8 % g.alloc = i) (r : Rec) :
    ∀ i r', r' ∈ (g.insert r).buckets i → r'.addr / 8 % (g.insert r).alloc = i := by
  intro i r' hr'
  simp only [GC.insert, GC.setBucket] at hr' ⊢
  split at hr'
  next hi =>
    subst hi
    rcases List.mem_cons.1 hr' with rfl | hr'
    · rfl
    · exact hp _ _ hr'
  · exact hp _ _ hr'

theorem insert_tab {g : GC} (h : Tab g) {r : Rec} (hr : ∀ r' ∈ g.recs, r'.addr ≠ r.addr) : Tab (g.insert r) := by
  refine ⟨h.pos, insert_place h.place r, ?_⟩
  rw [((insert_perm g h.pos r).map Rec.addr).nodup_iff, List.map_cons, List.nodup_cons]
  refine ⟨fun hm => ?_, h.nodup⟩
  obtain ⟨r', h1, h2⟩ := List.mem_map.1 hm
  exact hr r' h1 h2

/-- Everything but the table. -/
def GC.rest (g : GC) : Nat × Nat × Nat × Bool × Nat × Nat × (Nat → Nat → Nat) × List Ev := (g.size, g.allocs, g.dirty, g.collecting, g.lo, g.hi, g.mem, g.events)

theorem insert_rest (g : GC) (r : Rec) : (g.insert r).rest = g.rest := rfl

theorem foldl_insert : ∀ (l : List Rec) (g : GC), 0 < g.alloc → (∀ i r, r ∈ g.buckets i → r.addr / 8 % g.alloc = i) →
    (l.foldl GC.insert g).recs.Perm (l ++ g.recs) ∧ (l.foldl GC.insert g).alloc = g.alloc ∧ (l.foldl GC.insert g).idx = g.idx ∧ (l.foldl GC.insert g).rest = g.rest ∧
      ∀ i r, r ∈ (l.foldl GC.insert g).buckets i → r.addr / 8 % (l.foldl GC.insert g).alloc = i
  | [], g, h, hp => ⟨.refl _, rfl, rfl, rfl, hp⟩
  | r :: l, g, h, hp => by
    obtain ⟨h1, h2, h3, h4, h5⟩ := foldl_insert l (g.insert r) h (insert_place hp r)
    refine ⟨?_, h2, h3, h4, h5⟩
    refine h1.trans ?_
    refine ((insert_perm g h r).append_left l).trans ?_
    exact List.perm_middle

/-- Rehashing keeps the records. -/
theorem resize_tab {g : GC} (h : Tab g) {i : Nat} (hi : sizeAt i ≠ 0) : Tab (g.resize i) ∧ (g.resize i).recs.Perm g.recs ∧ (g.resize i).rest = g.rest ∧
    (g.resize i).idx = i ∧ (g.resize i).alloc = sizeAt i := by
  rw [GC.resize, if_neg hi]
  obtain ⟨h1, h2, h3, h4, h5⟩ := foldl_insert g.recs { g with idx := i, alloc := sizeAt i, buckets := fun _ => [] } (Nat.pos_of_ne_zero hi) (fun i r hr => by simp at hr)
  have he : GC.recs { g with idx := i, alloc := sizeAt i, buckets := fun _ => [] } = [] := by
    simp [GC.recs]
  rw [he, List.append_nil] at h1
  refine ⟨⟨by rw [h2]; exact Nat.pos_of_ne_zero hi, h5, ?_⟩, h1, h4, h3, h2⟩
  rw [(h1.map Rec.addr).nodup_iff]
  exact h.nodup

/-- Two tables hold the same blocks. -/
theorem get_perm {g g' : GC} (h : Tab g) (h' : Tab g') (hp : g'.recs.Perm g.recs) (p : Nat) : g'.get p = g.get p := by
  cases hg : g.get p with
  | none =>
    rw [h'.get_none]
    intro r hr
    exact h.get_none.1 hg r (hp.mem_iff.1 hr)
  | some r =>
    obtain ⟨h1, h2⟩ := h.get_iff.1 hg
    exact h'.get_iff.2 ⟨hp.mem_iff.2 h1, h2⟩

/-! ### Changing records -/

/-- A change of all records that keeps the addresses. -/
def GC.mapRecs (g : GC) (f : Rec → Rec) : GC := { g with buckets := fun i => (g.buckets i).map f }

theorem recs_mapRecs (g : GC) (f : Rec → Rec) : (g.mapRecs f).recs = g.recs.map f := by
  simp only [GC.recs, GC.mapRecs, List.map_flatMap]

theorem mapRecs_tab {g : GC} (h : Tab g) {f : Rec → Rec} (hf : ∀ r, (f r).addr = r.addr) : Tab (g.mapRecs f) := by
  refine ⟨h.pos, fun i r hr => ?_, ?_⟩
  · obtain ⟨r', h1, rfl⟩ := List.mem_map.1 hr
    rw [hf]
    exact h.place i r' h1
  · rw [recs_mapRecs, List.map_map]
    have : (Rec.addr ∘ f) = Rec.addr := funext hf
    rw [this]; exact h.nodup

theorem get_mapRecs {g : GC} {f : Rec → Rec} (hf : ∀ r, (f r).addr = r.addr) (p : Nat) : (g.mapRecs f).get p = (g.get p).map f := by
  show ((g.buckets (g.slot p)).map f).find? _ = _
  rw [List.find?_map]
  have : ((fun r : Rec => r.addr == p) ∘ f) = (fun r => r.addr == p) := by
    funext r; simp [hf]
  rw [this]; rfl

theorem updC_eq {p : Nat} {f : Rec → Rec} : ∀ {l : List Rec}, (l.map Rec.addr).Nodup → updC p f l = l.map (fun r => if r.addr = p then f r else r)
  | [], _ => rfl
  | r :: rs, h => by
    rw [List.map_cons, List.nodup_cons] at h
    rw [updC, List.map_cons]
    split
    next hp =>
      congr 1
      have : rs.map (fun r => if r.addr = p then f r else r) = rs.map id := by
        refine List.map_congr_left (fun r' hr' => ?_)
        rw [if_neg (fun he => h.1 (List.mem_map.2 ⟨r', hr', by rw [he, hp]⟩))]; rfl
      rw [this, List.map_id]
    next hp => rw [updC_eq h.2]

theorem upd_eq {g : GC} (h : Tab g) (p : Nat) (f : Rec → Rec) : g.upd p f = g.mapRecs (fun r => if r.addr = p then f r else r) := by
  simp only [GC.upd, GC.setBucket, GC.mapRecs]
  congr 1
  funext i
  split
  next hi => subst hi; exact updC_eq (h.bucket_nodup _)
  next hi =>
    have : (g.buckets i).map (fun r => if r.addr = p then f r else r) = (g.buckets i).map id := by
      refine List.map_congr_left (fun r hr => ?_)
      rw [if_neg (fun he => hi (by rw [GC.slot, ← he]; exact (h.place i r hr).symm))]; rfl
    rw [this, List.map_id]

/-! ### Removing records -/

/-- A record without root flag. -/
def Rec.noRoot (r : Rec) : Rec := { r with root := false }

theorem removeAfter_spec {p : Nat} : ∀ {l : List Rec} {pr r : Rec} {c : List Rec}, removeAfter p pr l = some (r, c) → r.mark = false →
    r.addr = p ∧ r ∈ l ∧ ((r :: c).map Rec.noRoot).Perm ((pr :: l).map Rec.noRoot) ∧ (r.root = false → (r :: c).Perm (pr :: l)) ∧ (∀ x ∈ pr :: l, x.root = true → x.addr ≠ p → ∃ y ∈ c, y.addr = x.addr ∧ y.root = true)
  | [], pr, r, c, h, _ => by simp [removeAfter] at h
  | x :: xs, pr, r, c, h, hm => by
    rw [removeAfter] at h
    split at h
    next hx =>
      cases h
      refine ⟨hx, by simp, ?_, fun hr => ?_, fun y hy hyr hya => ?_⟩
      · simp only [List.map_cons, Rec.orFlags, hm, Bool.or_false, Rec.noRoot]
        exact List.Perm.swap _ _ _
      · have : pr.orFlags x = pr := by simp [Rec.orFlags, hm, hr]
        rw [this]
        exact List.Perm.swap _ _ _
      · rcases List.mem_cons.1 hy with rfl | hy
        · exact ⟨y.orFlags x, by simp, rfl, by simp [Rec.orFlags, hyr]⟩
        · rcases List.mem_cons.1 hy with rfl | hy
          · exact absurd hx hya
          · exact ⟨y, by simp [hy], rfl, hyr⟩
    next hx =>
      simp only [Option.map_eq_some_iff, Prod.mk.injEq] at h
      obtain ⟨⟨r', c'⟩, h1, rfl, rfl⟩ := h
      obtain ⟨g1, g2, g3, g4, g5⟩ := removeAfter_spec h1 hm
      refine ⟨g1, by simp [g2], ?_, fun hr => ?_, fun y hy hyr hya => ?_⟩
      · rw [List.map_cons, List.map_cons]
        rw [List.map_cons] at g3
        exact (List.Perm.swap _ _ _).trans (g3.cons _)
      · exact (List.Perm.swap _ _ _).trans ((g4 hr).cons _)
      · rcases List.mem_cons.1 hy with rfl | hy
        · exact ⟨_, by simp, rfl, hyr⟩
        · obtain ⟨z, z1, z2, z3⟩ := g5 y hy hyr hya
          exact ⟨z, by simp [z1], z2, z3⟩

theorem removeAfter_none {p : Nat} : ∀ {l : List Rec} {pr : Rec}, removeAfter p pr l = none ↔ ∀ r ∈ l, r.addr ≠ p
  | [], pr => by simp [removeAfter]
  | x :: xs, pr => by
    rw [removeAfter]
    split
    next hx => simp [hx]
    next hx =>
      rw [Option.map_eq_none_iff, removeAfter_none]
      simp [hx]

theorem removeC_spec {p : Nat} {l : List Rec} {r : Rec} {c : List Rec} (h : removeC p l = some (r, c)) (hm : r.mark = false) :
    r.addr = p ∧ r ∈ l ∧ ((r :: c).map Rec.noRoot).Perm (l.map Rec.noRoot) ∧ (r.root = false → (r :: c).Perm l) ∧ (∀ x ∈ l, x.root = true → x.addr ≠ p → ∃ y ∈ c, y.addr = x.addr ∧ y.root = true) := by
  cases l with
  | nil => simp [removeC] at h
  | cons x xs =>
    rw [removeC] at h
    split at h
    next hx =>
      cases h
      refine ⟨hx, by simp, .refl _, fun _ => .refl _, fun y hy hyr hya => ?_⟩
      rcases List.mem_cons.1 hy with rfl | hy
      · exact absurd hx hya
      · exact ⟨y, hy, rfl, hyr⟩
    next hx =>
      obtain ⟨g1, g2, g3, g4, g5⟩ := removeAfter_spec h hm
      exact ⟨g1, by simp [g2], g3, g4, g5⟩

theorem removeC_none {p : Nat} {l : List Rec} : removeC p l = none ↔ ∀ r ∈ l, r.addr ≠ p := by
  cases l with
  | nil => simp [removeC]
  | cons x xs =>
    rw [removeC]
    split
    next hx => simp [hx]
    next hx => rw [removeAfter_none]; simp [hx]

theorem removeC_mem {p : Nat} {l : List Rec} {r : Rec} {c : List Rec} (h : removeC p l = some (r, c)) : r ∈ l := by
  have ha : ∀ {l : List Rec} {pr r : Rec} {c : List Rec}, removeAfter p pr l = some (r, c) → r ∈ l := by
    intro l
    induction l with
    | nil => intro pr r c h; simp [removeAfter] at h
    | cons x xs ih =>
      intro pr r c h
      rw [removeAfter] at h
      split at h
      · cases h; simp
      · simp only [Option.map_eq_some_iff, Prod.mk.injEq] at h
        obtain ⟨⟨r', c'⟩, h1, rfl, rfl⟩ := h
        simp [ih h1]
  cases l with
  | nil => simp [removeC] at h
  | cons x xs =>
    rw [removeC] at h
    split at h
    · cases h; simp
    · simp [ha h]

theorem map_noRoot_addr (l : List Rec) : (l.map Rec.noRoot).map Rec.addr = l.map Rec.addr := by simp [List.map_map, Rec.noRoot, Function.comp_def]

theorem map_noRoot_size (l : List Rec) : (l.map Rec.noRoot).map Rec.size = l.map Rec.size := by simp [List.map_map, Rec.noRoot, Function.comp_def]

/-- `gc_remove` fails exactly for addresses that are no blocks. -/
theorem remove_none {g : GC} {p : Nat} : g.remove p = none ↔ g.get p = none := by
  rw [GC.remove, Option.map_eq_none_iff, removeC_none, GC.get, List.find?_eq_none]
  simp

/-- The effect of `gc_remove`. -/
structure Removed (g : GC) (p : Nat) (r : Rec) (g' : GC) : Prop where
  tab : Tab g'
  addr : r.addr = p
  mem : r ∈ g.recs
  perm : ((r :: g'.recs).map Rec.noRoot).Perm (g.recs.map Rec.noRoot)
  perm' : r.root = false → (r :: g'.recs).Perm g.recs
  roots : ∀ x ∈ g.recs, x.root = true → x.addr ≠ p → ∃ y ∈ g'.recs, y.addr = x.addr ∧ y.root = true
  alloc : g'.alloc = g.alloc ∧ g'.idx = g.idx
  rest : g'.rest = (g.size - 1, g.allocs - r.size, g.dirty, g.collecting, g.lo, g.hi, g.mem, g.events)

theorem remove_some {g : GC} (h : Tab g) (hm : ∀ r ∈ g.recs, r.mark = false) {p : Nat} {r : Rec} {g' : GC} (hr : g.remove p = some (r, g')) : Removed g p r g' := by
  simp only [GC.remove, Option.map_eq_some_iff, Prod.mk.injEq] at hr
  obtain ⟨⟨r', c⟩, h1, rfl, rfl⟩ := hr
  have hmem := removeC_mem h1
  have hmem' := mem_of_bucket h.pos h.place hmem
  obtain ⟨g1, g2, g3, g4, g5⟩ := removeC_spec h1 (hm _ hmem')
  obtain ⟨A, B, e1, e2⟩ := split_recs g (GC.slot_lt h.pos p)
  have e3 : GC.recs { g.setBucket (g.slot p) c with allocs := g.allocs - r'.size, size := g.size - 1 } = A ++ c ++ B := e2 c
  have hperm : ((r' :: (A ++ c ++ B)).map Rec.noRoot).Perm (g.recs.map Rec.noRoot) := by
    rw [e1]
    simp only [List.map_cons, List.map_append, List.append_assoc]
    refine List.Perm.trans ?_ ((g3.append_right (B.map Rec.noRoot)).append_left (A.map Rec.noRoot))
    rw [List.map_cons, List.cons_append]
    exact List.perm_middle.symm
  have hmc : ∀ x ∈ c, ∃ y ∈ g.buckets (g.slot p), y.addr = x.addr := by
    intro x hx
    have : x.noRoot ∈ (g.buckets (g.slot p)).map Rec.noRoot := g3.mem_iff.1 (by simp [List.mem_map]; exact .inr ⟨x, hx, rfl⟩)
    obtain ⟨y, h2, h3⟩ := List.mem_map.1 this
    exact ⟨y, h2, by have := congrArg Rec.addr h3; simpa [Rec.noRoot] using this⟩
  refine ⟨⟨h.pos, ?_, ?_⟩, g1, hmem', by rw [e3]; exact hperm, ?_, ?_, ⟨rfl, rfl⟩, rfl⟩
  · intro i x hx
    simp only [GC.setBucket] at hx ⊢
    split at hx
    next hi =>
      obtain ⟨y, h2, h3⟩ := hmc x hx
      rw [← h3, hi]
      exact h.place _ y h2
    · exact h.place i x hx
  · rw [e3]
    have := (hperm.map Rec.addr).nodup_iff.2 (by rw [map_noRoot_addr]; exact h.nodup)
    rw [map_noRoot_addr, List.map_cons, List.nodup_cons] at this
    exact this.2
  · intro hroot
    rw [e3, e1]
    simp only [List.append_assoc]
    refine List.Perm.trans ?_ (((g4 hroot).append_right B).append_left A)
    rw [List.cons_append]
    exact List.perm_middle.symm
  · intro x hx hxr hxp
    rw [e3]
    rw [e1] at hx
    simp only [List.mem_append] at hx ⊢
    rcases hx with (hx | hx) | hx
    · exact ⟨x, .inl (.inl hx), rfl, hxr⟩
    · obtain ⟨y, y1, y2, y3⟩ := g5 x hx hxr hxp
      exact ⟨y, .inl (.inr y1), y2, y3⟩
    · exact ⟨x, .inr hx, rfl, hxr⟩

/-- Blocks other than the removed one, apart from root flags. -/
theorem Removed.get {g : GC} {p : Nat} {r : Rec} {g' : GC} (hr : Removed g p r g') (h : Tab g) (q : Nat) :
    (g'.get q).map Rec.noRoot = if q = p then none else (g.get q).map Rec.noRoot := by
  have hnd : ((r :: g'.recs).map Rec.addr).Nodup := by
    have := (hr.perm.map Rec.addr).nodup_iff.2 (by rw [map_noRoot_addr]; exact h.nodup)
    rwa [map_noRoot_addr] at this
  rw [List.map_cons, List.nodup_cons] at hnd
  split
  next hq =>
    subst hq
    rw [Option.map_eq_none_iff, hr.tab.get_none]
    intro x hx hxa
    exact hnd.1 (List.mem_map.2 ⟨x, hx, by rw [hxa, hr.addr]⟩)
  next hq =>
    cases hg : g.get q with
    | none =>
      rw [Option.map_none, Option.map_eq_none_iff, hr.tab.get_none]
      intro x hx hxa
      have : x.noRoot ∈ g.recs.map Rec.noRoot := hr.perm.mem_iff.1 (by simp [List.mem_map]; exact .inr ⟨x, hx, rfl⟩)
      obtain ⟨y, y1, y2⟩ := List.mem_map.1 this
      have y3 : y.addr = x.addr := by have := congrArg Rec.addr y2; simpa [Rec.noRoot] using this
      exact h.get_none.1 hg y y1 (by rw [y3, hxa])
    | some x =>
      obtain ⟨x1, x2⟩ := h.get_iff.1 hg
      have : x.noRoot ∈ (r :: g'.recs).map Rec.noRoot := hr.perm.mem_iff.2 (List.mem_map.2 ⟨x, x1, rfl⟩)
      obtain ⟨y, y1, y2⟩ := List.mem_map.1 this
      have y3 : y.addr = x.addr := by have := congrArg Rec.addr y2; simpa [Rec.noRoot] using this
      rcases List.mem_cons.1 y1 with rfl | y1
      · exact absurd (by rw [← x2, ← y3, hr.addr]) hq
      · rw [hr.tab.get_iff.2 ⟨y1, by rw [y3, x2]⟩, Option.map_some, Option.map_some, y2]

end Minim.Gc
