import Verif.GcMark
import Mathlib.Data.List.Count
import Mathlib.Data.Finset.Card
import Mathlib.Data.Finset.Range

set_option autoImplicit false

/-!
# Invariants of the collector
-/

namespace Minim.Gc

/-! ## Specification: the log of the C library -/

/-- Specification: the effect of an event on the blocks obtained from the C library. -/
def liveStep (m : Nat → Option Nat) : Ev → Nat → Option Nat
  | .malloc a n => fun b => if b = a then some n else m b
  | .free a => fun b => if b = a then none else m b
  | .realloc a a' n => fun b => if b = a' then some n else if b = a then none else m b
  | .dtor _ _ => m
  | .ub => m

/-- Specification: blocks obtained and not yet given back, with their sizes in bytes. -/
def live (es : List Ev) : Nat → Option Nat := es.foldl liveStep (fun _ => none)

/-- Specification: each event is as required in the state at its time. -/
def EvsFrom (ok : (Nat → Option Nat) → Ev → Prop) : (Nat → Option Nat) → List Ev → Prop
  | _, [] => True
  | m, e :: es => ok m e ∧ EvsFrom ok (liveStep m e) es

/-- Specification: what the C library guarantees: new blocks are different from those in use; addresses are multiples of 16 of 64 bits. -/
def libOk (m : Nat → Option Nat) : Ev → Prop
  | .malloc a _ => m a = none ∧ a % 16 = 0 ∧ a < 2 ^ 64
  | .realloc a b _ => (b = a ∨ m b = none) ∧ b % 16 = 0 ∧ b < 2 ^ 64
  | _ => True

/-- Specification: what it requires: only blocks in use are given back; destructors are run on blocks in use; nothing is undefined. -/
def useOk (m : Nat → Option Nat) : Ev → Prop
  | .malloc _ _ => True
  | .free a => m a ≠ none
  | .realloc a _ _ => m a ≠ none
  | .dtor _ a => m a ≠ none
  | .ub => False

/-- Specification: the C library does its part. -/
def LibOk (es : List Ev) : Prop := EvsFrom libOk (fun _ => none) es

/-- Specification: the collector does its part. -/
def UseOk (es : List Ev) : Prop := EvsFrom useOk (fun _ => none) es

theorem evsFrom_append {ok : (Nat → Option Nat) → Ev → Prop} : ∀ (es fs : List Ev) (m : Nat → Option Nat),
    EvsFrom ok m (es ++ fs) ↔ EvsFrom ok m es ∧ EvsFrom ok (es.foldl liveStep m) fs
  | [], fs, m => by simp [EvsFrom]
  | e :: es, fs, m => by
    simp only [List.cons_append, EvsFrom, evsFrom_append es fs, List.foldl_cons, and_assoc]

theorem live_append (es fs : List Ev) : live (es ++ fs) = fs.foldl liveStep (live es) := by simp [live, List.foldl_append]

/-! ## Well-formed states -/

/-- Between operations. -/
structure Wf (g : GC) : Prop where
  tab : Tab g
  marks : NoMarks g
  count : g.size = g.recs.length
  bytes : g.allocs = (g.recs.map Rec.size).sum
  idx : g.idx < 50
  alloc : g.alloc = sizeAt g.idx

theorem sizeAt_pos {i : Nat} (h : i < 50) : sizeAt i ≠ 0 := by
  have : ∀ i < 50, sizeAt i ≠ 0 := by decide +kernel
  exact this i h

theorem wf_create (lo hi : Nat) (mem : Nat → Nat → Nat) : Wf (create lo hi mem) := by
  have he : (create lo hi mem).recs = [] := by simp [GC.recs, create]
  refine ⟨⟨Nat.pos_of_ne_zero (sizeAt_pos (i := 0) (by decide)), fun i r hr => by simp [create] at hr, by rw [he]; simp⟩, fun r hr => by rw [he] at hr; simp at hr, by rw [he]; rfl, by rw [he]; rfl, by simp [create], rfl⟩

theorem rest_eq {g g' : GC} (h : g'.rest = g.rest) : g'.size = g.size ∧ g'.allocs = g.allocs ∧ g'.dirty = g.dirty ∧ g'.collecting = g.collecting ∧ g'.lo = g.lo ∧
    g'.hi = g.hi ∧ g'.mem = g.mem ∧ g'.events = g.events := by
  simpa [GC.rest] using h

theorem perm_sum {l l' : List Nat} (h : l.Perm l') : l.sum = l'.sum := by
  induction h with
  | nil => rfl
  | cons x _ ih => simp [ih]
  | swap x y l => simp only [List.sum_cons]; omega
  | trans _ _ h1 h2 => rw [h1, h2]

theorem wf_resize {g : GC} (h : Wf g) {i : Nat} (hi : i < 50) : Wf (g.resize i) ∧ (g.resize i).recs.Perm g.recs ∧ (g.resize i).rest = g.rest := by
  obtain ⟨h1, h2, h3, h4, h5⟩ := resize_tab h.tab (sizeAt_pos hi)
  obtain ⟨e1, e2, _⟩ := rest_eq h3
  refine ⟨⟨h1, fun r hr => h.marks r (h2.mem_iff.1 hr), by rw [e1, h2.length_eq, h.count], by rw [e2, perm_sum (h2.map Rec.size), h.bytes], by rw [h4]; exact hi, by rw [h5, h4]⟩, h2, h3⟩

theorem ideal_le (n : Nat) : ∀ i, ideal n i ≤ i
  | 0 => Nat.le_refl _
  | i + 1 => by
    rw [ideal]
    split
    · have := ideal_le n i; omega
    · exact Nat.le_refl _

theorem wf_shrink {g : GC} (h : Wf g) : Wf g.shrink ∧ g.shrink.recs.Perm g.recs ∧ g.shrink.rest = g.rest := by
  rw [GC.shrink]
  split
  · exact wf_resize h (Nat.lt_of_le_of_lt (ideal_le _ _) h.idx)
  · exact ⟨h, .refl _, rfl⟩

/-! ### Sweeping -/

/-- Events of freeing a block. -/
def Rec.dropEvents (r : Rec) : List Ev := (match r.dtor with | none => [] | some d => [.dtor d r.addr]) ++ [.free r.addr]

theorem foldl_drop : ∀ (l : List Rec) (g : GC), l.foldl GC.drop g =
    { g with allocs := g.allocs - (l.map Rec.size).sum, size := g.size - l.length, events := g.events ++ l.flatMap Rec.dropEvents }
  | [], g => by simp
  | r :: l, g => by
    rw [List.foldl_cons, foldl_drop l]
    simp only [GC.drop, List.map_cons, List.sum_cons, List.length_cons, List.flatMap_cons, Rec.dropEvents, List.append_assoc]
    congr 1
    all_goals omega

/-- The effect of a collection that keeps the blocks marked by `m`. -/
structure Collected (g : GC) (m : Nat → Bool) (g' : GC) : Prop where
  wf : Wf g'
  perm : g'.recs.Perm (g.recs.filter (fun r => m r.addr))
  events : g'.events = g.events ++ (g.recs.filter (fun r => !m r.addr)).flatMap Rec.dropEvents
  dirty : g'.dirty = 0
  same : g'.collecting = g.collecting ∧ g'.lo = g.lo ∧ g'.hi = g.hi ∧ g'.mem = g.mem

theorem map_unmark {l : List Rec} (h : ∀ r ∈ l, r.mark = false) (m : Nat → Bool) :
    ((l.map (fun r => { r with mark := m r.addr })).filter Rec.mark).map (fun r => { r with mark := false }) = l.filter (fun r => m r.addr) := by
  rw [List.filter_map, List.map_map]
  refine (List.map_congr_left (g := id) (fun r hr => ?_)).trans (List.map_id _)
  have := h r (List.mem_filter.1 hr).1
  cases r
  simp only at this
  subst this
  rfl

theorem sum_filter (l : List Rec) (p : Rec → Bool) : ((l.filter p).map Rec.size).sum + ((l.filter (fun r => !p r)).map Rec.size).sum = (l.map Rec.size).sum := by
  have := (List.filter_append_perm p l).map Rec.size
  rw [← perm_sum this, List.map_append, List.sum_append]

theorem length_filter (l : List Rec) (p : Rec → Bool) : (l.filter p).length + (l.filter (fun r => !p r)).length = l.length := by
  have := (List.filter_append_perm p l).length_eq
  rw [← this, List.length_append]

theorem recs_filter (g : GC) (p : Rec → Bool) : GC.recs { g with buckets := fun i => (g.buckets i).filter p } = g.recs.filter p := by
  simp only [GC.recs, List.filter_flatMap]

theorem sweep_ok {g : GC} (h : Wf g) (m : Nat → Bool) : Collected g m (g.withMarks m).sweep := by
  -- the state before shrinking
  let G : GC := { g with
    buckets := fun i => (g.buckets i).filter (fun r => m r.addr), allocs := g.allocs - ((g.recs.filter (fun r => !m r.addr)).map Rec.size).sum,
    size := g.size - (g.recs.filter (fun r => !m r.addr)).length, dirty := 0, events := g.events ++ (g.recs.filter (fun r => !m r.addr)).flatMap Rec.dropEvents }
  have hrecs : G.recs = g.recs.filter (fun r => m r.addr) := recs_filter g _
  have hdropped : (g.withMarks m).recs.filter (fun r => !r.mark) = (g.recs.filter (fun r => !m r.addr)).map (fun r => { r with mark := m r.addr }) := by
    rw [GC.withMarks, recs_mapRecs, List.filter_map]; rfl
  have hG : (g.withMarks m).sweep = G.shrink := by
    have : ({ (g.withMarks m).sweepLoop with dirty := 0 } : GC).unmark = G := by
      simp only [GC.sweepLoop, hdropped, foldl_drop, GC.unmark]
      simp only [G, GC.withMarks, GC.mapRecs, List.map_map, List.length_map, List.flatMap_map]
      congr 1
      funext i
      refine map_unmark (fun r hr => h.marks r (mem_of_bucket h.tab.pos h.tab.place hr)) m
    rw [GC.sweep, this]
  have hwf : Wf G := by
    refine ⟨⟨h.tab.pos, fun i r hr => h.tab.place i r (List.mem_filter.1 hr).1, ?_⟩, ?_, ?_, ?_, h.idx, h.alloc⟩
    · rw [hrecs]
      exact h.tab.nodup.sublist (List.Sublist.map _ List.filter_sublist)
    · intro r hr
      rw [hrecs] at hr
      exact h.marks r (List.mem_filter.1 hr).1
    · rw [hrecs]
      show g.size - _ = _
      have := length_filter g.recs (fun r => m r.addr)
      rw [h.count]; omega
    · rw [hrecs]
      show g.allocs - _ = _
      have := sum_filter g.recs (fun r => m r.addr)
      rw [h.bytes]; omega
  obtain ⟨w1, w2, w3⟩ := wf_shrink hwf
  obtain ⟨_, _, e3, e4, e5, e6, e7, e8⟩ := rest_eq w3
  rw [hG]
  exact ⟨w1, w2.trans (by rw [hrecs]), e8, e3, e4, e5, e6, e7⟩

/-- A collection keeps the reachable blocks. -/
theorem collect_ok {g : GC} (h : Wf g) (stack : List Nat) : ∃ m, Collected g m (g.collect stack) ∧ (∀ a, m a = true → Reach g stack a) ∧
    ((∀ r ∈ g.recs, g.lo ≤ r.addr ∧ r.addr ≤ g.hi) → ∀ a, Reach g stack a → m a = true) := by
  obtain ⟨m, h1, h2, h3⟩ := markAll_ok h.tab h.marks h.count stack
  refine ⟨m, ?_, h2, h3⟩
  rw [GC.collect, h1]
  exact sweep_ok h m

theorem Collected.get {g : GC} {m : Nat → Bool} {g' : GC} (hc : Collected g m g') (h : Wf g) (a : Nat) : g'.get a = if m a then g.get a else none := by
  cases hg : g'.get a with
  | some r =>
    obtain ⟨h1, h2⟩ := hc.wf.tab.get_iff.1 hg
    have := List.mem_filter.1 (hc.perm.mem_iff.1 h1)
    rw [h2] at this
    rw [if_pos this.2, h.tab.get_iff.2 ⟨this.1, h2⟩]
  | none =>
    split
    next hm =>
      cases hg' : g.get a with
      | none => rfl
      | some r =>
        obtain ⟨h1, h2⟩ := h.tab.get_iff.1 hg'
        exact absurd h2 (hc.wf.tab.get_none.1 hg r (hc.perm.mem_iff.2 (List.mem_filter.2 ⟨h1, by simp [h2, hm]⟩)))
    · rfl

/-! ### The log -/

theorem liveStep_dtor (m : Nat → Option Nat) (d a : Nat) : liveStep m (.dtor d a) = m := rfl

theorem drop_events : ∀ (l : List Rec) (M : Nat → Option Nat), (l.map Rec.addr).Nodup → (∀ r ∈ l, M r.addr ≠ none) →
    EvsFrom useOk M (l.flatMap Rec.dropEvents) ∧ EvsFrom libOk M (l.flatMap Rec.dropEvents) ∧
      ∀ a, (l.flatMap Rec.dropEvents).foldl liveStep M a = if a ∈ l.map Rec.addr then none else M a
  | [], M, _, _ => by simp [EvsFrom]
  | r :: l, M, hn, hM => by
    rw [List.map_cons, List.nodup_cons] at hn
    obtain ⟨h1, h2, h3⟩ := drop_events l (liveStep M (.free r.addr)) hn.2 (fun r' hr' => by
      simp only [liveStep]
      rw [if_neg (fun he => hn.1 (List.mem_map.2 ⟨r', hr', he⟩))]
      exact hM r' (by simp [hr']))
    have hr := hM r (by simp)
    have e : (r :: l).flatMap Rec.dropEvents = r.dropEvents ++ l.flatMap Rec.dropEvents := by simp
    have hfold : r.dropEvents.foldl liveStep M = liveStep M (.free r.addr) := by
      unfold Rec.dropEvents
      cases r.dtor <;> rfl
    rw [e]
    refine ⟨(evsFrom_append _ _ _).2 ⟨?_, by rw [hfold]; exact h1⟩, (evsFrom_append _ _ _).2 ⟨?_, by rw [hfold]; exact h2⟩, fun a => ?_⟩
    · unfold Rec.dropEvents
      cases r.dtor with
      | none => exact ⟨hr, trivial⟩
      | some d => exact ⟨hr, hr, trivial⟩
    · unfold Rec.dropEvents
      cases r.dtor with
      | none => exact ⟨trivial, trivial⟩
      | some d => exact ⟨trivial, trivial, trivial⟩
    · rw [List.foldl_append, hfold, h3]
      simp only [List.map_cons, List.mem_cons, liveStep]
      by_cases ha : a ∈ l.map Rec.addr
      · simp [ha]
      · by_cases ha' : a = r.addr <;> simp [ha, ha']

/-- The table agrees with the log. -/
structure Inv (g : GC) : Prop where
  wf : Wf g
  live : ∀ a, live g.events a = (g.get a).map (fun r => wrap (r.size + 32))
  use : UseOk g.events

theorem inv_create (lo hi : Nat) (mem : Nat → Nat → Nat) : Inv (create lo hi mem) :=
  ⟨wf_create lo hi mem, fun _ => rfl, trivial⟩

theorem lib_addr : ∀ (es : List Ev) (M : Nat → Option Nat), (∀ a, M a ≠ none → a % 16 = 0 ∧ a < 2 ^ 64) → EvsFrom libOk M es →
    ∀ a, es.foldl liveStep M a ≠ none → a % 16 = 0 ∧ a < 2 ^ 64
  | [], M, h, _ => h
  | e :: es, M, h, hok => by
    refine lib_addr es (liveStep M e) (fun a ha => ?_) hok.2
    have h1 := hok.1
    cases e with
    | malloc b n =>
      simp only [liveStep] at ha
      split at ha
      next hb => subst hb; exact h1.2
      · exact h a ha
    | free b =>
      simp only [liveStep] at ha
      split at ha
      · exact absurd rfl ha
      · exact h a ha
    | realloc b c n =>
      simp only [liveStep] at ha
      split at ha
      next hb => subst hb; exact h1.2
      · split at ha
        · exact absurd rfl ha
        · exact h a ha
    | dtor d b => exact h a ha
    | ub => exact h a ha

/-- There are not enough addresses to fill the largest table. -/
theorem few_blocks {g : GC} (h : Inv g) (hl : LibOk g.events) : g.size ≤ 2 ^ 60 := by
  have hrec : ∀ a ∈ g.recs.map Rec.addr, a % 16 = 0 ∧ a < 2 ^ 64 := by
    intro a ha
    obtain ⟨r, h1, h2⟩ := List.mem_map.1 ha
    refine lib_addr g.events (fun _ => none) (fun a ha => absurd rfl ha) hl a ?_
    have := h.live a
    rw [h.wf.tab.get_iff.2 ⟨h1, h2⟩] at this
    rw [live] at this
    rw [this]
    simp
  have hnd : ((g.recs.map Rec.addr).map (fun a => a / 16)).Nodup := by
    refine List.Nodup.map_on (fun a ha b hb hab => ?_) h.wf.tab.nodup
    have := hrec a ha
    have := hrec b hb
    omega
  have hsub : ((g.recs.map Rec.addr).map (fun a => a / 16)).toFinset ⊆ Finset.range (2 ^ 60) := by
    intro x hx
    rw [List.mem_toFinset] at hx
    obtain ⟨a, h1, h2⟩ := List.mem_map.1 hx
    have := hrec a h1
    rw [Finset.mem_range]; omega
  have := Finset.card_le_card hsub
  rw [Finset.card_range, List.toFinset_card_of_nodup hnd, List.length_map, List.length_map] at this
  rw [h.wf.count]
  exact this

theorem inv_collect {g : GC} (h : Inv g) (stack : List Nat) : Inv (g.collect stack) ∧ ∃ es, (g.collect stack).events = g.events ++ es ∧ EvsFrom libOk (live g.events) es := by
  obtain ⟨m, hc, _, _⟩ := collect_ok h.wf stack
  have hnd : ((g.recs.filter (fun r => !m r.addr)).map Rec.addr).Nodup := h.wf.tab.nodup.sublist (List.Sublist.map _ List.filter_sublist)
  obtain ⟨h1, h2, h3⟩ := drop_events (g.recs.filter (fun r => !m r.addr)) (live g.events) hnd (fun r hr => by
    rw [h.live, h.wf.tab.get_iff.2 ⟨(List.mem_filter.1 hr).1, rfl⟩]; simp)
  refine ⟨⟨hc.wf, fun a => ?_, ?_⟩, _, hc.events, h2⟩
  · rw [hc.events, live_append, h3, hc.get h.wf]
    split
    next ha =>
      obtain ⟨r, e1, e2⟩ := List.mem_map.1 ha
      have := (List.mem_filter.1 e1).2
      rw [e2] at this
      simp only [Bool.not_eq_true'] at this
      rw [this]; rfl
    next ha =>
      cases hm : m a with
      | true => rw [h.live]; rfl
      | false =>
        rw [h.live]
        cases hg : g.get a with
        | none => rfl
        | some r =>
          obtain ⟨e1, e2⟩ := h.wf.tab.get_iff.1 hg
          exact absurd (List.mem_map.2 ⟨r, List.mem_filter.2 ⟨e1, by simp [e2, hm]⟩, e2⟩) ha
  · rw [hc.events]
    exact (evsFrom_append _ _ _).2 ⟨h.use, h1⟩

end Minim.Gc
