import Verif.GcInv

set_option autoImplicit false

/-!
# Histories of the collector
-/

namespace Minim.Gc

/-! ### Events are only added -/

/-- The log of `g'` extends that of `g`. -/
def Ext (g g' : GC) : Prop := ∃ es, g'.events = g.events ++ es

theorem Ext.refl (g : GC) : Ext g g := ⟨[], by simp⟩

theorem Ext.of_eq {g g' : GC} (h : g'.events = g.events) : Ext g g' := ⟨[], by simp [h]⟩

theorem Ext.trans {g g' g'' : GC} (h : Ext g g') (h' : Ext g' g'') : Ext g g'' := by
  obtain ⟨es, h⟩ := h
  obtain ⟨fs, h'⟩ := h'
  exact ⟨es ++ fs, by rw [h', h, List.append_assoc]⟩

theorem foldl_insert_events : ∀ (l : List Rec) (g : GC), (l.foldl GC.insert g).events = g.events
  | [], _ => rfl
  | r :: l, g => foldl_insert_events l (g.insert r)

theorem ext_resize (g : GC) (i : Nat) : Ext g (g.resize i) := by
  rw [GC.resize]
  split
  · exact ⟨_, rfl⟩
  · exact .of_eq (foldl_insert_events _ _)

theorem markList_events {f : GC → Nat → Option GC} (hf : ∀ g p g', f g p = some g' → g'.events = g.events) :
    ∀ (ps : List Nat) (g g' : GC), markList f g ps = some g' → g'.events = g.events
  | [], g, g', h => by cases h; rfl
  | p :: ps, g, g', h => by
    rw [markList] at h
    obtain ⟨g1, h1, h2⟩ := Option.bind_eq_some_iff.1 h
    rw [markList_events hf ps g1 g' h2, hf g p g1 h1]

theorem markPtr_events : ∀ (n : Nat) (g : GC) (p : Nat) (g' : GC), markPtr n g p = some g' → g'.events = g.events
  | 0, _, _, _, h => by cases h
  | n + 1, g, p, g', h => by
    rw [markPtr] at h
    split at h
    · cases h; rfl
    · split at h
      · cases h; rfl
      · split at h
        · cases h; rfl
        · have := markList_events (markPtr_events n) _ _ _ h
          exact this

theorem markRoot_events (n : Nat) (g : GC) (p : Nat) (g' : GC) (h : markRoot n g p = some g') : g'.events = g.events := by
  rw [markRoot] at h
  split at h
  · cases h; rfl
  · split at h
    · have := markList_events (markPtr_events n) _ _ _ h
      exact this
    · cases h; rfl

theorem ext_sweep (g : GC) : Ext g g.sweep := by
  have h1 : Ext g (GC.unmark { g.sweepLoop with dirty := 0 }) :=
    ⟨(g.recs.filter (fun r => !r.mark)).flatMap Rec.dropEvents, by simp only [GC.sweepLoop, GC.unmark, foldl_drop]⟩
  refine h1.trans ?_
  rw [GC.sweep, GC.shrink]
  split
  · exact ext_resize _ _
  · exact .refl _

theorem ext_collect (g : GC) (stack : List Nat) : Ext g (g.collect stack) := by
  rw [GC.collect]
  split
  · exact ⟨_, rfl⟩
  next g' h =>
    refine Ext.trans (.of_eq ?_) (ext_sweep g')
    rw [GC.markAll] at h
    split at h
    · cases h; rfl
    · obtain ⟨g1, h1, h2⟩ := Option.bind_eq_some_iff.1 h
      rw [markList_events (markPtr_events _) _ _ _ h2, markList_events (markRoot_events _) _ _ _ h1]

theorem ext_collectIfNeeded (g : GC) (stack : List Nat) : Ext g (g.collectIfNeeded stack) := by
  rw [GC.collectIfNeeded]
  split
  · exact ext_collect g stack
  · exact .refl g

theorem ext_add (g : GC) (r : Rec) : Ext g (g.add r) := by
  have : Ext g g.expand := by
    rw [GC.expand]
    split
    · exact ext_resize _ _
    · exact .refl _
  exact this.trans (.of_eq rfl)

theorem ext_tryMem (g : GC) (fails : Nat) (stack : List Nat) : (∀ g', (g.tryMem fails stack).1 = some g' → Ext g g') ∧ Ext g (g.tryMem fails stack).2 := by
  unfold GC.tryMem
  split
  · exact ⟨fun g' h => by cases h; exact .refl g, .refl g⟩
  · exact ⟨fun g' h => by cases h; exact ext_collect g stack, .refl g⟩
  · exact ⟨fun g' h => (by cases h), ext_collect g stack⟩

theorem ext_allocOpt (g : GC) (fails size : Nat) (dtor : Option Nat) (mrk : Mrk) (stack : List Nat) (a : Nat) (words : Nat → Nat) : Ext g (g.allocOpt fails size dtor mrk stack a words) := by
  have h := ext_tryMem (g.collectIfNeeded stack) fails stack
  refine (ext_collectIfNeeded g stack).trans ?_
  rw [GC.allocOpt]
  split
  next g' e => rw [e] at h; exact h.2.trans ⟨_, rfl⟩
  next g' g'' e =>
    rw [e] at h
    refine (h.1 g' rfl).trans (Ext.trans ?_ (ext_add _ _))
    exact ⟨_, rfl⟩

theorem remove_events {g : GC} {p : Nat} {r : Rec} {g' : GC} (h : g.remove p = some (r, g')) : g'.events = g.events := by
  simp only [GC.remove, Option.map_eq_some_iff, Prod.mk.injEq] at h
  obtain ⟨x, _, _, rfl⟩ := h
  rfl

theorem ext_free (g : GC) (p : Nat) : Ext g (g.free p) := by
  rw [GC.free]
  split
  · exact .refl g
  next r g' h => exact ⟨[.free r.addr], by simp [remove_events h]⟩

theorem ext_exec (g : GC) (o : Op) : Ext g (g.exec o) := by
  cases o with
  | alloc fails size dtor mrk stack a words => exact ext_allocOpt g fails size dtor mrk stack a words
  | calloc fails nmem size dtor mrk stack a =>
    have h := ext_tryMem (g.collectIfNeeded stack) fails stack
    refine (ext_collectIfNeeded g stack).trans ?_
    rw [GC.exec, GC.callocOpt]
    split
    next g' e => rw [e] at h; exact h.2.trans ⟨_, rfl⟩
    next g' g'' e =>
      rw [e] at h
      refine (h.1 g' rfl).trans (Ext.trans ?_ (ext_add _ _))
      exact ⟨_, rfl⟩
  | realloc fails p size dtor mrk stack a words =>
    rw [GC.exec, GC.reallocOpt]
    split
    · exact ext_free g p
    · split
      · exact ext_allocOpt g fails size dtor mrk stack a words
      · split
        · exact ext_allocOpt g fails size dtor mrk stack a words
        next r g' hr =>
          have h := ext_tryMem g' fails stack
          refine (Ext.of_eq (remove_events hr)).trans ?_
          split
          next g1 e => rw [e] at h; exact h.2
          next g1 g2 e =>
            rw [e] at h
            refine (h.1 g1 rfl).trans (Ext.trans ?_ (ext_add _ _))
            exact ⟨_, rfl⟩
  | free p => exact ext_free g p
  | collect stack => exact ext_collect g stack
  | registerDtor p d => exact .of_eq rfl
  | registerMrk p m => exact .of_eq rfl
  | registerRoot p => exact .of_eq rfl
  | pause => exact .of_eq rfl
  | resume => exact .of_eq rfl
  | write a k w => exact .of_eq rfl

theorem ext_run : ∀ (os : List Op) (g : GC), Ext g (g.run os)
  | [], g => .refl g
  | o :: os, g => (ext_exec g o).trans (ext_run os (g.exec o))

theorem LibOk.of_ext {g g' : GC} (h : Ext g g') (hl : LibOk g'.events) : LibOk g.events := by
  obtain ⟨es, he⟩ := h
  rw [LibOk, he] at hl
  exact ((evsFrom_append _ _ _).1 hl).1

/-! ### Each operation keeps the invariant -/

/-- The effect of adding a record. -/
structure Added (g : GC) (r : Rec) (g' : GC) : Prop where
  wf : Wf g'
  perm : g'.recs.Perm (r :: g.recs)
  rest : g'.rest = (g.size + 1, g.allocs + r.size, wrap (g.dirty + r.size), g.collecting, g.lo, g.hi, g.mem, g.events)

theorem add_ok {g : GC} (h : Wf g) (hs : g.size ≤ 2 ^ 60) {r : Rec} (hr : ∀ r' ∈ g.recs, r'.addr ≠ r.addr) (hm : r.mark = false) : Added g r (g.add r) := by
  obtain ⟨h1, h2, h3⟩ : Wf g.expand ∧ g.expand.recs.Perm g.recs ∧ g.expand.rest = g.rest := by
    rw [GC.expand]
    split
    next hload =>
      refine wf_resize h ?_
      have h50 : sizeAt 49 = 4611686018427388039 := by decide
      have := h.idx
      by_cases h49 : g.idx = 49
      · rw [h.alloc, h49, h50] at hload; omega
      · omega
    · exact ⟨h, .refl _, rfl⟩
  obtain ⟨e1, e2, e3, e4, e5, e6, e7, e8⟩ := rest_eq h3
  have hins := insert_perm g.expand h1.tab.pos r
  have hperm : (g.expand.insert r).recs.Perm (r :: g.recs) := hins.trans (h2.cons r)
  have htab := insert_tab h1.tab (r := r) (fun r' hr' => hr r' (h2.mem_iff.1 hr'))
  have hrecs : (g.add r).recs = (g.expand.insert r).recs := rfl
  refine ⟨⟨⟨htab.pos, htab.place, htab.nodup⟩, fun x hx => ?_, ?_, ?_, h1.idx, h1.alloc⟩, hperm, ?_⟩
  · rcases List.mem_cons.1 (hperm.mem_iff.1 hx) with rfl | hx
    · exact hm
    · exact h.marks x hx
  · rw [hrecs, hperm.length_eq]
    show g.expand.size + 1 = _
    rw [e1, h.count]; rfl
  · rw [hrecs, perm_sum (hperm.map Rec.size)]
    show g.expand.allocs + r.size = _
    rw [e2, h.bytes, List.map_cons, List.sum_cons]; omega
  · show (g.expand.size + 1, g.expand.allocs + r.size, wrap (g.expand.dirty + r.size), g.expand.collecting, g.expand.lo, g.expand.hi, g.expand.mem, g.expand.events) = _
    rw [e1, e2, e3, e4, e5, e6, e7, e8]

theorem Added.get {g : GC} {r : Rec} {g' : GC} (ha : Added g r g') (h : Wf g) (a : Nat) : g'.get a = if a = r.addr then some r else g.get a := by
  split
  next he => exact ha.wf.tab.get_iff.2 ⟨ha.perm.mem_iff.2 (by simp), he.symm⟩
  next he =>
    cases hg : g.get a with
    | some x =>
      obtain ⟨h1, h2⟩ := h.tab.get_iff.1 hg
      exact ha.wf.tab.get_iff.2 ⟨ha.perm.mem_iff.2 (by simp [h1]), h2⟩
    | none =>
      rw [ha.wf.tab.get_none]
      intro x hx hxa
      rcases List.mem_cons.1 (ha.perm.mem_iff.1 hx) with rfl | hx
      · exact he hxa.symm
      · exact h.tab.get_none.1 hg x hx hxa

theorem Wf.log {g : GC} (h : Wf g) (es : List Ev) (mem : Nat → Nat → Nat) : Wf { g with events := es, mem := mem } :=
  ⟨⟨h.tab.pos, h.tab.place, h.tab.nodup⟩, h.marks, h.count, h.bytes, h.idx, h.alloc⟩

theorem inv_collectIfNeeded {g : GC} (h : Inv g) (stack : List Nat) : Inv (g.collectIfNeeded stack) := by
  rw [GC.collectIfNeeded]
  split
  · exact (inv_collect h stack).1
  · exact h

/-- A new block. -/
theorem inv_new {g : GC} (h : Inv g) {a n : Nat} {words : Nat → Nat} {r : Rec} (hr : r.addr = a) (hn : n = wrap (r.size + 32)) (hm : r.mark = false)
    (hl : LibOk (GC.add { g with events := g.events ++ [.malloc a n], mem := fun b => if b = a then words else g.mem b } r).events) :
    Added { g with events := g.events ++ [.malloc a n], mem := fun b => if b = a then words else g.mem b } r
      (GC.add { g with events := g.events ++ [.malloc a n], mem := fun b => if b = a then words else g.mem b } r) ∧
    Inv (GC.add { g with events := g.events ++ [.malloc a n], mem := fun b => if b = a then words else g.mem b } r) := by
  have hl' := LibOk.of_ext (ext_add _ _) hl
  have hl2 := (evsFrom_append _ _ _).1 hl'
  have hnone : live g.events a = none := hl2.2.1.1
  have hfew := few_blocks h hl2.1
  have hnone' : g.get a = none := by
    rw [h.live] at hnone
    simpa using hnone
  have hw := h.wf.log (g.events ++ [.malloc a n]) (fun b => if b = a then words else g.mem b)
  have hadd := add_ok hw hfew (r := r) (fun r' hr' => by rw [hr]; exact h.wf.tab.get_none.1 hnone' r' hr') hm
  have hev : (GC.add { g with events := g.events ++ [.malloc a n], mem := fun b => if b = a then words else g.mem b } r).events = g.events ++ [.malloc a n] := by
    have := hadd.rest
    simp only [GC.rest, Prod.mk.injEq] at this
    exact this.2.2.2.2.2.2.2
  refine ⟨hadd, hadd.wf, fun b => ?_, ?_⟩
  · rw [hadd.get hw, hev, live_append]
    simp only [List.foldl_cons, List.foldl_nil, liveStep, hr]
    split
    · rw [hn]; rfl
    · exact h.live b
  · rw [hev]
    exact (evsFrom_append _ _ _).2 ⟨h.use, trivial, trivial⟩

theorem inv_free {g : GC} (h : Inv g) (p : Nat) : Inv (g.free p) := by
  rw [GC.free]
  split
  · exact h
  next r g' hr =>
    have hrm := remove_some h.wf.tab h.wf.marks hr
    have hrest := hrm.rest
    simp only [GC.rest, Prod.mk.injEq] at hrest
    obtain ⟨e1, e2, e3, e4, e5, e6, e7, e8⟩ := hrest
    have hlen := hrm.perm.length_eq
    simp only [List.length_map, List.length_cons] at hlen
    have hsum := perm_sum (hrm.perm.map Rec.size)
    rw [map_noRoot_size, map_noRoot_size, List.map_cons, List.sum_cons] at hsum
    refine ⟨⟨⟨hrm.tab.pos, hrm.tab.place, hrm.tab.nodup⟩, fun x hx => ?_, ?_, ?_, ?_, ?_⟩, fun a => ?_, ?_⟩
    · have : x.noRoot ∈ g.recs.map Rec.noRoot := hrm.perm.mem_iff.1 (by simp [List.mem_map]; exact .inr ⟨x, hx, rfl⟩)
      obtain ⟨y, y1, y2⟩ := List.mem_map.1 this
      have := congrArg Rec.mark y2
      simp only [Rec.noRoot] at this
      rw [← this]
      exact h.wf.marks y y1
    · show g'.size = g'.recs.length
      rw [e1, h.wf.count]; omega
    · show g'.allocs = (g'.recs.map Rec.size).sum
      rw [e2, h.wf.bytes]; omega
    · show g'.idx < 50
      rw [hrm.alloc.2]; exact h.wf.idx
    · show g'.alloc = sizeAt g'.idx
      rw [hrm.alloc.1, hrm.alloc.2]; exact h.wf.alloc
    · show live (g'.events ++ [.free r.addr]) a = (g'.get a).map _
      rw [e8, live_append]
      simp only [List.foldl_cons, List.foldl_nil, liveStep, hrm.addr]
      have hget := hrm.get h.wf.tab a
      have hmap : ∀ o : Option Rec, o.map (fun r => wrap (r.size + 32)) = (o.map Rec.noRoot).map (fun r => wrap (r.size + 32)) := by
        intro o; cases o <;> rfl
      rw [hmap, hget]
      split
      · rfl
      · rw [h.live a, hmap]
    · show UseOk (g'.events ++ [.free r.addr])
      rw [e8]
      refine (evsFrom_append _ _ _).2 ⟨h.use, ?_, trivial⟩
      show live g.events r.addr ≠ none
      rw [h.live, h.wf.tab.get_iff.2 ⟨hrm.mem, rfl⟩]
      simp

theorem inv_tryMem {g : GC} (h : Inv g) {fails : Nat} (hf : fails ≤ 1) (stack : List Nat) : ∃ g', (g.tryMem fails stack).1 = some g' ∧ Inv g' := by
  match fails, hf with
  | 0, _ => exact ⟨g, rfl, h⟩
  | 1, _ => exact ⟨_, rfl, (inv_collect h stack).1⟩

theorem inv_alloc {g : GC} (h : Inv g) {fails : Nat} (hf : fails ≤ 1) (size : Nat) (dtor : Option Nat) (mrk : Mrk) (stack : List Nat) (a : Nat) (words : Nat → Nat)
    (hl : LibOk (g.allocOpt fails size dtor mrk stack a words).events) : Inv (g.allocOpt fails size dtor mrk stack a words) := by
  obtain ⟨g', e, h'⟩ := inv_tryMem (inv_collectIfNeeded h stack) hf stack
  rw [GC.allocOpt] at hl ⊢
  generalize (g.collectIfNeeded stack).tryMem fails stack = x at *
  obtain ⟨x1, x2⟩ := x
  cases e
  exact (inv_new h' (r := ⟨a, size, dtor, mrk, false, false⟩) rfl rfl rfl hl).2

/-- A block is not in the table, though not given back yet. -/
structure Out (g : GC) (r : Rec) : Prop where
  wf : Wf g
  few : g.size ≤ 2 ^ 60
  live : ∀ b, (g.get b).map (fun r => wrap (r.size + 32)) = if b = r.addr then none else live g.events b
  out : Gc.live g.events r.addr ≠ none
  use : UseOk g.events

theorem out_remove {g : GC} (h : Inv g) (hl : LibOk g.events) {p : Nat} {r : Rec} {g' : GC} (hr : g.remove p = some (r, g')) : Out g' r := by
  have hrm := remove_some h.wf.tab h.wf.marks hr
  have hf := inv_free h p
  rw [GC.free, hr] at hf
  simp only at hf
  have hrest := hrm.rest
  simp only [GC.rest, Prod.mk.injEq] at hrest
  obtain ⟨e1, e2, e3, e4, e5, e6, e7, e8⟩ := hrest
  have hfew := few_blocks h hl
  refine ⟨⟨⟨hf.wf.tab.pos, hf.wf.tab.place, hf.wf.tab.nodup⟩, hf.wf.marks, hf.wf.count, hf.wf.bytes, hf.wf.idx, hf.wf.alloc⟩, by rw [e1]; omega, fun b => ?_, ?_, by rw [e8]; exact h.use⟩
  · have := hf.live b
    simp only at this
    rw [e8, live_append] at this
    simp only [List.foldl_cons, List.foldl_nil, liveStep] at this
    rw [e8]
    exact this.symm
  · rw [e8, h.live, h.wf.tab.get_iff.2 ⟨hrm.mem, rfl⟩]
    simp

theorem out_collect {g : GC} {r : Rec} (h : Out g r) (stack : List Nat) : Out (g.collect stack) r := by
  obtain ⟨m, hc, _, _⟩ := collect_ok h.wf stack
  have hnd : ((g.recs.filter (fun r => !m r.addr)).map Rec.addr).Nodup := h.wf.tab.nodup.sublist (List.Sublist.map _ List.filter_sublist)
  have hin : ∀ x ∈ g.recs, x.addr ≠ r.addr ∧ Gc.live g.events x.addr = some (wrap (x.size + 32)) := by
    intro x hx
    have := h.live x.addr
    rw [h.wf.tab.get_iff.2 ⟨hx, rfl⟩] at this
    split at this
    · simp at this
    next hne => exact ⟨hne, this.symm⟩
  obtain ⟨h1, h2, h3⟩ := drop_events (g.recs.filter (fun r => !m r.addr)) (Gc.live g.events) hnd (fun x hx => by
    rw [(hin x (List.mem_filter.1 hx).1).2]; simp)
  refine ⟨hc.wf, ?_, fun b => ?_, ?_, ?_⟩
  · have := h.few
    have e := hc.perm.length_eq
    have := List.length_filter_le (fun r => m r.addr) g.recs
    rw [hc.wf.count, e]
    rw [h.wf.count] at *
    omega
  · rw [hc.get h.wf, hc.events, live_append, h3]
    have hb := h.live b
    split
    next hm =>
      rw [hb]
      split
      · rfl
      · rw [if_neg]
        intro ha
        obtain ⟨x, x1, x2⟩ := List.mem_map.1 ha
        have := (List.mem_filter.1 x1).2
        rw [x2, hm] at this
        simp at this
    next hm =>
      cases hg : g.get b with
      | none =>
        rw [hg] at hb
        split
        · rfl
        next hne =>
          rw [if_neg hne] at hb
          split
          · rfl
          · exact hb
      | some x =>
        obtain ⟨x1, x2⟩ := h.wf.tab.get_iff.1 hg
        split
        · rfl
        · rw [if_pos]
          · rfl
          · exact List.mem_map.2 ⟨x, List.mem_filter.2 ⟨x1, by simp [x2, hm]⟩, x2⟩
  · rw [hc.events, live_append, h3, if_neg]
    · exact h.out
    · intro ha
      obtain ⟨x, x1, x2⟩ := List.mem_map.1 ha
      exact (hin x (List.mem_filter.1 x1).1).1 x2
  · rw [hc.events]
    exact (evsFrom_append _ _ _).2 ⟨h.use, h1⟩

theorem realloc_added {g' : GC} {p size a : Nat} {dtor : Option Nat} {mrk : Mrk} {words : Nat → Nat} {r : Rec} (h : Out g' r)
    (hl : LibOk (GC.add { g' with events := g'.events ++ [.realloc r.addr a (wrap (size + 32))], mem := fun b => if b = a then fun k => if k < r.size / 8 then g'.mem p k else words k else g'.mem b } ⟨a, size, dtor, mrk, false, r.root⟩).events) :
    Added { g' with events := g'.events ++ [.realloc r.addr a (wrap (size + 32))], mem := fun b => if b = a then fun k => if k < r.size / 8 then g'.mem p k else words k else g'.mem b } ⟨a, size, dtor, mrk, false, r.root⟩
      (GC.add { g' with events := g'.events ++ [.realloc r.addr a (wrap (size + 32))], mem := fun b => if b = a then fun k => if k < r.size / 8 then g'.mem p k else words k else g'.mem b } ⟨a, size, dtor, mrk, false, r.root⟩) := by
  have hl' := LibOk.of_ext (ext_add _ _) hl
  have hlib := ((evsFrom_append _ _ _).1 hl').2.1
  have hanone : g'.get a = none := by
    have := h.live a
    rcases hlib.1 with hh | hh
    · rw [hh] at this ⊢; simpa using this
    · change live g'.events a = none at hh
      rw [hh] at this; simpa using this
  have hw := h.wf.log (g'.events ++ [.realloc r.addr a (wrap (size + 32))]) (fun b => if b = a then fun k => if k < r.size / 8 then g'.mem p k else words k else g'.mem b)
  exact add_ok hw h.few (r := ⟨a, size, dtor, mrk, false, r.root⟩) (fun r' hr' => h.wf.tab.get_none.1 hanone r' hr') rfl

theorem inv_realloc {g' : GC} {p size a : Nat} {dtor : Option Nat} {mrk : Mrk} {words : Nat → Nat} {r : Rec} (h : Out g' r)
    (hl : LibOk (GC.add { g' with events := g'.events ++ [.realloc r.addr a (wrap (size + 32))], mem := fun b => if b = a then fun k => if k < r.size / 8 then g'.mem p k else words k else g'.mem b } ⟨a, size, dtor, mrk, false, r.root⟩).events) :
    Inv (GC.add { g' with events := g'.events ++ [.realloc r.addr a (wrap (size + 32))], mem := fun b => if b = a then fun k => if k < r.size / 8 then g'.mem p k else words k else g'.mem b } ⟨a, size, dtor, mrk, false, r.root⟩) := by
  have hw := h.wf.log (g'.events ++ [.realloc r.addr a (wrap (size + 32))]) (fun b => if b = a then fun k => if k < r.size / 8 then g'.mem p k else words k else g'.mem b)
  have hadd := realloc_added h hl
  have hev := hadd.rest
  simp only [GC.rest, Prod.mk.injEq] at hev
  have hev := hev.2.2.2.2.2.2.2
  refine ⟨hadd.wf, fun b => ?_, ?_⟩
  · rw [hadd.get hw, hev, live_append]
    simp only [List.foldl_cons, List.foldl_nil, liveStep]
    split
    · rfl
    · exact (h.live b).symm
  · rw [hev]
    exact (evsFrom_append _ _ _).2 ⟨h.use, h.out, trivial⟩

theorem inv_upd {g : GC} (h : Inv g) (p : Nat) {f : Rec → Rec} (h1 : ∀ r, (f r).addr = r.addr) (h2 : ∀ r, (f r).size = r.size) (h3 : ∀ r, (f r).mark = r.mark) : Inv (g.upd p f) := by
  have hf : ∀ r : Rec, (if r.addr = p then f r else r).addr = r.addr := fun r => by split <;> simp [h1]
  have hs : ∀ r : Rec, (if r.addr = p then f r else r).size = r.size := fun r => by split <;> simp [h2]
  rw [upd_eq h.wf.tab]
  have hrecs := recs_mapRecs g (fun r => if r.addr = p then f r else r)
  refine ⟨⟨mapRecs_tab h.wf.tab hf, fun r hr => ?_, ?_, ?_, h.wf.idx, h.wf.alloc⟩, fun a => ?_, h.use⟩
  · rw [hrecs] at hr
    obtain ⟨x, x1, rfl⟩ := List.mem_map.1 hr
    have := h.wf.marks x x1
    split
    · rw [h3, this]
    · exact this
  · rw [hrecs, List.length_map]; exact h.wf.count
  · rw [hrecs, List.map_map]
    have : (Rec.size ∘ fun r => if r.addr = p then f r else r) = Rec.size := funext hs
    rw [this]; exact h.wf.bytes
  · rw [get_mapRecs hf]
    show live g.events a = _
    rw [h.live a, Option.map_map]
    congr 1
    funext r
    simp only [Function.comp, hs]

theorem inv_exec {g : GC} (h : Inv g) (hl0 : LibOk g.events) (o : Op) (hf : o.fails ≤ 1) (hl : LibOk (g.exec o).events) : Inv (g.exec o) := by
  cases o with
  | alloc fails size dtor mrk stack a words => exact inv_alloc h hf size dtor mrk stack a words hl
  | calloc fails nmem size dtor mrk stack a =>
    obtain ⟨g', e, h'⟩ := inv_tryMem (inv_collectIfNeeded h stack) hf stack
    rw [GC.exec, GC.callocOpt] at hl ⊢
    simp only [Op.fails] at e
    generalize (g.collectIfNeeded stack).tryMem fails stack = x at *
    obtain ⟨x1, x2⟩ := x
    cases e
    exact (inv_new h' (r := ⟨a, wrap (nmem * size), dtor, mrk, false, false⟩) rfl rfl rfl hl).2
  | realloc fails p size dtor mrk stack a words =>
    rw [GC.exec, GC.reallocOpt] at hl ⊢
    split
    · exact inv_free h p
    next h0 =>
      rw [if_neg h0] at hl
      split
      next hp => rw [if_pos hp] at hl; exact inv_alloc h hf size dtor mrk stack a words hl
      next hp =>
        rw [if_neg hp] at hl
        cases hr : g.remove p with
        | none => rw [hr] at hl; exact inv_alloc h hf size dtor mrk stack a words hl
        | some x =>
          obtain ⟨r, g'⟩ := x
          have ho := out_remove h hl0 hr
          rw [hr] at hl
          match fails, hf with
          | 0, _ => exact inv_realloc ho hl
          | 1, _ => exact inv_realloc (out_collect ho stack) hl
  | free p => exact inv_free h p
  | collect stack => exact (inv_collect h stack).1
  | registerDtor p d => exact inv_upd h p (fun _ => rfl) (fun _ => rfl) (fun _ => rfl)
  | registerMrk p m => exact inv_upd h p (fun _ => rfl) (fun _ => rfl) (fun _ => rfl)
  | registerRoot p => exact inv_upd h p (fun _ => rfl) (fun _ => rfl) (fun _ => rfl)
  | pause => exact ⟨⟨⟨h.wf.tab.pos, h.wf.tab.place, h.wf.tab.nodup⟩, h.wf.marks, h.wf.count, h.wf.bytes, h.wf.idx, h.wf.alloc⟩, h.live, h.use⟩
  | resume => exact ⟨⟨⟨h.wf.tab.pos, h.wf.tab.place, h.wf.tab.nodup⟩, h.wf.marks, h.wf.count, h.wf.bytes, h.wf.idx, h.wf.alloc⟩, h.live, h.use⟩
  | write a k w => exact ⟨h.wf.log g.events _, h.live, h.use⟩

theorem inv_run : ∀ (os : List Op) {g : GC}, Inv g → (∀ o ∈ os, o.fails ≤ 1) → LibOk (g.run os).events → Inv (g.run os)
  | [], _, h, _, _ => h
  | o :: os, g, h, hf, hl =>
    have hl1 := LibOk.of_ext (ext_run os (g.exec o)) hl
    inv_run os (inv_exec h (LibOk.of_ext (ext_exec g o) hl1) o (hf o (by simp)) hl1) (fun o ho => hf o (by simp [ho])) hl

end Minim.Gc
