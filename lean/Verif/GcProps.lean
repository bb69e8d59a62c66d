import Verif.GcHist

set_option autoImplicit false

/-!
# Properties of the collector
-/

namespace Minim.Gc

/-- Specification: states after any sequence of operations, the C library doing its part and memory not running out. -/
def History (g : GC) : Prop := ∃ lo hi mem os, (∀ o ∈ os, Op.fails o ≤ 1) ∧ (create lo hi mem).run os = g ∧ LibOk g.events

/-- Specification: every block is in the range of addresses that is taken for heap. -/
def InHeap (g : GC) : Prop := ∀ a r, g.get a = some r → g.lo ≤ a ∧ a ≤ g.hi

theorem History.inv {g : GC} (h : History g) : Inv g := by
  obtain ⟨lo, hi, mem, os, h1, h2, h3⟩ := h
  rw [← h2] at h3 ⊢
  exact inv_run os (inv_create lo hi mem) h1 h3

theorem History.exec {g : GC} (h : History g) (o : Op) (hf : o.fails ≤ 1) (hl : LibOk (g.exec o).events) : History (g.exec o) := by
  obtain ⟨lo, hi, mem, os, h1, h2, h3⟩ := h
  refine ⟨lo, hi, mem, os ++ [o], ?_, ?_, hl⟩
  · intro o' ho'
    rcases List.mem_append.1 ho' with ho' | ho'
    · exact h1 o' ho'
    · rw [List.mem_singleton.1 ho']; exact hf
  · rw [← h2, GC.run, GC.run, List.foldl_append]; rfl

instance (m : Nat → Option Nat) : (e : Ev) → Decidable (libOk m e)
  | .malloc _ _ => inferInstanceAs (Decidable (_ ∧ _))
  | .realloc _ _ _ => inferInstanceAs (Decidable (_ ∧ _))
  | .free _ => .isTrue trivial
  | .dtor _ _ => .isTrue trivial
  | .ub => .isTrue trivial

instance decEvs : (m : Nat → Option Nat) → (es : List Ev) → Decidable (EvsFrom libOk m es)
  | _, [] => .isTrue trivial
  | m, e :: es => match decEvs (liveStep m e) es with
    | .isTrue h => if h' : libOk m e then .isTrue ⟨h', h⟩ else .isFalse (fun x => h' x.1)
    | .isFalse h => .isFalse (fun x => h x.2)

instance (es : List Ev) : Decidable (LibOk es) := decEvs _ _

theorem InHeap.recs {g : GC} (h : InHeap g) (ht : Tab g) : ∀ r ∈ g.recs, g.lo ≤ r.addr ∧ r.addr ≤ g.hi := fun r hr => h r.addr r (ht.get_iff.2 ⟨hr, rfl⟩)

theorem collect_reach {g : GC} (h : Inv g) (hr : InHeap g) (stack : List Nat) :
    ∃ m, Collected g m (g.collect stack) ∧ ∀ a, m a = true ↔ Reach g stack a := by
  obtain ⟨m, h1, h2, h3⟩ := collect_ok h.wf stack
  exact ⟨m, h1, fun a => ⟨h2 a, h3 (hr.recs h.wf.tab) a⟩⟩

theorem reach_some {g : GC} {stack : List Nat} {a : Nat} (h : Reach g stack a) : ∃ r, g.get a = some r := by
  cases h with
  | root h _ => exact ⟨_, h⟩
  | stack _ h => exact ⟨_, h⟩
  | field _ _ _ h => exact ⟨_, h⟩

/-- A small history: two blocks, the first holds the address of the second, and a third. -/
def demo : GC :=
  (create 0 (2 ^ 48) (fun _ _ => 0)).run [.alloc 0 8 none .default [] 16 (fun _ => 32), .alloc 0 8 (some 5) .default [] 32 (fun _ => 0), .calloc 0 3 4 (some 7) .atomic [] 131360]

theorem demo_history : History demo := ⟨_, _, _, _, by decide, rfl, by decide +kernel⟩

theorem demo_inHeap : InHeap demo := by
  intro a r h
  have hr := (demo_history.inv.wf.tab.get_iff.1 h)
  have e : demo.recs.map Rec.addr = [131360, 16, 32] := by decide +kernel
  have : a ∈ demo.recs.map Rec.addr := List.mem_map.2 ⟨r, hr⟩
  rw [e] at this
  have hh : demo.lo = 0 ∧ demo.hi = 2 ^ 48 := ⟨rfl, rfl⟩
  simp only [List.mem_cons, List.not_mem_nil, or_false] at this
  rw [hh.1, hh.2]
  omega

/-! ### C54 -/

/-- C54 (partial).  A collection keeps every reachable block: it is still in the table with its size, destructor, marker and root flag, its contents are as before, and it has not
been given back to the C library.  Every block is required to lie between the code of the collector and the bottom of the stack. -/
theorem C54_survives_partial {g : GC} (hg : History g) (hr : InHeap g) (stack : List Nat) {a : Nat} (ha : Reach g stack a) :
    (g.collect stack).get a = g.get a ∧ (g.collect stack).get a ≠ none ∧ (g.collect stack).mem a = g.mem a ∧ live (g.collect stack).events a = live g.events a := by
  obtain ⟨m, h1, h2⟩ := collect_reach hg.inv hr stack
  have he : (g.collect stack).get a = g.get a := by rw [h1.get hg.inv.wf, if_pos ((h2 a).2 ha)]
  obtain ⟨r, h3⟩ := reach_some ha
  refine ⟨he, by rw [he, h3]; simp, by rw [h1.same.2.2.2], ?_⟩
  rw [(inv_collect hg.inv stack).1.live, hg.inv.live, he]

example : History demo ∧ InHeap demo ∧ Reach demo [16] 32 :=
  ⟨demo_history, demo_inHeap, .field (a := 16) (b := 32) (r := ⟨16, 8, none, .default, false, false⟩) (.stack (by simp) rfl) rfl ⟨0, by simp, rfl⟩ rfl⟩

theorem reach_collect {g : GC} (hg : Inv g) (hr : InHeap g) (stack : List Nat) {a : Nat} (ha : Reach g stack a) : Reach (g.collect stack) stack a := by
  obtain ⟨m, h1, h2⟩ := collect_reach hg hr stack
  have hget : ∀ {b : Nat}, Reach g stack b → (g.collect stack).get b = g.get b := fun hb => by rw [h1.get hg.wf, if_pos ((h2 _).2 hb)]
  induction ha with
  | root h h' => exact .root (by rw [hget (.root h h')]; exact h) h'
  | stack h h' => exact .stack h (by rw [hget (.stack h h')]; exact h')
  | field h h' h3 h4 ih =>
    exact .field ih (by rw [hget h]; exact h') (by rw [h1.same.2.2.2]; exact h3) (by rw [hget (.field h h' h3 h4)]; exact h4)

theorem inHeap_collect {g : GC} (hg : Inv g) (hr : InHeap g) (stack : List Nat) : InHeap (g.collect stack) := by
  obtain ⟨m, h1, h2⟩ := collect_reach hg hr stack
  intro a r h
  rw [h1.get hg.wf] at h
  rw [h1.same.2.1, h1.same.2.2.1]
  split at h
  · exact hr a r h
  · cases h

/-- Keeping what is reachable. -/
def Keeps (g : GC) (stack : List Nat) (g' : GC) : Prop := ∀ a, Reach g stack a → g'.get a = g.get a ∧ g'.mem a = g.mem a

theorem keeps_collect {g : GC} (hg : Inv g) (hr : InHeap g) (stack : List Nat) : Keeps g stack (g.collect stack) := by
  obtain ⟨m, h1, h2⟩ := collect_reach hg hr stack
  intro a ha
  exact ⟨by rw [h1.get hg.wf, if_pos ((h2 a).2 ha)], by rw [h1.same.2.2.2]⟩

theorem keeps_tryMem {g : GC} (hg : Inv g) (hr : InHeap g) {fails : Nat} (hf : fails ≤ 1) (stack : List Nat) :
    ∃ g', ((g.collectIfNeeded stack).tryMem fails stack).1 = some g' ∧ Inv g' ∧ Keeps g stack g' := by
  have h1 : Inv (g.collectIfNeeded stack) ∧ InHeap (g.collectIfNeeded stack) ∧ Keeps g stack (g.collectIfNeeded stack) ∧ ∀ a, Reach g stack a → Reach (g.collectIfNeeded stack) stack a := by
    rw [GC.collectIfNeeded]
    split
    · exact ⟨(inv_collect hg stack).1, inHeap_collect hg hr stack, keeps_collect hg hr stack, fun a => reach_collect hg hr stack⟩
    · exact ⟨hg, hr, fun a _ => ⟨rfl, rfl⟩, fun a h => h⟩
  obtain ⟨i1, i2, i3, i4⟩ := h1
  match fails, hf with
  | 0, _ => exact ⟨_, rfl, i1, i3⟩
  | 1, _ =>
    refine ⟨_, rfl, (inv_collect i1 stack).1, fun a ha => ?_⟩
    have := keeps_collect i1 i2 stack a (i4 a ha)
    exact ⟨this.1.trans (i3 a ha).1, this.2.trans (i3 a ha).2⟩

theorem keeps_new {g0 g : GC} (h : Inv g) {stack : List Nat} (hk : Keeps g0 stack g) {a n : Nat} {words : Nat → Nat} {r : Rec} (hr : r.addr = a) (hn : n = wrap (r.size + 32)) (hm : r.mark = false)
    (hl : LibOk (GC.add { g with events := g.events ++ [.malloc a n], mem := fun b => if b = a then words else g.mem b } r).events) :
    Keeps g0 stack (GC.add { g with events := g.events ++ [.malloc a n], mem := fun b => if b = a then words else g.mem b } r) := by
  have hadd := (inv_new h hr hn hm hl).1
  have hw := h.wf.log (g.events ++ [.malloc a n]) (fun b => if b = a then words else g.mem b)
  have hl' := ((evsFrom_append _ _ _).1 (LibOk.of_ext (ext_add _ _) hl)).2.1
  have hnone : g.get a = none := by
    have : live g.events a = none := hl'.1
    rw [h.live] at this
    simpa using this
  intro b hb
  obtain ⟨x, hx⟩ := reach_some hb
  have hne : b ≠ a := by
    rintro rfl
    rw [← (hk b hb).1, hnone] at hx
    cases hx
  have hmem := hadd.rest
  simp only [GC.rest, Prod.mk.injEq] at hmem
  refine ⟨?_, ?_⟩
  · rw [hadd.get hw, hr, if_neg hne]
    exact (hk b hb).1
  · rw [hmem.2.2.2.2.2.2.1]
    simp only [if_neg hne]
    exact (hk b hb).2

/-- C54 (partial).  An allocation, whether it collects or not, keeps every block reachable before. -/
theorem C54_alloc_partial {g : GC} (hg : History g) (hr : InHeap g) (fails size : Nat) (hf : fails ≤ 1) (dtor : Option Nat) (mrk : Mrk) (stack : List Nat) (a : Nat) (words : Nat → Nat)
    (hl : LibOk (g.exec (.alloc fails size dtor mrk stack a words)).events) {b : Nat} (hb : Reach g stack b) :
    (g.exec (.alloc fails size dtor mrk stack a words)).get b = g.get b ∧ (g.exec (.alloc fails size dtor mrk stack a words)).mem b = g.mem b := by
  obtain ⟨g', e, h1, h2⟩ := keeps_tryMem hg.inv hr hf stack
  rw [GC.exec, GC.allocOpt] at hl ⊢
  generalize (g.collectIfNeeded stack).tryMem fails stack = x at *
  obtain ⟨x1, x2⟩ := x
  cases e
  exact keeps_new h1 h2 (r := ⟨a, size, dtor, mrk, false, false⟩) rfl rfl rfl hl b hb

/-- C54 (partial).  The same of `GC_calloc`. -/
theorem C54_calloc_partial {g : GC} (hg : History g) (hr : InHeap g) (fails nmem size : Nat) (hf : fails ≤ 1) (dtor : Option Nat) (mrk : Mrk) (stack : List Nat) (a : Nat)
    (hl : LibOk (g.exec (.calloc fails nmem size dtor mrk stack a)).events) {b : Nat} (hb : Reach g stack b) :
    (g.exec (.calloc fails nmem size dtor mrk stack a)).get b = g.get b ∧ (g.exec (.calloc fails nmem size dtor mrk stack a)).mem b = g.mem b := by
  obtain ⟨g', e, h1, h2⟩ := keeps_tryMem hg.inv hr hf stack
  rw [GC.exec, GC.callocOpt] at hl ⊢
  generalize (g.collectIfNeeded stack).tryMem fails stack = x at *
  obtain ⟨x1, x2⟩ := x
  cases e
  exact keeps_new h1 h2 (r := ⟨a, wrap (nmem * size), dtor, mrk, false, false⟩) rfl rfl rfl hl b hb

example : LibOk (demo.exec (.alloc 1 64 none .default [16] 48 (fun _ => 1))).events ∧ LibOk (demo.exec (.calloc 1 8 8 none .default [16] 48)).events := by decide +kernel

/-- C54 (negated).  `GC_realloc` takes the block out of the table before it asks for memory; if a collection is needed to find some, the blocks it points to are freed, although
the program holds the address of the block, and the new block holds theirs. -/
theorem C54_negated_realloc : ∃ g, History g ∧ InHeap g ∧ ∃ stack, Reach g stack 32 ∧
    ∃ g', g' = g.exec (.realloc 1 16 16 none .default stack 160 (fun _ => 0)) ∧ LibOk g'.events ∧ g'.get 32 = none ∧ live g'.events 32 = none ∧ g'.mem 160 0 = 32 :=
  ⟨demo, demo_history, demo_inHeap, [16],
    .field (a := 16) (b := 32) (r := ⟨16, 8, none, .default, false, false⟩) (.stack (by simp) rfl) rfl ⟨0, by simp, rfl⟩ rfl, _, rfl, by decide +kernel,
    Option.isNone_iff_eq_none.1 (by decide +kernel), by decide +kernel, by decide +kernel⟩

/-- C54 (negated).  A block outside of the range of addresses taken for heap is freed, although the stack holds its address. -/
theorem C54_negated_range : ∃ g, History g ∧ Reach g [32] 32 ∧ (g.collect [32]).get 32 = none :=
  ⟨(create 4096 (2 ^ 48) (fun _ _ => 0)).run [.alloc 0 8 none .default [] 32 (fun _ => 0)], ⟨_, _, _, _, by decide, rfl, by decide +kernel⟩,
    .stack (r := ⟨32, 8, none, .default, false, false⟩) (by simp) rfl, Option.isNone_iff_eq_none.1 (by decide +kernel)⟩

/-! ### C55 -/

/-- C55.  After a collection only blocks that were reachable are in the table, and all others have been given back to the C library. -/
theorem C55_only_reachable {g : GC} (hg : History g) (stack : List Nat) (a : Nat) :
    ((g.collect stack).get a ≠ none → Reach g stack a) ∧ (live (g.collect stack).events a ≠ none → Reach g stack a) := by
  obtain ⟨m, h1, h2, _⟩ := collect_ok hg.inv.wf stack
  have : (g.collect stack).get a ≠ none → Reach g stack a := by
    intro h
    rw [h1.get hg.inv.wf] at h
    split at h
    next hm => exact h2 a hm
    · exact absurd rfl h
  refine ⟨this, fun h => this ?_⟩
  rw [(inv_collect hg.inv stack).1.live] at h
  simpa using h

example : demo.get 131360 ≠ none ∧ ¬ Reach demo [16] 131360 ∧ (demo.collect [16]).get 32 ≠ none :=
  ⟨by rw [← Option.isSome_iff_ne_none]; decide +kernel,
   fun h => absurd (((collect_reach demo_history.inv demo_inHeap [16]).elim fun m hm => by
      rw [hm.1.get demo_history.inv.wf, if_pos ((hm.2 _).2 h)]
      rw [← Option.isSome_iff_ne_none]; decide +kernel) : (demo.collect [16]).get 131360 ≠ none)
      (by rw [Ne, not_not, ← Option.isNone_iff_eq_none]; decide +kernel),
   by rw [← Option.isSome_iff_ne_none]; decide +kernel⟩

/-! ### C56 -/

theorem count_drop (l : List Rec) (hn : (l.map Rec.addr).Nodup) (a : Nat) :
    (∀ r ∈ l, r.addr = a → (l.flatMap Rec.dropEvents).count (.free a) = 1 ∧ ∀ d, (l.flatMap Rec.dropEvents).count (.dtor d a) = if r.dtor = some d then 1 else 0) ∧
    ((∀ r ∈ l, r.addr ≠ a) → (l.flatMap Rec.dropEvents).count (.free a) = 0 ∧ ∀ d, (l.flatMap Rec.dropEvents).count (.dtor d a) = 0) := by
  induction l with
  | nil => simp
  | cons x l ih =>
    rw [List.map_cons, List.nodup_cons] at hn
    obtain ⟨i1, i2⟩ := ih hn.2
    have hx : ∀ e, ((x :: l).flatMap Rec.dropEvents).count e = x.dropEvents.count e + (l.flatMap Rec.dropEvents).count e := fun e => by
      rw [List.flatMap_cons, List.count_append]
    have hf : x.dropEvents.count (.free a) = if x.addr = a then 1 else 0 := by
      unfold Rec.dropEvents
      cases x.dtor <;> simp [List.count_cons]
    have hd : ∀ d, x.dropEvents.count (.dtor d a) = if x.dtor = some d ∧ x.addr = a then 1 else 0 := by
      intro d
      unfold Rec.dropEvents
      cases x.dtor <;> simp [List.count_cons]
    refine ⟨fun r hr hra => ?_, fun h => ?_⟩
    · rcases List.mem_cons.1 hr with rfl | hr
      · have := i2 (fun y hy hya => hn.1 (List.mem_map.2 ⟨y, hy, by rw [hya, hra]⟩))
        refine ⟨by rw [hx, hf, if_pos hra, this.1], fun d => ?_⟩
        rw [hx, hd, this.2 d]
        by_cases hdd : r.dtor = some d <;> simp [hdd, hra]
      · have hne : x.addr ≠ a := fun he => hn.1 (List.mem_map.2 ⟨r, hr, by rw [hra, he]⟩)
        refine ⟨by rw [hx, hf, if_neg hne, (i1 r hr hra).1], fun d => ?_⟩
        rw [hx, hd, (i1 r hr hra).2 d, if_neg (fun hh => hne hh.2)]; omega
    · have hne := h x (by simp)
      have := i2 (fun y hy => h y (by simp [hy]))
      refine ⟨by rw [hx, hf, if_neg hne, this.1], fun d => ?_⟩
      rw [hx, hd, if_neg (fun hh => hne hh.2), this.2 d]

/-- C56 (partial).  A collection runs the destructor of each unreachable block once, on that block, and gives the block back once; it runs no other destructor, and does neither to a
reachable block. -/
theorem C56_collect_partial {g : GC} (hg : History g) (hr : InHeap g) (stack : List Nat) : ∃ es, (g.collect stack).events = g.events ++ es ∧
    (∀ a r, g.get a = some r → ¬ Reach g stack a → es.count (.free a) = 1 ∧ ∀ d, es.count (.dtor d a) = if r.dtor = some d then 1 else 0) ∧
    ∀ a, (g.get a = none ∨ Reach g stack a) → es.count (.free a) = 0 ∧ ∀ d, es.count (.dtor d a) = 0 := by
  obtain ⟨m, h1, h2⟩ := collect_reach hg.inv hr stack
  have hnd : ((g.recs.filter (fun r => !m r.addr)).map Rec.addr).Nodup := hg.inv.wf.tab.nodup.sublist (List.Sublist.map _ List.filter_sublist)
  refine ⟨_, h1.events, fun a r ha hn => ?_, fun a ha => ?_⟩
  · obtain ⟨e1, e2⟩ := hg.inv.wf.tab.get_iff.1 ha
    refine (count_drop _ hnd a).1 r (List.mem_filter.2 ⟨e1, ?_⟩) e2
    rw [e2]
    cases hm : m a with
    | false => rfl
    | true => exact absurd ((h2 a).1 hm) hn
  · refine (count_drop _ hnd a).2 (fun r hr' e => ?_)
    obtain ⟨e1, e2⟩ := List.mem_filter.1 hr'
    rw [e] at e2
    rcases ha with ha | ha
    · exact hg.inv.wf.tab.get_none.1 ha r e1 e
    · rw [(h2 a).2 ha] at e2; simp at e2

/-- C56 (negated).  `GC_free` never runs a destructor, against the manual (README.md:68). -/
theorem C56_negated_free (g : GC) (p d a : Nat) : (g.free p).events.count (.dtor d a) = g.events.count (.dtor d a) := by
  rw [GC.free]
  split
  · rfl
  next r g' h => simp [remove_events h]

/-- A block with a destructor is given back. -/
example : History demo ∧ (∃ r, demo.get 32 = some r ∧ r.dtor = some 5) ∧ (demo.free 32).events = demo.events ++ [.free 32] := ⟨demo_history, ⟨_, rfl, rfl⟩, rfl⟩

/-- C56 (negated).  `GC_realloc` forgets the destructor: the block is freed by a later collection without. -/
theorem C56_negated_realloc : ∃ g, History g ∧ (∃ r, g.get 32 = some r ∧ r.dtor = some 5) ∧
    ((g.exec (.realloc 0 32 64 none .default [] 32 (fun _ => 0))).collect []).events.count (.free 32) = 1 ∧
    ∀ d, ((g.exec (.realloc 0 32 64 none .default [] 32 (fun _ => 0))).collect []).events.count (.dtor d 32) = 0 := by
  refine ⟨demo, demo_history, ⟨_, rfl, rfl⟩, by decide +kernel, fun d => ?_⟩
  have : ((demo.exec (.realloc 0 32 64 none .default [] 32 (fun _ => 0))).collect []).events.all (fun | .dtor _ a => a != 32 | _ => true) = true := by decide +kernel
  rw [List.count_eq_zero]
  intro h
  have := List.all_eq_true.1 this _ h
  simp at this

/-! ### C57 -/

/-- C57 (partial).  After any history a block is found in the table exactly if it was obtained from the C library and not given back, its size is as recorded; nothing is given
back twice, no destructor is run on a block given back, nothing is undefined.  Memory is required not to run out. -/
theorem C57_table_partial {g : GC} (hg : History g) : (∀ a, g.get a ≠ none ↔ live g.events a ≠ none) ∧ (∀ a r, g.get a = some r → live g.events a = some (wrap (r.size + 32)) ∧ r.addr = a) ∧
    UseOk g.events := by
  refine ⟨fun a => ?_, fun a r h => ?_, hg.inv.use⟩
  · rw [hg.inv.live]; simp
  · rw [hg.inv.live, h]; exact ⟨rfl, (hg.inv.wf.tab.get_iff.1 h).2⟩

example : History demo ∧ demo.get 16 ≠ none ∧ live demo.events 16 ≠ none := ⟨demo_history, by simp [show demo.get 16 = some _ from rfl], by decide +kernel⟩

/-- C57 (negated).  When memory runs out in `GC_realloc` the block is lost: it is neither in the table nor given back. -/
theorem C57_negated_lost : ∃ g, History g ∧ g.get 32 ≠ none ∧ ∃ g', g' = g.exec (.realloc 2 32 64 none .default [32] 0 (fun _ => 0)) ∧ g'.get 32 = none ∧ live g'.events 32 ≠ none :=
  ⟨demo, demo_history, by simp [show demo.get 32 = some _ from rfl], _, rfl, Option.isNone_iff_eq_none.1 (by decide +kernel), by decide +kernel⟩

theorem not_useOk_ub (es : List Ev) : ¬ UseOk (es ++ [.ub]) := fun h => ((evsFrom_append _ _ _).1 h).2.1

/-- C57 (negated).  When memory runs out in an allocation the null pointer is read from. -/
theorem C57_negated_null (g : GC) (fails size : Nat) (hf : 2 ≤ fails) (dtor : Option Nat) (mrk : Mrk) (stack : List Nat) (a : Nat) (words : Nat → Nat) :
    ¬ UseOk (g.exec (.alloc fails size dtor mrk stack a words)).events := by
  rw [GC.exec, GC.allocOpt]
  match fails, hf with
  | n + 2, _ => exact not_useOk_ub _

/-! ### C58 -/

theorem enum_perm {g : GC} (ht : Tab g) {l : List Nat} (hn : l.Nodup) (hl : ∀ a, a ∈ l ↔ g.get a ≠ none) : l.Perm (g.recs.map Rec.addr) := by
  refine (List.perm_ext_iff_of_nodup hn ht.nodup).2 (fun a => ?_)
  rw [hl]
  constructor
  · intro h
    obtain ⟨r, hr⟩ := Option.ne_none_iff_exists'.1 h
    exact List.mem_map.2 ⟨r, ht.get_iff.1 hr⟩
  · intro h
    obtain ⟨r, hr⟩ := List.mem_map.1 h
    rw [ht.get_iff.2 hr]; simp

/-- Specification: the recorded size of a block. -/
def sizeOf (g : GC) (a : Nat) : Nat := match g.get a with | none => 0 | some r => r.size

theorem map_sizeOf {g : GC} (ht : Tab g) : (g.recs.map Rec.addr).map (sizeOf g) = g.recs.map Rec.size := by
  rw [List.map_map]
  refine List.map_congr_left (fun r hr => ?_)
  simp [sizeOf, ht.get_iff.2 ⟨hr, rfl⟩]

/-- C58 (partial).  After any history the number of blocks and the number of bytes reported are those of the blocks in the table; a collection is not needed for that. -/
theorem C58_allocated_partial {g : GC} (hg : History g) (l : List Nat) (hn : l.Nodup) (hl : ∀ a, a ∈ l ↔ g.get a ≠ none) :
    g.size = l.length ∧ g.allocated = (l.map (sizeOf g)).sum % 2 ^ 64 := by
  have h := hg.inv.wf
  have hp := enum_perm h.tab hn hl
  refine ⟨by rw [h.count, hp.length_eq, List.length_map], ?_⟩
  rw [GC.allocated, h.bytes, perm_sum (hp.map (sizeOf g)), map_sizeOf h.tab]
  rfl

/-- C58 (partial).  The number of reachable bytes reported is that of the reachable blocks, and the report changes nothing. -/
theorem C58_reachable_partial {g : GC} (hg : History g) (hr : InHeap g) (stack : List Nat) (l : List Nat) (hn : l.Nodup) (hl : ∀ a, a ∈ l ↔ Reach g stack a) :
    g.reachable stack = some ((l.map (sizeOf g)).sum % 2 ^ 64, g) := by
  have h := hg.inv.wf
  obtain ⟨m, h1, h2, h3⟩ := markAll_ok h.tab h.marks h.count stack
  have h3 := h3 (hr.recs h.tab)
  rw [GC.reachable, h1, Option.map_some]
  have hrecs : (g.withMarks m).recs = g.recs.map (fun r => { r with mark := m r.addr }) := recs_mapRecs g _
  have hfil : ((g.withMarks m).recs.filter Rec.mark).map Rec.size = ((g.recs.filter (fun r => m r.addr)).map Rec.addr).map (sizeOf g) := by
    rw [hrecs, List.filter_map, List.map_map, List.map_map]
    refine List.map_congr_left (fun r hr => ?_)
    simp [sizeOf, h.tab.get_iff.2 ⟨(List.mem_filter.1 hr).1, rfl⟩]
  have hp : l.Perm ((g.recs.filter (fun r => m r.addr)).map Rec.addr) := by
    refine (List.perm_ext_iff_of_nodup hn (h.tab.nodup.sublist (List.Sublist.map _ List.filter_sublist))).2 (fun a => ?_)
    rw [hl]
    constructor
    · intro ha
      obtain ⟨r, hr⟩ := reach_some ha
      obtain ⟨e1, e2⟩ := h.tab.get_iff.1 hr
      exact List.mem_map.2 ⟨r, List.mem_filter.2 ⟨e1, by simp [e2, h3 a ha]⟩, e2⟩
    · intro ha
      obtain ⟨r, e1, e2⟩ := List.mem_map.1 ha
      have := (List.mem_filter.1 e1).2
      rw [e2] at this
      exact h2 a this
  have hun : (g.withMarks m).unmark = g := by
    have := withMarks_none h.tab h.marks
    rw [← this]
    simp only [GC.withMarks, GC.mapRecs, GC.unmark, List.map_map]
    rfl
  rw [hfil, perm_sum (hp.symm.map (sizeOf g)), hun]
  rfl

example : [16, 32, 131360].Nodup ∧ (∀ a, a ∈ [16, 32, 131360] ↔ demo.get a ≠ none) ∧ demo.allocated = 28 := by
  refine ⟨by decide, fun a => ?_, by rfl⟩
  have e : demo.recs.map Rec.addr = [131360, 16, 32] := by decide +kernel
  have ht := demo_history.inv.wf.tab
  have : a ∈ demo.recs.map Rec.addr ↔ demo.get a ≠ none := by
    rw [Ne, ht.get_none]
    simp only [List.mem_map, not_forall, not_not]
    constructor
    · rintro ⟨r, h1, h2⟩; exact ⟨r, h1, h2⟩
    · rintro ⟨r, h1, h2⟩; exact ⟨r, h1, h2⟩
  rw [← this, e]
  simp only [List.mem_cons, List.not_mem_nil, or_false]
  omega

/-- C58 (negated).  The number of bytes that a collection would free is computed from the number of buckets: with no block it is 8209. -/
theorem C58_negated_collectable (lo hi : Nat) (mem : Nat → Nat → Nat) : History (create lo hi mem) ∧ (∀ a, (create lo hi mem).get a = none) ∧
    ∃ g', (create lo hi mem).collectable [] = some (8209, g') :=
  ⟨⟨lo, hi, mem, [], by simp, rfl, trivial⟩, fun _ => rfl, _, by
    have he : (create lo hi mem).recs = [] := by simp [GC.recs, create]
    have hm : (create lo hi mem).markAll ((create lo hi mem).recs.length + 1) [] = some (create lo hi mem) := rfl
    rw [GC.collectable, GC.reachable, hm]
    simp only [Option.map_some]
    have e2 : wrap (((create lo hi mem).recs.filter Rec.mark).map Rec.size).sum = 0 := by rw [he]; rfl
    rw [e2]
    have e3 : wrap ((create lo hi mem).alloc + 2 ^ 64 - 0) = 8209 := by rw [show (create lo hi mem).alloc = 8209 from rfl]; rfl
    rw [e3]⟩

/-! ### C59 -/

/-- C59 (partial).  Giving back a block that is not a root leaves every other block as it was. -/
theorem C59_free_partial {g : GC} (hg : History g) {p : Nat} (hp : ∀ r, g.get p = some r → r.root = false) {q : Nat} (hq : q ≠ p) :
    (g.free p).get q = g.get q ∧ (g.free p).mem q = g.mem q := by
  rw [GC.free]
  cases hr : g.remove p with
  | none => exact ⟨rfl, rfl⟩
  | some x =>
    obtain ⟨r, g'⟩ := x
    have h := hg.inv.wf
    have hrm := remove_some h.tab h.marks hr
    have hroot := hp r (h.tab.get_iff.2 ⟨hrm.mem, hrm.addr⟩)
    have hperm := hrm.perm' hroot
    have hrest := hrm.rest
    simp only [GC.rest, Prod.mk.injEq] at hrest
    refine ⟨?_, by simp only; rw [hrest.2.2.2.2.2.2.1]⟩
    show g'.get q = g.get q
    cases hgq : g.get q with
    | some y =>
      obtain ⟨y1, y2⟩ := h.tab.get_iff.1 hgq
      refine hrm.tab.get_iff.2 ⟨?_, y2⟩
      rcases List.mem_cons.1 (hperm.mem_iff.2 y1) with rfl | hy
      · exact absurd (y2.symm.trans hrm.addr) hq
      · exact hy
    | none =>
      rw [hrm.tab.get_none]
      intro y hy
      exact h.tab.get_none.1 hgq y (hperm.mem_iff.1 (by simp [hy]))

/-- C59 (partial).  Giving back any block leaves size, destructor and marker of every other block as they were, and takes no root flag away. -/
theorem C59_root_partial {g : GC} (hg : History g) (p : Nat) {q : Nat} (hq : q ≠ p) {r : Rec} (hr : g.get q = some r) :
    ∃ r', (g.free p).get q = some r' ∧ r'.size = r.size ∧ r'.dtor = r.dtor ∧ r'.mrk = r.mrk ∧ (r.root = true → r'.root = true) := by
  rw [GC.free]
  cases hrem : g.remove p with
  | none => exact ⟨r, hr, rfl, rfl, rfl, id⟩
  | some x =>
    obtain ⟨x, g'⟩ := x
    have h := hg.inv.wf
    have hrm := remove_some h.tab h.marks hrem
    have hget := hrm.get h.tab q
    rw [if_neg hq, hr] at hget
    simp only [Option.map_some, Option.map_eq_some_iff] at hget
    obtain ⟨r', e1, e2⟩ := hget
    refine ⟨r', e1, ?_, ?_, ?_, fun hroot => ?_⟩
    · have := congrArg Rec.size e2; exact this
    · have := congrArg Rec.dtor e2; exact this
    · have := congrArg Rec.mrk e2; exact this
    · obtain ⟨m1, m2⟩ := h.tab.get_iff.1 hr
      obtain ⟨y, y1, y2, y3⟩ := hrm.roots r m1 hroot (by rw [m2]; exact hq)
      have := hrm.tab.get_iff.2 ⟨y1, y2.trans m2⟩
      rw [this] at e1
      cases e1
      exact y3

example : History demo ∧ (∀ r, demo.get 16 = some r → r.root = false) ∧ (131360 : Nat) ≠ 16 := ⟨demo_history, fun r h => by cases h; rfl, by decide⟩

/-- C59 (negated).  Giving back a root can make another block a root, which then is never freed: 16 and 131360 are in the same bucket. -/
theorem C59_negated : ∃ g, History g ∧ (∃ r, g.get 131360 = some r ∧ r.root = false) ∧ (∃ r, (g.free 16).get 131360 = some r ∧ r.root = true) ∧ ¬ Reach g [] 131360 ∧
    ((g.free 16).collect []).get 131360 ≠ none := by
  have hh : History (demo.exec (.registerRoot 16)) := demo_history.exec _ (by decide) (by decide +kernel)
  refine ⟨demo.exec (.registerRoot 16), hh, ⟨_, rfl, rfl⟩, ⟨_, rfl, rfl⟩, fun h => ?_, ?_⟩
  · have hin : InHeap (demo.exec (.registerRoot 16)) := by
      intro a r h
      have hr := (hh.inv.wf.tab.get_iff.1 h)
      have e : (demo.exec (.registerRoot 16)).recs.map Rec.addr = [131360, 16, 32] := by decide +kernel
      have : a ∈ (demo.exec (.registerRoot 16)).recs.map Rec.addr := List.mem_map.2 ⟨r, hr⟩
      rw [e] at this
      have hh : (demo.exec (.registerRoot 16)).lo = 0 ∧ (demo.exec (.registerRoot 16)).hi = 2 ^ 48 := ⟨rfl, rfl⟩
      simp only [List.mem_cons, List.not_mem_nil, or_false] at this
      rw [hh.1, hh.2]
      omega
    have := (C54_survives_partial hh hin [] h).2.1
    rw [← Option.isSome_iff_ne_none] at this
    revert this
    decide +kernel
  · rw [← Option.isSome_iff_ne_none]; decide +kernel

/-! ### C60 -/

/-- Specification: whether collections are enabled, and the bytes allocated since the last one, after an allocation of `n` bytes. -/
def track.bump (s : Bool × Nat) (fails n : Nat) : Bool × Nat := (s.1, if fails ≠ 0 ∨ (s.1 = true ∧ s.2 > 8388608) then n else s.2 + n)

/-- Specification: whether collections are enabled, and the bytes allocated since the last one; `es` tells which blocks are in use. -/
def track (s : Bool × Nat) (es : List Ev) : Op → Bool × Nat
  | .alloc fails size _ _ _ _ _ => track.bump s fails size
  | .calloc fails nmem size _ _ _ _ => track.bump s fails (nmem * size)
  | .realloc fails p size _ _ _ _ _ =>
    if size = 0 then s
    else if p ≠ 0 ∧ live es p ≠ none then (s.1, if fails ≠ 0 then size else s.2 + size)
    else track.bump s fails size
  | .collect _ => (s.1, 0)
  | .pause => (false, s.2)
  | .resume => (true, s.2)
  | _ => s

/-- Specification: the same for a sequence of operations. -/
def trackRun : GC → Bool × Nat → List Op → Bool × Nat
  | _, s, [] => s
  | g, s, o :: os => trackRun (g.exec o) (track s g.events o) os

/-- Specification: bytes asked for. -/
def Op.bytes : Op → Nat
  | .alloc _ size _ _ _ _ _ => size
  | .calloc _ nmem size _ _ _ _ => nmem * size
  | .realloc _ _ size _ _ _ _ _ => size
  | _ => 0

theorem bump_le (s : Bool × Nat) (fails n : Nat) : (track.bump s fails n).2 ≤ s.2 + n := by
  unfold track.bump
  simp only
  split <;> omega

theorem track_le (s : Bool × Nat) (es : List Ev) (o : Op) : (track s es o).2 ≤ s.2 + o.bytes := by
  cases o with
  | alloc => exact bump_le _ _ _
  | calloc => exact bump_le _ _ _
  | realloc fails p size =>
    simp only [track, Op.bytes]
    split
    · omega
    · split
      · simp only; split <;> omega
      · exact bump_le _ _ _
  | collect => simp [track]
  | free => simp [track]
  | registerDtor => simp [track]
  | registerMrk => simp [track]
  | registerRoot => simp [track]
  | pause => simp [track]
  | resume => simp [track]
  | write => simp [track]

theorem tryMem_track {g : GC} (h : Inv g) {fails : Nat} (hf : fails ≤ 1) (stack : List Nat) :
    ∃ g', ((g.collectIfNeeded stack).tryMem fails stack).1 = some g' ∧ Inv g' ∧ g'.collecting = g.collecting ∧
      g'.dirty = if fails ≠ 0 ∨ (g.collecting = true ∧ g.dirty > 8388608) then 0 else g.dirty := by
  obtain ⟨m, hc, _⟩ := collect_ok h.wf stack
  have h1 : Inv (g.collectIfNeeded stack) ∧ (g.collectIfNeeded stack).collecting = g.collecting ∧
      (g.collectIfNeeded stack).dirty = if g.collecting = true ∧ g.dirty > 8388608 then 0 else g.dirty := by
    refine ⟨inv_collectIfNeeded h stack, ?_⟩
    rw [GC.collectIfNeeded]
    by_cases c : g.collecting = true ∧ g.dirty > 8 * 1024 * 1024
    · simp only [if_pos c]
      exact ⟨hc.same.1, by rw [hc.dirty]⟩
    · simp only [if_neg c]
      exact ⟨trivial, trivial⟩
  obtain ⟨i1, i2, i3⟩ := h1
  obtain ⟨m', hc', _⟩ := collect_ok i1.wf stack
  match fails, hf with
  | 0, _ => exact ⟨_, rfl, i1, i2, by rw [i3]; simp⟩
  | 1, _ => exact ⟨_, rfl, (inv_collect i1 stack).1, hc'.same.1.trans i2, by rw [hc'.dirty]; simp⟩

theorem alloc_track {g : GC} (h : Inv g) {fails size : Nat} (hf : fails ≤ 1) {dtor : Option Nat} {mrk : Mrk} {stack : List Nat} {a : Nat} {words : Nat → Nat}
    (hl : LibOk (g.allocOpt fails size dtor mrk stack a words).events) (hs : g.dirty + size < 2 ^ 64) :
    (g.allocOpt fails size dtor mrk stack a words).collecting = g.collecting ∧
      (g.allocOpt fails size dtor mrk stack a words).dirty = (track.bump (g.collecting, g.dirty) fails size).2 := by
  obtain ⟨g', e, i1, i2, i3⟩ := tryMem_track h hf stack
  rw [GC.allocOpt] at hl ⊢
  generalize (g.collectIfNeeded stack).tryMem fails stack = x at *
  obtain ⟨x1, x2⟩ := x
  cases e
  have hadd := (inv_new i1 (r := ⟨a, size, dtor, mrk, false, false⟩) rfl rfl rfl hl).1.rest
  simp only [GC.rest, Prod.mk.injEq] at hadd
  refine ⟨hadd.2.2.2.1.trans i2, hadd.2.2.1.trans ?_⟩
  rw [i3]
  unfold track.bump
  simp only
  split
  · rw [Nat.zero_add, wrap, Nat.mod_eq_of_lt (by omega)]
  · rw [wrap, Nat.mod_eq_of_lt hs]

theorem exec_track {g : GC} (h : Inv g) (hl0 : LibOk g.events) (o : Op) (hf : o.fails ≤ 1) (hl : LibOk (g.exec o).events) (hs : g.dirty + o.bytes < 2 ^ 64) :
    ((g.exec o).collecting, (g.exec o).dirty) = track (g.collecting, g.dirty) g.events o := by
  cases o with
  | alloc fails size dtor mrk stack a words =>
    obtain ⟨h1, h2⟩ := alloc_track h hf hl hs
    exact Prod.ext h1 h2
  | calloc fails nmem size dtor mrk stack a =>
    obtain ⟨g', e, i1, i2, i3⟩ := tryMem_track (fails := fails) h hf stack
    have hw : wrap (nmem * size) = nmem * size := by
      have : nmem * size < 2 ^ 64 := by simp only [Op.bytes] at hs; omega
      exact Nat.mod_eq_of_lt this
    rw [GC.exec, GC.callocOpt] at hl ⊢
    generalize (g.collectIfNeeded stack).tryMem fails stack = x at *
    obtain ⟨x1, x2⟩ := x
    cases e
    have hadd := (inv_new i1 (r := ⟨a, wrap (nmem * size), dtor, mrk, false, false⟩) rfl rfl rfl hl).1.rest
    simp only [GC.rest, Prod.mk.injEq] at hadd
    refine Prod.ext (hadd.2.2.2.1.trans i2) (hadd.2.2.1.trans ?_)
    rw [i3, hw]
    simp only [track, track.bump, Op.bytes, Op.fails] at hs ⊢
    split
    · rw [Nat.zero_add]; exact hw
    · rw [wrap, Nat.mod_eq_of_lt hs]
  | realloc fails p size dtor mrk stack a words =>
    simp only [Op.bytes] at hs
    have hlive := h.live p
    rw [GC.exec, GC.reallocOpt] at hl ⊢
    simp only [track]
    have hfree : ((g.free p).collecting, (g.free p).dirty) = (g.collecting, g.dirty) := by
      rw [GC.free]
      split
      · rfl
      next r g' hr =>
        have := (remove_some h.wf.tab h.wf.marks hr).rest
        simp only [GC.rest, Prod.mk.injEq] at this
        exact Prod.ext this.2.2.2.1 this.2.2.1
    by_cases h0 : size = 0
    · rw [if_pos h0, if_pos h0]; exact hfree
    · rw [if_neg h0] at hl ⊢
      rw [if_neg h0]
      by_cases hp : p = 0
      · rw [if_pos hp] at hl ⊢
        rw [if_neg (fun hh => hh.1 hp)]
        obtain ⟨h1, h2⟩ := alloc_track h hf hl hs
        exact Prod.ext h1 h2
      · rw [if_neg hp] at hl ⊢
        cases hr : g.remove p with
        | none =>
          rw [hr] at hl
          rw [remove_none.1 hr] at hlive
          rw [if_neg (fun hh => hh.2 hlive)]
          obtain ⟨h1, h2⟩ := alloc_track h hf hl hs
          exact Prod.ext h1 h2
        | some x =>
          obtain ⟨r, g'⟩ := x
          have ho := out_remove h hl0 hr
          have hrm := remove_some h.wf.tab h.wf.marks hr
          have hrest := hrm.rest
          simp only [GC.rest, Prod.mk.injEq] at hrest
          rw [h.wf.tab.get_iff.2 ⟨hrm.mem, hrm.addr⟩] at hlive
          rw [if_pos ⟨hp, by rw [hlive]; simp⟩]
          rw [hr] at hl
          have key : ∀ g1 : GC, Out g1 r → LibOk (GC.add { g1 with events := g1.events ++ [.realloc r.addr a (wrap (size + 32))], mem := fun b => if b = a then fun k => if k < r.size / 8 then g1.mem p k else words k else g1.mem b } ⟨a, size, dtor, mrk, false, r.root⟩).events → g1.dirty + size < 2 ^ 64 →
              ((GC.add { g1 with events := g1.events ++ [.realloc r.addr a (wrap (size + 32))], mem := fun b => if b = a then fun k => if k < r.size / 8 then g1.mem p k else words k else g1.mem b } ⟨a, size, dtor, mrk, false, r.root⟩).collecting,
               (GC.add { g1 with events := g1.events ++ [.realloc r.addr a (wrap (size + 32))], mem := fun b => if b = a then fun k => if k < r.size / 8 then g1.mem p k else words k else g1.mem b } ⟨a, size, dtor, mrk, false, r.root⟩).dirty) =
              (g1.collecting, g1.dirty + size) := by
            intro g1 h1 hl1 hs1
            have hadd := (realloc_added (p := p) h1 hl1).rest
            simp only [GC.rest, Prod.mk.injEq] at hadd
            refine Prod.ext hadd.2.2.2.1 (hadd.2.2.1.trans ?_)
            rw [wrap, Nat.mod_eq_of_lt hs1]
          match fails, hf with
          | 0, _ =>
            refine (key g' ho hl (by rw [hrest.2.2.1]; exact hs)).trans ?_
            rw [hrest.2.2.2.1, hrest.2.2.1]
            simp
          | 1, _ =>
            obtain ⟨m, hc, _⟩ := collect_ok ho.wf stack
            refine (key _ (out_collect ho stack) hl (by rw [hc.dirty]; omega)).trans ?_
            rw [hc.dirty, hc.same.1, hrest.2.2.2.1]
            simp
  | free p =>
    rw [GC.exec, GC.free]
    split
    · rfl
    next r g' hr =>
      have := (remove_some h.wf.tab h.wf.marks hr).rest
      simp only [GC.rest, Prod.mk.injEq] at this
      exact Prod.ext this.2.2.2.1 this.2.2.1
  | collect stack =>
    obtain ⟨m, hc, _⟩ := collect_ok h.wf stack
    exact Prod.ext hc.same.1 hc.dirty
  | registerDtor => rfl
  | registerMrk => rfl
  | registerRoot => rfl
  | pause => rfl
  | resume => rfl
  | write => rfl

theorem run_track : ∀ (os : List Op) {g : GC}, Inv g → (∀ o ∈ os, o.fails ≤ 1) → LibOk (g.run os).events → g.dirty + (os.map Op.bytes).sum < 2 ^ 64 →
    ((g.run os).collecting, (g.run os).dirty) = trackRun g (g.collecting, g.dirty) os
  | [], _, _, _, _, _ => rfl
  | o :: os, g, h, hf, hl, hs => by
    rw [List.map_cons, List.sum_cons] at hs
    have hl1 := LibOk.of_ext (ext_run os (g.exec o)) hl
    have hl0 := LibOk.of_ext (ext_exec g o) hl1
    have hi := inv_exec h hl0 o (hf o (by simp)) hl1
    have ht := exec_track h hl0 o (hf o (by simp)) hl1 (by omega)
    have hle := track_le (g.collecting, g.dirty) g.events o
    rw [← ht] at hle
    simp only at hle
    have := run_track os hi (fun o ho => hf o (by simp [ho])) hl (by omega)
    rw [trackRun, ← ht]
    exact this

/-- C60 (partial).  An allocation collects exactly if collections are enabled and more than 8 MiB were allocated since the last one, and then before the block is allocated.
The allocations of the history are required to amount to less than 2^64 bytes, and the C library to have memory at once. -/
theorem C60_trigger_partial (lo hi : Nat) (mem : Nat → Nat → Nat) (os : List Op) (hf : ∀ o ∈ os, o.fails ≤ 1) (hb : (os.map Op.bytes).sum < 2 ^ 64)
    (size : Nat) (dtor : Option Nat) (mrk : Mrk) (stack : List Nat) (a : Nat) (words : Nat → Nat) (g : GC) (hg : g = (create lo hi mem).run os)
    (hl : LibOk (g.exec (.alloc 0 size dtor mrk stack a words)).events) (t : Bool × Nat) (ht : t = trackRun (create lo hi mem) (true, 0) os) :
    ∃ g1, g1 = (if t.1 = true ∧ t.2 > 8388608 then g.collect stack else g) ∧
      (g.exec (.alloc 0 size dtor mrk stack a words)).events = g1.events ++ [.malloc a (wrap (size + 32))] ∧
      ∀ b, b ≠ a → (g.exec (.alloc 0 size dtor mrk stack a words)).get b = g1.get b := by
  have hl0 : LibOk g.events := LibOk.of_ext (ext_exec g _) hl
  have hi' : Inv g := by
    rw [hg] at hl0 ⊢
    exact inv_run os (inv_create lo hi mem) hf hl0
  have htr : (g.collecting, g.dirty) = t := by
    rw [ht, hg]
    rw [hg] at hl0
    exact run_track os (inv_create lo hi mem) hf hl0 (by simpa [create] using hb)
  refine ⟨_, rfl, ?_⟩
  rw [← htr]
  simp only
  rw [show (if g.collecting = true ∧ g.dirty > 8388608 then g.collect stack else g) = g.collectIfNeeded stack by
    rw [GC.collectIfNeeded]]
  have hadd := (inv_new (inv_collectIfNeeded hi' stack) (r := ⟨a, size, dtor, mrk, false, false⟩) rfl rfl rfl hl).1
  have hw := (inv_collectIfNeeded hi' stack).wf.log ((g.collectIfNeeded stack).events ++ [.malloc a (wrap (size + 32))]) (fun b => if b = a then words else (g.collectIfNeeded stack).mem b)
  have hrest := hadd.rest
  simp only [GC.rest, Prod.mk.injEq] at hrest
  refine ⟨hrest.2.2.2.2.2.2.2, fun b hba => ?_⟩
  have := hadd.get hw b
  simp only [if_neg hba] at this
  exact this

/-- Nine blocks of a megabyte; the tenth allocation collects, unless collections are paused. -/
def megs (n : Nat) : List Op := (List.range n).map (fun i => .alloc 0 1048576 none .atomic [] (16 * (i + 1)) (fun _ => 0))

example : (∀ o ∈ megs 9, Op.fails o ≤ 1) ∧ ((megs 9).map Op.bytes).sum < 2 ^ 64 ∧
    LibOk (((create 0 (2 ^ 48) (fun _ _ => 0)).run (megs 9)).exec (.alloc 0 8 none .default [] 512 (fun _ => 0))).events ∧
    trackRun (create 0 (2 ^ 48) (fun _ _ => 0)) (true, 0) (megs 9) = (true, 9437184) ∧
    trackRun (create 0 (2 ^ 48) (fun _ _ => 0)) (true, 0) (.pause :: megs 9) = (false, 9437184) := ⟨by decide, by decide, by decide +kernel, by decide +kernel, by decide +kernel⟩

/-- C60 (partial).  While collections are paused, no allocation or reallocation frees any block, the C library having memory at once. -/
theorem C60_paused_partial {g : GC} (hg : History g) (hp : g.collecting = false) (o : Op) (hf : o.fails = 0) (hl : LibOk (g.exec o).events)
    (ho : match o with | .alloc .. => True | .calloc .. => True | .realloc _ _ size .. => size ≠ 0 | _ => False) : ∃ e, (g.exec o).events = g.events ++ [e] ∧ ∀ a, e ≠ .free a := by
  have hc : ∀ stack, g.collectIfNeeded stack = g := fun stack => by rw [GC.collectIfNeeded, if_neg]; simp [hp]
  have halloc : ∀ (size : Nat) (dtor : Option Nat) (mrk : Mrk) (stack : List Nat) (a : Nat) (words : Nat → Nat), LibOk (g.allocOpt 0 size dtor mrk stack a words).events →
      ∃ e, (g.allocOpt 0 size dtor mrk stack a words).events = g.events ++ [e] ∧ ∀ a, e ≠ .free a := by
    intro size dtor mrk stack a words hl
    rw [GC.allocOpt, hc] at hl ⊢
    have hadd := (inv_new hg.inv (r := ⟨a, size, dtor, mrk, false, false⟩) rfl rfl rfl hl).1.rest
    simp only [GC.rest, Prod.mk.injEq] at hadd
    exact ⟨_, hadd.2.2.2.2.2.2.2, by simp⟩
  cases o with
  | alloc fails size dtor mrk stack a words =>
    simp only [Op.fails] at hf
    subst hf
    exact halloc size dtor mrk stack a words hl
  | calloc fails nmem size dtor mrk stack a =>
    simp only [Op.fails] at hf
    subst hf
    rw [GC.exec, GC.callocOpt, hc] at hl ⊢
    have hadd := (inv_new hg.inv (r := ⟨a, wrap (nmem * size), dtor, mrk, false, false⟩) rfl rfl rfl hl).1.rest
    simp only [GC.rest, Prod.mk.injEq] at hadd
    exact ⟨_, hadd.2.2.2.2.2.2.2, by simp⟩
  | realloc fails p size dtor mrk stack a words =>
    simp only [Op.fails] at hf
    subst hf
    simp only at ho
    have hl0 := LibOk.of_ext (ext_exec g _) hl
    rw [GC.exec, GC.reallocOpt, if_neg ho] at hl ⊢
    by_cases hp : p = 0
    · rw [if_pos hp] at hl ⊢; exact halloc size dtor mrk stack a words hl
    · rw [if_neg hp] at hl ⊢
      cases hr : g.remove p with
      | none => rw [hr] at hl; exact halloc size dtor mrk stack a words hl
      | some x =>
        obtain ⟨r, g'⟩ := x
        rw [hr] at hl
        have hadd := (realloc_added (p := p) (out_remove hg.inv hl0 hr) hl).rest
        simp only [GC.rest, Prod.mk.injEq] at hadd
        exact ⟨_, hadd.2.2.2.2.2.2.2.trans (by rw [remove_events hr]), by simp⟩
  | _ => exact absurd ho (by simp)

example : History (demo.exec .pause) ∧ (demo.exec .pause).collecting = false ∧ LibOk ((demo.exec .pause).exec (.realloc 0 16 64 none .default [] 16 (fun _ => 0))).events :=
  ⟨demo_history.exec _ (by decide) (by decide +kernel), rfl, by decide +kernel⟩

/-- C60 (negated).  When the C library has no memory at once, a collection is run even while collections are paused. -/
theorem C60_negated : ∃ g, History g ∧ g.collecting = false ∧ g.get 32 ≠ none ∧ LibOk (g.exec (.alloc 1 8 none .default [] 512 (fun _ => 0))).events ∧
    (g.exec (.alloc 1 8 none .default [] 512 (fun _ => 0))).get 32 = none :=
  ⟨demo.exec .pause, demo_history.exec _ (by decide) (by decide +kernel), rfl, by simp [show (demo.exec .pause).get 32 = some _ from rfl], by decide +kernel,
    Option.isNone_iff_eq_none.1 (by decide +kernel)⟩

/-! ### C79 -/

/-- C79 (partial).  A new block is found in the table with the size asked for, and the C library has given room for it behind the record of 32 bytes, if the sum does not overflow. -/
theorem C79_alloc_partial {g : GC} (hg : History g) (fails size : Nat) (hf : fails ≤ 1) (hs : size + 32 < 2 ^ 64) (dtor : Option Nat) (mrk : Mrk) (stack : List Nat) (a : Nat) (words : Nat → Nat)
    (hl : LibOk (g.exec (.alloc fails size dtor mrk stack a words)).events) :
    (∃ r, (g.exec (.alloc fails size dtor mrk stack a words)).get a = some r ∧ r.size = size ∧ r.dtor = dtor) ∧
    live (g.exec (.alloc fails size dtor mrk stack a words)).events a = some (32 + size) := by
  have hi := inv_exec hg.inv (LibOk.of_ext (ext_exec g _) hl) (.alloc fails size dtor mrk stack a words) hf hl
  have hget : (g.exec (.alloc fails size dtor mrk stack a words)).get a = some ⟨a, size, dtor, mrk, false, false⟩ := by
    obtain ⟨g', e, h'⟩ := inv_tryMem (inv_collectIfNeeded hg.inv stack) hf stack
    rw [GC.exec, GC.allocOpt] at hl ⊢
    generalize (g.collectIfNeeded stack).tryMem fails stack = x at *
    obtain ⟨x1, x2⟩ := x
    cases e
    have hadd := (inv_new h' (r := ⟨a, size, dtor, mrk, false, false⟩) rfl rfl rfl hl).1
    have := hadd.get (h'.wf.log _ _) a
    simp only [if_pos] at this
    exact this
  refine ⟨⟨_, hget, rfl, rfl⟩, ?_⟩
  rw [hi.live, hget]
  simp only [Option.map_some, wrap]
  rw [Nat.mod_eq_of_lt hs, Nat.add_comm]

/-- C79 (partial).  The same of `GC_calloc`; the block is filled with zeros. -/
theorem C79_calloc_partial {g : GC} (hg : History g) (fails nmem size : Nat) (hf : fails ≤ 1) (hs : nmem * size + 32 < 2 ^ 64) (dtor : Option Nat) (mrk : Mrk) (stack : List Nat) (a : Nat)
    (hl : LibOk (g.exec (.calloc fails nmem size dtor mrk stack a)).events) :
    (∃ r, (g.exec (.calloc fails nmem size dtor mrk stack a)).get a = some r ∧ r.size = nmem * size ∧ r.dtor = dtor) ∧
    live (g.exec (.calloc fails nmem size dtor mrk stack a)).events a = some (32 + nmem * size) ∧ ∀ k, (g.exec (.calloc fails nmem size dtor mrk stack a)).mem a k = 0 := by
  have hi := inv_exec hg.inv (LibOk.of_ext (ext_exec g _) hl) (.calloc fails nmem size dtor mrk stack a) hf hl
  have hw : wrap (nmem * size) = nmem * size := Nat.mod_eq_of_lt (by omega)
  have hget : (g.exec (.calloc fails nmem size dtor mrk stack a)).get a = some ⟨a, wrap (nmem * size), dtor, mrk, false, false⟩ ∧ ∀ k, (g.exec (.calloc fails nmem size dtor mrk stack a)).mem a k = 0 := by
    obtain ⟨g', e, h'⟩ := inv_tryMem (inv_collectIfNeeded hg.inv stack) hf stack
    rw [GC.exec, GC.callocOpt] at hl ⊢
    generalize (g.collectIfNeeded stack).tryMem fails stack = x at *
    obtain ⟨x1, x2⟩ := x
    cases e
    have hadd := (inv_new h' (r := ⟨a, wrap (nmem * size), dtor, mrk, false, false⟩) rfl rfl rfl hl).1
    have := hadd.get (h'.wf.log _ _) a
    simp only [if_pos] at this
    refine ⟨this, fun k => ?_⟩
    have hrest := hadd.rest
    simp only [GC.rest, Prod.mk.injEq] at hrest
    simp only
    rw [hrest.2.2.2.2.2.2.1]
    simp
  refine ⟨⟨_, hget.1, hw, rfl⟩, ?_, hget.2⟩
  rw [hi.live, hget.1]
  simp only [Option.map_some, hw]
  rw [wrap, Nat.mod_eq_of_lt hs, Nat.add_comm]

/-- C79 (partial).  A block given a new size keeps its contents as far as they fit, and is a root if it was. -/
theorem C79_realloc_partial {g : GC} (hg : History g) (fails p size : Nat) (hf : fails ≤ 1) (hp : p ≠ 0) (hs0 : size ≠ 0) (hs : size + 32 < 2 ^ 64) (dtor : Option Nat) (mrk : Mrk) (stack : List Nat)
    (a : Nat) (words : Nat → Nat) (hl : LibOk (g.exec (.realloc fails p size dtor mrk stack a words)).events) (r : Rec) (hr : g.get p = some r) :
    (∃ r', (g.exec (.realloc fails p size dtor mrk stack a words)).get a = some r' ∧ r'.size = size ∧ r'.root = r.root) ∧
    live (g.exec (.realloc fails p size dtor mrk stack a words)).events a = some (32 + size) ∧
    ∀ k, 8 * k + 8 ≤ r.size → 8 * k + 8 ≤ size → (g.exec (.realloc fails p size dtor mrk stack a words)).mem a k = g.mem p k := by
  have hl0 := LibOk.of_ext (ext_exec g _) hl
  have hi := inv_exec hg.inv hl0 (.realloc fails p size dtor mrk stack a words) hf hl
  have hget : (g.exec (.realloc fails p size dtor mrk stack a words)).get a = some ⟨a, size, dtor, mrk, false, r.root⟩ ∧
      ∀ k, 8 * k + 8 ≤ r.size → 8 * k + 8 ≤ size → (g.exec (.realloc fails p size dtor mrk stack a words)).mem a k = g.mem p k := by
    rw [GC.exec, GC.reallocOpt, if_neg hs0, if_neg hp] at hl ⊢
    cases hrem : g.remove p with
    | none => rw [remove_none.1 hrem] at hr; cases hr
    | some x =>
      obtain ⟨r', g'⟩ := x
      have hrm := remove_some hg.inv.wf.tab hg.inv.wf.marks hrem
      have hrest := hrm.rest
      simp only [GC.rest, Prod.mk.injEq] at hrest
      have : r' = r := by
        have := hg.inv.wf.tab.get_iff.2 ⟨hrm.mem, hrm.addr⟩
        rw [this] at hr
        exact Option.some.inj hr
      subst this
      rw [hrem] at hl
      have ho := out_remove hg.inv hl0 hrem
      have key : ∀ g1 : GC, Out g1 r' → g1.mem = g.mem → LibOk (GC.add { g1 with events := g1.events ++ [.realloc r'.addr a (wrap (size + 32))], mem := fun b => if b = a then fun k => if k < r'.size / 8 then g1.mem p k else words k else g1.mem b } ⟨a, size, dtor, mrk, false, r'.root⟩).events →
          (GC.add { g1 with events := g1.events ++ [.realloc r'.addr a (wrap (size + 32))], mem := fun b => if b = a then fun k => if k < r'.size / 8 then g1.mem p k else words k else g1.mem b } ⟨a, size, dtor, mrk, false, r'.root⟩).get a = some ⟨a, size, dtor, mrk, false, r'.root⟩ ∧
          ∀ k, 8 * k + 8 ≤ r'.size → 8 * k + 8 ≤ size → (GC.add { g1 with events := g1.events ++ [.realloc r'.addr a (wrap (size + 32))], mem := fun b => if b = a then fun k => if k < r'.size / 8 then g1.mem p k else words k else g1.mem b } ⟨a, size, dtor, mrk, false, r'.root⟩).mem a k = g.mem p k := by
        intro g1 h1 hm hl1
        have hadd := realloc_added (p := p) h1 hl1
        have hg' := hadd.get (h1.wf.log _ _) a
        simp only [if_pos] at hg'
        refine ⟨hg', fun k hk _ => ?_⟩
        have hre := hadd.rest
        simp only [GC.rest, Prod.mk.injEq] at hre
        rw [hre.2.2.2.2.2.2.1, hm]
        simp only [if_true]
        rw [if_pos (by omega)]
      match fails, hf with
      | 0, _ => exact key g' ho hrest.2.2.2.2.2.2.1 hl
      | 1, _ =>
        obtain ⟨m, hc, _⟩ := collect_ok ho.wf stack
        exact key _ (out_collect ho stack) (hc.same.2.2.2.trans hrest.2.2.2.2.2.2.1) hl
  refine ⟨⟨_, hget.1, rfl, rfl⟩, ?_, hget.2⟩
  rw [hi.live, hget.1]
  simp only [Option.map_some, wrap]
  rw [Nat.mod_eq_of_lt hs, Nat.add_comm]

example : demo.get 16 ≠ none ∧ LibOk (demo.exec (.realloc 1 16 64 none .default [] 160 (fun _ => 0))).events ∧ LibOk (demo.exec (.realloc 0 16 64 none .default [] 16 (fun _ => 0))).events ∧
    LibOk (demo.exec (.calloc 1 8 8 none .default [] 160)).events ∧ LibOk (demo.exec (.alloc 1 8 none .default [] 160 (fun _ => 0))).events :=
  ⟨by simp [show demo.get 16 = some _ from rfl], by decide +kernel, by decide +kernel, by decide +kernel, by decide +kernel⟩

/-- C79 (negated).  The sum with the size of the record overflows: a block of 2^64 - 1 bytes is given room for less than the record. -/
theorem C79_negated_alloc : ∃ g, History g ∧ ∃ r, g.get 16 = some r ∧ r.size = 2 ^ 64 - 1 ∧ live g.events 16 = some 31 :=
  ⟨(create 0 (2 ^ 48) (fun _ _ => 0)).run [.alloc 0 (2 ^ 64 - 1) none .default [] 16 (fun _ => 0)], ⟨_, _, _, _, by decide, rfl, by decide +kernel⟩, _, rfl, rfl, by decide +kernel⟩

/-- C79 (negated).  The product of number and size overflows: 2^32 elements of 2^32 bytes are given no room. -/
theorem C79_negated_calloc : ∃ g, History g ∧ g = (create 0 (2 ^ 48) (fun _ _ => 0)).run [.calloc 0 (2 ^ 32) (2 ^ 32) none .default [] 16] ∧ live g.events 16 = some 32 :=
  ⟨_, ⟨_, _, _, _, by decide, rfl, by decide +kernel⟩, rfl, by decide +kernel⟩

/-! ### C80 -/

/-- C80.  Stopping the collector gives back every block, once, and runs the destructor of each block that has one, once, before; the table is empty then. -/
theorem C80_finalize {g : GC} (hg : History g) : ∃ es, g.destroy.events = g.events ++ es ∧ (∀ a, live g.destroy.events a = none ∧ g.destroy.get a = none) ∧ UseOk g.destroy.events ∧
    (∀ a r, g.get a = some r → es.count (.free a) = 1 ∧ ∀ d, es.count (.dtor d a) = if r.dtor = some d then 1 else 0) ∧
    ∀ a, g.get a = none → es.count (.free a) = 0 ∧ ∀ d, es.count (.dtor d a) = 0 := by
  have h := hg.inv.wf
  have hrecs : (g.mapRecs (fun r => { r with root := false })).recs = g.recs.map (fun r => { r with root := false }) := recs_mapRecs g _
  have hwf : Wf (g.mapRecs (fun r => { r with root := false })) := by
    refine ⟨mapRecs_tab h.tab (fun _ => rfl), fun r hr => ?_, ?_, ?_, h.idx, h.alloc⟩
    · rw [hrecs] at hr
      obtain ⟨x, x1, rfl⟩ := List.mem_map.1 hr
      exact h.marks x x1
    · rw [hrecs, List.length_map]; exact h.count
    · rw [hrecs, List.map_map]; exact h.bytes
  have hsw := sweep_ok hwf (fun _ => false)
  rw [withMarks_none hwf.tab hwf.marks] at hsw
  change Collected _ _ g.destroy at hsw
  have hev := hsw.events
  have hfil : ∀ l : List Rec, l.filter (fun r => !(fun _ => false) r.addr) = l := fun l => by simp
  rw [hfil, hrecs] at hev
  have hdrop : (g.recs.map (fun r => { r with root := false })).flatMap Rec.dropEvents = g.recs.flatMap Rec.dropEvents := by
    rw [List.flatMap_map]
    rfl
  rw [hdrop] at hev
  change g.destroy.events = g.events ++ _ at hev
  obtain ⟨d1, d2, d3⟩ := drop_events g.recs (live g.events) h.tab.nodup (fun r hr => by rw [hg.inv.live, h.tab.get_iff.2 ⟨hr, rfl⟩]; simp)
  refine ⟨_, hev, fun a => ⟨?_, ?_⟩, ?_, fun a r ha => ?_, fun a ha => ?_⟩
  · rw [hev, live_append, d3, hg.inv.live]
    split
    · rfl
    next hn =>
      rw [h.tab.get_none.2 (fun r hr he => hn (List.mem_map.2 ⟨r, hr, he⟩))]
      rfl
  · rw [hsw.get hwf]; rfl
  · rw [hev]
    exact (evsFrom_append _ _ _).2 ⟨hg.inv.use, d1⟩
  · obtain ⟨e1, e2⟩ := h.tab.get_iff.1 ha
    exact (count_drop _ h.tab.nodup a).1 r e1 e2
  · exact (count_drop _ h.tab.nodup a).2 (fun r hr => h.tab.get_none.1 ha r hr)

example : demo.destroy.events = demo.events ++ [.dtor 7 131360, .free 131360, .free 16, .dtor 5 32, .free 32] := by decide +kernel

end Minim.Gc
