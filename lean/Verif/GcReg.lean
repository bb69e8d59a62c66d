import Verif.GcProps

set_option autoImplicit false

/-!
# Registering destructors, markers and roots
-/

namespace Minim.Gc

theorem get_upd {g : GC} (h : Tab g) (p : Nat) {f : Rec → Rec} (hf : ∀ r, (f r).addr = r.addr) (q : Nat) :
    (g.upd p f).get q = if q = p then (g.get q).map f else g.get q := by
  have hf' : ∀ r : Rec, (if r.addr = p then f r else r).addr = r.addr := fun r => by split <;> simp [hf]
  rw [upd_eq h, get_mapRecs (f := fun r => if r.addr = p then f r else r) hf']
  cases hq : g.get q with
  | none => simp
  | some r =>
    have := (h.get_iff.1 hq).2
    by_cases e : q = p <;> simp [e, this]

theorem history_register {g : GC} (hg : History g) {o : Op} (ho : o.fails = 0) (he : (g.exec o).events = g.events) : History (g.exec o) := by
  have hl : LibOk g.events := by obtain ⟨_, _, _, _, _, _, h⟩ := hg; exact h
  exact hg.exec o (by omega) (by rw [he]; exact hl)

/-- C81.  Registering a destructor sets that of the named block and changes nothing else. -/
theorem C81_dtor {g : GC} (hg : History g) (p d q : Nat) :
    (g.exec (.registerDtor p d)).get q = (if q = p then (g.get q).map (fun r => { r with dtor := some d }) else g.get q) ∧
    (g.exec (.registerDtor p d)).mem = g.mem ∧ (g.exec (.registerDtor p d)).events = g.events :=
  ⟨get_upd (f := fun r => { r with dtor := some d }) hg.inv.wf.tab p (fun _ => rfl) q, rfl, rfl⟩

/-- C81.  Registering a marker sets that of the named block and changes nothing else. -/
theorem C81_marker {g : GC} (hg : History g) (p q : Nat) (m : Mrk) :
    (g.exec (.registerMrk p m)).get q = (if q = p then (g.get q).map (fun r => { r with mrk := m }) else g.get q) ∧
    (g.exec (.registerMrk p m)).mem = g.mem ∧ (g.exec (.registerMrk p m)).events = g.events :=
  ⟨get_upd (f := fun r => { r with mrk := m }) hg.inv.wf.tab p (fun _ => rfl) q, rfl, rfl⟩

/-- C81.  Registering a root sets the flag of the named block and changes nothing else. -/
theorem C81_root {g : GC} (hg : History g) (p q : Nat) :
    (g.exec (.registerRoot p)).get q = (if q = p then (g.get q).map (fun r => { r with root := true }) else g.get q) ∧
    (g.exec (.registerRoot p)).mem = g.mem ∧ (g.exec (.registerRoot p)).events = g.events :=
  ⟨get_upd (f := fun r => { r with root := true }) hg.inv.wf.tab p (fun _ => rfl) q, rfl, rfl⟩

example : History demo ∧ ∃ r, demo.get 16 = some r ∧ r.root = false ∧ r.dtor = none := ⟨demo_history, _, rfl, rfl, rfl⟩

theorem inHeap_register {g : GC} (hr : InHeap g) {o : Op} (h : ∀ a r, (g.exec o).get a = some r → ∃ r', g.get a = some r') (hl : (g.exec o).lo = g.lo) (hh : (g.exec o).hi = g.hi) :
    InHeap (g.exec o) := by
  intro a r ha
  obtain ⟨r', h'⟩ := h a r ha
  rw [hl, hh]
  exact hr a r' h'

/-- C81.  A block registered as a root survives every later collection, whatever is on the stack. -/
theorem C81_root_survives {g : GC} (hg : History g) (hr : InHeap g) {p : Nat} (hp : g.get p ≠ none) (stack : List Nat) :
    ((g.exec (.registerRoot p)).collect stack).get p ≠ none := by
  obtain ⟨r, hp'⟩ := Option.ne_none_iff_exists'.1 hp
  have hroot := (C81_root hg p p).1
  rw [if_pos rfl, hp'] at hroot
  refine (C54_survives_partial (history_register hg rfl rfl) (inHeap_register hr ?_ rfl rfl) stack (.root hroot rfl)).2.1
  intro a r ha
  rw [(C81_root hg p a).1] at ha
  split at ha
  · obtain ⟨r', h, _⟩ := Option.map_eq_some_iff.1 ha; exact ⟨r', h⟩
  · exact ⟨r, ha⟩

/-- C81.  A destructor registered for a block that is not reachable runs once, on this block, in the next collection. -/
theorem C81_dtor_runs {g : GC} (hg : History g) (hr : InHeap g) {p : Nat} (hp : g.get p ≠ none) (d : Nat) (stack : List Nat) (hn : ¬ Reach (g.exec (.registerDtor p d)) stack p) :
    ∃ es, ((g.exec (.registerDtor p d)).collect stack).events = g.events ++ es ∧ es.count (.dtor d p) = 1 := by
  obtain ⟨r, hp'⟩ := Option.ne_none_iff_exists'.1 hp
  have hd := (C81_dtor hg p d p).1
  rw [if_pos rfl, hp'] at hd
  have hin : InHeap (g.exec (.registerDtor p d)) := by
    refine inHeap_register hr ?_ rfl rfl
    intro a r ha
    rw [(C81_dtor hg p d a).1] at ha
    split at ha
    · obtain ⟨r', h, _⟩ := Option.map_eq_some_iff.1 ha; exact ⟨r', h⟩
    · exact ⟨r, ha⟩
  obtain ⟨es, h1, h2, _⟩ := C56_collect_partial (history_register hg rfl rfl) hin stack
  refine ⟨es, h1, ?_⟩
  have := (h2 p _ hd hn).2 d
  simpa using this

example : History demo ∧ InHeap demo ∧ demo.get 131360 ≠ none ∧ demo.get 16 ≠ none :=
  ⟨demo_history, demo_inHeap, Option.isSome_iff_ne_none.1 (by decide +kernel), Option.isSome_iff_ne_none.1 (by decide +kernel)⟩

/-- A concrete case of the last theorem: a block nothing points to. -/
example : ¬ Reach (demo.exec (.registerDtor 131360 7)) [16] 131360 := by
  intro h
  have hin : InHeap (demo.exec (.registerDtor 131360 7)) := by
    refine inHeap_register demo_inHeap ?_ rfl rfl
    intro a r ha
    rw [(C81_dtor demo_history 131360 7 a).1] at ha
    split at ha
    · obtain ⟨r', h, _⟩ := Option.map_eq_some_iff.1 ha; exact ⟨r', h⟩
    · exact ⟨r, ha⟩
  have := (C54_survives_partial (history_register demo_history rfl rfl) hin [16] h).2.1
  exact this (Option.isNone_iff_eq_none.1 (by decide +kernel))

end Minim.Gc
