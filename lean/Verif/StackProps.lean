import Verif.Stack

set_option autoImplicit false

/-!
# Properties of the stack (C53, C78)
-/

namespace Minim.Stk

/-! ## Specification -/

/-- Specification: arguments of the current frame, saved frames with the address to return to. -/
structure AS (α : Type) where
  args : List α
  frames : List (Nat × List α)

/-- Specification: nothing yet. -/
def AS.empty {α : Type} : AS α := ⟨[], []⟩

/-- Specification: the effect of the instructions; `none` if arguments are missing or there is no frame to return to. -/
def AS.exec {α : Type} (a : AS α) : Op α → Option (List (Obs α) × AS α)
  | .check _ => some ([], a)
  | .push v => some ([], { a with args := a.args ++ [v] })
  | .saveCC pc => some ([], ⟨[], (pc, a.args) :: a.frames⟩)
  | .clear => some ([], { a with args := [] })
  | .getArg i => (a.args[i]?).map (fun v => ([.arg v], a))
  | .setArg i v => if i < a.args.length then some ([], { a with args := a.args.set i v }) else none
  | .spread vs => if 2 ≤ a.args.length then some ([], { a with args := a.args.tail.dropLast ++ vs }) else none
  | .withValues vs => some ([], { a with args := a.args ++ vs })
  | .ret =>
    match a.frames with
    | [] => none
    | (pc, as) :: fs => some ([.ret (.resume pc)], ⟨as, fs⟩)
  | .enter => none

/-- Specification: words needed for saved frames: one for the return address, one for each argument. -/
def framesSize {α : Type} : List (Nat × List α) → Nat
  | [] => 0
  | (_, as) :: fs => 1 + as.length + framesSize fs

/-- Specification: words in use. -/
def AS.used {α : Type} (a : AS α) : Nat := framesSize a.frames + 1 + a.args.length

/-- Specification: words an instruction announces to need in addition. -/
def announced {α : Type} : Op α → Nat
  | .check n => n
  | _ => 0

/-- Specification: words in a segment. -/
def segWords : Nat := 8190

/-- Specification: a run in which never more than `lim` words are in use. -/
def AS.run {α : Type} (lim : Nat) (a : AS α) : List (Op α) → Option (List (Obs α) × AS α)
  | [] => some ([], a)
  | o :: os =>
    match a.exec o with
    | none => none
    | some (x, b) =>
      if a.used + announced o ≤ lim ∧ b.used ≤ lim then
        match b.run lim os with
        | none => none
        | some (y, c) => some (x ++ y, c)
      else none

/-! ## Representation -/

/-- The arguments stand above position `o`. -/
def ArgsAt {α : Type} (mem : Nat → W α) (o : Nat) (as : List α) : Prop := ∀ i v, as[i]? = some v → mem (o + (1 + i)) = .val v

/-- The saved frames end at position `o`; they start at `o0` with a null return address and the continuation `cs0`. -/
def FramesAt {α : Type} (o0 : Nat) (cs0 : List Cont) (mem : Nat → W α) : List (Nat × List α) → List Cont → Nat → Prop
  | [], cs, o => o = o0 ∧ cs = cs0 ∧ mem o = .null
  | (pc, as) :: fs, c :: cs, o => ∃ o', c.sfp = (0, o') ∧ c.ac = as.length ∧ o = o' + (1 + as.length) ∧ mem o = .ra pc ∧ ArgsAt mem o' as ∧ FramesAt o0 cs0 mem fs cs o'
  | _ :: _, [], _ => False

/-- The first segment represents the frames. -/
structure Rep {α : Type} (o0 : Nat) (cs0 : List Cont) (a : AS α) (s : SK α) : Prop where
  sizes : s.sizes = [stackSize]
  base : s.base = 0
  link : s.link = []
  esp : s.esp = stackSize - stackSlop
  seg : s.sfp.1 = 0
  ac : s.ac = a.args.length
  args : ArgsAt (s.mem 0) s.sfp.2 a.args
  frames : FramesAt o0 cs0 (s.mem 0) a.frames s.ccont s.sfp.2

theorem framesAt_off {α : Type} {o0 : Nat} {cs0 : List Cont} {mem : Nat → W α} : ∀ {fs : List (Nat × List α)} {cs : List Cont} {o : Nat},
    FramesAt o0 cs0 mem fs cs o → o = o0 + framesSize fs
  | [], _, _, h => h.1
  | (pc, as) :: fs, c :: cs, o, h => by
    obtain ⟨o', _, _, h3, _, _, h6⟩ := h
    have := framesAt_off h6
    simp only [framesSize]; omega
  | _ :: _, [], _, h => h.elim

/-- Words above the frame pointer do not belong to saved frames. -/
theorem framesAt_congr {α : Type} {o0 : Nat} {cs0 : List Cont} {mem mem' : Nat → W α} : ∀ {fs : List (Nat × List α)} {cs : List Cont} {o : Nat},
    FramesAt o0 cs0 mem fs cs o → (∀ j, j ≤ o → mem' j = mem j) → FramesAt o0 cs0 mem' fs cs o
  | [], _, _, h, hm => ⟨h.1, h.2.1, by rw [hm _ (Nat.le_refl _), h.2.2]⟩
  | (pc, as) :: fs, c :: cs, o, ⟨o', h1, h2, h3, h4, h5, h6⟩, hm => by
    refine ⟨o', h1, h2, h3, by rw [hm o (Nat.le_refl _), h4], fun i v hi => ?_, framesAt_congr h6 (fun j hj => hm j (by omega))⟩
    have : i < as.length := (List.getElem?_eq_some_iff.1 hi).1
    rw [hm _ (by omega), h5 i v hi]
  | _ :: _, [], _, h, _ => h.elim

theorem framesAt_null {α : Type} {o0 : Nat} {cs0 : List Cont} {mem : Nat → W α} : ∀ {fs : List (Nat × List α)} {cs : List Cont} {o : Nat},
    FramesAt o0 cs0 mem fs cs o → mem o0 = .null
  | [], _, _, h => by rw [← h.1]; exact h.2.2
  | _ :: _, _ :: _, _, ⟨_, _, _, _, _, _, h6⟩ => framesAt_null h6
  | _ :: _, [], _, h => h.elim

theorem Rep.off {α : Type} {o0 : Nat} {cs0 : List Cont} {a : AS α} {s : SK α} (h : Rep o0 cs0 a s) : s.sfp.2 = o0 + framesSize a.frames := framesAt_off h.frames

theorem Rep.inside {α : Type} {o0 : Nat} {cs0 : List Cont} {a : AS α} {s : SK α} (h : Rep o0 cs0 a s) (i : Nat) : s.inside i = decide (o0 + framesSize a.frames + i + 1 ≤ segWords) := by
  rw [SK.inside, h.sizes, h.seg, h.off]
  simp only [List.getElem?_cons_zero, stackSize, segWords]
  congr 1
  exact propext ⟨fun h => by omega, fun h => by omega⟩

theorem rep_boot {α : Type} : Rep 0 [] (AS.empty : AS α) boot :=
  ⟨rfl, rfl, rfl, rfl, rfl, rfl, fun i v h => by simp [AS.empty] at h, rfl, rfl, rfl⟩

/-- Storing an argument. -/
theorem Rep.store {α : Type} {o0 : Nat} {cs0 : List Cont} {a : AS α} {s : SK α} (h : Rep o0 cs0 a s) (i : Nat) (v : α) (hi : o0 + framesSize a.frames + (1 + i) + 1 ≤ segWords) :
    ∃ m, s.store (1 + i) (.val v) = .ok { s with mem := m } ∧ (∀ j, j ≤ s.sfp.2 → m 0 j = s.mem 0 j) ∧
      (∀ j, j ≠ i → m 0 (s.sfp.2 + (1 + j)) = s.mem 0 (s.sfp.2 + (1 + j))) ∧ m 0 (s.sfp.2 + (1 + i)) = .val v := by
  refine ⟨_, by rw [SK.store, h.inside, if_pos (by simpa using hi)], fun j hj => ?_, fun j hj => ?_, ?_⟩
  · rw [if_neg (by omega)]
  · rw [if_neg (by omega)]
  · rw [if_pos ⟨h.seg.symm, rfl⟩]

theorem rep_push {α : Type} {o0 : Nat} {cs0 : List Cont} {a : AS α} {s : SK α} (h : Rep o0 cs0 a s) (v : α) (hu : o0 + a.used + 1 ≤ segWords) :
    ∃ s', s.push v = .ok s' ∧ Rep o0 cs0 { a with args := a.args ++ [v] } s' := by
  simp only [AS.used] at hu
  obtain ⟨m, h1, h2, h3, h4⟩ := h.store a.args.length v (by omega)
  rw [← h.ac] at h1
  refine ⟨{ s with mem := m, ac := s.ac + 1 }, by rw [SK.push, h1]; rfl, h.sizes, h.base, h.link, h.esp, h.seg, by simp [h.ac], ?_,
    framesAt_congr h.frames h2⟩
  intro i w hi
  simp only at hi ⊢
  by_cases hlt : i < a.args.length
  · rw [List.getElem?_append_left hlt] at hi
    rw [h3 i (by omega), h.args i w hi]
  · rw [List.getElem?_append_right (by omega)] at hi
    have : i = a.args.length := by
      have := (List.getElem?_eq_some_iff.1 hi).1
      simp at this; omega
    subst this
    simp only [Nat.sub_self, List.getElem?_cons_zero, Option.some.injEq] at hi
    subst hi
    exact h4

theorem rep_pushes {α : Type} {o0 : Nat} {cs0 : List Cont} : ∀ (vs : List α) {a : AS α} {s : SK α}, Rep o0 cs0 a s → o0 + a.used + vs.length ≤ segWords →
    ∃ s', s.pushes vs = .ok s' ∧ Rep o0 cs0 { a with args := a.args ++ vs } s'
  | [], a, s, h, _ => ⟨s, rfl, by simpa using h⟩
  | v :: vs, a, s, h, hu => by
    simp only [List.length_cons] at hu
    obtain ⟨s1, h1, h2⟩ := rep_push h v (by omega)
    obtain ⟨s2, h3, h4⟩ := rep_pushes vs h2 (by simp [AS.used] at hu ⊢; omega)
    exact ⟨s2, by rw [SK.pushes, h1]; exact h3, by simpa using h4⟩

theorem rep_arg {α : Type} {o0 : Nat} {cs0 : List Cont} {a : AS α} {s : SK α} (h : Rep o0 cs0 a s) (hu : o0 + a.used ≤ segWords) {i : Nat} {v : α} (hi : a.args[i]? = some v) :
    s.load (1 + i) = .ok (.val v) := by
  have hlt : i < a.args.length := (List.getElem?_eq_some_iff.1 hi).1
  simp only [AS.used] at hu
  rw [SK.load, h.inside, if_pos (by simp; omega), h.seg, h.args i v hi]

/-- Shifting the arguments: afterwards `k` arguments from `i` on are those that were one higher. -/
theorem rep_shift {α : Type} {o0 : Nat} {cs0 : List Cont} : ∀ (k i : Nat) {a : AS α} {s : SK α}, (∀ n, Rep o0 cs0 a { s with ac := n } ∨ a.args.length ≠ n) → o0 + a.used ≤ segWords → i + k + 1 ≤ a.args.length →
    ∃ m, s.shift k i = .ok { s with mem := m } ∧ (∀ j, j ≤ s.sfp.2 → m 0 j = s.mem 0 j) ∧
      (∀ j, i ≤ j → j < i + k → m 0 (s.sfp.2 + (1 + j)) = s.mem 0 (s.sfp.2 + (1 + (j + 1)))) ∧
      (∀ j, j < i → m 0 (s.sfp.2 + (1 + j)) = s.mem 0 (s.sfp.2 + (1 + j)))
  | 0, i, a, s, _, _, _ => ⟨s.mem, rfl, fun _ _ => rfl, fun j h1 h2 => by omega, fun _ _ => rfl⟩
  | k + 1, i, a, s, h, hu, hi => by
    have hr : Rep o0 cs0 a { s with ac := a.args.length } := (h a.args.length).resolve_right (by simp)
    have hv : a.args[i + 1]? = some (a.args[i + 1]'(by omega)) := List.getElem?_eq_getElem _
    have hl := rep_arg hr hu hv
    obtain ⟨m, h1, h2, h3, h4⟩ := hr.store i (a.args[i + 1]'(by omega)) (by simp only [AS.used] at hu; omega)
    have hl' : s.load (1 + (i + 1)) = .ok (.val (a.args[i + 1]'(by omega))) := hl
    have h1' : s.store (1 + i) (.val (a.args[i + 1]'(by omega))) = .ok { s with mem := m } := by
      have hin : SK.inside { s with ac := a.args.length } (1 + i) = true := by
        rw [hr.inside]
        simp only [AS.used] at hu
        simp; omega
      have hin' : s.inside (1 + i) = true := hin
      rw [SK.store, if_pos hin] at h1
      rw [SK.store, if_pos hin']
      simp only [Res.ok.injEq, SK.mk.injEq] at h1 ⊢
      exact ⟨h1.1, trivial, trivial, trivial, trivial, trivial, trivial, trivial, trivial⟩
    have hr2 : ∀ n, Rep o0 cs0 { a with args := a.args.set i (a.args[i + 1]'(by omega)) } { { s with mem := m } with ac := n } ∨
        (a.args.set i (a.args[i + 1]'(by omega))).length ≠ n := by
      intro n
      by_cases hn : (a.args.set i (a.args[i + 1]'(by omega))).length = n
      · refine .inl ⟨hr.sizes, hr.base, hr.link, hr.esp, hr.seg, hn.symm, ?_, framesAt_congr hr.frames h2⟩
        intro j w hj
        simp only at hj ⊢
        rw [List.getElem?_set] at hj
        split at hj
        next hij =>
          subst hij
          rw [if_pos (by omega)] at hj
          cases hj
          exact h4
        next hij =>
          have := h3 j (Ne.symm hij)
          simp only at this
          rw [this]
          exact hr.args j w hj
      · exact .inr hn
    obtain ⟨m2, g1, g2, g3, g4⟩ := rep_shift k (i + 1) hr2 (by simpa [AS.used] using hu) (by simp; omega)
    refine ⟨m2, ?_, ?_, ?_, ?_⟩
    · rw [SK.shift, hl']
      simp only [Res.ok_bind]
      rw [h1']
      simp only [Res.ok_bind]
      rw [g1]
    · intro j hj
      rw [g2 j hj]
      exact h2 j hj
    · intro j hj1 hj2
      by_cases hji : j = i
      · subst hji
        rw [g4 j (by omega)]
        show m 0 (s.sfp.2 + (1 + j)) = _
        have := h4
        simp only at this
        rw [this]
        have := hr.args (j + 1) _ hv
        simp only at this
        rw [this]
      · rw [g3 j (by omega) (by omega)]
        exact h3 (j + 1) (by omega)
    · intro j hj
      rw [g4 j (by omega)]
      exact h3 j (by omega)

theorem tail_dropLast_get {α : Type} (l : List α) (i : Nat) (v : α) (h : l.tail.dropLast[i]? = some v) : i < l.length - 2 ∧ l[i + 1]? = some v := by
  have hlt : i < l.tail.dropLast.length := (List.getElem?_eq_some_iff.1 h).1
  simp only [List.length_dropLast, List.length_tail] at hlt
  refine ⟨by omega, ?_⟩
  rw [List.getElem?_dropLast, if_pos (by simp; omega), List.getElem?_tail] at h
  exact h

theorem rep_spread {α : Type} {o0 : Nat} {cs0 : List Cont} {a : AS α} {s : SK α} (h : Rep o0 cs0 a s) (vs : List α) (hl : 2 ≤ a.args.length) (hu : o0 + a.used ≤ segWords)
    (hu' : o0 + AS.used { a with args := a.args.tail.dropLast ++ vs } ≤ segWords) :
    ∃ s', s.spread vs = .ok s' ∧ Rep o0 cs0 { a with args := a.args.tail.dropLast ++ vs } s' := by
  have hr : ∀ n, Rep o0 cs0 a { { s with ac := s.ac - 2 } with ac := n } ∨ a.args.length ≠ n := by
    intro n
    by_cases hn : a.args.length = n
    · exact .inl ⟨h.sizes, h.base, h.link, h.esp, h.seg, hn.symm, h.args, h.frames⟩
    · exact .inr hn
  obtain ⟨m, h1, h2, h3, _⟩ := rep_shift (s.ac - 2) 0 hr hu (by have := h.ac; omega)
  have hac := h.ac
  have hlen : (a.args.tail.dropLast).length = s.ac - 2 := by simp; omega
  have hov : SK.overflow { { s with ac := s.ac - 2 } with mem := m } (1 + (s.ac - 2) + vs.length) = false := by
    have := h.off
    simp only [SK.overflow, h.esp, stackSize, stackSlop, decide_eq_false_iff_not, this]
    simp only [AS.used, List.length_append, hlen, segWords] at hu'
    omega
  have hrep : Rep o0 cs0 { a with args := a.args.tail.dropLast } { { s with ac := s.ac - 2 } with mem := m } := by
    refine ⟨h.sizes, h.base, h.link, h.esp, h.seg, hlen.symm, ?_, framesAt_congr h.frames h2⟩
    intro i v hi
    obtain ⟨g1, g2⟩ := tail_dropLast_get _ _ _ hi
    have := h3 i (Nat.zero_le _) (by omega)
    simp only at this ⊢
    rw [this]
    exact h.args (i + 1) v g2
  obtain ⟨s', p1, p2⟩ := rep_pushes vs hrep (by simp only [AS.used, List.length_append] at hu' ⊢; omega)
  refine ⟨s', ?_, p2⟩
  rw [SK.spread]
  simp only at h1 ⊢
  rw [h1]
  simp only [Res.ok_bind]
  rw [hov]
  simp only [Bool.false_eq_true, if_false, Res.ok_bind]
  exact p1

theorem rep_saveCC {α : Type} {o0 : Nat} {cs0 : List Cont} {a : AS α} {s : SK α} (h : Rep o0 cs0 a s) (pc : Nat) (hu : o0 + a.used + 1 ≤ segWords) :
    ∃ s', s.saveCC pc = .ok s' ∧ Rep o0 cs0 ⟨[], (pc, a.args) :: a.frames⟩ s' := by
  have hoff := h.off
  have hin : SK.inside { s with ccont := ⟨s.sfp, s.ac⟩ :: s.ccont, sfp := (s.sfp.1, s.sfp.2 + (1 + s.ac)), ac := 0 } 0 = true := by
    simp only [SK.inside, h.seg, h.sizes, List.getElem?_cons_zero, stackSize, hoff, h.ac, decide_eq_true_eq]
    simp only [AS.used, segWords] at hu
    omega
  refine ⟨{ s with ccont := ⟨s.sfp, s.ac⟩ :: s.ccont, sfp := (s.sfp.1, s.sfp.2 + (1 + s.ac)), ac := 0,
                   mem := fun sg j => if sg = s.sfp.1 ∧ j = s.sfp.2 + (1 + s.ac) + 0 then .ra pc else s.mem sg j },
    by rw [SK.saveCC, SK.store, if_pos hin], h.sizes, h.base, h.link, h.esp, h.seg, rfl, fun i v hi => by simp at hi, ?_⟩
  refine ⟨s.sfp.2, ?_, h.ac, ?_, ?_, ?_, ?_⟩
  · show s.sfp = (0, s.sfp.2)
    rw [← h.seg]
  · simp only [h.ac]
  · simp [h.seg]
  · intro i v hi
    have hlt : i < a.args.length := (List.getElem?_eq_some_iff.1 hi).1
    simp only
    rw [if_neg (by rw [h.ac]; omega)]
    exact h.args i v hi
  · refine framesAt_congr h.frames (fun j hj => ?_)
    simp only
    rw [if_neg (by omega)]

theorem rep_ret {α : Type} {o0 : Nat} {cs0 : List Cont} {a : AS α} {s : SK α} (h : Rep o0 cs0 a s) (hu : o0 + a.used ≤ segWords) :
    match a.frames with
    | [] => s.ret = if o0 = 0 then .ok (.exit, s) else .ub
    | (pc, as) :: fs => ∃ s', s.ret = .ok (.resume pc, s') ∧ Rep o0 cs0 ⟨as, fs⟩ s' := by
  have hfr := h.frames
  have hoff := h.off
  split
  next hf =>
    rw [hf] at hoff hfr
    simp only [framesSize, Nat.add_zero] at hoff
    by_cases h0 : o0 = 0
    · rw [SK.ret, if_pos ⟨by rw [h.seg, h.base], by omega⟩, h.link, if_pos h0]
    · have hload : s.load 0 = .ok .null := by
        rw [SK.load, h.inside, if_pos (by simp only [AS.used] at hu; simp; omega), h.seg]
        simp only [Nat.add_zero, hfr.2.2]
      rw [SK.ret, if_neg (by omega), if_neg h0]
      cases s.ccont with
      | nil => rfl
      | cons c cs => rw [SK.ret.resume, hload]; rfl
  next pc as fs hf =>
    rw [hf] at hfr hoff
    match hc : s.ccont, hfr with
    | c :: cs, hfr =>
      obtain ⟨o', h1, h2, h3, h4, h5, h6⟩ := hfr
      simp only [framesSize] at hoff
      have hload : s.load 0 = .ok (.ra pc) := by
        rw [SK.load, h.inside, if_pos (by simp only [AS.used] at hu; simp; omega), h.seg]
        simp only [Nat.add_zero, h4]
      refine ⟨{ s with ccont := cs, sfp := c.sfp, ac := c.ac }, ?_, h.sizes, h.base, h.link, h.esp, by simp [h1], h2, ?_, ?_⟩
      · rw [SK.ret, if_neg (by omega), hc, SK.ret.resume, hload]; rfl
      · simp only [h1]; exact h5
      · simp only [h1]; exact h6

theorem rep_exec {α : Type} {o0 : Nat} {cs0 : List Cont} {a : AS α} {s : SK α} (h : Rep o0 cs0 a s) {o : Op α} {x : List (Obs α)} {b : AS α} (he : a.exec o = some (x, b))
    (hu : o0 + a.used + announced o ≤ segWords) (hub : o0 + b.used ≤ segWords) : ∃ s', s.exec o = .ok (x, s') ∧ Rep o0 cs0 b s' := by
  cases o with
  | check n =>
    cases he
    refine ⟨s, ?_, h⟩
    have hov : s.overflow (1 + (s.ac + n)) = false := by
      have := h.off
      simp only [SK.overflow, h.esp, stackSize, stackSlop, decide_eq_false_iff_not, this, h.ac]
      simp only [AS.used, announced, segWords] at hu
      omega
    rw [SK.exec, SK.check, hov]; rfl
  | push v =>
    cases he
    obtain ⟨s', h1, h2⟩ := rep_push h v (by simp only [AS.used, List.length_append, List.length_cons, List.length_nil] at hub ⊢; omega)
    exact ⟨s', by rw [SK.exec, h1]; rfl, h2⟩
  | saveCC pc =>
    cases he
    obtain ⟨s', h1, h2⟩ := rep_saveCC h pc (by simp only [AS.used, framesSize, List.length_nil] at hub ⊢; omega)
    exact ⟨s', by rw [SK.exec, h1]; rfl, h2⟩
  | clear =>
    cases he
    exact ⟨_, rfl, h.sizes, h.base, h.link, h.esp, h.seg, rfl, fun i v hi => by simp at hi, h.frames⟩
  | getArg i =>
    simp only [AS.exec, Option.map_eq_some_iff, Prod.mk.injEq] at he
    obtain ⟨v, hv, rfl, rfl⟩ := he
    refine ⟨s, ?_, h⟩
    rw [SK.exec, SK.arg, rep_arg h hub hv]; rfl
  | setArg i v =>
    simp only [AS.exec] at he
    split at he
    next hi =>
      cases he
      obtain ⟨m, h1, h2, h3, h4⟩ := h.store i v (by simp only [AS.used, announced] at hu; omega)
      refine ⟨{ s with mem := m }, by rw [SK.exec, h1]; rfl, h.sizes, h.base, h.link, h.esp, h.seg, by simp [h.ac], ?_, framesAt_congr h.frames h2⟩
      intro j w hj
      simp only at hj ⊢
      rw [List.getElem?_set] at hj
      split at hj
      next hij =>
        subst hij
        cases hj
        exact h4
      next hij => rw [h3 j (Ne.symm hij)]; exact h.args j w hj
    · cases he
  | spread vs =>
    simp only [AS.exec] at he
    split at he
    next hi =>
      cases he
      obtain ⟨s', h1, h2⟩ := rep_spread h vs hi (by omega) hub
      exact ⟨s', by rw [SK.exec, h1]; rfl, h2⟩
    · cases he
  | withValues vs =>
    cases he
    obtain ⟨s', h1, h2⟩ := rep_pushes vs h (by simp only [AS.used, List.length_append] at hub ⊢; omega)
    exact ⟨s', by rw [SK.exec, h1]; rfl, h2⟩
  | ret =>
    have hr := rep_ret h (by omega)
    rw [AS.exec] at he
    split at he
    · cases he
    next pc as fs hf =>
      cases he
      rw [hf] at hr
      obtain ⟨s', h1, h2⟩ := hr
      exact ⟨s', by rw [SK.exec, h1]; rfl, h2⟩
  | enter => cases he

theorem rep_run {α : Type} {o0 lim : Nat} {cs0 : List Cont} (hl : o0 + lim ≤ segWords) : ∀ (os : List (Op α)) {a : AS α} {s : SK α} {x : List (Obs α)} {b : AS α}, Rep o0 cs0 a s → a.run lim os = some (x, b) →
    ∃ s', s.run os = .ok (x, s') ∧ Rep o0 cs0 b s'
  | [], a, s, x, b, h, he => by cases he; exact ⟨s, rfl, h⟩
  | o :: os, a, s, x, b, h, he => by
    rw [AS.run] at he
    split at he
    · cases he
    next x1 b1 h1 =>
      split at he
      next hu =>
        split at he
        · cases he
        next y c h2 =>
          cases he
          obtain ⟨s1, g1, g2⟩ := rep_exec h h1 (by omega) (by omega)
          obtain ⟨s2, g3, g4⟩ := rep_run hl os g2 h2
          refine ⟨s2, ?_, g4⟩
          rw [SK.run, g1]
          simp only [Res.ok_bind, g3]
      · cases he

theorem run_used {α : Type} {lim : Nat} : ∀ (os : List (Op α)) {a : AS α} {x : List (Obs α)} {b : AS α}, a.used ≤ lim → a.run lim os = some (x, b) → b.used ≤ lim
  | [], a, x, b, hu, h => by cases h; exact hu
  | o :: os, a, x, b, hu, h => by
    rw [AS.run] at h
    split at h
    · cases h
    next x1 b1 h1 =>
      split at h
      next hu =>
        split at h
        · cases h
        next y c h2 => cases h; exact run_used os hu.2 h2
      · cases h

theorem run_append {α : Type} : ∀ (os ps : List (Op α)) {s s' : SK α} {x : List (Obs α)}, s.run os = .ok (x, s') →
    s.run (os ++ ps) = (s'.run ps >>= fun r => .ok (x ++ r.1, r.2))
  | [], ps, s, s', x, h => by
    cases h
    show s.run ps = _
    cases s.run ps <;> rfl
  | o :: os, ps, s, s', x, h => by
    rw [SK.run] at h
    obtain ⟨⟨a, s1⟩, h1, h2⟩ := Res.bind_eq_ok.1 h
    obtain ⟨⟨b, s2⟩, h3, h4⟩ := Res.bind_eq_ok.1 h2
    cases h4
    rw [List.cons_append, SK.run, h1]
    simp only [Res.ok_bind]
    rw [run_append os ps h3]
    cases s'.run ps <;> simp [Bind.bind, Res.bind, List.append_assoc]

theorem run_ub {α : Type} {os ps : List (Op α)} {s s' : SK α} {x : List (Obs α)} (h : s.run os = .ok (x, s')) (hp : s'.run ps = .ub) : s.run (os ++ ps) = .ub := by
  rw [run_append os ps h, hp]; rfl

theorem cons_ub {α : Type} {o : Op α} {s : SK α} (ps : List (Op α)) (h : s.exec o = .ub) : s.run (o :: ps) = .ub := by
  rw [SK.run, h]; rfl

theorem cons_ok {α : Type} {o : Op α} {s s' : SK α} {x : List (Obs α)} {ps : List (Op α)} (h : s.exec o = .ok (x, s')) (hp : s'.run ps = .ub) : s.run (o :: ps) = .ub := by
  rw [SK.run, h]
  simp only [Res.ok_bind, hp]; rfl

/-! ### Past the end -/

theorem Rep.push_ub {α : Type} {o0 : Nat} {cs0 : List Cont} {a : AS α} {s : SK α} (h : Rep o0 cs0 a s) (hu : segWords ≤ o0 + a.used) (v : α) : s.push v = .ub := by
  rw [SK.push, SK.store, h.inside, if_neg (by simp only [AS.used] at hu; rw [h.ac]; simp; omega)]; rfl

theorem Rep.saveCC_ub {α : Type} {o0 : Nat} {cs0 : List Cont} {a : AS α} {s : SK α} (h : Rep o0 cs0 a s) (hu : segWords ≤ o0 + a.used) (pc : Nat) : s.saveCC pc = .ub := by
  have hoff := h.off
  rw [SK.saveCC, SK.store, if_neg]
  simp only [SK.inside, h.seg, h.sizes, List.getElem?_cons_zero, stackSize, hoff, h.ac, decide_eq_true_eq]
  simp only [AS.used, segWords] at hu
  omega

theorem Rep.pushes_ub {α : Type} {o0 : Nat} {cs0 : List Cont} : ∀ (vs : List α) {a : AS α} {s : SK α}, Rep o0 cs0 a s → o0 + a.used ≤ segWords →
    segWords < o0 + a.used + vs.length → s.pushes vs = .ub
  | [], a, s, _, h1, h2 => by simp at h2; omega
  | v :: vs, a, s, h, h1, h2 => by
    simp only [List.length_cons] at h2
    by_cases hu : o0 + a.used + 1 ≤ segWords
    · obtain ⟨s1, g1, g2⟩ := rep_push h v hu
      rw [SK.pushes, g1]
      have : AS.used { a with args := a.args ++ [v] } = a.used + 1 := by simp [AS.used]; omega
      exact Rep.pushes_ub vs g2 (by omega) (by omega)
    · rw [SK.pushes, h.push_ub (by omega)]; rfl

theorem Rep.check_same {α : Type} {o0 : Nat} {cs0 : List Cont} {a : AS α} {s : SK α} (h : Rep o0 cs0 a s) {n : Nat} (hn : o0 + a.used + n < 64496) : s.check n = s := by
  have hov : s.overflow (1 + (s.ac + n)) = false := by
    have := h.off
    simp only [SK.overflow, h.esp, stackSize, stackSlop, decide_eq_false_iff_not, this, h.ac]
    simp only [AS.used] at hn
    omega
  rw [SK.check, hov]; rfl

theorem Rep.check_grow {α : Type} {o0 : Nat} {cs0 : List Cont} {a : AS α} {s : SK α} (h : Rep o0 cs0 a s) {n : Nat} (hn : 64496 ≤ o0 + a.used + n) :
    s.check n = s.grow (1 + (s.ac + n)) := by
  have hov : s.overflow (1 + (s.ac + n)) = true := by
    have := h.off
    simp only [SK.overflow, h.esp, stackSize, stackSlop, decide_eq_true_eq, this, h.ac]
    simp only [AS.used] at hn
    omega
  rw [SK.check, hov]; rfl

theorem pushes_keep {α : Type} : ∀ (vs : List α) (s : SK α), (∃ z, s.sizes[s.sfp.1]? = some z ∧ 8 * (s.sfp.2 + s.ac + vs.length + 1) ≤ z) →
    ∃ m n, s.pushes vs = .ok { s with mem := m, ac := n } ∧ ∀ g j, g ≠ s.sfp.1 → m g j = s.mem g j
  | [], s, _ => ⟨s.mem, s.ac, rfl, fun _ _ _ => rfl⟩
  | v :: vs, s, ⟨z, h1, h2⟩ => by
    simp only [List.length_cons] at h2
    have hin : s.inside (1 + s.ac) = true := by
      rw [SK.inside, h1]; simp only [decide_eq_true_eq]; omega
    obtain ⟨m, n, g1, g2⟩ := pushes_keep vs
      { s with mem := fun sg j => if sg = s.sfp.1 ∧ j = s.sfp.2 + (1 + s.ac) then .val v else s.mem sg j, ac := s.ac + 1 } ⟨z, h1, by simp only; omega⟩
    refine ⟨m, n, ?_, fun g j hg => ?_⟩
    · rw [SK.pushes, SK.push, SK.store, if_pos hin]
      exact g1
    · rw [g2 g j hg]
      exact if_neg (fun hh => hg hh.1)

theorem run_pushes {α : Type} : ∀ (vs : List α) (s s' : SK α), s.pushes vs = .ok s' → s.run (vs.map .push) = .ok ([], s')
  | [], s, s', h => by cases h; rfl
  | v :: vs, s, s', h => by
    rw [SK.pushes] at h
    obtain ⟨s1, h1, h2⟩ := Res.bind_eq_ok.1 h
    rw [List.map_cons, SK.run, SK.exec, h1]
    simp only [Res.ok_bind, run_pushes vs s1 s' h2, List.append_nil]

theorem Rep.grow_ret {α : Type} {o0 : Nat} {cs0 : List Cont} {a : AS α} {s : SK α} (h : Rep o0 cs0 a s) (h0 : s.mem 0 0 = .null) (k : Nat) (m : Nat → Nat → W α) (n : Nat)
    (hm : ∀ g j, g ≠ 1 → m g j = s.mem g j) : SK.ret { s.grow k with mem := m, ac := n } = .ub := by
  simp only [SK.grow, SK.ret, h.sizes, List.length_cons, List.length_nil, and_self, if_true]
  cases s.ccont with
  | nil => rfl
  | cons c cs =>
    rw [SK.ret.resume]
    simp only [SK.load, SK.inside, h.base, List.cons_append, List.nil_append, List.getElem?_cons_zero, stackSize]
    have : m 0 0 = .null := by rw [hm 0 0 (by decide), h0]
    simp only [this]
    rfl

theorem deep {α : Type} {lim pc : Nat} : ∀ (j : Nat) (a : AS α), a.args = [] → a.used + j ≤ lim →
    ∃ b, a.run lim ((List.replicate j [.check 0, .saveCC pc]).flatten) = some ([], b) ∧ b.used = a.used + j
  | 0, a, _, _ => ⟨a, rfl, rfl⟩
  | j + 1, a, ha, hu => by
    have hb : AS.used ⟨[], (pc, a.args) :: a.frames⟩ = a.used + 1 := by simp [AS.used, framesSize, ha]; omega
    obtain ⟨b, h1, h2⟩ := deep (lim := lim) (pc := pc) j ⟨[], (pc, a.args) :: a.frames⟩ rfl (by omega)
    refine ⟨b, ?_, by rw [h2, hb]; omega⟩
    rw [List.replicate_succ, List.flatten_cons]
    have c1 : a.used + announced (.check 0 : Op α) ≤ lim ∧ a.used ≤ lim := ⟨by simp only [announced]; omega, by omega⟩
    have c2 : a.used + announced (.saveCC pc : Op α) ≤ lim ∧ AS.used ⟨[], (pc, a.args) :: a.frames⟩ ≤ lim := ⟨by simp only [announced]; omega, by rw [hb]; omega⟩
    simp only [List.cons_append, List.nil_append, AS.run, AS.exec, h1, if_pos c1, if_pos c2]

/-! ## C53 -/

/-- C53 (partial).  As long as never more than one segment's worth of words is in use, every sequence of stack instructions stays within the segment, and behaves like a stack of frames: arguments
read are those pushed last at this place in this frame, and returns go to the address saved with the frame; a return without saved frames leaves the
interpreter.  Missing: larger stacks, for which it is false (`C53_negated_overrun`, `C53_negated_depth`, `C53_negated_apply`, `C53_negated_grow`). -/
theorem C53_within_partial {α : Type} (os : List (Op α)) (x : List (Obs α)) (b : AS α) (h : AS.empty.run segWords os = some (x, b)) :
    (∃ s', (boot : SK α).run os = .ok (x, s')) ∧ (b.frames = [] → ∃ s', (boot : SK α).run (os ++ [.ret]) = .ok (x ++ [.ret .exit], s')) := by
  obtain ⟨s', h1, h2⟩ := rep_run (by simp) os rep_boot h
  refine ⟨⟨s', h1⟩, fun hf => ⟨s', ?_⟩⟩
  have hu := run_used os (by simp [AS.used, AS.empty, framesSize, segWords]) h
  have hr := rep_ret h2 (by omega)
  rw [hf] at hr
  rw [run_append os _ h1, SK.run, SK.exec, hr]
  rfl

/-- A call in the middle of collecting arguments, then `apply` on a list. -/
example : ∃ b, (AS.empty : AS Nat).run segWords
    [.check 2, .push 1, .saveCC 50, .push 9, .push 7, .push 8, .spread [20, 21], .getArg 2, .setArg 0 3, .getArg 0, .ret, .getArg 0] =
      some ([.arg 21, .arg 3, .ret (.resume 50), .arg 1], b) ∧ b.frames = [] := ⟨_, rfl, rfl⟩

/-- C53 (negated).  Once the words of the segment are used up, the next argument or return address is written past its end, even when the room was asked for first: the end
of the segment is taken to be eight times as far as it is. -/
theorem C53_negated_overrun {α : Type} (os : List (Op α)) (x : List (Obs α)) (b : AS α) (h : AS.empty.run segWords os = some (x, b)) (hb : b.used = segWords)
    (n : Nat) (hn : n < 56306) (v : α) (pc : Nat) :
    (boot : SK α).run (os ++ [.check n, .push v]) = .ub ∧ (boot : SK α).run (os ++ [.check n, .saveCC pc]) = .ub := by
  obtain ⟨s', h1, h2⟩ := rep_run (by simp) os rep_boot h
  have hc := h2.check_same (n := n) (by rw [hb]; simp [segWords]; omega)
  constructor
  · refine run_ub h1 (cons_ok (by rw [SK.exec, hc]) (cons_ub _ ?_))
    rw [SK.exec, h2.push_ub (by omega)]; rfl
  · refine run_ub h1 (cons_ok (by rw [SK.exec, hc]) (cons_ub _ ?_))
    rw [SK.exec, h2.saveCC_ub (by omega)]; rfl

/-- 8189 nested calls use up the segment. -/
example : ∃ b, (AS.empty : AS Nat).run segWords ((List.replicate 8189 [.check 0, .saveCC 7]).flatten) = some ([], b) ∧ b.used = segWords :=
  deep 8189 AS.empty rfl (by simp [AS.used, AS.empty, framesSize, segWords])

/-- C53 (negated).  A procedure that calls itself in a position that is not last, without arguments waiting, overruns the stack at depth 8190. -/
theorem C53_negated_depth {α : Type} (pc k : Nat) (hk : 8190 ≤ k) : (boot : SK α).run ((List.replicate k [.check 0, .saveCC pc]).flatten) = .ub := by
  obtain ⟨b, h1, h2⟩ := deep (α := α) (pc := pc) (lim := segWords) 8189 AS.empty rfl (by simp [AS.used, AS.empty, framesSize, segWords])
  have hb : b.used = segWords := by rw [h2]; simp [AS.used, AS.empty, framesSize, segWords]
  obtain ⟨s', g1, g2⟩ := rep_run (by simp) _ rep_boot h1
  obtain ⟨j, rfl⟩ : ∃ j, k = 8189 + (1 + j) := ⟨k - 8190, by omega⟩
  rw [← List.replicate_append_replicate, ← List.replicate_append_replicate, List.flatten_append, List.flatten_append]
  refine run_ub g1 (cons_ok (by rw [SK.exec, g2.check_same (by rw [hb]; simp [segWords])]) (cons_ub _ ?_))
  rw [SK.exec, g2.saveCC_ub (by omega)]; rfl

/-- C53 (negated).  `apply` on a list that does not fit in the segment, but has less than 64494 elements, writes past the end of the segment. -/
theorem C53_negated_apply {α : Type} (p l : α) (vs : List α) (h1 : 8190 ≤ vs.length) (h2 : vs.length < 64495) :
    (boot : SK α).run [.push p, .push l, .spread vs] = .ub := by
  have he : (AS.empty : AS α).run segWords [.push p, .push l] = some ([], ⟨[p, l], []⟩) := by rfl
  obtain ⟨s', g1, g2⟩ := rep_run (by simp) _ rep_boot he
  refine run_ub (os := [.push p, .push l]) g1 (cons_ub _ ?_)
  obtain ⟨s2, p1, p2⟩ : ∃ s2, Rep 0 [] (⟨[], []⟩ : AS α) s2 ∧ s'.spread vs = s2.pushes vs := by
    refine ⟨{ s' with ac := 0 }, ⟨g2.sizes, g2.base, g2.link, g2.esp, g2.seg, rfl, fun i v hi => by simp at hi, g2.frames⟩, ?_⟩
    have hac : s'.ac = 2 := g2.ac
    have hov : SK.overflow { s' with ac := 0 } (1 + 0 + vs.length) = false := by
      have := g2.off
      simp only [SK.overflow, g2.esp, stackSize, stackSlop, decide_eq_false_iff_not, this, framesSize]
      omega
    rw [SK.spread]
    simp only [hac, Nat.sub_self, SK.shift, Res.ok_bind]
    rw [hov]
    rfl
  rw [SK.exec, p2, p1.pushes_ub vs (by simp [AS.used, framesSize, segWords]) (by simp [AS.used, framesSize, segWords]; omega)]
  rfl

/-- C53 (negated).  Where a new segment is linked, the return from it fails: the return address is taken from the start of the older segment, where there is none. -/
theorem C53_negated_grow {α : Type} (os : List (Op α)) (x : List (Obs α)) (b : AS α) (h : AS.empty.run segWords os = some (x, b)) (n : Nat) (hn : 64496 ≤ b.used + n)
    (vs : List α) (hv : vs.length ≤ n) : (boot : SK α).run (os ++ .check n :: (vs.map .push ++ [.ret])) = .ub := by
  obtain ⟨s', h1, h2⟩ := rep_run (by simp) os rep_boot h
  have h0 : s'.mem 0 0 = .null := framesAt_null h2.frames
  refine run_ub h1 (cons_ok (by rw [SK.exec, h2.check_grow (by omega)]) ?_)
  obtain ⟨m, k, g1, g2⟩ := pushes_keep vs (s'.grow (1 + (s'.ac + n))) (by
    refine ⟨if 8 * (1 + (s'.ac + n)) + stackSlop > stackSize then 8 * (1 + (s'.ac + n)) + stackSlop else stackSize, ?_, ?_⟩
    · simp only [SK.grow, List.getElem?_append_right (Nat.le_refl _), Nat.sub_self, List.getElem?_cons_zero]
    · simp only [SK.grow]
      by_cases hh : 8 * (1 + (s'.ac + n)) + stackSlop > stackSize
      · rw [if_pos hh]; omega
      · rw [if_neg hh]; simp only [stackSlop, stackSize] at *; omega)
  refine run_ub (run_pushes vs _ _ g1) (cons_ub _ ?_)
  rw [SK.exec, h2.grow_ret h0 _ m k (fun g j hg => ?_)]
  · rfl
  · rw [g2 g j (by simpa [SK.grow, h2.sizes] using hg)]
    rfl

/-- A call with 64493 arguments inside another call: the hypotheses hold. -/
example : ∃ b, (AS.empty : AS Nat).run segWords [.push 1, .saveCC 50] = some ([], b) ∧ 64496 ≤ b.used + 64493 := ⟨_, rfl, by decide⟩

/-! ## C78 -/

theorem Rep.enter {α : Type} {a : AS α} {s : SK α} (h : Rep 0 [] a s) (hu : a.used ≤ segWords) :
    ∃ s', s.enter = .ok s' ∧ Rep (framesSize a.frames) s.ccont (AS.empty : AS α) s' := by
  have hin := h.inside 0
  have hoff := h.off
  have : s.inside 0 = true := by
    rw [hin]; simp only [AS.used] at hu; simp; omega
  refine ⟨{ s with mem := fun sg j => if sg = s.sfp.1 ∧ j = s.sfp.2 + 0 then .null else s.mem sg j, ac := 0 }, by rw [SK.enter, SK.store, if_pos this]; rfl,
    h.sizes, h.base, h.link, h.esp, h.seg, rfl, fun i v hi => by simp [AS.empty] at hi, ?_, rfl, ?_⟩
  · simp only; omega
  · simp [h.seg]

/-- C78 (partial).  A file loaded when no frame is saved, that is by a call in tail position of a toplevel expression, is evaluated as at toplevel: the evaluation of each of
its expressions leaves the inner interpreter, and the return from `load` leaves the outer one. -/
theorem C78_load_tail_partial {α : Type} (os : List (Op α)) (x : List (Obs α)) (b : AS α) (h : AS.empty.run segWords os = some (x, b)) (hb : b.frames = [])
    (ps : List (Op α)) (y : List (Obs α)) (c : AS α) (hp : AS.empty.run segWords ps = some (y, c)) (hc : c.frames = []) :
    ∃ s', (boot : SK α).run (os ++ .enter :: (ps ++ [.ret, .ret])) = .ok (x ++ (y ++ [.ret .exit, .ret .exit]), s') := by
  obtain ⟨s1, h1, h2⟩ := rep_run (by simp) os rep_boot h
  have hu := run_used os (by simp [AS.used, AS.empty, framesSize, segWords]) h
  obtain ⟨s2, h3, h4⟩ := h2.enter hu
  rw [hb] at h4
  obtain ⟨s3, h5, h6⟩ := rep_run (by simp [framesSize]) ps h4 hp
  have hu2 := run_used ps (by simp [AS.used, AS.empty, framesSize, segWords]) hp
  have hr := rep_ret h6 (by simp only [framesSize]; omega)
  rw [hc] at hr
  refine ⟨s3, ?_⟩
  rw [run_append os _ h1, SK.run, SK.exec, h3]
  simp only [Res.ok_bind]
  rw [run_append ps _ h5]
  have : s3.run [.ret, .ret] = .ok ([.ret .exit, .ret .exit], s3) := by
    simp only [SK.run, SK.exec, hr, framesSize, if_true, Res.ok_bind]; rfl
  rw [this]
  simp [Res.ok_bind]

example : ∃ b c, (AS.empty : AS Nat).run segWords [.check 1, .push 1] = some ([], b) ∧ b.frames = [] ∧
    (AS.empty : AS Nat).run segWords [.saveCC 7, .push 2, .getArg 0, .ret] = some ([.arg 2, .ret (.resume 7)], c) ∧ c.frames = [] := ⟨_, _, rfl, rfl, rfl, rfl⟩

/-- C78 (negated).  A file loaded by a call that is not in tail position crashes when its first expression has been evaluated, whatever the expression: the evaluation begins
by overwriting the return address of the call, and its end is only recognised at the bottom of the stack. -/
theorem C78_negated {α : Type} (os : List (Op α)) (x : List (Obs α)) (b : AS α) (h : AS.empty.run segWords os = some (x, b)) (hb : b.frames ≠ [])
    (ps : List (Op α)) (y : List (Obs α)) (c : AS α) (hp : AS.empty.run (segWords - framesSize b.frames) ps = some (y, c)) (hc : c.frames = []) :
    (boot : SK α).run (os ++ .enter :: (ps ++ [.ret])) = .ub := by
  obtain ⟨s1, h1, h2⟩ := rep_run (by simp) os rep_boot h
  have hu := run_used os (by simp [AS.used, AS.empty, framesSize, segWords]) h
  have hu0 := hu
  simp only [AS.used] at hu0
  obtain ⟨s2, h3, h4⟩ := h2.enter hu
  obtain ⟨s3, h5, h6⟩ := rep_run (by omega) ps h4 hp
  have hu2 := run_used ps (by simp [AS.used, AS.empty, framesSize, segWords] at *; omega) hp
  have hr := rep_ret h6 (by omega)
  rw [hc] at hr
  have hpos : framesSize b.frames ≠ 0 := by
    cases hf : b.frames with
    | nil => exact absurd hf hb
    | cons f fs => simp [framesSize]
  refine run_ub h1 (cons_ok (x := []) (s' := s2) (by rw [SK.exec, h3]; rfl) (run_ub h5 (cons_ub _ ?_)))
  simp only [if_neg hpos] at hr
  rw [SK.exec, hr]; rfl

/-- `(begin (load "a") ...)` with a file that contains a constant. -/
example : ∃ b c, (AS.empty : AS Nat).run segWords [.check 0, .saveCC 50, .push 1] = some ([], b) ∧ b.frames ≠ [] ∧
    (AS.empty : AS Nat).run (segWords - framesSize b.frames) [.check 0] = some ([], c) ∧ c.frames = [] := ⟨_, _, rfl, by simp, rfl, rfl⟩

end Minim.Stk
