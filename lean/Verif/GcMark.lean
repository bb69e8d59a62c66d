import Verif.GcTable

set_option autoImplicit false

/-!
# Marking and sweeping
-/

namespace Minim.Gc

/-- Specification: a word of a block that may be a pointer, or a pointer its marker names. -/
def Points (mem : Nat → Nat → Nat) (r : Rec) (c : Nat) : Prop :=
  match r.mrk with
  | .default => ∃ k, 8 * k + 8 ≤ r.size ∧ mem r.addr k = c
  | .atomic => False
  | .custom f => c ∈ f (mem r.addr)

/-- Specification: blocks reachable from roots and from words of the stack. -/
inductive Reach (g : GC) (stack : List Nat) : Nat → Prop
  | root {a : Nat} {r : Rec} : g.get a = some r → r.root = true → Reach g stack a
  | stack {a : Nat} {r : Rec} : a ∈ stack → g.get a = some r → Reach g stack a
  | field {a b : Nat} {r r' : Rec} : Reach g stack a → g.get a = some r → Points g.mem r b → g.get b = some r' → Reach g stack b

theorem points_iff {mem : Nat → Nat → Nat} {r : Rec} {c : Nat} : Points mem r c ↔ c ∈ r.children mem := by
  cases hm : r.mrk with
  | default =>
    simp only [Points, Rec.children, hm, List.mem_map, List.mem_range]
    constructor
    · rintro ⟨k, h1, h2⟩; exact ⟨k, by omega, h2⟩
    · rintro ⟨k, h1, h2⟩; exact ⟨k, by omega, h2⟩
  | atomic => simp [Points, Rec.children, hm]
  | custom f => simp [Points, Rec.children, hm]

/-! ### Marks as a predicate -/

/-- The table with the given marks. -/
def GC.withMarks (g : GC) (m : Nat → Bool) : GC := g.mapRecs (fun r => { r with mark := m r.addr })

/-- One more mark. -/
def putMark (m : Nat → Bool) (p : Nat) : Nat → Bool := fun a => if a = p then true else m a

theorem withMarks_get (g : GC) (m : Nat → Bool) (p : Nat) : (g.withMarks m).get p = (g.get p).map (fun r => { r with mark := m r.addr }) := get_mapRecs (f := fun r => { r with mark := m r.addr }) (fun _ => rfl) p

theorem withMarks_tab {g : GC} (h : Tab g) (m : Nat → Bool) : Tab (g.withMarks m) := mapRecs_tab h (fun _ => rfl)

theorem withMarks_upd {g : GC} (h : Tab g) (m : Nat → Bool) (p : Nat) :
    (g.withMarks m).upd p (fun r => { r with mark := true }) = g.withMarks (putMark m p) := by
  rw [upd_eq (withMarks_tab h m)]
  simp only [GC.withMarks, GC.mapRecs, List.map_map]
  congr 1
  funext i
  refine List.map_congr_left (fun r _ => ?_)
  simp only [Function.comp, putMark]
  split <;> rfl

/-- Loop over pointers. -/
def dfsList (f : (Nat → Bool) → Nat → Option (Nat → Bool)) : (Nat → Bool) → List Nat → Option (Nat → Bool)
  | m, [] => some m
  | m, p :: ps => (f m p).bind (fun m => dfsList f m ps)

/-- Marking, on predicates. -/
def dfs (g : GC) : Nat → (Nat → Bool) → Nat → Option (Nat → Bool)
  | 0, _, _ => none
  | n + 1, m, p =>
    if p < g.lo ∨ p > g.hi then some m
    else
      match g.get p with
      | none => some m
      | some r => if m p ∨ r.root then some m else dfsList (dfs g n) (putMark m p) (r.children g.mem)

theorem dfsList_sim {g : GC} {f : GC → Nat → Option GC} {f' : (Nat → Bool) → Nat → Option (Nat → Bool)}
    (h : ∀ m p, f (g.withMarks m) p = (f' m p).map g.withMarks) : ∀ (ps : List Nat) (m : Nat → Bool), markList f (g.withMarks m) ps = (dfsList f' m ps).map g.withMarks
  | [], m => rfl
  | p :: ps, m => by
    rw [markList, dfsList, h]
    cases f' m p with
    | none => rfl
    | some m' => exact dfsList_sim h ps m'

theorem get_addr {g : GC} {p : Nat} {r : Rec} (h : g.get p = some r) : r.addr = p := by
  have := List.find?_some h
  simpa using this

theorem dfs_sim {g : GC} (hg : Tab g) : ∀ (n : Nat) (m : Nat → Bool) (p : Nat), markPtr n (g.withMarks m) p = (dfs g n m p).map g.withMarks
  | 0, m, p => rfl
  | n + 1, m, p => by
    rw [markPtr, dfs]
    show (if p < g.lo ∨ p > g.hi then _ else _) = _
    split
    · rfl
    · rw [withMarks_get]
      cases hp : g.get p with
      | none => rfl
      | some r =>
        have hc : Rec.children (g.withMarks m).mem { r with mark := m r.addr } = r.children g.mem := rfl
        simp only [Option.map_some]
        rw [get_addr hp] at *
        split
        next h1 => rfl
        next h1 =>
          rw [withMarks_upd hg, hc]
          exact dfsList_sim (dfs_sim hg n) _ _

/-! ### Correctness of the search -/

/-- Nothing remains to be done for a pointer. -/
def Done (g : GC) (m : Nat → Bool) (p : Nat) : Prop := (p < g.lo ∨ p > g.hi) ∨ ∀ r, g.get p = some r → m p = true ∨ r.root = true

/-- From marks `m` to marks `m'`: new ones only, for blocks all whose pointers are done; and they satisfy the predicate. -/
structure Post (g : GC) (P : Nat → Prop) (m m' : Nat → Bool) : Prop where
  mono : ∀ a, m a = true → m' a = true
  new : ∀ a, m' a = true → m a = false → P a ∧ ∃ r, g.get a = some r ∧ ∀ c ∈ r.children g.mem, Done g m' c

/-- A predicate kept by following pointers. -/
def Closed (g : GC) (P : Nat → Prop) : Prop := ∀ a r c r', P a → g.get a = some r → c ∈ r.children g.mem → g.get c = some r' → P c

theorem Done.mono {g : GC} {m m' : Nat → Bool} (h : ∀ a, m a = true → m' a = true) {p : Nat} (hd : Done g m p) : Done g m' p := by
  rcases hd with hd | hd
  · exact .inl hd
  · exact .inr (fun r hr => (hd r hr).imp (h p) id)

theorem Post.refl (g : GC) (P : Nat → Prop) (m : Nat → Bool) : Post g P m m := ⟨fun _ h => h, fun a h1 h2 => by rw [h1] at h2; cases h2⟩

theorem Post.trans {g : GC} {P : Nat → Prop} {m m' m'' : Nat → Bool} (h : Post g P m m') (h' : Post g P m' m'') : Post g P m m'' := by
  refine ⟨fun a ha => h'.mono a (h.mono a ha), fun a ha hn => ?_⟩
  cases hm : m' a with
  | true =>
    obtain ⟨h1, r, h2, h3⟩ := h.new a hm hn
    exact ⟨h1, r, h2, fun c hc => (h3 c hc).mono h'.mono⟩
  | false => exact h'.new a ha hm

/-- Number of records without mark. -/
def unmarked (g : GC) (m : Nat → Bool) : Nat := g.recs.countP (fun r => !m r.addr)

theorem unmarked_mono {g : GC} {m m' : Nat → Bool} (h : ∀ a, m a = true → m' a = true) : unmarked g m' ≤ unmarked g m := by
  refine List.countP_mono_left (fun r _ hr => ?_)
  simp only [Bool.not_eq_true'] at hr ⊢
  cases hm : m r.addr with
  | false => rfl
  | true => rw [h _ hm] at hr; cases hr

theorem countP_lt_of {α : Type} {p q : α → Bool} : ∀ {l : List α}, (∀ x ∈ l, q x = true → p x = true) → (∃ x ∈ l, p x = true ∧ q x = false) → l.countP q < l.countP p
  | [], _, h => by obtain ⟨x, h1, _⟩ := h; simp at h1
  | y :: ys, h, ⟨x, hx, h1, h2⟩ => by
    rw [List.countP_cons, List.countP_cons]
    have hle : ys.countP q ≤ ys.countP p := List.countP_mono_left (fun z hz => h z (by simp [hz]))
    rcases List.mem_cons.1 hx with rfl | hx
    · simp only [h1, h2]; simp; omega
    · have := countP_lt_of (fun z hz => h z (by simp [hz])) ⟨x, hx, h1, h2⟩
      have hy := h y (by simp)
      cases hq : q y <;> cases hp : p y <;> simp [hq, hp] at hy ⊢ <;> omega

theorem unmarked_put {g : GC} (hg : Tab g) {m : Nat → Bool} {p : Nat} {r : Rec} (hr : g.get p = some r) (hm : m p = false) : unmarked g (putMark m p) < unmarked g m := by
  obtain ⟨h1, h2⟩ := hg.get_iff.1 hr
  refine countP_lt_of (fun x _ hx => ?_) ⟨r, h1, by simp [h2, hm], by simp [putMark, h2]⟩
  simp only [putMark, Bool.not_eq_true'] at hx ⊢
  split at hx
  · cases hx
  · exact hx

theorem unmarked_le (g : GC) (m : Nat → Bool) : unmarked g m ≤ g.recs.length := List.countP_le_length

theorem dfsList_ok {g : GC} {P : Nat → Prop} {n : Nat}
    (h : ∀ m p, unmarked g m < n → (∀ r, g.get p = some r → P p) → ∃ m', dfs g n m p = some m' ∧ Post g P m m' ∧ Done g m' p) :
    ∀ (ps : List Nat) (m : Nat → Bool), unmarked g m < n → (∀ p ∈ ps, ∀ r, g.get p = some r → P p) →
      ∃ m', dfsList (dfs g n) m ps = some m' ∧ Post g P m m' ∧ ∀ p ∈ ps, Done g m' p
  | [], m, _, _ => ⟨m, rfl, .refl g P m, by simp⟩
  | p :: ps, m, hn, hp => by
    obtain ⟨m1, h1, h2, h3⟩ := h m p hn (hp p (by simp))
    obtain ⟨m2, g1, g2, g3⟩ := dfsList_ok h ps m1 (Nat.lt_of_le_of_lt (unmarked_mono h2.mono) hn) (fun q hq => hp q (by simp [hq]))
    refine ⟨m2, by rw [dfsList, h1]; exact g1, h2.trans g2, fun q hq => ?_⟩
    rcases List.mem_cons.1 hq with rfl | hq
    · exact h3.mono g2.mono
    · exact g3 q hq

theorem dfs_ok {g : GC} (hg : Tab g) {P : Nat → Prop} (hP : Closed g P) : ∀ (n : Nat) (m : Nat → Bool) (p : Nat), unmarked g m < n → (∀ r, g.get p = some r → P p) →
    ∃ m', dfs g n m p = some m' ∧ Post g P m m' ∧ Done g m' p
  | 0, m, p, h, _ => by omega
  | n + 1, m, p, h, hp => by
    rw [dfs]
    split
    next hr => exact ⟨m, rfl, .refl g P m, .inl hr⟩
    next hr =>
      cases hb : g.get p with
      | none => exact ⟨m, rfl, .refl g P m, .inr (fun r hr => by rw [hb] at hr; cases hr)⟩
      | some r =>
        simp only
        split
        next hmr => exact ⟨m, rfl, .refl g P m, .inr (fun r' hr' => by rw [hb] at hr'; cases hr'; exact hmr)⟩
        next hmr =>
          have hm : m p = false := by
            cases hmp : m p with
            | false => rfl
            | true => exact absurd (.inl hmp) hmr
          have hlt := unmarked_put hg hb hm
          obtain ⟨m', h1, h2, h3⟩ := dfsList_ok (dfs_ok hg hP n) (r.children g.mem) (putMark m p) (by omega) (fun c hc r' hr' => hP p r c r' (hp r hb) hb hc hr')
          have hpm : m' p = true := h2.mono p (by simp [putMark])
          refine ⟨m', h1, ⟨fun a ha => h2.mono a (by simp only [putMark]; split <;> simp [ha]), fun a ha hn => ?_⟩, .inr (fun _ _ => .inl hpm)⟩
          by_cases hap : a = p
          · subst hap
            exact ⟨hp r hb, r, hb, h3⟩
          · exact h2.new a ha (by simp only [putMark, if_neg hap, hn])

/-! ### Roots -/

/-- Marking from a root, on predicates. -/
def dfsRoot (g : GC) (n : Nat) (m : Nat → Bool) (p : Nat) : Option (Nat → Bool) :=
  match g.get p with
  | none => some m
  | some r => if r.root then dfsList (dfs g n) (putMark m p) (r.children g.mem) else some m

theorem dfsRoot_sim {g : GC} (hg : Tab g) (n : Nat) (m : Nat → Bool) (p : Nat) : markRoot n (g.withMarks m) p = (dfsRoot g n m p).map g.withMarks := by
  rw [markRoot, dfsRoot, withMarks_get]
  cases hp : g.get p with
  | none => rfl
  | some r =>
    have hc : Rec.children (g.withMarks m).mem { r with mark := m r.addr } = r.children g.mem := rfl
    simp only [Option.map_some]
    rw [hc, withMarks_upd hg]
    split
    · exact dfsList_sim (dfs_sim hg n) _ _
    · rfl

/-- A root is marked and its pointers are done. -/
def RootDone (g : GC) (m : Nat → Bool) (p : Nat) : Prop := ∀ r, g.get p = some r → r.root = true → m p = true ∧ ∀ c ∈ r.children g.mem, Done g m c

theorem RootDone.mono {g : GC} {m m' : Nat → Bool} (h : ∀ a, m a = true → m' a = true) {p : Nat} (hd : RootDone g m p) : RootDone g m' p :=
  fun r h1 h2 => ⟨h p (hd r h1 h2).1, fun c hc => ((hd r h1 h2).2 c hc).mono h⟩

theorem dfsRoot_ok {g : GC} (hg : Tab g) {P : Nat → Prop} (hP : Closed g P) {n : Nat} (hn : g.recs.length < n) (hroot : ∀ p r, g.get p = some r → r.root = true → P p)
    (m : Nat → Bool) (p : Nat) : ∃ m', dfsRoot g n m p = some m' ∧ Post g P m m' ∧ RootDone g m' p := by
  rw [dfsRoot]
  cases hb : g.get p with
  | none => exact ⟨m, rfl, .refl g P m, fun r hr => by rw [hb] at hr; cases hr⟩
  | some r =>
    simp only
    split
    next hr =>
      obtain ⟨m', h1, h2, h3⟩ := dfsList_ok (dfs_ok hg hP n) (r.children g.mem) (putMark m p) (Nat.lt_of_le_of_lt (unmarked_le g _) hn)
        (fun c hc r' hr' => hP p r c r' (hroot p r hb hr) hb hc hr')
      have hpm : m' p = true := h2.mono p (by simp [putMark])
      refine ⟨m', h1, ⟨fun a ha => h2.mono a (by simp only [putMark]; split <;> simp [ha]), fun a ha hn => ?_⟩, fun r' hr' _ => ?_⟩
      · by_cases hap : a = p
        · subst hap
          exact ⟨hroot a r hb hr, r, hb, h3⟩
        · exact h2.new a ha (by simp only [putMark, if_neg hap, hn])
      · rw [hb] at hr'; cases hr'
        exact ⟨hpm, h3⟩
    next hr => exact ⟨m, rfl, .refl g P m, fun r' hr' hr2 => by rw [hb] at hr'; cases hr'; exact absurd hr2 hr⟩

theorem dfsRoots_ok {g : GC} (hg : Tab g) {P : Nat → Prop} (hP : Closed g P) {n : Nat} (hn : g.recs.length < n) (hroot : ∀ p r, g.get p = some r → r.root = true → P p) :
    ∀ (ps : List Nat) (m : Nat → Bool), ∃ m', dfsList (dfsRoot g n) m ps = some m' ∧ Post g P m m' ∧ ∀ p ∈ ps, RootDone g m' p
  | [], m => ⟨m, rfl, .refl g P m, by simp⟩
  | p :: ps, m => by
    obtain ⟨m1, h1, h2, h3⟩ := dfsRoot_ok hg hP hn hroot m p
    obtain ⟨m2, g1, g2, g3⟩ := dfsRoots_ok hg hP hn hroot ps m1
    refine ⟨m2, by rw [dfsList, h1]; exact g1, h2.trans g2, fun q hq => ?_⟩
    rcases List.mem_cons.1 hq with rfl | hq
    · exact h3.mono g2.mono
    · exact g3 q hq

/-- No marks are set. -/
def NoMarks (g : GC) : Prop := ∀ r ∈ g.recs, r.mark = false

theorem withMarks_none {g : GC} (h : Tab g) (hm : NoMarks g) : g.withMarks (fun _ => false) = g := by
  have : (fun i => (g.buckets i).map (fun r => { r with mark := false })) = g.buckets := by
    funext i
    refine (List.map_congr_left (g := id) (fun r hr => ?_)).trans (List.map_id _)
    have := hm r (mem_of_bucket h.pos h.place hr)
    cases r
    simp only at this
    subst this
    rfl
  simp only [GC.withMarks, GC.mapRecs]
  rw [this]

/-- Marking finds what is reachable: everything marked is, and if the blocks lie in the range taken for heap everything reachable is marked. -/
theorem markAll_ok {g : GC} (hg : Tab g) (hm : NoMarks g) (hc : g.size = g.recs.length) (stack : List Nat) :
    ∃ m, g.markAll (g.recs.length + 1) stack = some (g.withMarks m) ∧ (∀ a, m a = true → Reach g stack a) ∧
      ((∀ r ∈ g.recs, g.lo ≤ r.addr ∧ r.addr ≤ g.hi) → ∀ a, Reach g stack a → m a = true) := by
  have hcl : Closed g (Reach g stack) := fun a r c r' h1 h2 h3 h4 => .field h1 h2 (points_iff.2 h3) h4
  have hroot : ∀ p r, g.get p = some r → r.root = true → Reach g stack p := fun p r h1 h2 => .root h1 h2
  by_cases h0 : g.size = 0
  · have he : g.recs = [] := by
      rw [h0] at hc
      exact List.length_eq_zero_iff.1 hc.symm
    refine ⟨fun _ => false, by rw [GC.markAll, if_pos h0, withMarks_none hg hm], by simp, fun _ a ha => ?_⟩
    have hnone : ∀ {p : Nat} {r : Rec}, g.get p = some r → False := by
      intro p r hr
      have := (hg.get_iff.1 hr).1
      rw [he] at this
      cases this
    cases ha with
    | root h1 _ => exact (hnone h1).elim
    | stack _ h1 => exact (hnone h1).elim
    | field _ _ _ h1 => exact (hnone h1).elim
  · obtain ⟨m1, h1, h2, h3⟩ := dfsRoots_ok hg hcl (Nat.lt_succ_self _) hroot (g.recs.map Rec.addr) (fun _ => false)
    obtain ⟨m2, g1, g2, g3⟩ := dfsList_ok (dfs_ok hg hcl (g.recs.length + 1)) stack m1 (Nat.lt_of_le_of_lt (unmarked_le g _) (Nat.lt_succ_self _))
      (fun p hp r hr => .stack hp hr)
    have h12 := h2.trans g2
    refine ⟨m2, ?_, fun a ha => (h12.new a ha rfl).1, fun hrange a ha => ?_⟩
    · rw [GC.markAll, if_neg h0]
      conv => lhs; rw [← withMarks_none hg hm]
      have : ((g.withMarks fun _ => false).recs).map Rec.addr = g.recs.map Rec.addr := by rw [withMarks_none hg hm]
      rw [this]
      rw [withMarks_none hg hm]
      conv => lhs; rw [show markList (markRoot (g.recs.length + 1)) g = markList (markRoot (g.recs.length + 1)) (g.withMarks fun _ => false) by rw [withMarks_none hg hm]]
      rw [dfsList_sim (dfsRoot_sim hg _), h1]
      simp only [Option.map_some, Option.bind_some]
      rw [dfsList_sim (dfs_sim hg _), g1]
      rfl
    · have hroots : ∀ {p : Nat} {r : Rec}, g.get p = some r → r.root = true → m2 p = true := by
        intro p r hr hroot
        have := (h3 p (List.mem_map.2 ⟨r, (hg.get_iff.1 hr).1, (hg.get_iff.1 hr).2⟩)).mono g2.mono
        exact (this r hr hroot).1
      have hdone : ∀ {p : Nat} {r : Rec}, g.get p = some r → Done g m2 p → m2 p = true := by
        intro p r hr hd
        obtain ⟨e1, e2⟩ := hg.get_iff.1 hr
        have := hrange r e1
        rcases hd with hd | hd
        · omega
        · rcases hd r hr with hd | hd
          · exact hd
          · exact hroots hr hd
      induction ha with
      | root h1 h2 => exact hroots h1 h2
      | stack h1 h2 => exact hdone h2 (g3 _ h1)
      | field _ h1 h2 h3 ih =>
        obtain ⟨_, r, e1, e2⟩ := h12.new _ ih rfl
        rw [h1] at e1
        cases e1
        exact hdone h3 (e2 _ (points_iff.1 h2))

end Minim.Gc
