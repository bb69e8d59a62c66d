import Verif.Promise
import Mathlib.Logic.Relation

set_option autoImplicit false

/-!
# Promises are evaluated at most once (C64)
-/

namespace Minim.Promise

variable {S : Type}

/-! ### specification -/

/-- the promise has this value -/
def Has (w : World S) (i : Nat) (v : V) : Prop := ∃ p, w.prs[i]? = some p ∧ p.forced = true ∧ p.cache = v

/-- how often the body of a promise has been entered -/
def entered (w : World S) (i : Nat) : Nat := w.starts.count i

/-- some program leads from one state to the other -/
def Later : World S → World S → Prop := Relation.ReflTransGen fun w w' => ∃ n b v, run n w b = .ok (w', v)

mutual
/-- evaluation in which no promise is forced by its own body: `A` are the promises whose bodies are running -/
inductive Ev : List Nat → World S → Body S → World S → V → Prop where
  | ret (A : List Nat) (w : World S) (v : V) : Ev A w (.ret v) w v
  | eff {A : List Nat} {w w' : World S} {f : S → S} {k : S → Body S} {v : V} (h : Ev A { w with user := f w.user } (k (f w.user)) w' v) : Ev A w (.eff f k) w' v
  | delay {A : List Nat} {w w' : World S} {b : Body S} {k : V → Body S} {v : V} (h : Ev A { w with prs := w.prs ++ [⟨b, fls, false⟩] } (k (.promise w.prs.length)) w' v) : Ev A w (.delay b k) w' v
  | force {A : List Nat} {w w1 w' : World S} {p u v : V} {k : V → Body S} (h1 : EvF A w p w1 u) (h2 : Ev A w1 (k u) w' v) : Ev A w (.force p k) w' v

/-- forcing in such an evaluation -/
inductive EvF : List Nat → World S → V → World S → V → Prop where
  | done {A : List Nat} {w : World S} {i : Nat} {v : V} (h : Has w i v) : EvF A w (.promise i) w v
  | first {A : List Nat} {w w' : World S} {i : Nat} {p : Pr S} {v : V} (e : w.prs[i]? = some p) (hf : p.forced = false) (ha : i ∉ A)
      (h : Ev (i :: A) { w with starts := i :: w.starts } p.producer w' v) : EvF A w (.promise i) (setForced w' i v) v
end

/-! ### lemmas -/

theorem setForced_has {w : World S} {i : Nat} {v : V} {p : Pr S} (e : w.prs[i]? = some p) : Has (setForced w i v) i v := by
  have hi : i < w.prs.length := by
    rw [List.getElem?_eq_some_iff] at e
    exact e.1
  refine ⟨{ p with cache := v, forced := true }, ?_, rfl, rfl⟩
  unfold setForced
  rw [e]
  dsimp only
  rw [List.getElem?_set_self hi]

theorem setForced_get {w : World S} {i j : Nat} {v : V} (h : j ≠ i) : (setForced w i v).prs[j]? = w.prs[j]? := by
  unfold setForced
  split
  · simp [List.getElem?_set_ne (Ne.symm h)]
  · rfl

theorem setForced_starts {w : World S} {i : Nat} {v : V} : (setForced w i v).starts = w.starts := by
  unfold setForced
  split <;> rfl

theorem setForced_length {w : World S} {i : Nat} {v : V} : (setForced w i v).prs.length = w.prs.length := by
  unfold setForced
  split <;> simp

/-- everything that is kept by running a program -/
structure Kept (w w' : World S) : Prop where
  has : ∀ i v, Has w i v → Has w' i v ∧ entered w' i = entered w i
  len : w.prs.length ≤ w'.prs.length

theorem Kept.refl (w : World S) : Kept w w := ⟨fun _ _ h => ⟨h, rfl⟩, Nat.le_refl _⟩

theorem Kept.trans {a b c : World S} (x : Kept a b) (y : Kept b c) : Kept a c :=
  ⟨fun i v h => ⟨(y.has i v (x.has i v h).1).1, (y.has i v (x.has i v h).1).2.trans (x.has i v h).2⟩, Nat.le_trans x.len y.len⟩

theorem kept : ∀ (n : Nat), (∀ (w w' : World S) (b : Body S) (v : V), run n w b = .ok (w', v) → Kept w w') ∧
    (∀ (w w' : World S) (p v : V), force n w p = .ok (w', v) → Kept w w' ∧ ∀ i, p = .promise i → Has w' i v)
  | 0 => ⟨fun _ _ _ _ h => by simp [run] at h, fun _ _ _ _ h => by simp [force] at h⟩
  | n + 1 => by
    obtain ⟨ihr, ihf⟩ := kept n
    constructor
    · intro w w' b v h
      cases b with
      | ret u => rw [run] at h; cases h; exact Kept.refl w
      | fail => rw [run] at h; cases h
      | eff f k =>
        rw [run] at h
        have := ihr _ _ _ _ h
        exact ⟨this.has, this.len⟩
      | delay b k =>
        rw [run] at h
        refine Kept.trans ⟨?_, ?_⟩ (ihr _ _ _ _ h)
        · rintro i v ⟨p, e, hp⟩
          refine ⟨⟨p, ?_, hp⟩, rfl⟩
          have hi : i < w.prs.length := by
            rw [List.getElem?_eq_some_iff] at e
            exact e.1
          simp only [makePromise]
          rw [List.getElem?_append_left hi, e]
        · simp [makePromise]
      | force p k =>
        rw [run] at h
        obtain ⟨⟨w1, u⟩, e1, h⟩ := Res.bind_eq_ok.1 h
        exact (ihf _ _ _ _ e1).1.trans (ihr _ _ _ _ h)
    · intro w w' p v h
      cases p with
      | data x => rw [force] at h; cases h
      | promise i =>
        rw [force] at h
        cases e : w.prs[i]? with
        | none => rw [e] at h; cases h
        | some p =>
          rw [e] at h
          dsimp only at h
          by_cases hf : p.forced = true
          · rw [if_pos hf] at h
            cases h
            refine ⟨Kept.refl w, ?_⟩
            rintro j hj
            cases hj
            exact ⟨p, e, hf, rfl⟩
          · rw [if_neg hf] at h
            obtain ⟨⟨w1, u⟩, e1, h⟩ := Res.bind_eq_ok.1 h
            cases h
            have hk := ihr _ _ _ _ e1
            have hi : i < w.prs.length := by
              rw [List.getElem?_eq_some_iff] at e
              exact e.1
            obtain ⟨q, eq⟩ : ∃ q, w1.prs[i]? = some q := ⟨_, List.getElem?_eq_getElem (Nat.lt_of_lt_of_le hi hk.len)⟩
            refine ⟨⟨?_, ?_⟩, ?_⟩
            · intro j x hj
              have hji : j ≠ i := by
                rintro rfl
                obtain ⟨p', e', hp', -⟩ := hj
                rw [e] at e'
                cases e'
                exact hf hp'
              have h1 := hk.has j x hj
              obtain ⟨p', e', hp'⟩ := h1.1
              refine ⟨⟨p', by rw [setForced_get hji, e'], hp'⟩, ?_⟩
              have h2 : entered w1 j = (i :: w.starts).count j := h1.2
              rw [List.count_cons_of_ne (Ne.symm hji)] at h2
              simp only [entered, setForced_starts]
              exact h2
            · rw [setForced_length]
              exact hk.len
            · rintro j hj
              cases hj
              exact setForced_has eq

theorem Later.kept {w w' : World S} (h : Later w w') : Kept w w' := by
  induction h with
  | refl => exact Kept.refl w
  | tail _ hs ih =>
    obtain ⟨n, b, v, e⟩ := hs
    exact ih.trans ((Promise.kept n).1 _ _ _ _ e)

theorem force_has {w : World S} {i : Nat} {v : V} (h : Has w i v) (n : Nat) : force (n + 1) w (.promise i) = .ok (w, v) := by
  obtain ⟨p, e, hf, rfl⟩ := h
  rw [force, e]
  simp [hf]

/-- more fuel gives the same result -/
theorem mono : ∀ (n : Nat), (∀ (w : World S) (b : Body S) (r : World S × V), run n w b = .ok r → ∀ m, n ≤ m → run m w b = .ok r) ∧
    (∀ (w : World S) (p : V) (r : World S × V), force n w p = .ok r → ∀ m, n ≤ m → force m w p = .ok r)
  | 0 => ⟨fun _ _ _ h => by simp [run] at h, fun _ _ _ h => by simp [force] at h⟩
  | n + 1 => by
    obtain ⟨ihr, ihf⟩ := mono n
    constructor
    · intro w b r h m hm
      obtain ⟨m, rfl⟩ : ∃ k, m = k + 1 := ⟨m - 1, by omega⟩
      cases b with
      | ret u => rw [run] at h ⊢; exact h
      | fail => rw [run] at h; cases h
      | eff f k => rw [run] at h ⊢; exact ihr _ _ _ h m (by omega)
      | delay b k => rw [run] at h ⊢; exact ihr _ _ _ h m (by omega)
      | force p k =>
        rw [run] at h ⊢
        obtain ⟨⟨w1, u⟩, e1, h⟩ := Res.bind_eq_ok.1 h
        rw [ihf _ _ _ e1 m (by omega), Res.ok_bind]
        exact ihr _ _ _ h m (by omega)
    · intro w p r h m hm
      obtain ⟨m, rfl⟩ : ∃ k, m = k + 1 := ⟨m - 1, by omega⟩
      cases p with
      | data x => rw [force] at h; cases h
      | promise i =>
        rw [force] at h ⊢
        cases e : w.prs[i]? with
        | none => rw [e] at h; cases h
        | some p =>
          rw [e] at h
          dsimp only at h ⊢
          by_cases hf : p.forced = true
          · rw [if_pos hf] at h ⊢; exact h
          · rw [if_neg hf] at h ⊢
            obtain ⟨⟨w1, u⟩, e1, h⟩ := Res.bind_eq_ok.1 h
            rw [ihr _ _ _ e1 m (by omega), Res.ok_bind]
            exact h

/-- what an evaluation without self-forcing does to the counts -/
structure Counts (A : List Nat) (w w' : World S) : Prop where
  active : ∀ i ∈ A, entered w' i = entered w i
  once : ∀ i, entered w' i = entered w i ∨ (entered w' i = entered w i + 1 ∧ ∃ v, Has w' i v)

theorem Counts.trans {A : List Nat} {a b c : World S} (x : Counts A a b) (y : Counts A b c) (k : Kept b c) : Counts A a c := by
  refine ⟨fun i h => (y.active i h).trans (x.active i h), fun i => ?_⟩
  rcases x.once i with h | ⟨h, v, hv⟩
  · rcases y.once i with h' | ⟨h', hv⟩
    · exact .inl (h'.trans h)
    · exact .inr ⟨by omega, hv⟩
  · exact .inr ⟨by rw [(k.has i v hv).2, h], v, (k.has i v hv).1⟩

theorem EvF.first_sound {A : List Nat} {w w1 : World S} {i : Nat} {p : Pr S} {v : V} (e : w.prs[i]? = some p) (hf : p.forced = false) (ha : i ∉ A)
    (h : (∃ n, run n { w with starts := i :: w.starts } p.producer = .ok (w1, v)) ∧ Counts (i :: A) { w with starts := i :: w.starts } w1) :
    (∃ n, force n w (.promise i) = .ok (setForced w1 i v, v)) ∧ Counts A w (setForced w1 i v) := by
  obtain ⟨⟨n, e'⟩, hc⟩ := h
  have hi : i < w.prs.length := by
    rw [List.getElem?_eq_some_iff] at e
    exact e.1
  obtain ⟨q, eq⟩ : ∃ q, w1.prs[i]? = some q := ⟨_, List.getElem?_eq_getElem (Nat.lt_of_lt_of_le hi ((kept n).1 _ _ _ _ e').len)⟩
  have hne : ∀ j, j ≠ i → ∀ w0 : World S, w0 = { w with starts := i :: w.starts } → entered w0 j = entered w j := by
    rintro j hj _ rfl
    simp only [entered]
    exact List.count_cons_of_ne (Ne.symm hj)
  refine ⟨⟨n + 1, ?_⟩, fun j hj => ?_, fun j => ?_⟩
  · rw [Promise.force, e]
    dsimp only
    rw [if_neg (by rw [hf]; decide), e', Res.ok_bind]
    rfl
  · have hji : j ≠ i := fun x => ha (x ▸ hj)
    have := hc.active j (List.mem_cons_of_mem _ hj)
    rw [hne j hji _ rfl] at this
    simpa only [entered, setForced_starts] using this
  · by_cases hji : j = i
    · subst hji
      have := hc.active j List.mem_cons_self
      refine .inr ⟨?_, v, setForced_has eq⟩
      simp only [entered, List.count_cons_self] at this
      simpa only [entered, setForced_starts] using this
    · have := hc.once j
      rw [hne j hji _ rfl] at this
      rcases this with h | ⟨h, u, pr, hpr⟩
      · left; simpa only [entered, setForced_starts] using h
      · right
        refine ⟨by simpa only [entered, setForced_starts] using h, u, pr, ?_, hpr.2⟩
        rw [setForced_get hji]
        exact hpr.1

theorem Ev.sound {A : List Nat} {w w' : World S} {b : Body S} {v : V} (h : Ev A w b w' v) : (∃ n, run n w b = .ok (w', v)) ∧ Counts A w w' := by
  refine Ev.rec (motive_1 := fun A w b w' v _ => (∃ n, run n w b = .ok (w', v)) ∧ Counts A w w')
    (motive_2 := fun A w p w' v _ => (∃ n, Promise.force n w p = .ok (w', v)) ∧ Counts A w w') ?_ ?_ ?_ ?_ ?_ ?_ h
  · intro A w v
    exact ⟨⟨1, by rw [run]⟩, fun _ _ => rfl, fun _ => .inl rfl⟩
  · intro A w w' f k v _ h
    obtain ⟨⟨n, e⟩, hc⟩ := h
    exact ⟨⟨n + 1, by rw [run]; exact e⟩, hc.active, hc.once⟩
  · intro A w w' b k v _ h
    obtain ⟨⟨n, e⟩, hc⟩ := h
    exact ⟨⟨n + 1, by rw [run]; exact e⟩, hc.active, hc.once⟩
  · intro A w w1 w' p u v k _ _ h1 h2
    obtain ⟨⟨n, e⟩, hc⟩ := h1
    obtain ⟨⟨n', e'⟩, hc'⟩ := h2
    refine ⟨⟨n + n' + 1, ?_⟩, hc.trans hc' ((kept n').1 _ _ _ _ e')⟩
    rw [run, (mono n).2 _ _ _ e _ (Nat.le_add_right _ _), Res.ok_bind]
    exact (mono n').1 _ _ _ e' _ (Nat.le_add_left _ _)
  · intro A w i v h
    exact ⟨⟨1, force_has h 0⟩, fun _ _ => rfl, fun _ => .inl rfl⟩
  · intro A w w' i p v e hf ha _ h
    exact EvF.first_sound e hf ha h

/-! ### the properties -/

/-- C64: once `force` has returned a value, every later `force` of the promise, after any further computation, returns this value and enters the body no more; nor does anything else enter it. -/
theorem C64_cached {n : Nat} {w w' : World S} {i : Nat} {v : V} (h : force n w (.promise i) = .ok (w', v)) {w'' : World S} (hl : Later w' w'') :
    (∀ m, force (m + 1) w'' (.promise i) = .ok (w'', v)) ∧ entered w'' i = entered w' i := by
  have h1 := ((kept n).2 _ _ _ _ h).2 i rfl
  have h2 := hl.kept.has i v h1
  exact ⟨fun m => force_has h2.1 m, h2.2⟩

/-- `lazy` returns a value that is not a promise; doing it again enters no body at all and returns the same value. -/
theorem C64_lazy {m n : Nat} {w w' : World S} {p v : V} (h : lazy m n w p = .ok (w', v)) :
    (∀ j, v ≠ .promise j) ∧ ∀ {w'' : World S}, Later w' w'' → ∀ m', lazy (m' + 1) n w'' p = .ok (w'', v) := by
  have key : ∀ (n : Nat) {w w' : World S} {p v : V}, lazy m n w p = .ok (w', v) →
      (∀ j, v ≠ .promise j) ∧ Kept w w' ∧ ∀ {w'' : World S}, Kept w' w'' → ∀ m', lazy (m' + 1) n w'' p = .ok (w'', v) := by
    intro n
    induction n with
    | zero => intro w w' p v h; rw [lazy] at h; cases h
    | succ n ih =>
      intro w w' p v h
      rw [lazy] at h
      obtain ⟨⟨w1, u⟩, e1, h⟩ := Res.bind_eq_ok.1 h
      have hk := (kept m).2 _ _ _ _ e1
      obtain ⟨i, rfl⟩ : ∃ i, p = .promise i := by
        cases p with
        | promise i => exact ⟨i, rfl⟩
        | data x => cases m <;> simp [force] at e1
      cases u with
      | data x =>
        cases h
        refine ⟨by simp, hk.1, ?_⟩
        intro w'' hl m'
        rw [lazy, force_has (hl.has _ _ (hk.2 i rfl)).1 m']
        rfl
      | promise j =>
        obtain ⟨h1, h2, h3⟩ := ih h
        refine ⟨h1, hk.1.trans h2, ?_⟩
        intro w'' hl m'
        rw [lazy, force_has ((h2.trans hl).has _ _ (hk.2 i rfl)).1 m', Res.ok_bind]
        exact h3 hl m'
  obtain ⟨h1, -, h3⟩ := key n h
  exact ⟨h1, fun hl => h3 hl.kept⟩

/-- C64, at most once: in a computation in which no promise is forced while its own body runs, `force` computes what the specification says, and no body is entered twice; a body that has been entered has delivered a value. -/
theorem C64_once_partial {w w' : World S} {b : Body S} {v : V} (h : Ev [] w b w' v) :
    (∃ n, ∀ m, n ≤ m → run m w b = .ok (w', v)) ∧
    (∀ i, entered w' i ≤ entered w i + 1) ∧ (∀ i u, Has w i u → entered w' i = entered w i) ∧ (∀ i, entered w' i ≠ entered w i → ∃ u, Has w' i u) := by
  obtain ⟨⟨n, e⟩, hc⟩ := h.sound
  refine ⟨⟨n, (mono n).1 _ _ _ e⟩, fun i => ?_, fun i u hu => (((kept n).1 _ _ _ _ e).has i u hu).2, fun i hi => ?_⟩
  · rcases hc.once i with h | ⟨h, -⟩ <;> omega
  · rcases hc.once i with h | ⟨-, h⟩
    · exact absurd h hi
    · exact h

/-- values that do not promise anything are refused -/
theorem C64_refused (n x : Nat) (w : World S) : force (n + 1) w (.data x) = .err ∧ lazy (n + 1) (n + 1) w (.data x) = .err := by
  refine ⟨by rw [force], ?_⟩
  rw [lazy, force]
  rfl

/-! ### the hypotheses are met -/

/-- `(let* ([a (delay (begin (set! n (+ n 1)) n))] [b (delay (force a))]) (force b) (force a) (force b))` -/
def demo : Body Nat :=
  .delay (.eff (· + 1) fun n => .ret (.data n)) fun a => .delay (.force a .ret) fun b => .force b fun _ => .force a fun _ => .force b .ret

def demo0 : World Nat := ⟨40, [], []⟩

example : ∃ w, Ev [] demo0 demo w (.data 41) ∧ entered w 0 = 1 ∧ entered w 1 = 1 ∧ w.user = 41 := by
  refine ⟨⟨41, [⟨.eff (· + 1) fun n => .ret (.data n), .data 41, true⟩, ⟨.force (.promise 0) .ret, .data 41, true⟩], [0, 1]⟩, ?_, by decide, by decide, rfl⟩
  refine Ev.delay (Ev.delay (Ev.force (EvF.first (i := 1) rfl rfl (by simp) (Ev.force (EvF.first (i := 0) rfl rfl (by simp) (Ev.eff (Ev.ret _ _ _))) (Ev.ret _ _ _))) ?_))
  exact Ev.force (EvF.done ⟨_, rfl, rfl, rfl⟩) (Ev.force (EvF.done ⟨_, rfl, rfl, rfl⟩) (Ev.ret _ _ _))

example : ∃ w, force 9 (⟨5, [⟨.eff (· + 1) fun n => .ret (.data n), fls, false⟩], []⟩ : World Nat) (.promise 0) = .ok (w, .data 6) := ⟨_, rfl⟩

/-- a chain of promises -/
example : ∃ w, lazy 9 9 (⟨5, [⟨.delay (.ret (.data 7)) .ret, fls, false⟩], []⟩ : World Nat) (.promise 0) = .ok (w, .data 7) := ⟨_, rfl⟩

/-! ### the violation -/

/-- `(define p (delay (begin (set! n (+ n 1)) (let ([k n]) (if (< k 2) (begin (force p) k) k)))))` -/
def reent : World Nat := ⟨0, [⟨.eff (· + 1) fun k => if k < 2 then .force (.promise 0) fun _ => .ret (.data k) else .ret (.data k), fls, false⟩], []⟩

/-- the body of a promise that forces itself is entered twice: the inner `force` returns 2 (and makes the promise forced with the value 2), and then the outer one replaces the value by 1. -/
theorem C64_negated : ∃ w1 w2 w3 : World Nat,
    force 7 reent (.promise 0) = .ok (w3, .data 1) ∧ entered reent 0 = 0 ∧ entered w3 0 = 2 ∧
    w1 = { reent with user := 1, starts := [0] } ∧ force 4 w1 (.promise 0) = .ok (w2, .data 2) ∧ Has w2 0 (.data 2) ∧ Has w3 0 (.data 1) :=
  ⟨_, _, _, rfl, rfl, rfl, rfl, rfl, ⟨_, rfl, rfl, rfl⟩, ⟨_, rfl, rfl, rfl⟩⟩

end Minim.Promise
