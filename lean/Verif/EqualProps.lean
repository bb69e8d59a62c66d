import Verif.Equal
import Verif.HashProps

set_option autoImplicit false
set_option linter.unusedSectionVars false

/-! # Properties of equality and hashing (C17–C20) -/

namespace Minim.Equal

open Minim.Hash

/-! ### loops -/

theorem pairEqual_true {f : Word → Word → Res Bool} {a d a' d' : Word} :
    pairEqual f a d a' d' = .ok true ↔ f a a' = .ok true ∧ f d d' = .ok true := by
  unfold pairEqual
  cases f a a' with
  | ok r => cases r <;> simp
  | _ => simp

theorem allEqual_true {f : Word → Word → Res Bool} : ∀ {xs ys : List Word}, xs.length = ys.length →
    (allEqual f xs ys = .ok true ↔ ∀ (i : Nat) (x y : Word), xs[i]? = some x → ys[i]? = some y → f x y = .ok true)
  | [], [], _ => by simp [allEqual]
  | x :: xs, y :: ys, h => by
    have ih := allEqual_true (f := f) (xs := xs) (ys := ys) (by simpa using h)
    rw [allEqual]
    constructor
    · intro he i x' y' hx hy
      cases hf : f x y with
      | ok r =>
        rw [hf] at he
        cases r with
        | false => simp at he
        | true =>
          simp only [Res.ok_bind, if_true] at he
          cases i with
          | zero => simp at hx hy; rw [← hx, ← hy]; exact hf
          | succ i => exact ih.1 he i x' y' (by simpa using hx) (by simpa using hy)
      | err => rw [hf] at he; simp at he
      | ub => rw [hf] at he; simp at he
      | oof => rw [hf] at he; simp at he
    · intro he
      rw [he 0 x y rfl rfl]
      simp only [Res.ok_bind, if_true]
      exact ih.2 (fun i x' y' hx hy => he (i + 1) x' y' (by simpa using hx) (by simpa using hy))
  | [], _ :: _, h => by simp at h
  | _ :: _, [], h => by simp at h

theorem vectorEqual_true {f : Word → Word → Res Bool} {xs ys : List Word} :
    vectorEqual f xs ys = .ok true ↔ xs.length = ys.length ∧
      ∀ (i : Nat) (x y : Word), xs[i]? = some x → ys[i]? = some y → f x y = .ok true := by
  unfold vectorEqual
  split
  · rename_i h; rw [allEqual_true h]; simp [h]
  · rename_i h; simp [h]

/-! ### the native comparison -/

/-- when the native comparison answers true (the rules of structural equality) -/
inductive Step (f : Word → Word → Res Bool) : Cell → Cell → Prop
  | chr (c : Byte) : Step f (.chr c) (.chr c)
  | fix (v : Word) : Step f (.fix v) (.fix v)
  | str (s t : List Byte) : cstr s = cstr t → Step f (.str s) (.str t)
  | pair (a d a' d' : Word) : f a a' = .ok true → f d d' = .ok true → Step f (.pair a d) (.pair a' d')
  | vec (xs ys : List Word) : xs.length = ys.length →
      (∀ (i : Nat) (x y : Word), xs[i]? = some x → ys[i]? = some y → f x y = .ok true) → Step f (.vec xs) (.vec ys)
  | box (x y : Word) : f x y = .ok true → Step f (.box x) (.box y)

theorem equalBody_true {f : Word → Word → Res Bool} (c d : Cell) : equalBody f c d = .ok true ↔ Step f c d := by
  constructor
  · intro h
    cases c <;> cases d <;> simp only [equalBody, Res.ok.injEq, beq_iff_eq, Bool.false_eq_true, pairEqual_true, vectorEqual_true] at h
    · subst h; exact .fix _
    · subst h; exact .chr _
    · exact .str _ _ h
    · exact .pair _ _ _ _ h.1 h.2
    · exact .vec _ _ h.1 h.2
    · exact .box _ _ h
  · intro h
    cases h with
    | chr c => simp [equalBody]
    | fix v => simp [equalBody]
    | str s t h => simp [equalBody, h]
    | pair _ _ _ _ h1 h2 => exact pairEqual_true.2 ⟨h1, h2⟩
    | vec _ _ h1 h2 => exact vectorEqual_true.2 ⟨h1, h2⟩
    | box _ _ h => exact h

theorem equalp_true {m : Mem} {n : Nat} {a b : Word} :
    equalp m (n + 1) a b = .ok true ↔ a = b ∨ Step (equalp m n) (m a) (m b) := by
  rw [equalp]
  split
  · rename_i h; simp [h]
  · rename_i h; rw [equalBody_true]; simp [h]

theorem allEqual_le {f g : Word → Word → Res Bool} (h : ∀ x y, Res.Le (f x y) (g x y)) : ∀ (xs ys : List Word),
    Res.Le (allEqual f xs ys) (allEqual g xs ys)
  | [], [] => Res.Le.refl _
  | [], _ :: _ => Res.Le.refl _
  | _ :: _, [] => Res.Le.refl _
  | x :: xs, y :: ys => by
    rw [allEqual, allEqual]
    refine Res.Le.bind (h x y) (fun r => ?_)
    exact Res.Le.ite (allEqual_le h xs ys) (Res.Le.refl _)

theorem pairEqual_le {f g : Word → Word → Res Bool} (h : ∀ x y, Res.Le (f x y) (g x y)) (a d a' d' : Word) :
    Res.Le (pairEqual f a d a' d') (pairEqual g a d a' d') :=
  Res.Le.bind (h a a') (fun _ => Res.Le.ite (h d d') (Res.Le.refl _))

theorem vectorEqual_le {f g : Word → Word → Res Bool} (h : ∀ x y, Res.Le (f x y) (g x y)) (xs ys : List Word) :
    Res.Le (vectorEqual f xs ys) (vectorEqual g xs ys) := Res.Le.ite (allEqual_le h xs ys) (Res.Le.refl _)

theorem equalBody_le {f g : Word → Word → Res Bool} (h : ∀ x y, Res.Le (f x y) (g x y)) (c d : Cell) :
    Res.Le (equalBody f c d) (equalBody g c d) := by
  cases c <;> cases d <;> first
    | exact Res.Le.refl _
    | exact pairEqual_le h _ _ _ _
    | exact vectorEqual_le h _ _
    | exact h _ _

theorem equalp_succ (m : Mem) (n : Nat) : ∀ a b, Res.Le (equalp m n a b) (equalp m (n + 1) a b) := by
  induction n with
  | zero => intro a b; exact Or.inl rfl
  | succ n ih =>
    intro a b
    rw [equalp, equalp]
    exact Res.Le.ite (Res.Le.refl _) (equalBody_le ih _ _)

/-- more fuel does not change an outcome -/
theorem equalp_mono (m : Mem) {n k : Nat} (h : n ≤ k) (a b : Word) : Res.Le (equalp m n a b) (equalp m k a b) := by
  induction h with
  | refl => exact Res.Le.refl _
  | step _ ih => exact ih.trans (equalp_succ m _ a b)

theorem allEqual_comm {f : Word → Word → Res Bool} (h : ∀ x y, f x y = f y x) : ∀ (xs ys : List Word),
    allEqual f xs ys = allEqual f ys xs
  | [], [] => rfl
  | [], _ :: _ => rfl
  | _ :: _, [] => rfl
  | x :: xs, y :: ys => by rw [allEqual, allEqual, h x y, allEqual_comm h xs ys]

theorem equalBody_comm {f : Word → Word → Res Bool} (h : ∀ x y, f x y = f y x) (c d : Cell) :
    equalBody f c d = equalBody f d c := by
  cases c <;> cases d <;> simp only [equalBody]
  · rw [Bool.beq_comm]
  · rw [Bool.beq_comm]
  · rw [Bool.beq_comm]
  · rename_i a d a' d'; unfold pairEqual; rw [h a a', h d d']
  · rename_i xs ys; unfold vectorEqual; rw [allEqual_comm h xs ys]
    by_cases hl : xs.length = ys.length
    · rw [if_pos hl, if_pos hl.symm]
    · rw [if_neg hl, if_neg (fun e => hl e.symm)]
  · exact h _ _

/-! ## C17 -/

/-- C17, `eq?`: an equivalence relation in every memory. -/
theorem C17_eq_equivalence (m : Mem) : (∀ a, eq m a a = true) ∧ (∀ a b, eq m a b = true → eq m b a = true) ∧
    (∀ a b c, eq m a b = true → eq m b c = true → eq m a c = true) :=
  ⟨(eq_consistent (kind m)).refl, (eq_consistent (kind m)).symm, (eq_consistent (kind m)).trans⟩

/-- C17, `equal?` is reflexive: on any object, cyclic or not, it answers true at once. -/
theorem C17_equal_refl (m : Mem) (a : Word) (n : Nat) : equalp m (n + 1) a a = .ok true := by simp [equalp]

/-- C17, `equal?` is symmetric: swapping the arguments gives the same outcome, also if it does not terminate. -/
theorem C17_equal_symm (m : Mem) (n : Nat) : ∀ a b, equalp m n a b = equalp m n b a := by
  induction n with
  | zero => intro a b; rfl
  | succ n ih =>
    intro a b
    rw [equalp, equalp, equalBody_comm ih]
    by_cases h : a = b
    · rw [if_pos h, if_pos h.symm]
    · rw [if_neg h, if_neg (fun e => h e.symm)]

theorem Step.trans {f : Word → Word → Res Bool} (h : ∀ x y z, f x y = .ok true → f y z = .ok true → f x z = .ok true)
    {c d e : Cell} (h1 : Step f c d) (h2 : Step f d e) : Step f c e := by
  cases h1 with
  | chr c => exact h2
  | fix v => exact h2
  | str s t hs => cases h2 with | str _ u ht => exact .str _ _ (hs.trans ht)
  | pair _ _ _ _ p1 p2 => cases h2 with | pair _ _ _ _ q1 q2 => exact .pair _ _ _ _ (h _ _ _ p1 q1) (h _ _ _ p2 q2)
  | vec xs ys p1 p2 =>
    cases h2 with
    | vec _ zs q1 q2 =>
      refine .vec _ _ (p1.trans q1) (fun i x z hx hz => ?_)
      have hi : i < ys.length := by rw [← p1]; exact (List.getElem?_eq_some_iff.1 hx).1
      exact h _ _ _ (p2 i x ys[i] hx (List.getElem?_eq_getElem hi)) (q2 i ys[i] z (List.getElem?_eq_getElem hi) hz)
  | box _ _ p => cases h2 with | box _ _ q => exact .box _ _ (h _ _ _ p q)

theorem equalp_trans_same (m : Mem) (n : Nat) : ∀ a b c, equalp m n a b = .ok true → equalp m n b c = .ok true →
    equalp m n a c = .ok true := by
  induction n with
  | zero => intro a b c h; cases h
  | succ n ih =>
    intro a b c h1 h2
    rcases equalp_true.1 h1 with rfl | s1
    · exact h2
    · rcases equalp_true.1 h2 with rfl | s2
      · exact h1
      · exact equalp_true.2 (Or.inr (s1.trans ih s2))

/-- C17, `equal?` is transitive: if two comparisons end with true, so does the third (even on cyclic data). -/
theorem C17_equal_trans (m : Mem) (n k : Nat) (a b c : Word) (h1 : equalp m n a b = .ok true)
    (h2 : equalp m k b c = .ok true) : equalp m (max n k) a c = .ok true :=
  equalp_trans_same m _ a b c ((equalp_mono m (Nat.le_max_left n k) a b).eq_ok h1)
    ((equalp_mono m (Nat.le_max_right n k) b c).eq_ok h2)

/-- C17: `eq?` objects are `equal?`. -/
theorem C17_eq_implies_equal (m : Mem) (n : Nat) (a b : Word) (h : eq m a b = true) : equalp m (n + 1) a b = .ok true := by
  rw [equalp]
  by_cases hab : a = b
  · rw [if_pos hab]
  · rw [if_neg hab]
    unfold eq eqp kind at h
    rw [if_neg hab] at h
    cases ha : m a <;> cases hb : m b <;> rw [ha, hb] at h <;> simp only [Bool.false_eq_true] at h <;>
      simp only [equalBody, h]

/-- an example memory: two copies of the list (1 . #("x" 1)), and a circular pair at 9 -/
def mem0 : Mem := fun a =>
  if a = 1#64 then .pair 2#64 3#64
  else if a = 2#64 then .fix 1#64
  else if a = 3#64 then .vec [4#64, 2#64]
  else if a = 4#64 then .str [120#8]
  else if a = 5#64 then .pair 6#64 7#64
  else if a = 6#64 then .fix 1#64
  else if a = 7#64 then .vec [8#64, 2#64]
  else if a = 8#64 then .str [120#8, 0#8, 5#8]
  else if a = 9#64 then .pair 2#64 9#64
  else if a = 10#64 then .pair 2#64 10#64
  else .other 0

example : equalp mem0 3 1#64 5#64 = .ok true ∧ eq mem0 1#64 5#64 = false ∧ eq mem0 2#64 6#64 = true := by decide

/-! ## C18 -/

/-- finite trees: what an acyclic object looks like to a reader who cannot see addresses of compound data -/
inductive Tree where
  | fix (v : Word)
  | chr (c : Byte)
  | str (s : List Byte)
  | pair (a d : Tree)
  | vec (ts : List Tree)
  | box (t : Tree)
  | atom (addr : Word)

mutual
/-- `a` unfolds to the finite tree `t` (specification) -/
inductive Unfolds (m : Mem) : Word → Tree → Prop
  | fix (a v : Word) : m a = .fix v → Unfolds m a (.fix v)
  | chr (a : Word) (c : Byte) : m a = .chr c → Unfolds m a (.chr c)
  | str (a : Word) (s : List Byte) : m a = .str s → Unfolds m a (.str (cstr s))
  | pair (a x y : Word) (t u : Tree) : m a = .pair x y → Unfolds m x t → Unfolds m y u → Unfolds m a (.pair t u)
  | vec (a : Word) (xs : List Word) (ts : List Tree) : m a = .vec xs → UnfoldsAll m xs ts → Unfolds m a (.vec ts)
  | box (a x : Word) (t : Tree) : m a = .box x → Unfolds m x t → Unfolds m a (.box t)
  | sym (a : Word) (s : List Byte) : m a = .sym s → Unfolds m a (.atom a)
  | table (a : Word) (hp ep : Nat) (es : List (Word × Word)) : m a = .table hp ep es → Unfolds m a (.atom a)
  | other (a : Word) (k : Nat) : m a = .other k → Unfolds m a (.atom a)
/-- element by element -/
inductive UnfoldsAll (m : Mem) : List Word → List Tree → Prop
  | nil : UnfoldsAll m [] []
  | cons (x : Word) (t : Tree) (xs : List Word) (ts : List Tree) : Unfolds m x t → UnfoldsAll m xs ts → UnfoldsAll m (x :: xs) (t :: ts)
end

/-- the objects an object refers to directly, as far as `equal?` follows them (specification) -/
def children : Cell → List Word
  | .pair a d => [a, d]
  | .vec xs => xs
  | .box x => [x]
  | _ => []

/-- no infinite path starts at `a` -/
def Acyclic (m : Mem) (a : Word) : Prop := Acc (fun x y => x ∈ children (m y)) a

theorem unfoldsAll_of (m : Mem) (xs : List Word) (h : ∀ x ∈ xs, ∃ t, Unfolds m x t) : ∃ ts, UnfoldsAll m xs ts := by
  induction xs with
  | nil => exact ⟨[], .nil⟩
  | cons x xs ih =>
    obtain ⟨t, ht⟩ := h x (by simp)
    obtain ⟨ts, hts⟩ := ih (fun y hy => h y (by simp [hy]))
    exact ⟨t :: ts, .cons _ _ _ _ ht hts⟩

/-- acyclic data unfolds to a finite tree -/
theorem acyclic_unfolds (m : Mem) (a : Word) (h : Acyclic m a) : ∃ t, Unfolds m a t := by
  induction h with
  | intro a _ ih =>
    cases hc : m a with
    | fix v => exact ⟨_, .fix _ _ hc⟩
    | chr c => exact ⟨_, .chr _ _ hc⟩
    | str s => exact ⟨_, .str _ _ hc⟩
    | sym s => exact ⟨_, .sym _ _ hc⟩
    | table hp ep es => exact ⟨_, .table _ _ _ _ hc⟩
    | other k => exact ⟨_, .other _ _ hc⟩
    | pair x y =>
      obtain ⟨t, ht⟩ := ih x (by simp [hc, children])
      obtain ⟨u, hu⟩ := ih y (by simp [hc, children])
      exact ⟨_, .pair _ _ _ _ _ hc ht hu⟩
    | vec xs =>
      obtain ⟨ts, hts⟩ := unfoldsAll_of m xs (fun x hx => ih x (by simpa [hc, children] using hx))
      exact ⟨_, .vec _ _ _ hc hts⟩
    | box x =>
      obtain ⟨t, ht⟩ := ih x (by simp [hc, children])
      exact ⟨_, .box _ _ _ hc ht⟩

mutual
/-- height of a tree -/
def Tree.height : Tree → Nat
  | .pair a d => max a.height d.height + 1
  | .vec ts => heights ts + 1
  | .box t => t.height + 1
  | _ => 1
/-- maximal height -/
def heights : List Tree → Nat
  | [] => 0
  | t :: ts => max t.height (heights ts)
end

theorem Unfolds.of_fix {m : Mem} {a : Word} {t : Tree} {v : Word} (h : Unfolds m a t) (hc : m a = .fix v) : t = .fix v := by
  cases h <;> simp_all

theorem unfolds_inv {m : Mem} {a : Word} {t : Tree} (h : Unfolds m a t) :
    match m a with
    | .fix v => t = .fix v
    | .chr c => t = .chr c
    | .str s => t = .str (cstr s)
    | .pair x y => ∃ t1 t2, t = .pair t1 t2 ∧ Unfolds m x t1 ∧ Unfolds m y t2
    | .vec xs => ∃ ts, t = .vec ts ∧ UnfoldsAll m xs ts
    | .box x => ∃ t1, t = .box t1 ∧ Unfolds m x t1
    | _ => t = .atom a := by
  cases h with
  | fix _ _ h => rw [h]
  | chr _ _ h => rw [h]
  | str _ _ h => rw [h]
  | sym _ _ h => rw [h]
  | table _ _ _ _ h => rw [h]
  | other _ _ h => rw [h]
  | pair _ _ _ t u h h1 h2 => rw [h]; exact ⟨t, u, rfl, h1, h2⟩
  | vec _ _ ts h h1 => rw [h]; exact ⟨ts, rfl, h1⟩
  | box _ _ t h h1 => rw [h]; exact ⟨t, rfl, h1⟩

mutual
/-- an object unfolds to one tree only -/
theorem unfolds_unique {m : Mem} {a : Word} {t u : Tree} : Unfolds m a t → Unfolds m a u → t = u
  | .fix _ _ h, h2 => by have := unfolds_inv h2; rw [h] at this; exact this.symm
  | .chr _ _ h, h2 => by have := unfolds_inv h2; rw [h] at this; exact this.symm
  | .str _ _ h, h2 => by have := unfolds_inv h2; rw [h] at this; exact this.symm
  | .sym _ _ h, h2 => by have := unfolds_inv h2; rw [h] at this; exact this.symm
  | .table _ _ _ _ h, h2 => by have := unfolds_inv h2; rw [h] at this; exact this.symm
  | .other _ _ h, h2 => by have := unfolds_inv h2; rw [h] at this; exact this.symm
  | .pair _ _ _ _ _ h p1 p2, h2 => by
    have := unfolds_inv h2; rw [h] at this
    obtain ⟨t1, t2, rfl, q1, q2⟩ := this
    rw [unfolds_unique p1 q1, unfolds_unique p2 q2]
  | .vec _ _ _ h p, h2 => by
    have := unfolds_inv h2; rw [h] at this
    obtain ⟨ts, rfl, q⟩ := this
    rw [unfoldsAll_unique p q]
  | .box _ _ _ h p, h2 => by
    have := unfolds_inv h2; rw [h] at this
    obtain ⟨t1, rfl, q⟩ := this
    rw [unfolds_unique p q]
theorem unfoldsAll_unique {m : Mem} {xs : List Word} {ts us : List Tree} : UnfoldsAll m xs ts → UnfoldsAll m xs us → ts = us
  | .nil, .nil => rfl
  | .cons _ _ _ _ p ps, .cons _ _ _ _ q qs => by rw [unfolds_unique p q, unfoldsAll_unique ps qs]
end

theorem unfoldsAll_length {m : Mem} {xs : List Word} {ts : List Tree} (h : UnfoldsAll m xs ts) : xs.length = ts.length := by
  induction xs generalizing ts with
  | nil => cases h; rfl
  | cons x xs ih => cases h with | cons _ _ _ _ _ h => simp [ih h]

/-- the answer of the comparison is the equality of the trees -/
def Decides (o : Res Bool) (p : Prop) : Prop := ∃ r, o = .ok r ∧ (r = true ↔ p)

theorem Decides.and {f : Word → Word → Res Bool} {a d a' d' : Word} {p q : Prop} (h1 : Decides (f a a') p)
    (h2 : Decides (f d d') q) : Decides (pairEqual f a d a' d') (p ∧ q) := by
  obtain ⟨r, hr, hp⟩ := h1
  obtain ⟨s, hs, hq⟩ := h2
  unfold pairEqual
  rw [hr]
  cases r with
  | true => exact ⟨s, by simp [hs], by simp [← hp, hq]⟩
  | false => exact ⟨false, by simp, by simp [← hp]⟩

theorem equal_fix {m : Mem} {n : Nat} {a b : Word} {t u : Tree} (hab : a ≠ b) (ha : Unfolds m a t) (hb : Unfolds m b u)
    (hleaf : match m a with | .pair _ _ => False | .vec _ => False | .box _ => False | _ => True) :
    Decides (equalp m (n + 1) a b) (t = u) := by
  rw [equalp, if_neg hab]
  have h1 := unfolds_inv ha
  have h2 := unfolds_inv hb
  cases hca : m a <;> rw [hca] at h1 hleaf <;> simp only at hleaf h1 <;> cases hcb : m b <;> rw [hcb] at h2 <;> simp only at h2 <;>
    simp only [equalBody]
  all_goals first
    | (subst h1; subst h2; exact ⟨_, rfl, by simp [hab]⟩)
    | (subst h1; obtain ⟨_, rfl, _⟩ := h2; exact ⟨_, rfl, by simp⟩)
    | (subst h1; obtain ⟨_, _, rfl, _⟩ := h2; exact ⟨_, rfl, by simp⟩)

mutual
theorem decide_equal {m : Mem} {n : Nat} : ∀ {a b : Word} {t u : Tree}, Unfolds m a t → Unfolds m b u → t.height ≤ n →
    Decides (equalp m n a b) (t = u)
  | a, b, t, u, ha, hb, hn => by
    cases n with
    | zero => cases t <;> simp [Tree.height] at hn
    | succ n =>
      by_cases hab : a = b
      · subst hab
        exact ⟨true, by simp [equalp], by simp [unfolds_unique ha hb]⟩
      · have h1 := unfolds_inv ha
        have h2 := unfolds_inv hb
        cases hca : m a with
        | pair x y =>
          rw [hca] at h1
          obtain ⟨t1, t2, rfl, p1, p2⟩ := h1
          simp only [Tree.height] at hn
          rw [equalp, if_neg hab, hca]
          cases hcb : m b <;> rw [hcb] at h2 <;> simp only at h2 <;> simp only [equalBody]
          case pair x' y' =>
            obtain ⟨u1, u2, rfl, q1, q2⟩ := h2
            have := Decides.and (f := equalp m n) (decide_equal p1 q1 (by omega)) (decide_equal p2 q2 (by omega))
            simpa using this
          all_goals first
            | (subst h2; exact ⟨false, rfl, by simp⟩)
            | (obtain ⟨_, rfl, _⟩ := h2; exact ⟨false, rfl, by simp⟩)
        | vec xs =>
          rw [hca] at h1
          obtain ⟨ts, rfl, p⟩ := h1
          simp only [Tree.height] at hn
          rw [equalp, if_neg hab, hca]
          cases hcb : m b <;> rw [hcb] at h2 <;> simp only at h2 <;> simp only [equalBody]
          case vec ys =>
            obtain ⟨us, rfl, q⟩ := h2
            unfold vectorEqual
            by_cases hl : xs.length = ys.length
            · rw [if_pos hl]
              have := decide_all (n := n) p q hl (by omega)
              simpa using this
            · rw [if_neg hl]
              refine ⟨false, rfl, ?_⟩
              have := unfoldsAll_length p
              have := unfoldsAll_length q
              simp only [Bool.false_eq_true, Tree.vec.injEq, false_iff]
              rintro rfl; omega
          all_goals first
            | (subst h2; exact ⟨false, rfl, by simp⟩)
            | (obtain ⟨_, rfl, _⟩ := h2; exact ⟨false, rfl, by simp⟩)
            | (obtain ⟨_, _, rfl, _⟩ := h2; exact ⟨false, rfl, by simp⟩)
        | box x =>
          rw [hca] at h1
          obtain ⟨t1, rfl, p⟩ := h1
          simp only [Tree.height] at hn
          rw [equalp, if_neg hab, hca]
          cases hcb : m b <;> rw [hcb] at h2 <;> simp only at h2 <;> simp only [equalBody]
          case box y =>
            obtain ⟨u1, rfl, q⟩ := h2
            have := decide_equal (n := n) p q (by omega)
            simpa using this
          all_goals first
            | (subst h2; exact ⟨false, rfl, by simp⟩)
            | (obtain ⟨_, rfl, _⟩ := h2; exact ⟨false, rfl, by simp⟩)
            | (obtain ⟨_, _, rfl, _⟩ := h2; exact ⟨false, rfl, by simp⟩)
        | _ => exact equal_fix hab ha hb (by rw [hca]; trivial)
termination_by _ _ _ _ => (n, 1, 0)
theorem decide_all {m : Mem} {n : Nat} : ∀ {xs ys : List Word} {ts us : List Tree}, UnfoldsAll m xs ts → UnfoldsAll m ys us →
    xs.length = ys.length → heights ts ≤ n → Decides (allEqual (equalp m n) xs ys) (ts = us)
  | [], [], ts, us, p, q, _, _ => by cases p; cases q; exact ⟨true, rfl, by simp⟩
  | x :: xs, y :: ys, ts, us, p, q, hl, hn => by
    cases p with
    | cons _ t _ ts p ps =>
    cases q with
    | cons _ u _ us q qs =>
    simp only [heights] at hn
    obtain ⟨r, hr, h1⟩ := decide_equal (n := n) p q (by omega)
    obtain ⟨s, hs, h2⟩ := decide_all (n := n) ps qs (by simpa using hl) (by omega)
    rw [allEqual, hr]
    cases r with
    | true => exact ⟨s, by simp [hs], by simp [← h1, h2]⟩
    | false => exact ⟨false, by simp, by simp [← h1]⟩
  | [], _ :: _, _, _, _, _, hl, _ => by simp at hl
  | _ :: _, [], _, _, _, _, hl, _ => by simp at hl
termination_by xs => (n, 2, xs.length)
end

/-- C18: on acyclic data the native `equal?` returns, and answers true exactly when both objects unfold to the same
tree. -/
theorem C18_decides_tree_equality (m : Mem) (a b : Word) (ha : Acyclic m a) (hb : Acyclic m b) :
    ∃ t u, Unfolds m a t ∧ Unfolds m b u ∧ ∀ n, t.height ≤ n → ∃ r, equalp m n a b = .ok r ∧ (r = true ↔ t = u) := by
  obtain ⟨t, ht⟩ := acyclic_unfolds m a ha
  obtain ⟨u, hu⟩ := acyclic_unfolds m b hb
  exact ⟨t, u, ht, hu, fun n hn => decide_equal ht hu hn⟩

theorem leaf_acyclic {m : Mem} {a : Word} (h : children (m a) = []) : Acyclic m a :=
  ⟨a, fun y hy => by rw [h] at hy; cases hy⟩

theorem node_acyclic {m : Mem} {a : Word} (h : ∀ x ∈ children (m a), Acyclic m x) : Acyclic m a := ⟨a, h⟩

example : Acyclic mem0 1#64 ∧ Acyclic mem0 5#64 := by
  have l2 : Acyclic mem0 2#64 := leaf_acyclic (by decide)
  have l4 : Acyclic mem0 4#64 := leaf_acyclic (by decide)
  have l6 : Acyclic mem0 6#64 := leaf_acyclic (by decide)
  have l8 : Acyclic mem0 8#64 := leaf_acyclic (by decide)
  have e1 : children (mem0 1#64) = [2#64, 3#64] := by decide
  have e3 : children (mem0 3#64) = [4#64, 2#64] := by decide
  have e5 : children (mem0 5#64) = [6#64, 7#64] := by decide
  have e7 : children (mem0 7#64) = [8#64, 2#64] := by decide
  have l3 : Acyclic mem0 3#64 := node_acyclic (by rw [e3]; simp [l4, l2])
  have l7 : Acyclic mem0 7#64 := node_acyclic (by rw [e7]; simp [l8, l2])
  exact ⟨node_acyclic (by rw [e1]; simp [l2, l3]), node_acyclic (by rw [e5]; simp [l6, l7])⟩

/-- the restriction to acyclic data is needed: comparing two circular lists does not end -/
theorem C18_cyclic_diverges (n : Nat) : equalp mem0 n 9#64 10#64 = .oof := by
  induction n with
  | zero => rfl
  | succ n ih =>
    have e9 : mem0 9#64 = .pair 2#64 9#64 := by decide
    have e10 : mem0 10#64 = .pair 2#64 10#64 := by decide
    rw [equalp, if_neg (by decide), e9, e10]
    simp only [equalBody, pairEqual, ih]
    cases n with
    | zero => rfl
    | succ n => rw [C17_equal_refl]; rfl

end Minim.Equal
