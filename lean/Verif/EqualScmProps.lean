import Verif.EqualProps
import Mathlib.Data.Fintype.EquivFin

set_option autoImplicit false
set_option linter.unusedSectionVars false

/-! # Properties of the Scheme procedures `equal?` and `equal-hash` (C19, C20) -/

namespace Minim.Equal

open Minim.Hash

/-- `eq?` objects have the same contents -/
theorem eq_cell {m : Mem} {a b : Word} (h : eq m a b = true) : m a = m b := by
  unfold eq eqp kind at h
  by_cases hab : a = b
  · rw [hab]
  · rw [if_neg hab] at h
    cases ha : m a <;> cases hb : m b <;> rw [ha, hb] at h <;> simp_all

/-- every entry of `es` has a counterpart in `fs` -/
def Covered (same : Word → Word → Bool) (f : Word → Word → Res Bool) (es fs : List (Word × Word)) : Prop :=
  ∀ p ∈ es, ∃ e, fs.find? (fun e => same e.1 p.1) = some e ∧ f p.2 e.2 = .ok true

theorem subTable_true {same : Word → Word → Bool} {f : Word → Word → Res Bool} {fs : List (Word × Word)} :
    ∀ {es : List (Word × Word)}, subTable same f es fs = .ok true ↔ Covered same f es fs
  | [] => by simp [subTable, Covered]
  | (k, v) :: es => by
    have ih := subTable_true (same := same) (f := f) (fs := fs) (es := es)
    unfold Covered at ih ⊢
    rw [subTable]
    simp only [List.forall_mem_cons]
    cases hf : fs.find? (fun e => same e.1 k) with
    | none => simp
    | some e =>
      cases hv : f v e.2 with
      | ok r => cases r <;> simp [hv, ih]
      | _ => simp [hv]

/-- when the Scheme comparison of objects that are not `eq?` answers true -/
inductive StepS (same : Nat → Word → Word → Bool) (f : Word → Word → Res Bool) : Cell → Cell → Prop
  | str (s t : List Byte) : cstr s = cstr t → StepS same f (.str s) (.str t)
  | pair (a d a' d' : Word) : f a a' = .ok true → f d d' = .ok true → StepS same f (.pair a d) (.pair a' d')
  | vec (xs ys : List Word) : xs.length = ys.length →
      (∀ (i : Nat) (x y : Word), xs[i]? = some x → ys[i]? = some y → f x y = .ok true) → StepS same f (.vec xs) (.vec ys)
  | box (x y : Word) : f x y = .ok true → StepS same f (.box x) (.box y)
  | table (hp ep : Nat) (es fs : List (Word × Word)) : Covered (same ep) f es fs →
      StepS same f (.table hp ep es) (.table hp ep fs)

theorem equalS_true {m : Mem} {same : Nat → Word → Word → Bool} {n : Nat} {a b : Word} :
    equalS m same (n + 1) a b = .ok true ↔ eq m a b = true ∨ StepS same (equalS m same n) (m a) (m b) := by
  rw [equalS]
  cases he : eq m a b with
  | true => simp
  | false =>
    have hab : a ≠ b := by rintro rfl; rw [(C17_eq_equivalence m).1 a] at he; cases he
    have hb : equalp m 1 a b = equalBody (equalp m 0) (m a) (m b) := by rw [equalp, if_neg hab]
    have hleaf : ∀ v, ¬ (m a = .fix v ∧ m b = .fix v) := by
      rintro v ⟨h1, h2⟩; simp [eq, eqp, kind, h1, h2, hab] at he
    have hleaf' : ∀ v, ¬ (m a = .chr v ∧ m b = .chr v) := by
      rintro v ⟨h1, h2⟩; simp [eq, eqp, kind, h1, h2, hab] at he
    simp only [Bool.false_eq_true, if_false, false_or]
    constructor
    · intro h
      cases ha : m a <;> cases hb' : m b <;> rw [ha, hb'] at h hb <;>
        simp only [schemeBody, hb, equalBody, Res.ok.injEq, beq_iff_eq, Bool.false_eq_true, pairEqual_true, vectorEqual_true] at h
      · subst h; exact absurd ⟨ha, hb'⟩ (hleaf _)
      · subst h; exact absurd ⟨ha, hb'⟩ (hleaf' _)
      · exact .str _ _ h
      · exact .pair _ _ _ _ h.1 h.2
      · exact .vec _ _ h.1 h.2
      · exact .box _ _ h
      · unfold tableEqual at h
        split at h
        · rename_i h1
          split at h
          · rename_i h2
            subst h1; subst h2
            exact .table _ _ _ _ (subTable_true.1 h)
          · cases h
        · cases h
    · intro h
      generalize m a = c at h hb
      generalize m b = d at h hb
      cases h with
      | str s t h => simp [schemeBody, hb, equalBody, h]
      | pair _ _ _ _ h1 h2 => exact pairEqual_true.2 ⟨h1, h2⟩
      | vec _ _ h1 h2 => exact vectorEqual_true.2 ⟨h1, h2⟩
      | box _ _ h => exact h
      | table hp ep es fs h => simp only [schemeBody, tableEqual, if_true]; exact subTable_true.2 h

theorem subTable_le {same : Word → Word → Bool} {f g : Word → Word → Res Bool} (h : ∀ x y, Res.Le (f x y) (g x y))
    (fs : List (Word × Word)) : ∀ es, Res.Le (subTable same f es fs) (subTable same g es fs)
  | [] => Res.Le.refl _
  | (k, v) :: es => by
    rw [subTable, subTable]
    cases fs.find? (fun e => same e.1 k) with
    | none => exact Res.Le.refl _
    | some e => exact Res.Le.bind (h _ _) (fun _ => Res.Le.ite (subTable_le h fs es) (Res.Le.refl _))

theorem schemeBody_le {same : Nat → Word → Word → Bool} {f g base : Word → Word → Res Bool}
    (h : ∀ x y, Res.Le (f x y) (g x y)) (a b : Word) (c d : Cell) :
    Res.Le (schemeBody same f base a b c d) (schemeBody same g base a b c d) := by
  cases c <;> cases d <;> first
    | exact Res.Le.refl _
    | exact pairEqual_le h _ _ _ _
    | exact vectorEqual_le h _ _
    | exact h _ _
    | exact Res.Le.ite (Res.Le.ite (subTable_le h _ _) (Res.Le.refl _)) (Res.Le.refl _)

theorem equalS_mono (m : Mem) (same : Nat → Word → Word → Bool) {n k : Nat} (h : n ≤ k) (a b : Word) :
    Res.Le (equalS m same n a b) (equalS m same k a b) := by
  have hs : ∀ n a b, Res.Le (equalS m same n a b) (equalS m same (n + 1) a b) := by
    intro n
    induction n with
    | zero => intro a b; exact Or.inl rfl
    | succ n ih =>
      intro a b
      rw [equalS, equalS]
      exact Res.Le.ite (Res.Le.refl _) (schemeBody_le ih _ _ _ _)
  induction h with
  | refl => exact Res.Le.refl _
  | step _ ih => exact ih.trans (hs _ a b)

/-! ## C19 -/

/-- the key predicate of every table is an equivalence -/
structure GoodSame (same : Nat → Word → Word → Bool) : Prop where
  refl : ∀ ep k, same ep k k = true
  symm : ∀ ep k l, same ep k l = true → same ep l k = true
  trans : ∀ ep k l j, same ep k l = true → same ep l j = true → same ep k j = true

theorem GoodSame.swap {same : Nat → Word → Word → Bool} (g : GoodSame same) {ep : Nat} {k l : Word} (h : same ep k l = true)
    (x : Word) : same ep x k = same ep x l := by
  rw [Bool.eq_iff_iff]
  exact ⟨fun h1 => g.trans _ _ _ _ h1 h, fun h1 => g.trans _ _ _ _ h1 (g.symm _ _ _ h)⟩

/-- C19: `equal?` is reflexive. -/
theorem C19_refl_partial (m : Mem) (same : Nat → Word → Word → Bool) (a : Word) (n : Nat) :
    equalS m same (n + 1) a a = .ok true := by
  rw [equalS, (C17_eq_equivalence m).1 a, if_pos rfl]

theorem StepS.trans {same : Nat → Word → Word → Bool} (g : GoodSame same) {f : Word → Word → Res Bool}
    (h : ∀ x y z, f x y = .ok true → f y z = .ok true → f x z = .ok true)
    {c d e : Cell} (h1 : StepS same f c d) (h2 : StepS same f d e) : StepS same f c e := by
  cases h1 with
  | str s t hs => cases h2 with | str _ u ht => exact .str _ _ (hs.trans ht)
  | pair _ _ _ _ p1 p2 => cases h2 with | pair _ _ _ _ q1 q2 => exact .pair _ _ _ _ (h _ _ _ p1 q1) (h _ _ _ p2 q2)
  | vec xs ys p1 p2 =>
    cases h2 with
    | vec _ zs q1 q2 =>
      refine .vec _ _ (p1.trans q1) (fun i x z hx hz => ?_)
      have hi : i < ys.length := by rw [← p1]; exact (List.getElem?_eq_some_iff.1 hx).1
      exact h _ _ _ (p2 i x ys[i] hx (List.getElem?_eq_getElem hi)) (q2 i ys[i] z (List.getElem?_eq_getElem hi) hz)
  | box _ _ p => cases h2 with | box _ _ q => exact .box _ _ (h _ _ _ p q)
  | table hp ep es fs p =>
    cases h2 with
    | table _ _ _ gs q =>
      refine .table _ _ _ _ (fun x hx => ?_)
      obtain ⟨e, he, hv⟩ := p x hx
      obtain ⟨e', he', hv'⟩ := q e (List.mem_of_find?_eq_some he)
      have hk : same ep e.1 x.1 = true := by simpa using List.find?_some he
      refine ⟨e', ?_, h _ _ _ hv hv'⟩
      rw [← he']
      congr 1
      funext y
      exact (g.swap hk y.1).symm

/-- C19: `equal?` is transitive, hashtables included. -/
theorem C19_trans_partial (m : Mem) (same : Nat → Word → Word → Bool) (g : GoodSame same) (n k : Nat) (a b c : Word)
    (h1 : equalS m same n a b = .ok true) (h2 : equalS m same k b c = .ok true) :
    equalS m same (max n k) a c = .ok true := by
  have key : ∀ n a b c, equalS m same n a b = .ok true → equalS m same n b c = .ok true → equalS m same n a c = .ok true := by
    intro n
    induction n with
    | zero => intro a b c h; cases h
    | succ n ih =>
      intro a b c h1 h2
      rcases equalS_true.1 h1 with e1 | s1
      · rcases equalS_true.1 h2 with e2 | s2
        · exact equalS_true.2 (Or.inl ((C17_eq_equivalence m).2.2 _ _ _ e1 e2))
        · exact equalS_true.2 (Or.inr (eq_cell e1 ▸ s2))
      · rcases equalS_true.1 h2 with e2 | s2
        · exact equalS_true.2 (Or.inr (eq_cell e2 ▸ s1))
        · exact equalS_true.2 (Or.inr (s1.trans g ih s2))
  exact key _ a b c ((equalS_mono m same (Nat.le_max_left n k) a b).eq_ok h1)
    ((equalS_mono m same (Nat.le_max_right n k) b c).eq_ok h2)

/-- C19: `eq?` objects are `equal?`. -/
theorem C19_eq_implies_equal_partial (m : Mem) (same : Nat → Word → Word → Bool) (n : Nat) (a b : Word)
    (h : eq m a b = true) : equalS m same (n + 1) a b = .ok true := equalS_true.2 (Or.inl h)

/-- keys are the same when `eq?` holds, for the example memory below -/
def sameEq (m : Mem) (_ : Nat) (a b : Word) : Bool := eq m a b

theorem sameEq_good (m : Mem) : GoodSame (sameEq m) where
  refl _ k := (C17_eq_equivalence m).1 k
  symm _ k l := (C17_eq_equivalence m).2.1 k l
  trans _ k l j := (C17_eq_equivalence m).2.2 k l j

/-- an empty table, the tables {1 -> 2} and {1 -> "x"}, {1 -> "x"} -/
def mem1 : Mem := fun a =>
  if a = 1#64 then .table 0 0 []
  else if a = 2#64 then .table 0 0 [(3#64, 4#64)]
  else if a = 3#64 then .fix 1#64
  else if a = 4#64 then .fix 2#64
  else if a = 5#64 then .table 0 0 [(3#64, 6#64)]
  else if a = 6#64 then .str [120#8]
  else if a = 7#64 then .table 0 0 [(8#64, 9#64)]
  else if a = 8#64 then .fix 1#64
  else if a = 9#64 then .str [120#8]
  else .other 0

/-- C19 fails: `equal?` is not symmetric.  An empty hashtable is `equal?` to any hashtable with the same procedures, but
not the other way round. -/
theorem C19_symmetry_fails : ∃ (m : Mem) (a b : Word), equalS m (sameEq m) 2 a b = .ok true ∧
    ∀ n, equalS m (sameEq m) (n + 1) b a = .ok false := by
  refine ⟨mem1, 1#64, 2#64, by decide, fun n => ?_⟩
  have h1 : mem1 1#64 = .table 0 0 [] := by decide
  have h2 : mem1 2#64 = .table 0 0 [(3#64, 4#64)] := by decide
  have he : eq mem1 2#64 1#64 = false := by decide
  rw [equalS, he, h1, h2]
  rfl

/-- the tables of a memory have pairwise different keys -/
def UniqueKeys (m : Mem) (same : Nat → Word → Word → Bool) : Prop :=
  ∀ a hp ep es, m a = .table hp ep es → es.Pairwise (fun e e' => same ep e.1 e'.1 = false)

/-- whenever two tables are found equal, they have the same number of entries (the test the code omits) -/
def SameCount (m : Mem) (same : Nat → Word → Word → Bool) : Prop :=
  ∀ n a b hp ep es fs, m a = .table hp ep es → m b = .table hp ep fs → equalS m same n a b = .ok true →
    es.length = fs.length

theorem unique_index {p : Word → Word → Bool} (symm : ∀ k l, p k l = true → p l k = true) {es : List (Word × Word)}
    (hu : es.Pairwise (fun e e' => p e.1 e'.1 = false)) {i j : Nat} (hi : i < es.length) (hj : j < es.length)
    (h : p es[i].1 es[j].1 = true) : i = j := by
  rw [List.pairwise_iff_getElem] at hu
  rcases Nat.lt_trichotomy i j with hlt | heq | hlt
  · rw [hu i j hi hj hlt] at h; cases h
  · exact heq
  · have := hu j i hj hi hlt; rw [symm _ _ h] at this; cases this

theorem covered_symm {same : Nat → Word → Word → Bool} (g : GoodSame same) {ep : Nat} {f : Word → Word → Res Bool}
    (hf : ∀ x y, f x y = .ok true → f y x = .ok true) {es fs : List (Word × Word)} (hl : es.length = fs.length)
    (hu : es.Pairwise (fun e e' => same ep e.1 e'.1 = false))
    (h : Covered (same ep) f es fs) : Covered (same ep) f fs es := by
  have hx : ∀ i : Fin es.length, ∃ j : Fin fs.length, same ep fs[j].1 es[i].1 = true ∧ f es[i].2 fs[j].2 = .ok true := by
    intro i
    obtain ⟨e, he, hv⟩ := h es[i] (List.getElem_mem _)
    obtain ⟨j, hj, hje⟩ := List.getElem_of_mem (List.mem_of_find?_eq_some he)
    have hk : same ep e.1 es[i].1 = true := by simpa using List.find?_some he
    exact ⟨⟨j, hj⟩, by simp only [Fin.getElem_fin, hje]; exact hk, by simp only [Fin.getElem_fin, hje]; exact hv⟩
  choose t ht using hx
  have hinj : Function.Injective t := by
    intro i i' hii
    apply Fin.ext
    refine unique_index (g.symm ep) hu i.2 i'.2 ?_
    have h1 := (ht i).1
    have h2 := (ht i').1
    rw [← hii] at h2
    exact g.trans _ _ _ _ (g.symm _ _ _ h1) h2
  have hsur := ((Fintype.bijective_iff_injective_and_card t).2 ⟨hinj, by simp [hl]⟩).2
  intro p hp
  obtain ⟨j, hj, rfl⟩ := List.getElem_of_mem hp
  obtain ⟨i, hi⟩ := hsur ⟨j, hj⟩
  obtain ⟨hk, hv⟩ := ht i
  rw [hi] at hk hv
  simp only [Fin.getElem_fin] at hk hv
  cases hfind : es.find? (fun e => same ep e.1 fs[j].1) with
  | none =>
    have := List.find?_eq_none.1 hfind es[i] (List.getElem_mem _)
    exact absurd (g.symm _ _ _ hk) (by simpa using this)
  | some e =>
    refine ⟨e, rfl, ?_⟩
    obtain ⟨i', hi', hie⟩ := List.getElem_of_mem (List.mem_of_find?_eq_some hfind)
    have hk' : same ep e.1 fs[j].1 = true := by simpa using List.find?_some hfind
    have : i' = i := unique_index (g.symm ep) hu hi' i.2 (by rw [hie]; exact g.trans _ _ _ _ hk' hk)
    subst this
    rw [← hie]
    exact hf _ _ hv

/-- C19: `equal?` is symmetric if tables found equal have the same number of entries.  Missing: the hypothesis
`SameCount`, without which it is false (`C19_symmetry_fails`). -/
theorem C19_symm_partial (m : Mem) (same : Nat → Word → Word → Bool) (g : GoodSame same) (hu : UniqueKeys m same)
    (hc : SameCount m same) (n : Nat) : ∀ a b, equalS m same n a b = .ok true → equalS m same n b a = .ok true := by
  induction n with
  | zero => intro a b h; cases h
  | succ n ih =>
    intro a b h
    rcases equalS_true.1 h with e | s
    · exact equalS_true.2 (Or.inl ((C17_eq_equivalence m).2.1 _ _ e))
    · refine equalS_true.2 (Or.inr ?_)
      cases ha : m a <;> cases hb : m b <;> rw [ha, hb] at s
      case table.table hp ep es hp' ep' fs =>
        cases s with
        | table _ _ _ _ p =>
          exact .table _ _ _ _ (covered_symm g ih (hc _ a b _ _ _ _ ha hb h) (hu a _ _ _ ha) p)
      all_goals cases s
      · rename_i hs; exact .str _ _ hs.symm
      · rename_i h1 h2; exact .pair _ _ _ _ (ih _ _ h1) (ih _ _ h2)
      · rename_i h1 h2; exact .vec _ _ h1.symm (fun i x y hx hy => ih _ _ (h2 i y x hy hx))
      · rename_i h1; exact .box _ _ (ih _ _ h1)

/-- C19: without hashtables `equal?` is symmetric. -/
theorem C19_symm_no_tables_partial (m : Mem) (same : Nat → Word → Word → Bool) (g : GoodSame same)
    (ht : ∀ a hp ep es, m a ≠ .table hp ep es) (n : Nat) (a b : Word) (h : equalS m same n a b = .ok true) :
    equalS m same n b a = .ok true :=
  C19_symm_partial m same g (fun a hp ep es h => absurd h (ht a hp ep es))
    (fun _ a _ hp ep es _ h => absurd h (ht a hp ep es)) n a b h

/-- a memory with two equal tables of one entry satisfies all hypotheses of `C19_symm_partial` -/
def mem2 : Mem := fun a => if a = 1#64 then .other 1 else if a = 2#64 then .other 2 else mem1 a

example : GoodSame (sameEq mem2) ∧ UniqueKeys mem2 (sameEq mem2) ∧ SameCount mem2 (sameEq mem2) ∧
    equalS mem2 (sameEq mem2) 2 5#64 7#64 = .ok true ∧ eq mem2 5#64 7#64 = false := by
  have tab : ∀ a hp ep es, mem2 a = .table hp ep es → es.length = 1 := by
    intro a hp ep es h
    unfold mem2 mem1 at h
    split_ifs at h <;> simp_all
    · rw [← h.2.2]; rfl
    · rw [← h.2.2]; rfl
  refine ⟨sameEq_good _, ?_, ?_, by decide, by decide⟩
  · intro a hp ep es h
    have := tab a hp ep es h
    match es, this with
    | [e], _ => simp
  · intro n a b hp ep es fs h1 h2 _
    rw [tab a _ _ _ h1, tab b _ _ _ h2]

example : equalS mem0 (sameEq mem0) 3 1#64 5#64 = .ok true ∧ (∀ a hp ep es, mem0 a ≠ .table hp ep es) := by
  refine ⟨by decide, ?_⟩
  intro a hp ep es h
  unfold mem0 at h
  split_ifs at h

/-! ## C20 -/

theorem hashAll_congr {f : Word → Int → Res Int} : ∀ {xs ys : List Word}, xs.length = ys.length →
    (∀ (i : Nat) (x y : Word), xs[i]? = some x → ys[i]? = some y → ∀ hc, f x hc = f y hc) →
    ∀ hc, hashAll f xs hc = hashAll f ys hc
  | [], [], _, _, _ => rfl
  | x :: xs, y :: ys, hl, h, hc => by
    rw [hashAll, hashAll, h 0 x y rfl rfl hc]
    have ih := hashAll_congr (f := f) (xs := xs) (ys := ys) (by simpa using hl)
      (fun i x y hx hy => h (i + 1) x y (by simpa using hx) (by simpa using hy))
    simp only [ih]
  | [], _ :: _, hl, _, _ => by simp at hl
  | _ :: _, [], hl, _, _ => by simp at hl

/-- C20, `eq?`: objects that are `eq?` have the same `eq-hash`. -/
theorem C20_eq_hash (m : Mem) (a b : Word) (h : eq m a b = true) : hashEq m a = hashEq m b :=
  (eq_consistent (kind m)).hash a b h

/-- C20: objects that are `equal?` have the same `equal-hash`: the computations have the same outcome from every
starting value. -/
theorem C20_equal_hash (m : Mem) (same : Nat → Word → Word → Bool) (k : Nat) : ∀ (n : Nat) (a b : Word) (hc : Int),
    equalS m same n a b = .ok true → equalHash m k a hc = equalHash m k b hc := by
  induction k with
  | zero => intros; rfl
  | succ k ih =>
    intro n a b hc h
    cases n with
    | zero => cases h
    | succ n =>
      rcases equalS_true.1 h with e | s
      · have hm := eq_cell e
        have hh := C20_eq_hash m a b e
        rw [equalHash, equalHash, hm, hh]
      · rw [equalHash, equalHash]
        generalize m a = c at s
        generalize m b = d at s
        cases s with
        | str s t h => simp only [textHash, h]
        | pair _ _ _ _ h1 h2 =>
          simp only [ih n _ _ hc h1]
          congr 1
          funext x
          exact ih n _ _ x h2
        | vec xs ys h1 h2 => exact hashAll_congr h1 (fun i x y hx hy hc => ih n _ _ hc (h2 i x y hx hy)) hc
        | box x y h => simp only [ih n _ _ _ h]
        | table => rfl

example : equalS mem0 (sameEq mem0) 3 1#64 5#64 = .ok true ∧ hashEq mem0 1#64 ≠ hashEq mem0 5#64 ∧
    equalHash mem0 3 5#64 523658599 ≠ .oof ∧ equalHash mem0 3 5#64 523658599 ≠ .err ∧
    equalHash mem0 3 5#64 523658599 ≠ .ub := by decide

/-- C20 is void for hashtables: `equal-hash` of a hashtable always is an error (`hashtable->list` is unbound). -/
theorem C20_negated_table_hash (m : Mem) (a : Word) (hp ep : Nat) (es : List (Word × Word)) (h : m a = .table hp ep es)
    (n : Nat) (hc : Int) : equalHash m (n + 1) a hc = .err := by rw [equalHash, h]

example : equalS mem1 (sameEq mem1) 2 5#64 7#64 = .ok true ∧ equalHash mem1 1 5#64 523658599 = .err := by decide

/-- C20: a comparison that answers true for the native `$equal?` also does for `equal?`, so the hashes agree again. -/
theorem equalp_equalS (m : Mem) (same : Nat → Word → Word → Bool) (n : Nat) : ∀ a b, equalp m n a b = .ok true →
    equalS m same n a b = .ok true := by
  induction n with
  | zero => intro a b h; cases h
  | succ n ih =>
    intro a b h
    apply equalS_true.2
    by_cases he : eq m a b = true
    · exact Or.inl he
    · right
      rcases equalp_true.1 h with rfl | s
      · exact absurd ((C17_eq_equivalence m).1 a) he
      · have hab : a ≠ b := by rintro rfl; exact he ((C17_eq_equivalence m).1 a)
        cases ha : m a <;> cases hb : m b <;> rw [ha, hb] at s <;> cases s
        · exact absurd (by simp [eq, eqp, kind, ha, hb, hab]) he
        · exact absurd (by simp [eq, eqp, kind, ha, hb, hab]) he
        · exact .str _ _ (by assumption)
        · exact .pair _ _ _ _ (ih _ _ (by assumption)) (ih _ _ (by assumption))
        · rename_i h1 h2; exact .vec _ _ h1 (fun i x y hx hy => ih _ _ (h2 i x y hx hy))
        · exact .box _ _ (ih _ _ (by assumption))

/-- C20 for the native comparison -/
theorem C20_native_equal_hash (m : Mem) (k n : Nat) (a b : Word) (hc : Int) (h : equalp m n a b = .ok true) :
    equalHash m k a hc = equalHash m k b hc :=
  C20_equal_hash m (fun _ _ _ => true) k n a b hc (equalp_equalS m _ n a b h)

open Classical in
/-- `equal?` (prelude.min:1866-1897) as a predicate: some amount of fuel gives true -/
noncomputable def equalPred (m : Mem) (same : Nat → Word → Word → Bool) (a b : Word) : Bool :=
  decide (∃ n, equalS m same n a b = .ok true)

open Classical in
/-- the value a fuelled computation ends with (0 if it has none) -/
noncomputable def pick (o : Nat → Res Int) : Word :=
  if h : ∃ r : Int, ∃ n, o n = .ok r then BitVec.ofInt 64 h.choose else 0#64

/-- `equal-hash` (prelude.min:1911-1934) as a function (0 where it has no value) -/
noncomputable def hashPred (m : Mem) (a : Word) : Word := pick (fun n => equalHash m n a 523658599)

/-- C20: `equal?` and `equal-hash` satisfy what the hashtable theorems C05-C11 require of the procedures of a table, in any
memory where `equal?` is symmetric. -/
theorem C20_table_consistent (m : Mem) (same : Nat → Word → Word → Bool) (g : GoodSame same) (hu : UniqueKeys m same)
    (hc : SameCount m same) : Consistent (hashPred m) (equalPred m same) where
  refl a := by simp only [equalPred, decide_eq_true_eq]; exact ⟨1, C19_refl_partial m same a 0⟩
  symm a b h := by
    simp only [equalPred, decide_eq_true_eq] at *
    obtain ⟨n, h⟩ := h
    exact ⟨n, C19_symm_partial m same g hu hc n a b h⟩
  trans a b c h1 h2 := by
    simp only [equalPred, decide_eq_true_eq] at *
    obtain ⟨n, h1⟩ := h1
    obtain ⟨k, h2⟩ := h2
    exact ⟨_, C19_trans_partial m same g n k a b c h1 h2⟩
  hash a b h := by
    simp only [equalPred, decide_eq_true_eq] at h
    obtain ⟨n, h⟩ := h
    exact congrArg pick (funext (fun k => C20_equal_hash m same k n a b _ h))

end Minim.Equal
