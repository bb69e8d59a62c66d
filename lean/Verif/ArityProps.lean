import Verif.Bytecode
import Mathlib.Data.List.Induction
import Mathlib.Data.List.Nodup

set_option autoImplicit false

/-!
# What `procedure-arity` reports (C77)
-/

namespace Minim.Jit

open Minim.Sx Minim.Core

/-- `procedure-arity?` (prelude.min:731-752): the inner loop. -/
def isArityLoop : Ar → Nat → Bool
  | .null, _ => true
  | .fls, _ => true
  | .fix _, _ => false
  | .pair a d, p => decide (a > p) && isArityLoop d a

/-- `procedure-arity?` (prelude.min:731-752) on the objects `update_arity` makes. -/
def isArity : Ar → Bool
  | .fix _ => true
  | .pair a d => isArityLoop d a
  | .null => false
  | .fls => false

/-- Specification: the numbers of arguments a procedure with these clauses accepts. -/
def accepts (fs : List Formals) (n : Nat) : Prop := ∃ f ∈ fs, f.req.length = n ∨ f.rest.isSome = true ∧ f.req.length ≤ n

/-- Specification: the numbers of arguments an arity object stands for: a number for itself, a list for its elements, `(n . #f)` for `n` or more.  The improper list
`(m . n)` is read as `m` or `n`. -/
def den : Ar → Nat → Prop
  | .null, _ => False
  | .fls, _ => False
  | .fix a, n => n = a
  | .pair a .fls, n => a ≤ n
  | .pair a d, n => n = a ∨ den d n

/-- Numbers of an arity object, strictly ascending from `b` on. -/
def ascFrom (b : Nat) : Ar → Prop
  | .null => True
  | .fls => True
  | .fix a => b ≤ a
  | .pair a d => b ≤ a ∧ ascFrom (a + 1) d

theorem ascFrom_mono : ∀ {a : Ar} {b c : Nat}, c ≤ b → ascFrom b a → ascFrom c a
  | .null, _, _, _, _ => trivial
  | .fls, _, _, _, _ => trivial
  | .fix _, _, _, h, h' => Nat.le_trans h h'
  | .pair _ _, _, _, h, h' => ⟨Nat.le_trans h h'.1, h'.2⟩

theorem ascFrom_update : ∀ (a : Ar) (b r : Nat) (rest : Bool), b ≤ r → ascFrom b a → ascFrom b (updateArity a r rest)
  | .null, b, r, rest, h, _ => by
    rw [updateArity]; split
    · exact ⟨h, trivial⟩
    · exact h
  | .fls, _, _, _, _, _ => trivial
  | .fix a, b, r, rest, h, h' => by
    have h' : b ≤ a := h'
    rw [updateArity]
    split
    · split
      · exact ⟨h', by assumption, trivial⟩
      · exact ⟨h', by assumption, trivial⟩
    · split
      · split
        · exact ⟨h', trivial⟩
        · exact h'
      · split
        · exact ⟨h, trivial⟩
        · refine ⟨h, ?_⟩
          show r + 1 ≤ a
          omega
  | .pair a d, b, r, rest, h, h' => by
    rw [updateArity]
    split
    · split
      · exact h'
      · exact ⟨h'.1, ascFrom_update d (a + 1) r rest (by omega) h'.2⟩
    · split
      · split
        · exact ⟨h'.1, trivial⟩
        · exact h'
      · split
        · exact ⟨h'.1, trivial⟩
        · exact ⟨h, by show r + 1 ≤ a; omega, h'.2⟩

theorem den_ge : ∀ {a : Ar} {b n : Nat}, ascFrom b a → den a n → b ≤ n
  | .null, _, _, _, h => h.elim
  | .fls, _, _, _, h => h.elim
  | .fix a, b, n, h, h' => by rw [den] at h'; subst h'; exact h
  | .pair a d, b, n, h, h' => by
    have := h.1
    cases d with
    | fls => rw [den] at h'; omega
    | null => rcases h' with rfl | h'; exacts [this, h'.elim]
    | fix c => rcases h' with rfl | h'; exacts [this, by have := den_ge h.2 h'; omega]
    | pair c e => rcases h' with rfl | h'; exacts [this, by have := den_ge h.2 h'; omega]

theorem den_pair {a : Nat} {d : Ar} {n : Nat} (h : d ≠ .fls) : den (.pair a d) n ↔ n = a ∨ den d n := by
  cases d with
  | fls => exact absurd rfl h
  | _ => rfl

theorem update_ne_fls {a : Ar} (h : a ≠ .fls) (r : Nat) (rest : Bool) : updateArity a r rest ≠ .fls := by
  cases a with
  | fls => exact absurd rfl h
  | null => rw [updateArity]; split <;> simp
  | fix a => rw [updateArity]; split <;> (try split) <;> (try split) <;> simp
  | pair a d => rw [updateArity]; split <;> (try split) <;> (try split) <;> simp

/-- Adding a clause without rest parameter. -/
theorem den_update_fix : ∀ (a : Ar) (b r n : Nat), a ≠ .fls → ascFrom b a → (den (updateArity a r false) n ↔ den a n ∨ n = r)
  | .null, _, _, _, _, _ => by simp [updateArity, den]
  | .fls, _, _, _, h, _ => absurd rfl h
  | .fix a, _, r, n, _, _ => by
    rw [updateArity]
    simp only [Bool.false_eq_true, if_false]
    split
    · simp [den]
    · split
      · simp only [den]; omega
      · simp only [den]; omega
  | .pair a d, b, r, n, _, h => by
    rw [updateArity]
    simp only [Bool.false_eq_true, if_false]
    split
    · split
      next hd => subst hd; simp only [den]; omega
      next hd =>
        rw [den_pair (update_ne_fls hd r false), den_pair hd, den_update_fix d (a + 1) r n hd h.2, or_assoc]
    · split
      · have : den (.pair a d) a := by cases d <;> simp [den]
        constructor
        · exact .inl
        · rintro (h | hn)
          · exact h
          · have hr : r = a := by assumption
            rw [hn, hr]; exact this
      · rw [den_pair (by simp), or_comm]

/-- Adding a clause with rest parameter that needs no fewer arguments than the ones before. -/
theorem den_update_rest : ∀ (a : Ar) (b r n : Nat), a ≠ .fls → ascFrom b a → (∀ m, den a m → (m ≤ r ∨ ∃ m', m' ≤ r ∧ den a m' ∧ ∀ k, m' ≤ k → den a k)) →
    (den (updateArity a r true) n ↔ den a n ∨ r ≤ n)
  | .null, _, _, _, _, _, _ => by simp [updateArity, den]
  | .fls, _, _, _, h, _, _ => absurd rfl h
  | .fix a, _, r, n, _, _, hm => by
    have ha : a ≤ r := by
      rcases hm a rfl with h | ⟨m', _, h1, h2⟩
      · exact h
      · have h1 : m' = a := h1
        have h2 : m' + 1 = a := h2 (m' + 1) (by omega)
        omega
    rw [updateArity]
    simp only [if_true]
    split
    · rw [den_pair (by simp)]; simp only [den]
    · split
      · simp only [den]; omega
      · omega
  | .pair a d, b, r, n, _, h, hm => by
    have ha : a ≤ r := by
      rcases hm a (by cases d <;> simp [den]) with h' | ⟨m', h0, h1, _⟩
      · exact h'
      · have := den_ge (a := .pair a d) (b := a) ⟨Nat.le_refl _, h.2⟩ h1; omega
    rw [updateArity]
    simp only [if_true]
    split
    · split
      next hd => subst hd; simp only [den]; omega
      next hd =>
        rw [den_pair (update_ne_fls hd r true), den_pair hd, den_update_rest d (a + 1) r n hd h.2 ?_, or_assoc]
        intro m hm'
        rcases hm m ((den_pair hd).2 (.inr hm')) with h' | ⟨m', h0, h1, h2⟩
        · exact .inl h'
        · have hgt := den_ge h.2 hm'
          rcases (den_pair hd).1 h1 with rfl | h1
          · right
            refine ⟨m' + 1, by omega, ?_, ?_⟩
            · rcases (den_pair hd).1 (h2 (m' + 1) (by omega)) with h3 | h3
              · omega
              · exact h3
            · intro k hk
              rcases (den_pair hd).1 (h2 k (by omega)) with h3 | h3
              · omega
              · exact h3
          · right
            refine ⟨m', h0, h1, ?_⟩
            intro k hk
            have := den_ge h.2 h1
            rcases (den_pair hd).1 (h2 k hk) with h3 | h3
            · omega
            · exact h3
    · split
      next h1 h2 =>
        subst h2
        constructor
        · exact .inr
        · rintro (h' | h')
          · exact den_ge (a := .pair r d) (b := r) ⟨Nat.le_refl _, h.2⟩ h'
          · exact h'
      next => omega

/-- Specification: a rest clause may only follow clauses that need no more arguments than it does. -/
def restLast (fs : List Formals) : Prop :=
  ∀ pre f post, fs = pre ++ f :: post → f.rest.isSome = true → ∀ g ∈ pre, g.req.length ≤ f.req.length

theorem clausesArity_append (fs : List Formals) (f : Formals) :
    clausesArity (fs ++ [f]) = updateArity (clausesArity fs) f.req.length f.rest.isSome := by
  simp [clausesArity]

theorem clausesArity_ne (fs : List Formals) : clausesArity fs ≠ .fls ∧ ascFrom 0 (clausesArity fs) := by
  induction fs using List.reverseRecOn with
  | nil => exact ⟨by simp [clausesArity], trivial⟩
  | append_singleton fs f ih =>
    rw [clausesArity_append]
    exact ⟨update_ne_fls ih.1 _ _, ascFrom_update _ _ _ _ (Nat.zero_le _) ih.2⟩

/-- **C77**, partial: the reported arity stands for exactly the accepted numbers of arguments, for all clause lists in which a clause with rest parameter needs at
least as many arguments as the clauses before it (improper lists read as in `den`). -/
theorem C77_exact_partial (fs : List Formals) (h : restLast fs) (n : Nat) : den (clausesArity fs) n ↔ accepts fs n := by
  induction fs using List.reverseRecOn generalizing n with
  | nil => simp [clausesArity, den, accepts]
  | append_singleton fs f ih =>
    have ih := fun n => ih (by
      intro pre g post he hg
      exact h pre g (post ++ [f]) (by rw [he]; simp) hg) n
    rw [clausesArity_append]
    have hacc : accepts (fs ++ [f]) n ↔ accepts fs n ∨ (f.req.length = n ∨ f.rest.isSome = true ∧ f.req.length ≤ n) := by
      simp only [accepts, List.mem_append, List.mem_singleton]
      constructor
      · rintro ⟨g, hg | rfl, hh⟩
        exacts [.inl ⟨g, hg, hh⟩, .inr hh]
      · rintro (⟨g, hg, hh⟩ | hh)
        exacts [⟨g, .inl hg, hh⟩, ⟨f, .inr rfl, hh⟩]
    rw [hacc, ← ih n]
    obtain ⟨h1, h2⟩ := clausesArity_ne fs
    cases hr : f.rest.isSome with
    | false =>
      rw [den_update_fix _ 0 _ _ h1 h2]
      simp [eq_comm]
    | true =>
      rw [den_update_rest _ 0 _ _ h1 h2 ?_]
      · constructor
        · rintro (h | h)
          exacts [.inl h, .inr (.inr ⟨rfl, h⟩)]
        · rintro (h | h | ⟨_, h⟩)
          exacts [.inl h, .inr (by omega), .inr h]
      · intro m hm
        obtain ⟨g, hg, hgm⟩ := (ih m).1 hm
        have hle := h fs f [] rfl hr g hg
        rcases hgm with hgm | ⟨hgr, hgm⟩
        · left; omega
        · right
          exact ⟨g.req.length, hle, (ih _).2 ⟨g, hg, .inl rfl⟩, fun k hk => (ih _).2 ⟨g, hg, .inr ⟨hgr, hk⟩⟩⟩

/-- `(case-lambda [() ..] [(x y) ..] [(x y z . r) ..] [(x) ..])`. -/
example : restLast [⟨[], none⟩, ⟨[.user 0, .user 1], none⟩, ⟨[.user 0, .user 1, .user 2], some (.user 3)⟩, ⟨[.user 0], none⟩] := by
  intro pre f post he hf g hg
  match pre, he with
  | [], _ => simp at hg
  | [_], he => simp at he; obtain ⟨rfl, rfl, _⟩ := he; simp at hf
  | [_, _], he => simp at he; obtain ⟨rfl, rfl, rfl, _⟩ := he; simp at hg; rcases hg with rfl | rfl <;> simp
  | [_, _, _], he => simp at he; obtain ⟨_, _, _, rfl, _⟩ := he; simp at hf
  | _ :: _ :: _ :: _ :: _, he => simp at he

/-- **C77**: a procedure never reports a number of arguments that it does not accept, for all clause lists. -/
theorem C77_sound (fs : List Formals) (n : Nat) (h : den (clausesArity fs) n) : accepts fs n := by
  induction fs using List.reverseRecOn generalizing n with
  | nil => simp [clausesArity, den] at h
  | append_singleton fs f ih =>
    rw [clausesArity_append] at h
    have key : ∀ (a : Ar) (b r : Nat) (rest : Bool) (n : Nat), a ≠ .fls → ascFrom b a → den (updateArity a r rest) n →
        den a n ∨ n = r ∨ rest = true ∧ r ≤ n := by
      intro a
      induction a with
      | null => intro b r rest n _ _ h; cases rest <;> simp [updateArity, den] at h ⊢ <;> omega
      | fls => intro b r rest n h; exact absurd rfl h
      | fix a =>
        intro b r rest n _ _ h
        rw [updateArity] at h
        split at h
        · cases rest <;> simp [den] at h ⊢ <;> omega
        · split at h
          · cases rest <;> simp [den] at h ⊢ <;> omega
          · cases rest <;> simp [den] at h ⊢ <;> omega
      | pair a d ihd =>
        intro b r rest n _ ha h
        rw [updateArity] at h
        split at h
        · split at h
          · exact .inl h
          next hd =>
            rw [den_pair (update_ne_fls hd _ _)] at h
            rw [den_pair hd]
            rcases h with rfl | h
            · exact .inl (.inl rfl)
            · rcases ihd _ _ _ _ hd ha.2 h with h | h
              exacts [.inl (.inr h), .inr h]
        · split at h
          · cases rest with
            | false => exact .inl (by simpa using h)
            | true => simp [den] at h; right; right; exact ⟨rfl, by omega⟩
          · cases rest with
            | false =>
              simp only [Bool.false_eq_true, if_false] at h
              rw [den_pair (by simp)] at h
              exact h.elim (fun h => .inr (.inl h)) .inl
            | true => simp [den] at h; right; right; exact ⟨rfl, by omega⟩
    obtain ⟨h1, h2⟩ := clausesArity_ne fs
    rcases key _ 0 _ _ _ h1 h2 h with h | h | h
    · obtain ⟨g, hg, hh⟩ := ih n h
      exact ⟨g, List.mem_append_left _ hg, hh⟩
    · exact ⟨f, by simp, .inl h.symm⟩
    · exact ⟨f, by simp, .inr h⟩

/-- `(case-lambda [(x y . r) ..] [(x) ..])` reports 1 and everything from 2 on. -/
example : den (clausesArity [⟨[.user 0, .user 1], some (.user 2)⟩, ⟨[.user 0], none⟩]) 7 := by
  show (7 = 1) ∨ (2 ≤ 7); omega

/-- **C77**: a plain `lambda` reports an arity that `procedure-arity?` recognises and that stands for what it accepts. -/
theorem C77_lambda (f : Formals) (n : Nat) : isArity (clausesArity [f]) = true ∧ (den (clausesArity [f]) n ↔ accepts [f] n) := by
  refine ⟨?_, C77_exact_partial [f] ?_ n⟩
  · show isArity (updateArity .null _ _) = true
    rw [updateArity]; split <;> rfl
  · intro pre g post he hg g' hg'
    match pre, he with
    | [], _ => simp at hg'
    | _ :: _, he => simp at he

example : clausesArity [⟨[.user 0], some (.user 1)⟩] = .pair 1 .fls := by decide

/-- C77 is violated: `(case-lambda [(x y z . r) ..] [(x . r) ..])` accepts one argument but reports "at least three". -/
theorem C77_negated : ∃ fs : List Formals, ∃ n, accepts fs n ∧ ¬ den (clausesArity fs) n := by
  refine ⟨[⟨[.user 0, .user 1, .user 2], some (.user 3)⟩, ⟨[.user 0], some (.user 1)⟩], 1, ⟨⟨[.user 0], some (.user 1)⟩, by simp, .inl rfl⟩, ?_⟩
  show ¬ (3 ≤ 1)
  omega

/-- C77 is violated: `procedure-arity?` rejects the arity of `(case-lambda [(x) ..] [() ..])`, reported as `(0 . 1)`, and of
`(case-lambda [() ..] [(x) ..] [(x y) ..])`, reported as `(0 1 . 2)`. -/
theorem C77_negated_improper :
    isArity (clausesArity [⟨[.user 0], none⟩, ⟨[], none⟩]) = false ∧
    isArity (clausesArity [⟨[], none⟩, ⟨[.user 0], none⟩, ⟨[.user 0, .user 1], none⟩]) = false := by decide

end Minim.Jit
