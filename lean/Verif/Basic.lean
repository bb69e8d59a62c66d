/-!
# Common outcomes

`Res α` is the outcome of a piece of C or Scheme code.  Undefined behaviour is an outcome of its own,
it is never assumed away; `oof` ("out of fuel") marks a run the model has not followed to its end.
-/

namespace Minim

/-- Outcome of a modelled computation.
`err` models `exit(1)` / `minim_error*` (src/core/c/error.c) and Scheme-level `raise`;
`ub` models a step to which the C standard (or the object layout of src/core/minim.h) gives no meaning;
`oof` is not a behaviour of the code: the fuel given to the model was used up. -/
inductive Res (α : Type u) where
  | ok (a : α)
  | err
  | ub
  | oof
deriving Repr, DecidableEq

namespace Res

/-- Sequencing: anything but `ok` stops the computation (modelling device, no source counterpart). -/
@[inline] def bind {α : Type u} {β : Type v} : Res α → (α → Res β) → Res β
  | ok a, f => f a
  | err, _ => err
  | ub, _ => ub
  | oof, _ => oof

instance : Monad Res where
  pure := ok
  bind := bind

@[simp] theorem pure_eq {α : Type u} (a : α) : (pure a : Res α) = ok a := rfl
@[simp] theorem ok_bind {α β : Type u} (a : α) (f : α → Res β) : (ok a >>= f) = f a := rfl
@[simp] theorem err_bind {α β : Type u} (f : α → Res β) : ((err : Res α) >>= f) = err := rfl
@[simp] theorem ub_bind {α β : Type u} (f : α → Res β) : ((ub : Res α) >>= f) = ub := rfl
@[simp] theorem oof_bind {α β : Type u} (f : α → Res β) : ((oof : Res α) >>= f) = oof := rfl

theorem bind_eq_err {α β : Type u} {x : Res α} {f : α → Res β} :
    (x >>= f) = .err ↔ x = .err ∨ ∃ a, x = .ok a ∧ f a = .err := by
  cases x <;> simp [Bind.bind, Res.bind]

theorem bind_eq_ok {α β : Type u} {x : Res α} {f : α → Res β} {b : β} :
    (x >>= f) = ok b ↔ ∃ a, x = ok a ∧ f a = ok b := by
  cases x <;> simp

theorem bind_ne_oof {α β : Type u} {x : Res α} {f : α → Res β}
    (h1 : x ≠ oof) (h2 : ∀ a, x = ok a → f a ≠ oof) : (x >>= f) ≠ oof := by
  cases x <;> simp_all

/-- `b` is the outcome `a`, unless `a` ran out of fuel (modelling device, no source counterpart). -/
def Le {α : Type u} (a b : Res α) : Prop := a = oof ∨ b = a

theorem Le.refl {α : Type u} (a : Res α) : Le a a := Or.inr rfl

theorem Le.trans {α : Type u} {a b c : Res α} (h1 : Le a b) (h2 : Le b c) : Le a c := by
  rcases h1 with h1 | h1
  · exact Or.inl h1
  · subst h1; exact h2

theorem Le.bind {α β : Type u} {a a' : Res α} {f f' : α → Res β} (h : Le a a') (hf : ∀ x, Le (f x) (f' x)) :
    Le (a >>= f) (a' >>= f') := by
  rcases h with h | h
  · subst h; exact Or.inl rfl
  · subst h
    cases a'
    · exact hf _
    all_goals exact Or.inr rfl

theorem Le.ite {α : Type u} {c : Prop} [Decidable c] {a b a' b' : Res α} (h1 : Le a a') (h2 : Le b b') :
    Le (if c then a else b) (if c then a' else b') := by
  by_cases h : c
  · rw [if_pos h, if_pos h]; exact h1
  · rw [if_neg h, if_neg h]; exact h2

theorem Le.eq_ok {α : Type u} {a b : Res α} {x : α} (h : Le a b) (ha : a = ok x) : b = ok x := by
  rcases h with h | h
  · rw [h] at ha; cases ha
  · rw [h, ha]

theorem Le.eq {α : Type u} {a b : Res α} (h : Le a b) (ha : a ≠ oof) : b = a := by
  rcases h with h | h
  · exact absurd h ha
  · exact h

/-- the outcome is not undefined behaviour, and a returned value satisfies `P` (specification device) -/
def Good {α : Type u} (P : α → Prop) : Res α → Prop
  | ok a => P a
  | ub => False
  | _ => True

theorem Good.bind {α β : Type u} {P : α → Prop} {Q : β → Prop} {x : Res α} {f : α → Res β} (h : Good P x)
    (hf : ∀ a, P a → Good Q (f a)) : Good Q (x >>= f) := by
  cases x
  · exact hf _ h
  all_goals first | trivial | exact h.elim

theorem Good.ite {α : Type u} {P : α → Prop} {c : Prop} [Decidable c] {a b : Res α} (h1 : c → Good P a)
    (h2 : ¬ c → Good P b) : Good P (if c then a else b) := by
  by_cases h : c
  · rw [if_pos h]; exact h1 h
  · rw [if_neg h]; exact h2 h

theorem Good.mono {α : Type u} {P Q : α → Prop} {x : Res α} (h : Good P x) (hf : ∀ a, P a → Q a) : Good Q x := by
  cases x
  · exact hf _ h
  all_goals first | trivial | exact h.elim

theorem Good.ne_ub {α : Type u} {P : α → Prop} {x : Res α} (h : Good P x) : x ≠ ub := by
  cases x <;> first | exact h.elim | (intro e; cases e)

theorem Good.ok {α : Type u} {P : α → Prop} {x : Res α} {a : α} (h : Good P x) (e : x = .ok a) : P a := by
  subst e; exact h

end Res

/-- A byte (`mbyte`, src/core/minim.h:31). -/
abbrev Byte := BitVec 8

/-- A machine word (`muptr`, src/core/minim.h:34). -/
abbrev Word := BitVec 64

/-- The part of a character buffer before its first NUL: what `strlen`-based code sees
(src/core/c/string.c:171-181, src/core/c/symbol.c:180-190). -/
def cstr (buf : List Byte) : List Byte := buf.takeWhile (fun b => b ≠ 0#8)

theorem cstr_eq_self {s : List Byte} (h : ∀ b ∈ s, b ≠ 0#8) : cstr s = s := by
  induction s with
  | nil => rfl
  | cons b s ih =>
    simp only [List.mem_cons, forall_eq_or_imp] at h
    have := ih h.2
    unfold cstr at *
    rw [List.takeWhile_cons, this]
    simp [h.1]

theorem cstr_ne_zero (s : List Byte) : ∀ b ∈ cstr s, b ≠ 0#8 := by
  induction s with
  | nil => simp [cstr]
  | cons c s ih =>
    unfold cstr at *
    rw [List.takeWhile_cons]
    split
    · rename_i h
      intro b hb
      rcases List.mem_cons.1 hb with rfl | hb
      · simpa using h
      · exact ih b hb
    · simp

theorem cstr_idem (s : List Byte) : cstr (cstr s) = cstr s := cstr_eq_self (cstr_ne_zero s)

end Minim
