import Verif.Proc

set_option autoImplicit false

/-!
# Renaming a procedure (C68)
-/

namespace Minim.Proc

/-- what calling a procedure depends on -/
def sameCode (h h' : Heap) (a b : Nat) : Prop :=
  ∃ c d, h[a]? = some c ∧ h'[b]? = some d ∧ c.env = d.env ∧ c.code = d.code ∧ c.free = d.free

/-- C68, the proved part: the result has the new name and the same code and variables, every other procedure keeps its name, and anything but a procedure and a symbol is refused.  Missing: the original keeps its
name (`C68_negated`). -/
theorem C68_partial (h : Heap) (p i : V) :
    (∀ a id, p = .proc a → i = .sym id → a < h.length → ∃ h' b, pRename h p i = .ok (h', .proc b) ∧ pName h' (.proc b) = .ok (some id) ∧ sameCode h h' a b ∧
      ∀ x, x < h.length → sameCode h h' x x ∧ (x ≠ a → pName h' (.proc x) = pName h (.proc x))) ∧
    ((∀ a, p ≠ .proc a) ∨ (∀ id, i ≠ .sym id) → pRename h p i = .err) := by
  constructor
  · rintro a id rfl rfl ha
    obtain ⟨c, e⟩ : ∃ c, h[a]? = some c := ⟨_, List.getElem?_eq_getElem ha⟩
    have hl : a < (h ++ [(⟨c.env, c.code, none, c.free⟩ : Clo)]).length := by simp; omega
    have e' : ((h ++ [(⟨c.env, c.code, none, c.free⟩ : Clo)]).set a ⟨c.env, c.code, some id, c.free⟩)[a]? = some ⟨c.env, c.code, some id, c.free⟩ :=
      List.getElem?_set_self hl
    refine ⟨(h ++ [(⟨c.env, c.code, none, c.free⟩ : Clo)]).set a ⟨c.env, c.code, some id, c.free⟩, a, ?_, ?_, ?_, ?_⟩
    · simp [pRename, procedureRename, e, mclosure]
    · simp only [pName, e']
    · exact ⟨_, _, e, e', rfl, rfl, rfl⟩
    · intro x hx
      by_cases hxa : x = a
      · subst hxa
        exact ⟨⟨_, _, e, e', rfl, rfl, rfl⟩, fun h => absurd rfl h⟩
      · obtain ⟨d, ex⟩ : ∃ c, h[x]? = some c := ⟨_, List.getElem?_eq_getElem hx⟩
        have : ((h ++ [(⟨c.env, c.code, none, c.free⟩ : Clo)]).set a ⟨c.env, c.code, some id, c.free⟩)[x]? = some d := by
          rw [List.getElem?_set_ne (Ne.symm hxa), List.getElem?_append_left hx, ex]
        exact ⟨⟨_, _, ex, this, rfl, rfl, rfl⟩, fun _ => by simp only [pName, this, ex]⟩
  · intro hh
    cases p <;> cases i <;> simp_all [pRename]

/-- C68 violated: after renaming, the original has the new name too, whatever it was called before -/
theorem C68_negated (h : Heap) (a id : Nat) (ha : a < h.length) :
    ∃ h' v, pRename h (.proc a) (.sym id) = .ok (h', v) ∧ pName h' (.proc a) = .ok (some id) ∧ v = .proc a := by
  obtain ⟨c, e⟩ : ∃ c, h[a]? = some c := ⟨_, List.getElem?_eq_getElem ha⟩
  refine ⟨(h ++ [(⟨c.env, c.code, none, c.free⟩ : Clo)]).set a ⟨c.env, c.code, some id, c.free⟩, .proc a, ?_, ?_, rfl⟩
  · simp [pRename, procedureRename, e, mclosure]
  · have e' : ((h ++ [(⟨c.env, c.code, none, c.free⟩ : Clo)]).set a ⟨c.env, c.code, some id, c.free⟩)[a]? = some ⟨c.env, c.code, some id, c.free⟩ :=
      List.getElem?_set_self (by simp; omega)
    simp only [pName, e']

/-- a procedure named 7 is renamed to 8 -/
example : pName [⟨0, 1, some 7, [2]⟩] (.proc 0) = .ok (some 7) ∧
    pRename [⟨0, 1, some 7, [2]⟩] (.proc 0) (.sym 8) = .ok ([⟨0, 1, some 8, [2]⟩, ⟨0, 1, none, [2]⟩], .proc 0) := ⟨rfl, rfl⟩

end Minim.Proc
