import Verif.Bytecode
import Mathlib.Data.List.Nodup

set_option autoImplicit false

/-!
# Lemmas about label resolution
-/

namespace Minim.Jit

open Minim.Sx Minim.Core

theorem assqRef_set {β : Type} (t : List (Nat × β)) (k : Nat) (v : β) (k' : Nat) :
    assqRef (assqSet t k v) k' = if k' = k then some v else assqRef t k' := by
  induction t with
  | nil =>
    by_cases h : k' = k
    · subst h; simp [assqSet, assqRef]
    · simp [assqSet, assqRef, h, Ne.symm h]
  | cons p t ih =>
    obtain ⟨k0, v0⟩ := p
    by_cases h0 : k0 = k
    · subst h0
      by_cases h : k' = k0
      · subst h; simp [assqSet, assqRef]
      · simp [assqSet, assqRef, h, Ne.symm h]
    · simp only [assqSet, if_neg h0, assqRef, ih]
      by_cases h : k0 = k'
      · subst h; simp [h0]
      · simp [h]

/-- Specification: the labels of an instruction list, in order. -/
def labs : List Item → List Nat
  | [] => []
  | .lab l :: r => l :: labs r
  | .ins _ :: r => labs r

/-- Specification: the last element, if any, is an instruction. -/
def closed : List Item → Bool
  | [] => true
  | .lab _ :: [] => false
  | _ :: r => closed r

theorem instrs_append (a b : List Item) : instrs (a ++ b) = instrs a ++ instrs b := by
  induction a with
  | nil => rfl
  | cons x a ih => cases x <;> simp [instrs, ih]

theorem labs_append (a b : List Item) : labs (a ++ b) = labs a ++ labs b := by
  induction a with
  | nil => rfl
  | cons x a ih => cases x <;> simp [labs, ih]

theorem mem_labs (l : Nat) : ∀ (items : List Item), l ∈ labs items ↔ ∃ pre post, items = pre ++ .lab l :: post
  | [] => by simp [labs]
  | .lab l' :: r => by
    simp only [labs, List.mem_cons, mem_labs l r]
    constructor
    · rintro (rfl | ⟨pre, post, rfl⟩)
      · exact ⟨[], r, rfl⟩
      · exact ⟨.lab l' :: pre, post, rfl⟩
    · rintro ⟨pre, post, h⟩
      cases pre with
      | nil => simp only [List.nil_append, List.cons.injEq, Item.lab.injEq] at h; exact .inl h.1.symm
      | cons p pre => simp only [List.cons_append, List.cons.injEq] at h; exact .inr ⟨pre, post, h.2⟩
  | .ins i :: r => by
    simp only [labs, mem_labs l r]
    constructor
    · rintro ⟨pre, post, rfl⟩
      exact ⟨.ins i :: pre, post, rfl⟩
    · rintro ⟨pre, post, h⟩
      cases pre with
      | nil => simp at h
      | cons p pre => simp only [List.cons_append, List.cons.injEq] at h; exact ⟨pre, post, h.2⟩

theorem closed_append_ins (a : List Item) (i : I Nat Nat) (b : List Item) (hb : closed b = true) : closed (a ++ .ins i :: b) = true := by
  induction a with
  | nil => cases b <;> simpa [closed] using hb
  | cons x a ih =>
    cases a with
    | nil => cases x <;> simpa [closed] using ih
    | cons y a => cases x <;> simpa [closed] using ih

theorem closed_append {a b : List Item} (hb : closed b = true) (hne : b ≠ []) : closed (a ++ b) = true := by
  induction a with
  | nil => exact hb
  | cons x a ih =>
    cases h : a ++ b with
    | nil => simp [hne] at h
    | cons y r =>
      rw [List.cons_append, h]
      rw [h] at ih
      cases x <;> exact ih

theorem closed_any {l : Nat} : ∀ {r : List Item}, closed (.lab l :: r) = true → r.any (fun i => !isLab i) = true
  | [], h => by simp [closed] at h
  | .ins i :: r, _ => by simp [isLab]
  | .lab l' :: r, h => by
    have h' : closed (.lab l' :: r) = true := h
    have := closed_any h'
    simp only [List.any_cons, this, Bool.or_true]

theorem closed_cons {x : Item} {r : List Item} (h : closed (x :: r) = true) : closed r = true := by
  cases r with
  | nil => rfl
  | cons y r => cases x <;> exact h

theorem relocLoop_spec : ∀ (r : List Item) (n : Nat) (lead : Option Nat) (reloc map : List (Nat × Nat)),
    (labs r).Nodup → closed r = true → (∀ f, lead = some f → assqRef reloc f = some n ∧ f ∉ labs r) →
    ∃ reloc' map', relocLoop r n lead reloc map = .ok (reloc', map') ∧
      (∀ k, k ∉ labs r → assqRef reloc' k = assqRef reloc k ∧ assqRef map' k = assqRef map k) ∧
      ∀ pre l post, r = pre ++ .lab l :: post →
        ∃ m, assqRef map' l = some m ∧ assqRef reloc' m = some (n + (instrs pre).length) := by
  intro r
  induction r with
  | nil =>
    intro n lead reloc map _ _ _
    refine ⟨reloc, map, rfl, fun _ _ => ⟨rfl, rfl⟩, fun pre l post h => ?_⟩
    simp at h
  | cons x r ih =>
    intro n lead reloc map hnd hcl hlead
    have hcl' := closed_cons hcl
    cases x with
    | ins i =>
      obtain ⟨reloc', map', h1, h2, h3⟩ := ih (n + 1) none reloc map hnd hcl' (by simp)
      refine ⟨reloc', map', h1, h2, fun pre l post h => ?_⟩
      cases pre with
      | nil => simp at h
      | cons p pre =>
        simp only [List.cons_append, List.cons.injEq] at h
        obtain ⟨m, hm, hr⟩ := h3 pre l post h.2
        refine ⟨m, hm, ?_⟩
        rw [hr, ← h.1]
        simp only [instrs, List.length_cons]
        congr 1; omega
    | lab l0 =>
      simp only [labs, List.nodup_cons] at hnd
      cases lead with
      | none =>
        have hn : nextNonLabel r n = .ok n := by rw [nextNonLabel, if_pos (closed_any hcl)]
        obtain ⟨reloc', map', h1, h2, h3⟩ := ih n (some l0) (assqSet reloc l0 n) (assqSet map l0 l0) hnd.2 hcl' (by
          intro f hf
          cases hf
          exact ⟨by rw [assqRef_set, if_pos rfl], hnd.1⟩)
        refine ⟨reloc', map', ?_, ?_, ?_⟩
        · simp only [relocLoop, hn, Res.ok_bind]; exact h1
        · intro k hk
          simp only [labs, List.mem_cons, not_or] at hk
          obtain ⟨a, b⟩ := h2 k hk.2
          rw [a, b, assqRef_set, assqRef_set, if_neg hk.1, if_neg hk.1]
          exact ⟨rfl, rfl⟩
        · intro pre l post h
          cases pre with
          | nil =>
            simp only [List.nil_append, List.cons.injEq, Item.lab.injEq] at h
            obtain ⟨rfl, rfl⟩ := h
            obtain ⟨a, b⟩ := h2 l0 hnd.1
            refine ⟨l0, ?_, ?_⟩
            · rw [b, assqRef_set, if_pos rfl]
            · rw [a, assqRef_set, if_pos rfl]; rfl
          | cons p pre =>
            simp only [List.cons_append, List.cons.injEq] at h
            obtain ⟨m, hm, hr⟩ := h3 pre l post h.2
            exact ⟨m, hm, by rw [hr, ← h.1]; rfl⟩
      | some f =>
        obtain ⟨hf, hfn⟩ := hlead f rfl
        simp only [labs, List.mem_cons, not_or] at hfn
        obtain ⟨reloc', map', h1, h2, h3⟩ := ih n (some f) reloc (assqSet map l0 f) hnd.2 hcl' (by
          intro f' hf'
          cases hf'
          exact ⟨hf, hfn.2⟩)
        refine ⟨reloc', map', ?_, ?_, ?_⟩
        · simp only [relocLoop]; exact h1
        · intro k hk
          simp only [labs, List.mem_cons, not_or] at hk
          obtain ⟨a, b⟩ := h2 k hk.2
          rw [a, b, assqRef_set, if_neg hk.1]
          exact ⟨rfl, rfl⟩
        · intro pre l post h
          cases pre with
          | nil =>
            simp only [List.nil_append, List.cons.injEq, Item.lab.injEq] at h
            obtain ⟨rfl, rfl⟩ := h
            refine ⟨f, ?_, ?_⟩
            · rw [(h2 l0 hnd.1).2, assqRef_set, if_pos rfl]
            · rw [(h2 f hfn.2).1, hf]; rfl
          | cons p pre =>
            simp only [List.cons_append, List.cons.injEq] at h
            obtain ⟨m, hm, hr⟩ := h3 pre l post h.2
            exact ⟨m, hm, by rw [hr, ← h.1]; rfl⟩

/-- Specification: rename the jump targets and code references of an instruction. -/
def mapI {L L' C C' : Type} (f : L → L') (g : C → C') : I L C → I L' C'
  | .brancha l => .brancha (f l)
  | .branchf l => .branchf (f l)
  | .branchgt n l => .branchgt n (f l)
  | .branchlt n l => .branchlt n (f l)
  | .branchne n l => .branchne n (f l)
  | .saveCC l => .saveCC (f l)
  | .makeClosure i n => .makeClosure (g i) n
  | .literal k => .literal k
  | .lookup i => .lookup i
  | .lookupCell i => .lookupCell i
  | .tlLookup s => .tlLookup s
  | .tlLookupCell s => .tlLookupCell s
  | .setProc => .setProc
  | .push => .push
  | .pop => .pop
  | .mov d s => .mov d s
  | .closureRef r i => .closureRef r i
  | .closureSet r i s => .closureSet r i s
  | .closureBind => .closureBind
  | .apply => .apply
  | .ret => .ret
  | .ccall p => .ccall p
  | .bind i s => .bind i s
  | .bindCell i => .bindCell i
  | .bindValues i n ids => .bindValues i n ids
  | .tlBindValues n ids => .tlBindValues n ids
  | .rebind i => .rebind i
  | .tlRebind s => .tlRebind s
  | .pushEnv n => .pushEnv n
  | .getArg r i => .getArg r i
  | .setArg i r => .setArg i r
  | .getTenv r => .getTenv r
  | .setTenv r => .setTenv r
  | .doApply => .doApply
  | .doArityError => .doArityError
  | .doEval => .doEval
  | .doRaise => .doRaise
  | .doRest i => .doRest i
  | .doValues => .doValues
  | .doWithValues => .doWithValues
  | .clearFrame => .clearFrame
  | .checkStack n => .checkStack n

/-- Specification: the jump target of an instruction, if it has one. -/
def target {L C : Type} : I L C → Option L
  | .brancha l | .branchf l | .branchgt _ l | .branchlt _ l | .branchne _ l | .saveCC l => some l
  | _ => none

/-- Specification: the template an instruction refers to, if any. -/
def tmplOf {L C : Type} : I L C → Option C
  | .makeClosure c _ => some c
  | _ => none

theorem cdrRef_some {β : Type} {t : List (Nat × β)} {k : Nat} {v : β} (h : assqRef t k = some v) : cdrRef t k = .ok v := by
  rw [cdrRef, h]

theorem resolveIns_ok (tm : List Code) (map reloc : List (Nat × Nat)) (pos : Nat → Nat) (tmpl : Nat → Code) (i : I Nat Nat)
    (hl : ∀ l, target i = some l → ∃ m, assqRef map l = some m ∧ assqRef reloc m = some (pos l))
    (ht : ∀ c, tmplOf i = some c → templateRef tm c = .ok (tmpl c)) :
    resolveIns tm map reloc i = .ok (mapI pos tmpl i) := by
  cases i
  case makeClosure c n => simp only [resolveIns, ht c rfl, Res.ok_bind]; rfl
  case brancha l => obtain ⟨m, h1, h2⟩ := hl l rfl; simp only [resolveIns, cdrRef_some h1, cdrRef_some h2, Res.ok_bind]; rfl
  case branchf l => obtain ⟨m, h1, h2⟩ := hl l rfl; simp only [resolveIns, cdrRef_some h1, cdrRef_some h2, Res.ok_bind]; rfl
  case branchgt _ l => obtain ⟨m, h1, h2⟩ := hl l rfl; simp only [resolveIns, cdrRef_some h1, cdrRef_some h2, Res.ok_bind]; rfl
  case branchlt _ l => obtain ⟨m, h1, h2⟩ := hl l rfl; simp only [resolveIns, cdrRef_some h1, cdrRef_some h2, Res.ok_bind]; rfl
  case branchne _ l => obtain ⟨m, h1, h2⟩ := hl l rfl; simp only [resolveIns, cdrRef_some h1, cdrRef_some h2, Res.ok_bind]; rfl
  case saveCC l => obtain ⟨m, h1, h2⟩ := hl l rfl; simp only [resolveIns, cdrRef_some h1, cdrRef_some h2, Res.ok_bind]; rfl
  all_goals rfl

theorem resolveAll_ok (tm : List Code) (map reloc : List (Nat × Nat)) (pos : Nat → Nat) (tmpl : Nat → Code) : ∀ (is : List (I Nat Nat)),
    (∀ i ∈ is, ∀ l, target i = some l → ∃ m, assqRef map l = some m ∧ assqRef reloc m = some (pos l)) →
    (∀ i ∈ is, ∀ c, tmplOf i = some c → templateRef tm c = .ok (tmpl c)) →
    resolveAll tm map reloc is = .ok (is.map (mapI pos tmpl))
  | [], _, _ => rfl
  | i :: is, hl, ht => by
    simp only [resolveAll, resolveIns_ok tm map reloc pos tmpl i (hl i (by simp)) (ht i (by simp)), Res.ok_bind,
      resolveAll_ok tm map reloc pos tmpl is (fun i hi => hl i (by simp [hi])) (fun i hi => ht i (by simp [hi]))]
    rfl

/-- Specification: a well-formed instruction list: it starts and ends with an instruction, no label occurs twice, every jump goes to a label of the list,
every closure refers to one of the `k` templates. -/
structure WellFormed (items : List Item) (k : Nat) : Prop where
  head : ∃ i r, items = .ins i :: r
  closed : closed items = true
  nodup : (labs items).Nodup
  jumps : ∀ i ∈ instrs items, ∀ l, target i = some l → l ∈ labs items
  tmpls : ∀ i ∈ instrs items, ∀ c, tmplOf i = some c → c < k

/-- Specification: the position of a label: the number of instructions before it. -/
def labPos : List Item → Nat → Nat
  | [], _ => 0
  | .lab l' :: r, l => if l' = l then 0 else labPos r l
  | .ins _ :: r, l => labPos r l + 1

theorem labPos_eq {items pre post : List Item} {l : Nat} (hnd : (labs items).Nodup) (h : items = pre ++ .lab l :: post) :
    labPos items l = (instrs pre).length := by
  subst h
  induction pre with
  | nil => simp [labPos, instrs]
  | cons x pre ih =>
    cases x with
    | ins i =>
      simp only [List.cons_append, labPos, instrs, List.length_cons]
      rw [ih (by simpa [labs] using hnd)]
    | lab l' =>
      simp only [List.cons_append, labs, List.nodup_cons] at hnd
      have : l' ≠ l := by
        rintro rfl
        exact hnd.1 ((mem_labs _ _).2 ⟨pre, post, rfl⟩)
      simp only [List.cons_append, labPos, if_neg this, instrs]
      exact ih hnd.2

theorem assemble_ok {items : List Item} (tm : List Code) (ar : Ar) (hwf : WellFormed items tm.length) :
    assemble tm items ar =
      .ok (.mk ((instrs items).map (mapI (labPos items) (fun i => (tm.reverse[i]?).getD (.mk [] .null)))) ar) := by
  obtain ⟨i, r, hh⟩ := hwf.head
  obtain ⟨reloc, map, h1, _, h3⟩ := relocLoop_spec items 0 none [] [] hwf.nodup hwf.closed (by simp)
  have h4 : ∀ i ∈ instrs items, ∀ l, target i = some l → ∃ m, assqRef map l = some m ∧ assqRef reloc m = some (labPos items l) := by
    intro i hi l hl
    obtain ⟨pre, post, he⟩ := (mem_labs l items).1 (hwf.jumps i hi l hl)
    obtain ⟨m, hm, hr⟩ := h3 pre l post he
    exact ⟨m, hm, by rw [hr, labPos_eq hwf.nodup he]; simp⟩
  have h5 : ∀ i ∈ instrs items, ∀ c, tmplOf i = some c → templateRef tm c = .ok ((tm.reverse[c]?).getD (.mk [] .null)) := by
    intro i hi c hc
    have hlt := hwf.tmpls i hi c hc
    rw [templateRef]
    have : tm.reverse[c]? = some (tm.reverse[c]'(by simpa using hlt)) := List.getElem?_eq_getElem _
    rw [this]; rfl
  rw [assemble.eq_def]
  subst hh
  simp only [h1, Res.ok_bind, resolveAll_ok tm map reloc _ _ _ h4 h5]

end Minim.Jit
