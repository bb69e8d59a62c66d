import Verif.Record
import Mathlib.Data.List.Nodup
import Mathlib.Data.List.Infix

set_option autoImplicit false

/-!
# Records: specification and simulation

The specification knows no positions: a record maps pairs (type, field number) to values, a type knows its ancestors and, in the order in which a
constructor takes them, the fields of its instances.
-/

namespace Minim.Rec

/-! ## Specification -/

/-- values; accessors and mutators are given by type and field number, constructors by their type -/
inductive AVal where
  | fls
  | tru
  | num (w : Word)
  | sym (n : Nat)
  | fvec (fs : List FSpec)
  | rtd (i : Nat)
  | rcd (i : Nat)
  | proc (n : Nat)
  | ctor (t : Nat)
  | pred (t : Nat)
  | acc (t : Nat) (i : Nat)
  | mutr (t : Nat) (i : Nat)
  | other (n : Nat)
deriving DecidableEq

/-- a type: itself and its ancestors, the fields of its instances (inherited ones first), the number of its own fields, is it opaque -/
structure AType where
  anc : List Nat
  slots : List (Nat × Nat)
  own : Nat
  opq : Bool

/-- the fields a type adds -/
def ownSlots (t n : Nat) : List (Nat × Nat) := (List.range n).map (fun i => (t, i))

/-- state: types, instances (type and contents), custom equality and hash procedures, which types have a writer -/
structure ASt where
  types : List AType
  recs : List (Nat × (Nat × Nat → AVal))
  eqP : Nat → Option AVal
  hashP : Nat → Option AVal
  wr : Nat → Option AVal

def AVal.isProc : AVal → Bool
  | .proc _ | .ctor _ | .pred _ | .acc _ _ | .mutr _ _ => true
  | _ => false

/-- function update -/
def upd {α β : Type} [DecidableEq α] (f : α → β) (a : α) (b : β) : α → β := fun x => if x = a then b else f x

/-- the new type `t` -/
def newAType (A : ASt) (parent : Option Nat) (n : Nat) (opq : Bool) : AType :=
  match parent with
  | none => ⟨[A.types.length], ownSlots A.types.length n, n, opq⟩
  | some p => match A.types[p]? with
    | some ap => ⟨A.types.length :: ap.anc, ap.slots ++ ownSlots A.types.length n, n, opq⟩
    | none => ⟨[A.types.length], ownSlots A.types.length n, n, opq⟩

/-- making a type; below a type with a writer it fails (C44) -/
def aNew (A : ASt) (parent : AVal) (n : Nat) (opq : Bool) : Option (ASt × AVal) :=
  match parent with
  | .fls => some ({ A with types := A.types ++ [newAType A none n opq] }, .rtd A.types.length)
  | .rtd p => if (A.wr p).isSome then none else
      some ({ A with types := A.types ++ [newAType A (some p) n opq],
                     eqP := upd A.eqP A.types.length (A.eqP p),
                     hashP := upd A.hashP A.types.length (A.hashP p) }, .rtd A.types.length)
  | _ => none

/-- is the value an instance of the type or of a type inheriting from it? -/
def aIsA (A : ASt) (t : Nat) : AVal → Bool
  | .rcd r => match A.recs[r]? with
    | some (k, _) => match A.types[k]? with
      | some a => a.anc.contains t
      | none => false
    | none => false
  | _ => false

/-- the contents of an instance built from the given arguments -/
def contents : List (Nat × Nat) → List AVal → Nat × Nat → AVal
  | sl :: sls, v :: vs => fun x => if x = sl then v else contents sls vs x
  | _, _ => fun _ => .fls

/-- field `(t, i)` of an instance -/
def aField (A : ASt) (r : Nat) (sl : Nat × Nat) : AVal :=
  match A.recs[r]? with
  | some (_, f) => f sl
  | none => .fls

/-- calls -/
def aCall (A : ASt) : AVal → List AVal → Option (ASt × AVal)
  | .ctor t, args => match A.types[t]? with
    | some a => if args.length = a.slots.length then some ({ A with recs := A.recs ++ [(t, contents a.slots args)] }, .rcd A.recs.length) else none
    | none => none
  | .pred t, [v] => some (A, if aIsA A t v then .tru else .fls)
  | .acc t i, [.rcd r] => if aIsA A t (.rcd r) then some (A, aField A r (t, i)) else none
  | .mutr t i, [.rcd r, x] => if aIsA A t (.rcd r) then
      some ({ A with recs := A.recs.modify r (fun p => (p.1, upd p.2 (t, i) x)) }, .other 0) else none
  | _, _ => none

/-- field number `i` of type `t` -/
def aIdx (A : ASt) (t : Nat) (i : Word) : Option Nat :=
  match A.types[t]? with
  | some a => if 0 ≤ i.toInt ∧ i.toInt < a.own then some i.toNat else none
  | none => none

def aGet (rs : List AVal) (i : Nat) : Option AVal := rs[i]?

def aGetAll (rs : List AVal) : List Nat → Option (List AVal)
  | [] => some []
  | i :: is => (aGet rs i).bind fun v => (aGetAll rs is).map (v :: ·)

def aOpaque (A : ASt) : AVal → Option (Nat × Bool)
  | .rcd r => match A.recs[r]? with
    | some (k, _) => match A.types[k]? with
      | some a => some (k, a.opq)
      | none => none
    | none => none
  | _ => none

/-- one operation; `none` is an error -/
def aStep (A : ASt) (rs : List AVal) : Op → Option (ASt × AVal)
  | .newType a b c d e fs =>
    (aGet rs a).bind fun _ => (aGet rs b).bind fun parent => (aGet rs c).bind fun _ => (aGet rs d).bind fun _ => (aGet rs e).bind fun opq =>
      aNew A parent fs.length (opq != .fls)
  | .constructor t => (aGet rs t).bind fun | .rtd t => some (A, .ctor t) | _ => none
  | .predicate t => (aGet rs t).bind fun | .rtd t => some (A, .pred t) | _ => none
  | .accessor t i => (aGet rs t).bind fun t => (aGet rs i).bind fun i => match t, i with
    | .rtd t, .num i => (aIdx A t i).map fun i => (A, .acc t i)
    | _, _ => none
  | .mutator t i => (aGet rs t).bind fun t => (aGet rs i).bind fun i => match t, i with
    | .rtd t, .num i => (aIdx A t i).map fun i => (A, .mutr t i)
    | _, _ => none
  | .call f as => (aGet rs f).bind fun f => (aGetAll rs as).bind fun as => aCall A f as
  | .isRecord v => (aGet rs v).map fun v => match aOpaque A v with
    | some (_, o) => (A, if o then .fls else .tru)
    | none => (A, .fls)
  | .recordRtd v => (aGet rs v).bind fun v => match aOpaque A v with
    | some (k, false) => some (A, .rtd k)
    | _ => none
  | .setEqual t p => (aGet rs t).bind fun t => (aGet rs p).bind fun p => match t with
    | .rtd t => if p.isProc then some ({ A with eqP := upd A.eqP t (some p) }, .other 0) else none
    | _ => none
  | .setHash t p => (aGet rs t).bind fun t => (aGet rs p).bind fun p => match t with
    | .rtd t => if p.isProc then some ({ A with hashP := upd A.hashP t (some p) }, .other 0) else none
    | _ => none
  | .setWriter t p => (aGet rs t).bind fun t => (aGet rs p).bind fun p => match t with
    | .rtd t => if p.isProc then some ({ A with wr := upd A.wr t (some p) }, .other 0) else none
    | _ => none
  | .equalProc t => (aGet rs t).bind fun | .rtd t => some (A, (A.eqP t).getD .fls) | _ => none
  | .hashProc t => (aGet rs t).bind fun | .rtd t => some (A, (A.hashP t).getD .fls) | _ => none

/-- programs go on after errors -/
def aRun : ASt → List AVal → List Op → ASt × List AVal
  | A, rs, [] => (A, rs)
  | A, rs, op :: ops => match aStep A rs op with
    | some (A', v) => aRun A' (rs ++ [v]) ops
    | none => aRun A (rs ++ [.fls]) ops

def aEmpty : ASt := ⟨[], [], fun _ => none, fun _ => none, fun _ => none⟩

/-! ## Representation -/

/-- number of inherited fields -/
def off (ts : List AType) (t : Nat) : Nat :=
  match ts[t]? with
  | some a => a.slots.length - a.own
  | none => 0

/-- number of fields of an instance -/
def size (ts : List AType) (t : Nat) : Nat :=
  match ts[t]? with
  | some a => a.slots.length
  | none => 0

/-- how the program represents a value -/
def conc (ts : List AType) : AVal → Val
  | .fls => .fls
  | .tru => .tru
  | .num w => .num w
  | .sym n => .sym n
  | .fvec fs => .fvec fs
  | .rtd i => .rtd i
  | .rcd i => .rcd i
  | .proc n => .proc n
  | .ctor t => .ctor t (size ts t)
  | .pred t => .pred t
  | .acc t i => .acc t (i + off ts t)
  | .mutr t i => .mutr t (i + off ts t)
  | .other n => .other n

/-- the types and records a value refers to exist -/
def Valid (ts : List AType) (nr : Nat) : AVal → Prop
  | .rtd t | .ctor t | .pred t => t < ts.length
  | .rcd r => r < nr
  | .acc t i | .mutr t i => ∃ a, ts[t]? = some a ∧ i < a.own
  | _ => True

/-- one type is represented by one descriptor -/
def TypeRep (ts : List AType) (k : Nat) (a : AType) (r : Rtd) : Prop :=
  r.fields.length = a.own ∧ (r.opq == .fls) = !a.opq ∧
  ((r.parent = .fls ∧ a.anc = [k] ∧ a.slots = ownSlots k a.own) ∨
    ∃ p ap, r.parent = .rtd p ∧ p < k ∧ ts[p]? = some ap ∧ a.anc = k :: ap.anc ∧ a.slots = ap.slots ++ ownSlots k a.own)

/-- a table of procedures -/
def TabRep (ts : List AType) (nr : Nat) (f : Nat → Option AVal) (t : List (Nat × Val)) : Prop :=
  ∀ i, t.lookup i = (f i).map (conc ts) ∧ ∀ v, f i = some v → v.isProc = true ∧ Valid ts nr v ∧ i < ts.length

structure Sim (A : ASt) (s : Store) : Prop where
  len : s.rtds.length = A.types.length
  types : ∀ (k : Nat) (a : AType) (r : Rtd), A.types[k]? = some a → s.rtds[k]? = some r → TypeRep A.types k a r
  rcds : s.rcds = A.recs.map fun p => ⟨p.1, ((A.types[p.1]?.map AType.slots).getD []).map (fun sl => conc A.types (p.2 sl))⟩
  valid : ∀ p ∈ A.recs, p.1 < A.types.length ∧ ∀ sl, Valid A.types A.recs.length (p.2 sl)
  eqR : TabRep A.types A.recs.length A.eqP s.eqT
  hashR : TabRep A.types A.recs.length A.hashP s.hashT
  wrR : TabRep A.types A.recs.length A.wr s.wrT

/-! ## Lemmas -/

theorem Valid.mono {ts : List AType} {nr : Nat} {v : AVal} (h : Valid ts nr v) (ts' : List AType) {nr' : Nat} (hn : nr ≤ nr') :
    Valid (ts ++ ts') nr' v := by
  cases v with
  | rtd t | ctor t | pred t => simp only [Valid, List.length_append] at h ⊢; omega
  | rcd r => simp only [Valid] at h ⊢; omega
  | acc t i | mutr t i =>
    obtain ⟨a, h1, h2⟩ := h
    exact ⟨a, by rw [List.getElem?_append_left (List.getElem?_eq_some_iff.1 h1).1]; exact h1, h2⟩
  | _ => trivial

theorem conc_mono {ts : List AType} {nr : Nat} {v : AVal} (h : Valid ts nr v) (ts' : List AType) : conc (ts ++ ts') v = conc ts v := by
  cases v with
  | ctor t =>
    have : t < ts.length := h
    simp only [conc, size, List.getElem?_append_left this]
  | acc t i | mutr t i =>
    obtain ⟨a, h1, h2⟩ := h
    have : t < ts.length := (List.getElem?_eq_some_iff.1 h1).1
    simp only [conc, off, List.getElem?_append_left this]
  | _ => rfl

theorem conc_isProc (ts : List AType) (v : AVal) : isProc (conc ts v) = v.isProc := by cases v <;> rfl
theorem conc_fls (ts : List AType) (v : AVal) : conc ts v = .fls ↔ v = .fls := by cases v <;> simp [conc]

section Types

variable {A : ASt} {s : Store}

theorem Sim.rtd_some (h : Sim A s) {k : Nat} (hk : k < A.types.length) : ∃ a r, A.types[k]? = some a ∧ s.rtds[k]? = some r ∧ TypeRep A.types k a r := by
  have h2 : k < s.rtds.length := by rw [h.len]; exact hk
  exact ⟨_, _, List.getElem?_eq_getElem hk, List.getElem?_eq_getElem h2, h.types _ _ _ (List.getElem?_eq_getElem hk) (List.getElem?_eq_getElem h2)⟩

theorem length_ownSlots (t n : Nat) : (ownSlots t n).length = n := by simp [ownSlots]

/-- facts about a type, from its representation -/
structure TypeOK (ts : List AType) (k : Nat) (a : AType) : Prop where
  self : k ∈ a.anc
  le : ∀ t ∈ a.anc, t ≤ k
  sub : ∀ t ∈ a.anc, ∃ b, ts[t]? = some b ∧ b.slots <+: a.slots
  tail : ∃ pre, a.slots = pre ++ ownSlots k a.own
  slots : ∀ sl ∈ a.slots, sl.1 ≤ k
  nodup : a.slots.Nodup

theorem ownSlots_nodup (t n : Nat) : (ownSlots t n).Nodup :=
  List.Nodup.map (fun _ _ h => (Prod.mk.inj h).2) List.nodup_range

theorem Sim.typeOK (h : Sim A s) : ∀ (k : Nat) {a : AType}, A.types[k]? = some a → TypeOK A.types k a := by
  intro k
  induction k using Nat.strongRecOn with
  | _ k ih =>
    intro a ha
    obtain ⟨a', r, h1, h2, _, _, h3⟩ := h.rtd_some (List.getElem?_eq_some_iff.1 ha).1
    rw [ha] at h1; cases h1
    rcases h3 with ⟨_, h4, h5⟩ | ⟨p, ap, _, h6, h7, h8, h9⟩
    · refine ⟨by rw [h4]; simp, by rw [h4]; simp, ?_, ⟨[], by rw [h5]; rfl⟩, ?_, by rw [h5]; exact ownSlots_nodup _ _⟩
      · rw [h4]; intro t ht
        rw [List.mem_singleton.1 ht]
        exact ⟨a, ha, List.prefix_refl _⟩
      · rw [h5]; intro sl hs
        obtain ⟨i, _, rfl⟩ := List.mem_map.1 hs
        exact Nat.le_refl _
    · have hp := ih p h6 h7
      refine ⟨by rw [h8]; simp, ?_, ?_, ⟨_, h9⟩, ?_, ?_⟩
      · rw [h8]; intro t ht
        rcases List.mem_cons.1 ht with rfl | ht
        · exact Nat.le_refl _
        · have := hp.le t ht; omega
      · rw [h8]; intro t ht
        rcases List.mem_cons.1 ht with rfl | ht
        · exact ⟨a, ha, List.prefix_refl _⟩
        · obtain ⟨b, hb, hpre⟩ := hp.sub t ht
          exact ⟨b, hb, by rw [h9]; exact hpre.trans (List.prefix_append _ _)⟩
      · rw [h9]; intro sl hs
        rcases List.mem_append.1 hs with hs | hs
        · have := hp.slots sl hs; omega
        · obtain ⟨i, _, rfl⟩ := List.mem_map.1 hs
          exact Nat.le_refl _
      · rw [h9]
        refine List.nodup_append.2 ⟨hp.nodup, ownSlots_nodup _ _, ?_⟩
        intro x hx y hy hxy
        subst hxy
        have h10 := hp.slots x hx
        obtain ⟨i, _, rfl⟩ := List.mem_map.1 hy
        simp only at h10; omega

theorem TypeOK.own_le {ts : List AType} {k : Nat} {a : AType} (h : TypeOK ts k a) : a.own ≤ a.slots.length := by
  obtain ⟨pre, h⟩ := h.tail
  rw [h, List.length_append, length_ownSlots]; omega

/-- the position the program computes is that of the field -/
theorem slot_pos (h : Sim A s) {k t i : Nat} {a b : AType} (ha : A.types[k]? = some a) (ht : t ∈ a.anc) (hb : A.types[t]? = some b) (hi : i < b.own) :
    a.slots[i + off A.types t]? = some (t, i) := by
  obtain ⟨b', hb', ⟨suf, hpre⟩⟩ := (h.typeOK k ha).sub t ht
  rw [hb] at hb'; cases hb'
  obtain ⟨pre, hp⟩ := (h.typeOK t hb).tail
  have hoff : off A.types t = pre.length := by
    simp only [off, hb, hp, List.length_append, length_ownSlots]; omega
  have hlen := length_ownSlots t b.own
  rw [← hpre, hp, hoff, List.append_assoc, List.getElem?_append_right (by omega), Nat.add_sub_cancel,
    List.getElem?_append_left (by omega), ownSlots, List.getElem?_map, List.getElem?_range hi]
  rfl

theorem rtdOf_eq {i : Nat} {r : Rtd} (h : s.rtds[i]? = some r) : rtdOf s (.rtd i) = .ok r := by simp [rtdOf, h]
theorem rcdOf_eq {i : Nat} {r : Rcd} (h : s.rcds[i]? = some r) : rcdOf s (.rcd i) = .ok r := by simp [rcdOf, h]

theorem recordSize_eq (h : Sim A s) : ∀ (k : Nat) {a : AType} (n z : Nat), A.types[k]? = some a → k < n → recordSize s n (.rtd k) z = .ok (z + a.slots.length) := by
  intro k
  induction k using Nat.strongRecOn with
  | _ k ih =>
    intro a n z ha hn
    obtain ⟨n, rfl⟩ : ∃ m, n = m + 1 := ⟨n - 1, by omega⟩
    obtain ⟨a', r, h1, h2, h3, _, h4⟩ := h.rtd_some (List.getElem?_eq_some_iff.1 ha).1
    rw [ha] at h1; cases h1
    rw [recordSize, rtdOf_eq h2, Res.ok_bind]
    rcases h4 with ⟨h4, _, h5⟩ | ⟨p, ap, h5, h6, h7, _, h9⟩
    · rw [if_pos h4, h5, length_ownSlots, h3]
    · rw [if_neg (by rw [h5]; simp), h5, ih p h6 n _ h7 (by omega), h9, List.length_append, length_ownSlots, h3]
      congr 1; omega

theorem valueLoop_eq (h : Sim A s) (t : Nat) : ∀ (k : Nat) {a : AType} (n : Nat), A.types[k]? = some a → k < n →
    recordValueLoop s t n (.rtd k) = .ok (a.anc.contains t) := by
  intro k
  induction k using Nat.strongRecOn with
  | _ k ih =>
    intro a n ha hn
    obtain ⟨n, rfl⟩ : ∃ m, n = m + 1 := ⟨n - 1, by omega⟩
    obtain ⟨a', r, h1, h2, _, _, h4⟩ := h.rtd_some (List.getElem?_eq_some_iff.1 ha).1
    rw [ha] at h1; cases h1
    rw [recordValueLoop]
    by_cases hk : k = t
    · subst hk
      rw [if_pos rfl, List.contains_iff_mem.2 (h.typeOK k ha).self]
    · rw [if_neg (by simp [hk]), rtdOf_eq h2, Res.ok_bind]
      rcases h4 with ⟨h4, h5, _⟩ | ⟨p, ap, h5, h6, h7, h8, _⟩
      · rw [if_pos h4, h5]
        congr 1
        have : ¬ (t = k) := fun h => hk h.symm
        simp [this]
      · rw [if_neg (by rw [h5]; simp), h5, ih p h6 n h7 (by omega), h8]
        congr 1
        have : (t == k) = false := by simp; omega
        rw [List.contains_cons, this, Bool.false_or]

theorem Sim.rcd_some (h : Sim A s) {r k : Nat} {f : Nat × Nat → AVal} (hr : A.recs[r]? = some (k, f)) :
    ∃ a, A.types[k]? = some a ∧ s.rcds[r]? = some ⟨k, a.slots.map fun sl => conc A.types (f sl)⟩ := by
  have hk := (h.valid _ (List.mem_of_getElem? hr)).1
  refine ⟨_, List.getElem?_eq_getElem hk, ?_⟩
  rw [h.rcds, List.getElem?_map, hr]
  simp [List.getElem?_eq_getElem hk]

theorem applyPred_eq (h : Sim A s) (n t : Nat) {v : AVal} (hv : Valid A.types A.recs.length v) (hn : A.types.length ≤ n) :
    applyPred n s t (conc A.types v) = .ok (aIsA A t v) := by
  cases v with
  | rcd r =>
    have hr : r < A.recs.length := hv
    obtain ⟨⟨k, f⟩, hk⟩ : ∃ p, A.recs[r]? = some p := ⟨_, List.getElem?_eq_getElem hr⟩
    obtain ⟨a, ha, hs⟩ := h.rcd_some hk
    have hkl := (List.getElem?_eq_some_iff.1 ha).1
    simp only [applyPred, conc, isValue, if_true, rcdOf_eq hs, Res.ok_bind, aIsA, hk, ha]
    exact valueLoop_eq h t k n ha (by omega)
  | _ => rfl

end Types

/-! ## One step -/

/-- the new state has the old types and at least as many records -/
def Ext (A A' : ASt) : Prop := (∃ ts', A'.types = A.types ++ ts') ∧ A.recs.length ≤ A'.recs.length

theorem Ext.rfl {A : ASt} : Ext A A := ⟨⟨[], (List.append_nil _).symm⟩, Nat.le_refl _⟩

theorem Ext.valid {A A' : ASt} (h : Ext A A') {v : AVal} (hv : Valid A.types A.recs.length v) : Valid A'.types A'.recs.length v := by
  obtain ⟨⟨ts', h1⟩, h2⟩ := h
  rw [h1]; exact hv.mono ts' h2

theorem Ext.conc {A A' : ASt} (h : Ext A A') {v : AVal} (hv : Valid A.types A.recs.length v) : conc A'.types v = conc A.types v := by
  obtain ⟨⟨ts', h1⟩, h2⟩ := h
  rw [h1]; exact conc_mono hv ts'

/-- the outcome of a step is that of the specification -/
def StepOK (A : ASt) (out : Res (Store × Val)) (spec : Option (ASt × AVal)) : Prop :=
  match spec with
  | none => out = .err
  | some (A', v) => ∃ s', out = .ok (s', conc A'.types v) ∧ Sim A' s' ∧ Valid A'.types A'.recs.length v ∧ Ext A A' ∧ A'.types.length ≤ A.types.length + 1

variable {A : ASt} {s : Store}

theorem TabRep.ext {A A' : ASt} (h : Ext A A') {f : Nat → Option AVal} {t : List (Nat × Val)} (ht : TabRep A.types A.recs.length f t) :
    TabRep A'.types A'.recs.length f t := by
  intro i
  obtain ⟨h1, h2⟩ := ht i
  refine ⟨?_, fun v hv => ⟨(h2 v hv).1, h.valid (h2 v hv).2.1, ?_⟩⟩
  · rw [h1]
    cases hf : f i with
    | none => rfl
    | some v => simp only [Option.map_some, h.conc (h2 v hf).2.1]
  · obtain ⟨⟨ts', h3⟩, _⟩ := h
    have := (h2 v hv).2.2
    rw [h3, List.length_append]; omega

theorem TabRep.upd {ts : List AType} {nr : Nat} {f : Nat → Option AVal} {t : List (Nat × Val)} (h : TabRep ts nr f t) {i : Nat} {v : AVal}
    (hi : i < ts.length) (hp : v.isProc = true) (hv : Valid ts nr v) : TabRep ts nr (upd f i (some v)) ((i, conc ts v) :: t) := by
  intro j
  simp only [List.lookup_cons, Rec.upd]
  by_cases hj : j = i
  · subst hj
    simp only [beq_self_eq_true, if_true]
    refine ⟨rfl, fun w hw => ?_⟩
    cases hw
    exact ⟨hp, hv, hi⟩
  · have : (j == i) = false := by simpa using hj
    simp only [this, if_neg hj]
    exact h j

/-- a type without entry stays without -/
theorem TabRep.upd_none {ts : List AType} {nr : Nat} {f : Nat → Option AVal} {t : List (Nat × Val)} (h : TabRep ts nr f t) {i : Nat} 
    (hi : f i = none) : TabRep ts nr (Rec.upd f i none) t := by
  have : Rec.upd f i none = f := by
    funext j; simp only [Rec.upd]; split
    · next h => rw [h, hi]
    · rfl
  rw [this]; exact h

theorem sim_types (h : Sim A s) (a : AType) (r : Rtd) (hr : TypeRep A.types A.types.length a r) {eqP hashP : Nat → Option AVal} {eqT hashT : List (Nat × Val)}
    (he : TabRep (A.types ++ [a]) A.recs.length eqP eqT) (hh : TabRep (A.types ++ [a]) A.recs.length hashP hashT) :
    Sim { A with types := A.types ++ [a], eqP := eqP, hashP := hashP } { s with rtds := s.rtds ++ [r], eqT := eqT, hashT := hashT } := by
  have hext : Ext A { A with types := A.types ++ [a], eqP := eqP, hashP := hashP } := ⟨⟨[a], rfl⟩, Nat.le_refl _⟩
  refine ⟨by simp [h.len], ?_, ?_, ?_, he, hh, h.wrR.ext hext⟩
  · intro k b q hb hq
    have mono : ∀ {k b q}, TypeRep A.types k b q → TypeRep (A.types ++ [a]) k b q := by
      rintro k b q ⟨h1, h2, h3⟩
      refine ⟨h1, h2, ?_⟩
      rcases h3 with h3 | ⟨p, ap, h4, h5, h6, h7⟩
      · exact Or.inl h3
      · exact Or.inr ⟨p, ap, h4, h5, by rw [List.getElem?_append_left (List.getElem?_eq_some_iff.1 h6).1]; exact h6, h7⟩
    by_cases hk : k < A.types.length
    · simp only [List.getElem?_append_left hk] at hb
      rw [List.getElem?_append_left (by rw [h.len]; exact hk)] at hq
      exact mono (h.types k b q hb hq)
    · have hk' : k = A.types.length := by
        have := (List.getElem?_eq_some_iff.1 hb).1
        simp only [List.length_append, List.length_singleton] at this; omega
      subst hk'
      simp only [List.getElem?_concat_length, Option.some.injEq] at hb
      rw [← h.len, List.getElem?_concat_length, Option.some.injEq] at hq
      subst hb; subst hq
      exact mono hr
  · simp only
    rw [h.rcds]
    refine List.map_congr_left fun p hp => ?_
    have h1 := h.valid p hp
    have h2 : ((A.types ++ [a])[p.1]?.map AType.slots).getD [] = (A.types[p.1]?.map AType.slots).getD [] := by
      rw [List.getElem?_append_left h1.1]
    rw [h2]
    congr 1
    exact List.map_congr_left fun sl _ => (conc_mono (h1.2 sl) [a]).symm
  · intro p hp
    have h1 := h.valid p hp
    refine ⟨?_, fun sl => hext.valid (h1.2 sl)⟩
    simp only [List.length_append, List.length_singleton]; omega

theorem tableRef_eq {ts : List AType} {nr : Nat} {f : Nat → Option AVal} {t : List (Nat × Val)} (h : TabRep ts nr f t) (i : Nat) :
    tableRef t (.rtd i) = .ok (conc ts ((f i).getD .fls)) := by
  rw [tableRef, (h i).1]
  cases f i <;> rfl

theorem tableRef_valid {ts : List AType} {nr : Nat} {f : Nat → Option AVal} {t : List (Nat × Val)} (h : TabRep ts nr f t) (i : Nat) :
    Valid ts nr ((f i).getD .fls) := by
  cases hf : f i with
  | none => trivial
  | some v => exact ((h i).2 v hf).2.1

/-- inheriting a table entry -/
theorem inherit_eq {ts : List AType} {nr : Nat} {f : Nat → Option AVal} {t : List (Nat × Val)} (h : TabRep ts nr f t) {k p : Nat} (hk : k < ts.length)
    (hf : f k = none) : ∃ t', inherit t (.rtd k) (conc ts ((f p).getD .fls)) = .ok t' ∧ TabRep ts nr (upd f k (f p)) t' := by
  cases hp : f p with
  | none => exact ⟨t, rfl, h.upd_none hf⟩
  | some v =>
    obtain ⟨h1, h2, h3⟩ := (h p).2 v hp
    refine ⟨_, ?_, h.upd hk h1 h2⟩
    have h4 : conc ts v ≠ .fls := by
      intro he; rw [conc_fls] at he; subst he; cases h1
    rw [inherit, Option.getD_some, if_neg h4, tableSet, if_pos (by rw [conc_isProc]; exact h1)]

theorem step_new (h : Sim A s) (name uid sealed : Val) (parent opq : AVal) (fs : List FSpec) (hp : Valid A.types A.recs.length parent) :
    StepOK A (makeType s name (conc A.types parent) uid sealed (conc A.types opq) (.fvec fs)) (aNew A parent fs.length (opq != .fls)) := by
  have hopq : (conc A.types opq == .fls) = !(opq != .fls) := by
    cases opq <;> rfl
  have fresh : ∀ {f : Nat → Option AVal} {t : List (Nat × Val)}, TabRep A.types A.recs.length f t → f A.types.length = none := by
    intro f t ht
    cases hf : f A.types.length with
    | none => rfl
    | some v => have := ((ht _).2 v hf).2.2; omega
  have hext : ∀ (a : AType) (e e' : Nat → Option AVal), Ext A { A with types := A.types ++ [a], eqP := e, hashP := e' } :=
    fun a e e' => ⟨⟨[a], rfl⟩, Nat.le_refl _⟩
  cases parent with
  | fls =>
    have hr : TypeRep A.types A.types.length (newAType A none fs.length (opq != .fls)) ⟨name, .fls, uid, sealed, conc A.types opq, fs⟩ :=
      ⟨rfl, hopq, Or.inl ⟨rfl, rfl, rfl⟩⟩
    refine ⟨{ s with rtds := s.rtds ++ [⟨name, .fls, uid, sealed, conc A.types opq, fs⟩] }, ?_,
      sim_types h _ _ hr (h.eqR.ext (hext _ A.eqP A.hashP)) (h.hashR.ext (hext _ A.eqP A.hashP)), ?_, hext _ _ _, ?_⟩
    · rw [makeType, makeRtd, Res.ok_bind]
      simp only [conc, if_true, h.len]
    · simp [Valid]
    · simp
  | rtd p =>
    have hpl : p < A.types.length := hp
    obtain ⟨ap, hap⟩ : ∃ ap, A.types[p]? = some ap := ⟨_, List.getElem?_eq_getElem hpl⟩
    have hr : TypeRep A.types A.types.length (newAType A (some p) fs.length (opq != .fls)) ⟨name, .rtd p, uid, sealed, conc A.types opq, fs⟩ := by
      refine ⟨?_, ?_, Or.inr ⟨p, ap, rfl, hpl, hap, ?_, ?_⟩⟩ <;> simp only [newAType, hap]
      exact hopq
    generalize ha : newAType A (some p) fs.length (opq != .fls) = a at hr
    have hE := h.eqR.ext (hext a A.eqP A.hashP)
    have hH := h.hashR.ext (hext a A.eqP A.hashP)
    have hk : A.types.length < (A.types ++ [a]).length := by simp
    obtain ⟨e, he1, he2⟩ := inherit_eq hE (p := p) hk (fresh h.eqR)
    obtain ⟨hh, hh1, hh2⟩ := inherit_eq hH (p := p) hk (fresh h.hashR)
    have hm : makeType s name (conc A.types (.rtd p)) uid sealed (conc A.types opq) (.fvec fs) =
        if conc A.types ((A.wr p).getD .fls) = .fls then
          .ok ({ s with rtds := s.rtds ++ [⟨name, .rtd p, uid, sealed, conc A.types opq, fs⟩], eqT := e, hashT := hh }, .rtd A.types.length)
        else (do
          let _ ← tableRef s.wrT (conc A.types ((A.wr p).getD .fls))
          .ok ({ s with rtds := s.rtds ++ [⟨name, .rtd p, uid, sealed, conc A.types opq, fs⟩], eqT := e, hashT := hh }, .rtd A.types.length)) := by
      generalize conc A.types opq = o
      have hc : conc A.types (.rtd p) = .rtd p := rfl
      rw [hc, makeType, makeRtd, Res.ok_bind]
      simp only [h.len]
      rw [if_neg (by simp), tableRef_eq hE, tableRef_eq hH, tableRef_eq h.wrR]
      simp only [Res.ok_bind, he1, hh1]
    rw [hm, aNew, ha]
    cases hw : A.wr p with
    | none =>
      rw [Option.getD_none, if_pos (by rfl)]
      simp only [Option.isSome_none, Bool.false_eq_true, if_false]
      exact ⟨{ s with rtds := s.rtds ++ [⟨name, .rtd p, uid, sealed, conc A.types opq, fs⟩], eqT := e, hashT := hh }, rfl,
        sim_types h a _ hr he2 hh2, by simp [Valid], hext _ _ _, by simp⟩
    | some v =>
      have h1 := ((h.wrR p).2 v hw).1
      have h4 : conc A.types v ≠ .fls := by
        intro he; rw [conc_fls] at he; subst he; cases h1
      rw [Option.getD_some, if_neg h4]
      simp only [Option.isSome_some, if_true]
      cases v <;> first | rfl | cases h1
  | _ => rfl

theorem set_slots {β : Type} {sls : List (Nat × Nat)} (hn : sls.Nodup) {pos : Nat} {sl : Nat × Nat} (h : sls[pos]? = some sl) (g : Nat × Nat → β) (v : β) :
    (sls.map g).set pos v = sls.map (upd g sl v) := by
  apply List.ext_getElem?
  intro j
  rw [List.getElem?_set, List.getElem?_map, List.getElem?_map]
  have hp := List.getElem?_eq_some_iff.1 h
  by_cases hj : pos = j
  · subst hj
    rw [if_pos rfl, if_pos (by rw [List.length_map]; exact hp.1), h]
    simp [upd]
  · rw [if_neg hj]
    cases hs : sls[j]? with
    | none => rfl
    | some x =>
      have hx := List.getElem?_eq_some_iff.1 hs
      have : x ≠ sl := by
        intro he
        subst he
        exact hj ((List.Nodup.getElem_inj_iff hn).1 (hp.2.trans hx.2.symm))
      simp [upd, this]

theorem contents_map {sls : List (Nat × Nat)} (hn : sls.Nodup) {vs : List AVal} (hl : vs.length = sls.length) : sls.map (contents sls vs) = vs := by
  induction sls generalizing vs with
  | nil => cases vs with
    | nil => rfl
    | cons _ _ => cases hl
  | cons sl sls ih =>
    cases vs with
    | nil => cases hl
    | cons v vs =>
      have hn' := List.nodup_cons.1 hn
      rw [List.map_cons]
      congr 1
      · simp [contents]
      · rw [← ih hn'.2 (Nat.succ.inj hl)]
        refine List.map_congr_left fun x hx => ?_
        have : x ≠ sl := fun e => hn'.1 (e ▸ hx)
        rw [ih hn'.2 (Nat.succ.inj hl)]
        simp only [contents, if_neg this]

theorem contents_valid {ts : List AType} {nr : Nat} : ∀ (sls : List (Nat × Nat)) {vs : List AVal}, (∀ v ∈ vs, Valid ts nr v) → ∀ sl, Valid ts nr (contents sls vs sl)
  | [], _, _, _ => trivial
  | _ :: _, [], _, _ => trivial
  | x :: sls, v :: vs, h, sl => by
    simp only [contents]
    split
    · exact h v (List.mem_cons_self)
    · exact contents_valid sls (fun v hv => h v (List.mem_cons_of_mem _ hv)) sl

end Minim.Rec
