import Verif.RecordSim

set_option autoImplicit false

/-!
# Properties of records (C34 for records, C42-C44, C72-C74)
-/

namespace Minim.Rec

/-- a value that is neither a record (type) nor one of the closures about one -/
def AVal.isConst : AVal → Bool
  | .fls | .tru | .num _ | .sym _ | .fvec _ | .proc _ | .other _ => true
  | _ => false

theorem valid_const {ts : List AType} {nr : Nat} {v : AVal} (h : v.isConst = true) : Valid ts nr v := by
  cases v <;> first | trivial | cases h

/-! ### C42 -/

/-- C42: every program over the record procedures, with any constants, computes what the specification computes: a record maps
(type, field number) to values, constructors take the fields of the ancestors first, accessors and mutators of a type work exactly on the
instances of it and of its descendants, every other use is an error. -/
theorem C42_refines (n : Nat) (consts : List AVal) (hc : ∀ c ∈ consts, c.isConst = true) (ops : List Op) (hn : ops.length ≤ n) :
    ∃ s, run n empty (consts.map (conc [])) ops = .ok (s, (aRun aEmpty consts ops).2.map (conc (aRun aEmpty consts ops).1.types)) ∧
      Sim (aRun aEmpty consts ops).1 s := by
  obtain ⟨s, h1, h2, _⟩ := run_ok n ops (A := aEmpty) (s := empty) (rs := consts) sim_empty (fun v hv => valid_const (hc v hv))
    (by simp only [aEmpty, List.length_nil, Nat.zero_add]; exact hn)
  exact ⟨s, h1, h2⟩

/-- point (x y) with child cpoint (color): construct a cpoint, write y of it through the mutator of point, read y and color -/
def demoOps : List Op :=
  [.newType 1 0 0 0 0 [.spec true 1, .spec true 2], .newType 1 6 0 0 0 [.spec true 3],
   .constructor 7, .call 8 [2, 3, 4], .mutator 6 3, .call 10 [9, 5], .accessor 6 3, .call 12 [9], .accessor 7 2, .call 14 [9], .call 12 [4]]

/-- results: 6 point, 7 cpoint, 8 constructor, 9 the record, 13: y is the new value, 15: color as constructed, 16: an accessor on a non-record -/
example : run 20 empty [.fls, .sym 0, .num 0#64, .num 1#64, .num 7#64, .num 9#64] demoOps =
    .ok (⟨[⟨.sym 0, .fls, .fls, .fls, .fls, [.spec true 1, .spec true 2]⟩, ⟨.sym 0, .rtd 0, .fls, .fls, .fls, [.spec true 3]⟩],
        [⟨1, [.num 0#64, .num 9#64, .num 7#64]⟩], [], [], []⟩,
      [.fls, .sym 0, .num 0#64, .num 1#64, .num 7#64, .num 9#64, .rtd 0, .rtd 1, .ctor 1 3, .rcd 0, .mutr 0 1, .other 0,
        .acc 0 1, .num 9#64, .acc 1 2, .num 7#64, .fls]) := by decide +kernel

/-- the value a step writes to field `sl` of record `r`, if it does -/
def writeOf (A : ASt) (rs : List AVal) (r : Nat) (sl : Nat × Nat) (op : Op) : Option AVal :=
  match op with
  | .call f as => match aGet rs f, aGetAll rs as with
    | some (.mutr t i), some [.rcd r', x] => if aIsA A t (.rcd r') = true ∧ r' = r ∧ (t, i) = sl then some x else none
    | _, _ => none
  | _ => none

/-- the value of field `sl` of record `r` after a program, given its value before: the last one written -/
def lastWrite (A : ASt) (rs : List AVal) (r : Nat) (sl : Nat × Nat) (v : AVal) : List Op → AVal
  | [] => v
  | op :: ops => 
    let v' := (writeOf A rs r sl op).getD v
    match aStep A rs op with
    | some (A', x) => lastWrite A' (rs ++ [x]) r sl v' ops
    | none => lastWrite A (rs ++ [.fls]) r sl v' ops

theorem aField_step {A A' : ASt} {rs : List AVal} {op : Op} {v : AVal} (h : aStep A rs op = some (A', v)) {r : Nat} (hr : r < A.recs.length)
    (sl : Nat × Nat) : aField A' r sl = (writeOf A rs r sl op).getD (aField A r sl) ∧ r < A'.recs.length := by
  have bindD : ∀ {α β : Type} {o : Option α} {f : α → Option β} {b : β}, o.bind f = some b → ∃ a, o = some a ∧ f a = some b := by
    intro α β o f b hb; cases o with
    | none => cases hb
    | some a => exact ⟨a, rfl, hb⟩
  cases op with
  | newType a b c d e fs =>
    simp only [aStep] at h
    obtain ⟨_, _, h⟩ := bindD h; obtain ⟨pv, _, h⟩ := bindD h; obtain ⟨_, _, h⟩ := bindD h; obtain ⟨_, _, h⟩ := bindD h; obtain ⟨_, _, h⟩ := bindD h
    simp only [writeOf, Option.getD_none]
    cases pv <;> simp only [aNew] at h <;> first | (cases h; exact ⟨rfl, hr⟩) | (cases h) | (split at h <;> cases h; exact ⟨rfl, hr⟩)
  | constructor t | predicate t | equalProc t | hashProc t =>
    simp only [aStep] at h
    obtain ⟨x, _, h⟩ := bindD h
    cases x <;> cases h
    exact ⟨rfl, hr⟩
  | accessor t i | mutator t i =>
    simp only [aStep] at h
    obtain ⟨x, _, h⟩ := bindD h; obtain ⟨y, _, h⟩ := bindD h
    cases x with
    | rtd k => cases y with
      | num j =>
        simp only at h
        cases hj : aIdx A k j <;> rw [hj] at h <;> cases h
        exact ⟨rfl, hr⟩
      | _ => cases h
    | _ => cases h
  | isRecord w =>
    simp only [aStep] at h
    cases hg : aGet rs w <;> rw [hg] at h <;> simp only [Option.map_none, Option.map_some, Option.some.injEq, reduceCtorEq] at h
    split at h <;> cases h <;> exact ⟨rfl, hr⟩
  | recordRtd w =>
    simp only [aStep] at h
    obtain ⟨x, _, h⟩ := bindD h
    split at h <;> cases h
    exact ⟨rfl, hr⟩
  | setEqual t p | setHash t p | setWriter t p =>
    simp only [aStep] at h
    obtain ⟨x, _, h⟩ := bindD h; obtain ⟨y, _, h⟩ := bindD h
    cases x <;> simp only [reduceCtorEq] at h
    split at h <;> cases h
    exact ⟨rfl, hr⟩
  | call f as =>
    simp only [aStep] at h
    obtain ⟨fv, hf, h⟩ := bindD h; obtain ⟨vs, hvs, h⟩ := bindD h
    simp only [writeOf, hf, hvs]
    cases fv with
    | ctor t =>
      simp only [aCall] at h
      split at h
      · split at h
        · cases h
          simp only [Option.getD_none, aField, List.getElem?_append_left hr, List.length_append]
          exact ⟨trivial, by omega⟩
        · cases h
      · cases h
    | pred t =>
      match vs, h with
      | [x], h => cases h; exact ⟨rfl, hr⟩
    | acc t i =>
      match vs, h with
      | [.rcd x], h =>
        simp only [aCall] at h
        split at h
        · cases h; exact ⟨rfl, hr⟩
        · cases h
    | mutr t i =>
      match vs, h with
      | [.rcd r', x], h =>
        simp only [aCall] at h
        split at h
        · next hA =>
          cases h
          simp only [aField, List.getElem?_modify, List.length_modify]
          refine ⟨?_, hr⟩
          rw [List.getElem?_eq_getElem hr]
          by_cases h1 : r' = r
          · subst h1
            by_cases h2 : (t, i) = sl
            · subst h2
              simp [hA, upd]
            · rw [if_neg (by simp [h2])]
              have h3 : sl ≠ (t, i) := fun e => h2 e.symm
              simp [upd, h3]
          · simp [h1]
        · cases h
    | _ => cases h

/-- C42: after any program the field of a record holds the last value a mutator of that very type and field number wrote to it, and what it
held before if there was none; no other operation, and no write to another field or record, touches it. -/
theorem C42_last_write (ops : List Op) : ∀ (A : ASt) (rs : List AVal) (r : Nat), r < A.recs.length → ∀ sl,
    aField (aRun A rs ops).1 r sl = lastWrite A rs r sl (aField A r sl) ops := by
  induction ops with
  | nil => intro A rs r _ sl; rfl
  | cons op ops ih =>
    intro A rs r hr sl
    simp only [aRun, lastWrite]
    cases h : aStep A rs op with
    | some p =>
      obtain ⟨A', v⟩ := p
      obtain ⟨h1, h2⟩ := aField_step h hr sl
      simp only
      rw [ih A' _ r h2 sl, h1]
    | none =>
      simp only
      rw [ih A _ r hr sl]
      congr 1
      cases op with
      | call f as =>
        simp only [writeOf]
        split
        · next h1 h2 =>
          split
          · next h3 =>
            simp only [aStep, h1, h2, Option.bind_some, aCall, h3.1, if_true] at h
            cases h
          · rfl
        · rfl
      | _ => rfl

/-- C42: right after construction each field holds the argument at its position; the fields of the ancestors come first. -/
theorem C42_constructed {sls : List (Nat × Nat)} (hn : sls.Nodup) {vs : List AVal} (hl : vs.length = sls.length) {k : Nat} {sl : Nat × Nat}
    (hk : sls[k]? = some sl) : vs[k]? = some (contents sls vs sl) := by
  rw [← contents_map hn hl, List.getElem?_map, hk, contents_map hn hl]; rfl

example : ([(0, 0), (0, 1), (1, 0)] : List (Nat × Nat)).Nodup ∧ ([.tru, .fls, .sym 3] : List AVal).length = 3 := by decide

/-! ### C34 for records -/

/-- C34, record part: no program over the checked record procedures accesses memory outside a record or type descriptor, provided the field
lists given to `make-record-type-descriptor` are vectors (see C73 for what happens otherwise); and every program ends. -/
theorem C34_records (n : Nat) (consts : List AVal) (hc : ∀ c ∈ consts, c.isConst = true) (ops : List Op) (hn : ops.length ≤ n) :
    run n empty (consts.map (conc [])) ops ≠ .ub ∧ run n empty (consts.map (conc [])) ops ≠ .oof := by
  obtain ⟨s, h, _⟩ := C42_refines n consts hc ops hn
  rw [h]; simp

/-- an accessor for field 2 of a type with two fields is an error, as is a field number that is no integer, or negative -/
example : run 20 empty [.fls, .sym 0, .num 2#64, .num (-1#64)] [.newType 1 0 0 0 0 [.spec true 1, .spec true 2], .accessor 4 2, .accessor 4 3, .accessor 4 1] =
    .ok (⟨[⟨.sym 0, .fls, .fls, .fls, .fls, [.spec true 1, .spec true 2]⟩], [], [], [], []⟩,
      [.fls, .sym 0, .num 2#64, .num (-1#64), .rtd 0, .fls, .fls, .fls]) := by decide +kernel

/-! ### C43 -/

/-- type `k` is type `t` or inherits from it -/
inductive Desc (s : Store) : Nat → Nat → Prop
  | refl (t : Nat) : Desc s t t
  | up {k p t : Nat} {r : Rtd} : s.rtds[k]? = some r → r.parent = .rtd p → Desc s p t → Desc s k t

/-- a store some program reaches -/
def Reachable (s : Store) : Prop := ∃ (n : Nat) (consts : List AVal) (ops : List Op) (rs : List Val), (∀ c ∈ consts, c.isConst = true) ∧ ops.length ≤ n ∧
  run n empty (consts.map (conc [])) ops = .ok (s, rs)

theorem Reachable.sim {s : Store} (h : Reachable s) : ∃ A, Sim A s := by
  obtain ⟨n, consts, ops, rs, h1, h2, h3⟩ := h
  obtain ⟨s', h4, h5⟩ := C42_refines n consts h1 ops h2
  rw [h3] at h4
  cases h4
  exact ⟨_, h5⟩

theorem anc_iff {A : ASt} {s : Store} (h : Sim A s) (t : Nat) : ∀ (k : Nat) {a : AType}, A.types[k]? = some a → (t ∈ a.anc ↔ Desc s k t) := by
  intro k
  induction k using Nat.strongRecOn with
  | _ k ih =>
    intro a ha
    obtain ⟨a', r, h1, h2, _, _, h4⟩ := h.rtd_some (List.getElem?_eq_some_iff.1 ha).1
    rw [ha] at h1; cases h1
    rcases h4 with ⟨h5, h6, _⟩ | ⟨p, ap, h5, h6, h7, h8, _⟩
    · rw [h6, List.mem_singleton]
      constructor
      · rintro rfl; exact .refl _
      · intro hd
        cases hd with
        | refl => rfl
        | up h9 h10 _ => rw [h2] at h9; cases h9; rw [h5] at h10; cases h10
    · rw [h8, List.mem_cons, ih p h6 h7]
      constructor
      · rintro (rfl | hd)
        · exact .refl _
        · exact .up h2 h5 hd
      · intro hd
        cases hd with
        | refl => exact Or.inl rfl
        | up h9 h10 h11 => rw [h2] at h9; cases h9; rw [h5] at h10; cases h10; exact Or.inr h11

/-- C43: in every reachable state the predicate of a type answers on a record whether the record's type is that type or inherits from it. -/
theorem C43_predicate {s : Store} (h : Reachable s) (n t r : Nat) {x : Rcd} (hx : s.rcds[r]? = some x) (hn : s.rtds.length ≤ n) :
    ∃ b, applyPred n s t (.rcd r) = .ok b ∧ (b = true ↔ Desc s x.rtd t) := by
  obtain ⟨A, hA⟩ := h.sim
  have hr : r < A.recs.length := by
    have := (List.getElem?_eq_some_iff.1 hx).1
    rw [hA.rcds, List.length_map] at this; exact this
  obtain ⟨⟨k, f⟩, hk⟩ : ∃ p, A.recs[r]? = some p := ⟨_, List.getElem?_eq_getElem hr⟩
  obtain ⟨a, ha, hs⟩ := hA.rcd_some hk
  rw [hx] at hs; cases hs
  have h1 := applyPred_eq hA n t (v := .rcd r) hr (by rw [← hA.len]; exact hn)
  refine ⟨_, h1, ?_⟩
  simp only [aIsA, hk, ha, List.contains_iff_mem]
  exact anc_iff hA t k ha

/-- C43: a predicate is false on everything that is no record, and `record-predicate` fails on everything that is no record type. -/
theorem C43_other (n : Nat) (s : Store) (t : Nat) (v : Val) : ((∀ r, v ≠ .rcd r) → applyPred n s t v = .ok false) ∧
    (pPredicate v = .err ↔ ∀ i, v ≠ .rtd i) := by
  cases v <;> simp [applyPred, isValue, pPredicate]

/-- the predicate of the parent holds of an instance of the child, not the other way round -/
example : run 20 empty [.fls, .sym 0] [.newType 1 0 0 0 0 [], .newType 1 2 0 0 0 [], .constructor 2, .constructor 3, .call 4 [], .call 5 [],
      .predicate 2, .predicate 3, .call 8 [7], .call 9 [6]] =
    .ok (⟨[⟨.sym 0, .fls, .fls, .fls, .fls, []⟩, ⟨.sym 0, .rtd 0, .fls, .fls, .fls, []⟩], [⟨0, []⟩, ⟨1, []⟩], [], [], []⟩,
      [.fls, .sym 0, .rtd 0, .rtd 1, .ctor 0 0, .ctor 1 0, .rcd 0, .rcd 1, .pred 0, .pred 1, .tru, .fls]) := by decide +kernel

/-! ### C44 -/

/-- C44 for equality and hash procedures: a new type has those of its parent, and no other type's change. -/
theorem C44_partial {s s' : Store} (h : Reachable s) {name uid sealed opq : Val} {fs : List FSpec} {p k : Nat} (hp : p < s.rtds.length)
    (hm : makeType s name (.rtd p) uid sealed opq (.fvec fs) = .ok (s', .rtd k)) :
    k = s.rtds.length ∧ tableRef s'.eqT (.rtd k) = tableRef s.eqT (.rtd p) ∧ tableRef s'.hashT (.rtd k) = tableRef s.hashT (.rtd p) ∧
      ∀ j, j < s.rtds.length → tableRef s'.eqT (.rtd j) = tableRef s.eqT (.rtd j) ∧ tableRef s'.hashT (.rtd j) = tableRef s.hashT (.rtd j) := by
  obtain ⟨A, hA⟩ := h.sim
  have fresh : ∀ {f : Nat → Option AVal} {t : List (Nat × Val)}, TabRep A.types A.recs.length f t → t.lookup s.rtds.length = none := by
    intro f t ht
    rw [(ht _).1, hA.len]
    cases hf : f A.types.length with
    | none => rfl
    | some v => have := ((ht _).2 v hf).2.2; omega
  have key : ∀ {t t' : List (Nat × Val)}, t.lookup s.rtds.length = none → 
      inherit t (.rtd s.rtds.length) ((t.lookup p).getD .fls) = .ok t' →
      tableRef t' (.rtd s.rtds.length) = tableRef t (.rtd p) ∧ ∀ j, j < s.rtds.length → tableRef t' (.rtd j) = tableRef t (.rtd j) := by
    intro t t' hl hi
    rw [inherit] at hi
    split at hi
    · next he =>
      cases hi
      refine ⟨?_, fun j _ => rfl⟩
      simp only [tableRef, hl, he, Option.getD_none]
    · rw [tableSet] at hi
      split at hi
      · cases hi
        refine ⟨by simp only [tableRef, List.lookup_cons, beq_self_eq_true, Option.getD_some], fun j hj => ?_⟩
        have : (j == s.rtds.length) = false := by simp; omega
        simp only [tableRef, List.lookup_cons, this]
      · cases hi
  rw [makeType, makeRtd, Res.ok_bind] at hm
  simp only at hm
  rw [if_neg (by simp)] at hm
  simp only [tableRef, Res.ok_bind] at hm
  obtain ⟨e, h1, hm⟩ := Res.bind_eq_ok.1 hm
  obtain ⟨g, h2, hm⟩ := Res.bind_eq_ok.1 hm
  have k1 := key (fresh hA.eqR) h1
  have k2 := key (fresh hA.hashR) h2
  split at hm
  · cases hm
    exact ⟨rfl, k1.1, k2.1, fun j hj => ⟨k1.2 j hj, k2.2 j hj⟩⟩
  · obtain ⟨w, h3, hm⟩ := Res.bind_eq_ok.1 hm
    cases hm
    exact ⟨rfl, k1.1, k2.1, fun j hj => ⟨k1.2 j hj, k2.2 j hj⟩⟩

/-- `Reachable` is inhabited by states with a parent that has an equality procedure. -/
example : Reachable ⟨[⟨.sym 0, .fls, .fls, .fls, .fls, []⟩], [], [(0, .proc 5)], [], []⟩ ∧
    makeType ⟨[⟨.sym 0, .fls, .fls, .fls, .fls, []⟩], [], [(0, .proc 5)], [], []⟩ (.sym 1) (.rtd 0) .fls .fls .fls (.fvec []) =
      .ok (⟨[⟨.sym 0, .fls, .fls, .fls, .fls, []⟩, ⟨.sym 1, .rtd 0, .fls, .fls, .fls, []⟩], [], [(1, .proc 5), (0, .proc 5)], [], []⟩, .rtd 1) :=
  ⟨⟨20, [.fls, .sym 0, .proc 5], [.newType 1 0 0 0 0 [], .setEqual 3 2], [.fls, .sym 0, .proc 5, .rtd 0, .other 0], by decide, by decide, by decide +kernel⟩,
    by decide +kernel⟩

theorem recordSet_eqT {s s' : Store} {v x : Val} {pos : Nat} (h : recordSet s v pos x = .ok s') : s'.eqT = s.eqT := by
  cases v with
  | rcd i =>
    simp only [recordSet] at h
    cases hi : s.rcds[i]? with
    | none => rw [hi] at h; cases h
    | some r =>
      rw [hi] at h
      simp only at h
      split at h
      · cases h; rfl
      · cases h
  | _ => cases h

/-- C44, "until overridden": no operation but setting it for this type changes a type's equality procedure, and setting it does. -/
theorem C44_until {s s' : Store} {n : Nat} {rs : List Val} {op : Op} {v : Val} (h : step n s rs op = .ok (s', v)) {k : Nat} (hk : k < s.rtds.length)
    (ho : ∀ t p, op = .setEqual t p → rs[t]? ≠ some (.rtd k)) : tableRef s'.eqT (.rtd k) = tableRef s.eqT (.rtd k) := by
  have hget : ∀ {i : Nat} {v : Val}, get rs i = .ok v → rs[i]? = some v := by
    intro i v hg; rw [get] at hg; split at hg
    · next h1 => cases hg; exact h1
    · cases hg
  cases op with
  | newType a b c d e fs =>
    simp only [step] at h
    obtain ⟨name, _, h⟩ := Res.bind_eq_ok.1 h; obtain ⟨parent, _, h⟩ := Res.bind_eq_ok.1 h; obtain ⟨uid, _, h⟩ := Res.bind_eq_ok.1 h
    obtain ⟨sd, _, h⟩ := Res.bind_eq_ok.1 h; obtain ⟨o, _, h⟩ := Res.bind_eq_ok.1 h
    rw [makeType, makeRtd, Res.ok_bind] at h
    simp only at h
    have key : ∀ {t t' : List (Nat × Val)} {p : Val}, inherit t (.rtd s.rtds.length) p = .ok t' → tableRef t' (.rtd k) = tableRef t (.rtd k) := by
      intro t t' p hi
      rw [inherit] at hi
      split at hi
      · cases hi; rfl
      · rw [tableSet] at hi
        split at hi
        · cases hi
          have : (k == s.rtds.length) = false := by simp; omega
          simp only [tableRef, List.lookup_cons, this]
        · cases hi
    split at h
    · cases h; rfl
    · obtain ⟨e1, _, h⟩ := Res.bind_eq_ok.1 h; obtain ⟨e2, _, h⟩ := Res.bind_eq_ok.1 h; obtain ⟨e3, _, h⟩ := Res.bind_eq_ok.1 h
      obtain ⟨e4, h4, h⟩ := Res.bind_eq_ok.1 h; obtain ⟨e5, _, h⟩ := Res.bind_eq_ok.1 h
      split at h
      · cases h; exact key h4
      · obtain ⟨e6, _, h⟩ := Res.bind_eq_ok.1 h; cases h; exact key h4
  | constructor t | predicate t | isRecord t | recordRtd t | equalProc t | hashProc t =>
    simp only [step] at h
    obtain ⟨_, _, h⟩ := Res.bind_eq_ok.1 h; obtain ⟨_, _, h⟩ := Res.bind_eq_ok.1 h
    cases h; rfl
  | accessor t i | mutator t i =>
    simp only [step] at h
    obtain ⟨_, _, h⟩ := Res.bind_eq_ok.1 h; obtain ⟨_, _, h⟩ := Res.bind_eq_ok.1 h; obtain ⟨_, _, h⟩ := Res.bind_eq_ok.1 h
    cases h; rfl
  | setHash t p | setWriter t p =>
    simp only [step] at h
    obtain ⟨_, _, h⟩ := Res.bind_eq_ok.1 h; obtain ⟨_, _, h⟩ := Res.bind_eq_ok.1 h; obtain ⟨_, _, h⟩ := Res.bind_eq_ok.1 h
    cases h; rfl
  | setEqual t p =>
    simp only [step] at h
    obtain ⟨tv, h1, h⟩ := Res.bind_eq_ok.1 h; obtain ⟨pv, _, h⟩ := Res.bind_eq_ok.1 h; obtain ⟨tab, h2, h⟩ := Res.bind_eq_ok.1 h
    cases h
    have h3 := ho t p rfl
    rw [hget h1] at h3
    cases tv with
    | rtd i =>
      rw [tableSet] at h2
      split at h2
      · cases h2
        have : (k == i) = false := by
          rw [beq_eq_false_iff_ne]
          intro e; subst e; exact h3 rfl
        simp only [tableRef, List.lookup_cons, this]
      · cases h2
    | _ => cases h2
  | call f as =>
    simp only [step] at h
    obtain ⟨fv, _, h⟩ := Res.bind_eq_ok.1 h; obtain ⟨vs, _, h⟩ := Res.bind_eq_ok.1 h
    have : s'.eqT = s.eqT := by
      cases fv with
      | ctor t z =>
        simp only [apply] at h
        split at h
        · cases h; rfl
        · cases h
      | pred t =>
        match vs, h with
        | [x], h =>
          simp only [apply] at h
          obtain ⟨_, _, h⟩ := Res.bind_eq_ok.1 h
          cases h; rfl
      | acc t i =>
        match vs, h with
        | [x], h =>
          simp only [apply] at h
          obtain ⟨_, _, h⟩ := Res.bind_eq_ok.1 h
          split at h
          · obtain ⟨_, _, h⟩ := Res.bind_eq_ok.1 h
            cases h; rfl
          · cases h
      | mutr t i =>
        match vs, h with
        | [x, y], h =>
          simp only [apply] at h
          obtain ⟨_, _, h⟩ := Res.bind_eq_ok.1 h
          split at h
          · obtain ⟨s2, h2, h⟩ := Res.bind_eq_ok.1 h
            cases h
            exact recordSet_eqT h2
          · cases h
      | _ => cases h
    rw [this]
  
/-- C44, overriding: the procedure set last is the one in use. -/
theorem C44_override {s s' : Store} {n : Nat} {rs : List Val} {t p : Nat} {v : Val} (h : step n s rs (.setEqual t p) = .ok (s', v)) :
    ∃ k q, rs[t]? = some (.rtd k) ∧ rs[p]? = some q ∧ tableRef s'.eqT (.rtd k) = .ok q := by
  simp only [step, get] at h
  cases h1 : rs[t]? with
  | none => rw [h1] at h; cases h
  | some tv =>
    cases h2 : rs[p]? with
    | none => rw [h1, h2] at h; cases h
    | some pv =>
      rw [h1, h2] at h
      simp only [Res.ok_bind] at h
      cases tv with
      | rtd k =>
        rw [tableSet] at h
        split at h
        · simp only [Res.ok_bind, Res.ok.injEq, Prod.mk.injEq] at h
          obtain ⟨rfl, rfl⟩ := h
          exact ⟨k, pv, rfl, rfl, by simp [tableRef]⟩
        · cases h
      | _ => cases h

/-- C44: instances of one type with an equality procedure are compared by it, and hashed by the hash procedure of their type. -/
theorem C44_used {s : Store} {a b : Nat} {x y : Rcd} (ha : s.rcds[a]? = some x) (hb : s.rcds[b]? = some y) {p : Val} (hp : p ≠ .fls)
    (h1 : tableRef s.eqT (.rtd x.rtd) = .ok p) (h2 : tableRef s.eqT (.rtd y.rtd) = .ok p) :
    pRecordEqual s (.rcd a) (.rcd b) = .ok p ∧ pRecordHash s (.rcd a) = tableRef s.hashT (.rtd x.rtd) := by
  simp only [pRecordEqual, isValue, if_true, rcdOf_eq ha, rcdOf_eq hb, Res.ok_bind, h1, h2, if_neg hp, pRecordHash, and_self]

example : pRecordEqual ⟨[], [⟨0, []⟩, ⟨1, []⟩], [(1, .proc 5), (0, .proc 5)], [], []⟩ (.rcd 0) (.rcd 1) = .ok (.proc 5) := by decide

/-- C44 is false of writers: below a type with a custom writer no type can be made at all. -/
theorem C44_negated_writer (s : Store) (name uid sealed opq : Val) (fs : List FSpec) (p w : Nat) (hw : s.wrT.lookup p = some (.proc w)) :
    ∀ r, makeType s name (.rtd p) uid sealed opq (.fvec fs) ≠ .ok r := by
  intro r hm
  rw [makeType, makeRtd, Res.ok_bind] at hm
  simp only at hm
  rw [if_neg (by simp)] at hm
  simp only [tableRef, hw, Res.ok_bind, Option.getD_some] at hm
  obtain ⟨_, _, hm⟩ := Res.bind_eq_ok.1 hm
  obtain ⟨_, _, hm⟩ := Res.bind_eq_ok.1 hm
  simp only [reduceCtorEq, if_false, Res.err_bind] at hm

/-- the same as a program: make a type, give it a writer, make a subtype: an error (`#f`) -/
example : run 20 empty [.fls, .sym 0, .proc 9] [.newType 1 0 0 0 0 [], .setWriter 3 2, .newType 1 3 0 0 0 []] =
    .ok (⟨[⟨.sym 0, .fls, .fls, .fls, .fls, []⟩], [], [], [], [(0, .proc 9)]⟩, [.fls, .sym 0, .proc 9, .rtd 0, .other 0, .fls]) := by decide +kernel

/-! ### C72: immutable fields -/

/-- C72 is false: a field declared immutable (and reported as such) is changed by the mutator `record-mutator` returns for it. -/
theorem C72_negated : run 20 empty [.fls, .sym 0, .num 0#64, .num 7#64]
      [.newType 1 0 0 0 0 [.spec false 1], .constructor 4, .call 5 [2], .mutator 4 2, .call 7 [6, 3], .accessor 4 2, .call 9 [6]] =
    .ok (⟨[⟨.sym 0, .fls, .fls, .fls, .fls, [.spec false 1]⟩], [⟨0, [.num 7#64]⟩], [], [], []⟩,
      [.fls, .sym 0, .num 0#64, .num 7#64, .rtd 0, .ctor 0 1, .rcd 0, .mutr 0 0, .other 0, .acc 0 0, .num 7#64]) ∧
    pFieldMutable ⟨[⟨.sym 0, .fls, .fls, .fls, .fls, [.spec false 1]⟩], [], [], [], []⟩ (.rtd 0) (.num 0#64) = .ok false := by decide +kernel

/-- C72, what holds: `record-type-field-mutable?` reports the declaration, for every well-formed list of fields and every index. -/
theorem C72_partial (s : Store) (t : Nat) (r : Rtd) (h : s.rtds[t]? = some r) (decl : List (Bool × Nat))
    (hd : r.fields = decl.map fun d => .spec d.1 d.2) (hl : decl.length < 2 ^ 63) (i : Word) :
    pFieldMutable s (.rtd t) (.num i) = match decl[i.toNat]? with | some d => .ok d.1 | none => .err := by
  have hnames : ∀ decl : List (Bool × Nat), rtdFieldNames (decl.map fun d => .spec d.1 d.2) = .ok (decl.map (·.2)) := by
    intro decl
    induction decl with
    | nil => rfl
    | cons d ds ih => rw [List.map_cons, rtdFieldNames, ih]; rfl
  rw [pFieldMutable, rtdOf_eq h]
  by_cases hi : i.toNat < 2 ^ 63
  · rw [if_pos ((sle_iff i).2 hi), Res.ok_bind, hd, hnames, Res.ok_bind, List.length_map]
    by_cases hlt : i.toNat < decl.length
    · rw [if_pos hlt, rtdFieldMutable, rtdOf_eq h, Res.ok_bind, hd, List.getElem?_map, List.getElem?_eq_getElem hlt]
      rfl
    · rw [if_neg hlt, List.getElem?_eq_none (by omega)]
  · rw [if_neg (fun hh => hi ((sle_iff i).1 hh)), List.getElem?_eq_none (by omega)]

example : pFieldMutable ⟨[⟨.sym 0, .fls, .fls, .fls, .fls, [.spec false 1, .spec true 2]⟩], [], [], [], []⟩ (.rtd 0) (.num 1#64) = .ok true := by decide

/-! ### C73: argument checks of make-record-type-descriptor -/

/-- C73 is false: a field list that is no vector is undefined behaviour, whatever the other arguments. -/
theorem C73_negated_fields (s : Store) (name parent uid sealed opq fields : Val) (h : ∀ fs, fields ≠ .fvec fs) :
    makeType s name parent uid sealed opq fields = .ub := by
  rw [makeType]
  cases fields <;> first | rfl | exact absurd rfl (h _)

example : ∀ fs, (.sym 3 : Val) ≠ .fvec fs := by simp

/-- C73 is false: sealed parents, duplicate field names, field specifications of the wrong form, names that are no symbols: all accepted. -/
theorem C73_negated_checks : 
    run 20 empty [.fls, .tru, .sym 0, .num 3#64] [.newType 2 0 0 1 0 [], .newType 2 4 0 0 0 [], .newType 3 0 3 3 3 [.spec true 1, .spec true 1, .bad]] =
      .ok (⟨[⟨.sym 0, .fls, .fls, .tru, .fls, []⟩, ⟨.sym 0, .rtd 0, .fls, .fls, .fls, []⟩,
          ⟨.num 3#64, .fls, .num 3#64, .num 3#64, .num 3#64, [.spec true 1, .spec true 1, .bad]⟩], [], [], [], []⟩,
        [.fls, .tru, .sym 0, .num 3#64, .rtd 0, .rtd 1, .rtd 2]) ∧
    pFieldMutable ⟨[⟨.sym 0, .fls, .fls, .fls, .fls, [.spec true 1, .bad]⟩], [], [], [], []⟩ (.rtd 0) (.num 0#64) = .ub := by decide +kernel

/-- C73, what holds: a parent that is neither `#f` nor a record type is rejected (if the fields are a vector). -/
theorem C73_partial (s : Store) (name parent uid sealed opq : Val) (fs : List FSpec) (h1 : parent ≠ .fls) (h2 : ∀ p, parent ≠ .rtd p) :
    makeType s name parent uid sealed opq (.fvec fs) = .err := by
  rw [makeType, makeRtd, Res.ok_bind]
  simp only
  rw [if_neg h1]
  cases parent <;> first | rfl | exact absurd rfl (h2 _)

example : (.num 3#64 : Val) ≠ .fls ∧ ∀ p, (.num 3#64 : Val) ≠ .rtd p := by simp

/-! ### C74: the default procedures -/

/-- C74 is false: neither default procedure can be changed, and the hash procedure cannot be read. -/
theorem C74_negated (d : Defaults) (p : Val) : pDefaultEqual d [p] = .err ∧ pDefaultHash d [p] = .err ∧ pDefaultHash d [] = .ok (d, d.eqP) := by
  refine ⟨?_, ?_, rfl⟩
  · rw [pDefaultEqual]; split <;> rfl
  · rw [pDefaultHash]; split <;> rfl

/-- C74, what holds: the default equality procedure can be read, which changes nothing. -/
theorem C74_partial (d : Defaults) : pDefaultEqual d [] = .ok (d, d.eqP) := rfl

example : ∃ d : Defaults, d.eqP ≠ d.hashP := ⟨⟨.proc 1, .proc 2⟩, by decide⟩

end Minim.Rec
