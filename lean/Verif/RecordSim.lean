import Verif.RecordLemmas

set_option autoImplicit false

/-!
# Records: the program follows the specification
-/

namespace Minim.Rec

variable {A : ASt} {s : Store}

theorem step_ctor (h : Sim A s) (n t : Nat) (args : List AVal) (ht : t < A.types.length) (ha : ∀ v ∈ args, Valid A.types A.recs.length v) :
    StepOK A (apply n s (conc A.types (.ctor t)) (args.map (conc A.types))) (aCall A (.ctor t) args) := by
  obtain ⟨a, r, h1, h2, h3⟩ := h.rtd_some ht
  have hok := h.typeOK t h1
  have hs : size A.types t = a.slots.length := by simp only [size, h1]
  simp only [aCall, h1, conc, apply, List.length_map, hs]
  by_cases hl : args.length = a.slots.length
  · rw [if_pos hl, if_pos hl]
    have hext : Ext A { A with recs := A.recs ++ [(t, contents a.slots args)] } := ⟨⟨[], (List.append_nil _).symm⟩, by simp⟩
    refine ⟨(makeRecord s t (args.map (conc A.types))).1, ?_, ?_, ?_, hext, Nat.le_succ _⟩
    · simp only [makeRecord, conc, h.rcds, List.length_map]
    · refine ⟨h.len, h.types, ?_, ?_, h.eqR.ext hext, h.hashR.ext hext, h.wrR.ext hext⟩
      · simp only [makeRecord, List.map_append, List.map_cons, List.map_nil, h1, Option.map_some, Option.getD_some]
        rw [← h.rcds]
        congr 3
        rw [← contents_map hok.nodup hl, List.map_map, contents_map hok.nodup hl]
        rfl
      · intro p hp
        rcases List.mem_append.1 hp with hp | hp
        · exact ⟨(h.valid p hp).1, fun sl => hext.valid ((h.valid p hp).2 sl)⟩
        · rw [List.mem_singleton.1 hp]
          exact ⟨ht, fun sl => hext.valid (contents_valid a.slots ha sl)⟩
    · simp [Valid]
  · rw [if_neg hl, if_neg hl]; rfl

theorem aIsA_rcd {t : Nat} {v : AVal} (h : aIsA A t v = true) : ∃ r k f a, v = .rcd r ∧ A.recs[r]? = some (k, f) ∧ A.types[k]? = some a ∧ t ∈ a.anc := by
  cases v with
  | rcd r =>
    simp only [aIsA] at h
    cases h1 : A.recs[r]? with
    | none => rw [h1] at h; cases h
    | some p =>
      obtain ⟨k, f⟩ := p
      rw [h1] at h
      cases h2 : A.types[k]? with
      | none => simp only [h2] at h; cases h
      | some a =>
        simp only [h2] at h
        exact ⟨r, k, f, a, rfl, h1, h2, List.contains_iff_mem.1 h⟩
  | _ => cases h

theorem aCall_acc (A : ASt) (t i : Nat) (v : AVal) : aCall A (.acc t i) [v] =
    match v with | .rcd r => if aIsA A t (.rcd r) then some (A, aField A r (t, i)) else none | _ => none := by
  cases v <;> rfl

theorem aCall_mutr (A : ASt) (t i : Nat) (v x : AVal) : aCall A (.mutr t i) [v, x] =
    match v with
    | .rcd r => if aIsA A t (.rcd r) then some ({ A with recs := A.recs.modify r (fun p => (p.1, upd p.2 (t, i) x)) }, .other 0) else none
    | _ => none := by
  cases v <;> rfl

theorem step_acc (h : Sim A s) (n t i : Nat) (v : AVal) (ht : Valid A.types A.recs.length (.acc t i)) (hv : Valid A.types A.recs.length v)
    (hn : A.types.length ≤ n) :
    StepOK A (apply n s (conc A.types (.acc t i)) [conc A.types v]) (aCall A (.acc t i) [v]) := by
  obtain ⟨b, hb, hi⟩ := ht
  rw [conc, apply, applyPred_eq h n t hv hn, Res.ok_bind, aCall_acc]
  cases hA : aIsA A t v with
  | false =>
    rw [if_neg (by simp)]
    cases v with
    | rcd r => simp only [hA]; rfl
    | _ => rfl
  | true =>
    obtain ⟨r, k, f, a, rfl, h1, h2, h3⟩ := aIsA_rcd hA
    obtain ⟨a', h2', h4⟩ := h.rcd_some h1
    rw [h2] at h2'; cases h2'
    have h5 := slot_pos h h2 h3 hb hi
    simp only [hA, if_true, recordRef, conc, rcdOf_eq h4, Res.ok_bind, List.getElem?_map, h5, Option.map_some, aField, h1]
    exact ⟨s, rfl, h, (h.valid _ (List.mem_of_getElem? h1)).2 _, Ext.rfl, Nat.le_succ _⟩

theorem map_modify {α β : Type} (g : α → β) (f : α → α) (l : List α) (r : Nat) : (l.modify r f).map g = 
    match l[r]? with | some x => (l.map g).set r (g (f x)) | none => l.map g := by
  apply List.ext_getElem?
  intro j
  rw [List.getElem?_map, List.getElem?_modify]
  by_cases hj : r = j
  · subst hj
    cases hx : l[r]? with
    | none => simp [hx]
    | some x => simp [hx, (List.getElem?_eq_some_iff.1 hx).1]
  · cases hx : l[r]? with
    | none => simp [hj]
    | some x => simp [hj, List.getElem?_set_ne hj]

theorem step_mutr (h : Sim A s) (n t i : Nat) (v x : AVal) (ht : Valid A.types A.recs.length (.mutr t i)) (hv : Valid A.types A.recs.length v)
    (hx : Valid A.types A.recs.length x) (hn : A.types.length ≤ n) :
    StepOK A (apply n s (conc A.types (.mutr t i)) [conc A.types v, conc A.types x]) (aCall A (.mutr t i) [v, x]) := by
  obtain ⟨b, hb, hi⟩ := ht
  rw [conc, apply, applyPred_eq h n t hv hn, Res.ok_bind, aCall_mutr]
  cases hA : aIsA A t v with
  | false =>
    rw [if_neg (by simp)]
    cases v with
    | rcd r => simp only [hA]; rfl
    | _ => rfl
  | true =>
    obtain ⟨r, k, f, a, rfl, h1, h2, h3⟩ := aIsA_rcd hA
    obtain ⟨a', h2', h4⟩ := h.rcd_some h1
    rw [h2] at h2'; cases h2'
    have h5 := slot_pos h h2 h3 hb hi
    have hpos : i + off A.types t < a.slots.length := (List.getElem?_eq_some_iff.1 h5).1
    have hc : conc A.types (.rcd r) = .rcd r := rfl
    rw [hc]
    simp only [hA, if_true, recordSet, h4, List.length_map, if_pos hpos, Res.ok_bind]
    have hext : Ext A { A with recs := A.recs.modify r (fun p => (p.1, upd p.2 (t, i) x)) } := ⟨⟨[], (List.append_nil _).symm⟩, by simp⟩
    refine ⟨_, rfl, ⟨h.len, h.types, ?_, ?_, h.eqR.ext hext, h.hashR.ext hext, h.wrR.ext hext⟩, trivial, hext, Nat.le_succ _⟩
    · simp only
      rw [map_modify, h1, h.rcds]
      simp only [h2, Option.map_some, Option.getD_some]
      congr 2
      rw [set_slots (h.typeOK k h2).nodup h5]
      refine List.map_congr_left fun sl _ => ?_
      simp only [upd]
      split <;> rfl
    · intro p hp
      obtain ⟨j, hj⟩ := List.mem_iff_getElem?.1 hp
      simp only [List.getElem?_modify] at hj
      cases hq : A.recs[j]? with
      | none => rw [hq] at hj; cases hj
      | some q =>
        have h6 := h.valid q (List.mem_of_getElem? hq)
        rw [hq] at hj
        by_cases hrj : r = j
        · simp only [if_pos hrj, Option.map_eq_map, Option.map_some, Option.some.injEq] at hj
          subst hj
          refine ⟨h6.1, fun sl => ?_⟩
          simp only [upd]
          split
          · exact hext.valid hx
          · exact hext.valid (h6.2 sl)
        · simp only [if_neg hrj, Option.map_eq_map, Option.map_some, Option.some.injEq] at hj
          subst hj
          exact ⟨h6.1, fun sl => hext.valid (h6.2 sl)⟩

theorem apply_none (n : Nat) (s : Store) (f : Val) (args : List Val) (h : ∀ t k, f ≠ .ctor t k)
    (h1 : ∀ t, f = .pred t → args.length ≠ 1) (h2 : ∀ t k, f = .acc t k → args.length ≠ 1) (h3 : ∀ t k, f = .mutr t k → args.length ≠ 2) :
    apply n s f args = .err := by
  cases f with
  | ctor t k => exact absurd rfl (h t k)
  | pred t =>
    match args, h1 t rfl with
    | [], _ => rfl
    | [_], h => exact absurd rfl h
    | _ :: _ :: _, _ => rfl
  | acc t k =>
    match args, h2 t k rfl with
    | [], _ => rfl
    | [_], h => exact absurd rfl h
    | _ :: _ :: _, _ => rfl
  | mutr t k =>
    match args, h3 t k rfl with
    | [], _ => rfl
    | [_], _ => rfl
    | [_, _], h => exact absurd rfl h
    | _ :: _ :: _ :: _, _ => rfl
  | _ => rfl

theorem step_call (h : Sim A s) (n : Nat) (f : AVal) (args : List AVal) (hf : Valid A.types A.recs.length f)
    (ha : ∀ v ∈ args, Valid A.types A.recs.length v) (hn : A.types.length ≤ n) :
    StepOK A (apply n s (conc A.types f) (args.map (conc A.types))) (aCall A f args) := by
  cases f with
  | ctor t => exact step_ctor h n t args hf ha
  | pred t =>
    match args, ha with
    | [], _ => rfl
    | [v], ha =>
      rw [List.map_cons, List.map_nil, conc, apply, applyPred_eq h n t (ha v (by simp)) hn, Res.ok_bind]
      refine ⟨s, ?_, h, ?_, Ext.rfl, Nat.le_succ _⟩
      · cases aIsA A t v <;> rfl
      · cases aIsA A t v <;> trivial
    | _ :: _ :: _, _ => rfl
  | acc t i =>
    match args, ha with
    | [], _ => rfl
    | [v], ha => exact step_acc h n t i v hf (ha v (by simp)) hn
    | v :: w :: _, _ => cases v <;> rfl
  | mutr t i =>
    match args, ha with
    | [], _ => rfl
    | [v], _ => cases v <;> rfl
    | [v, x], ha => exact step_mutr h n t i v x hf (ha v (by simp)) (ha x (by simp)) hn
    | v :: x :: y :: _, _ => cases v <;> rfl
  | _ => rfl

theorem get_eq (ts : List AType) (rs : List AVal) (i : Nat) : get (rs.map (conc ts)) i = match aGet rs i with | some v => .ok (conc ts v) | none => .err := by
  rw [get, aGet, List.getElem?_map]
  cases rs[i]? <;> rfl

theorem getAll_eq (ts : List AType) (rs : List AVal) (is : List Nat) :
    getAll (rs.map (conc ts)) is = match aGetAll rs is with | some vs => .ok (vs.map (conc ts)) | none => .err := by
  induction is with
  | nil => rfl
  | cons i is ih =>
    rw [getAll, aGetAll, get_eq, ih]
    cases aGet rs i with
    | none => rfl
    | some v => cases aGetAll rs is <;> rfl

theorem aGetAll_mem {rs : List AVal} {is : List Nat} {vs : List AVal} (h : aGetAll rs is = some vs) : ∀ v ∈ vs, v ∈ rs := by
  induction is generalizing vs with
  | nil => cases h; simp
  | cons i is ih =>
    rw [aGetAll] at h
    cases hg : aGet rs i with
    | none => rw [hg] at h; cases h
    | some w =>
      rw [hg] at h
      cases hgs : aGetAll rs is with
      | none => rw [hgs] at h; cases h
      | some ws =>
        rw [hgs] at h
        cases h
        intro v hv
        rcases List.mem_cons.1 hv with rfl | hv
        · exact List.mem_of_getElem? hg
        · exact ih hgs v hv

/-- reading a result, then going on -/
theorem StepOK.get {ts : List AType} {rs : List AVal} {i : Nat} {f : Val → Res (Store × Val)} {g : AVal → Option (ASt × AVal)}
    (h : ∀ v ∈ rs, StepOK A (f (conc ts v)) (g v)) : StepOK A (Minim.Rec.get (rs.map (conc ts)) i >>= f) ((aGet rs i).bind g) := by
  rw [get_eq]
  cases hg : aGet rs i with
  | none => rfl
  | some v => exact h v (List.mem_of_getElem? hg)

theorem StepOK.same (h : Sim A s) {v : AVal} (hv : Valid A.types A.recs.length v) : StepOK A (.ok (s, conc A.types v)) (some (A, v)) :=
  ⟨s, rfl, h, hv, Ext.rfl, Nat.le_succ _⟩

theorem sle_iff (i : Word) : (0#64).sle i = true ↔ i.toNat < 2 ^ 63 := by
  rw [BitVec.sle_iff_toInt_le, show (0#64).toInt = 0 from rfl, BitVec.toInt_eq_toNat_cond]
  have := i.isLt
  split <;> omega

theorem fieldPos_eq (h : Sim A s) (n t : Nat) (i : Word) (ht : t < A.types.length) (hn : A.types.length ≤ n) :
    fieldPos n s (.rtd t) (.num i) = match aIdx A t i with | some j => .ok (t, j + off A.types t) | none => .err := by
  obtain ⟨a, r, h1, h2, h3, _, h4⟩ := h.rtd_some ht
  have hok := h.typeOK t h1
  simp only [fieldPos, aIdx, h1]
  have hi : i.toInt = if i.toNat < 2 ^ 63 then (i.toNat : Int) else (i.toNat : Int) - 2 ^ 64 := by
    rw [BitVec.toInt_eq_toNat_cond]; split <;> split <;> omega
  by_cases hp : i.toNat < 2 ^ 63
  · rw [if_pos ((sle_iff i).2 hp), rtdOf_eq h2, Res.ok_bind, h3]
    rw [if_pos hp] at hi
    by_cases hlt : i.toNat < a.own
    · have hcc : 0 ≤ i.toInt ∧ i.toInt < a.own := by omega
      rw [if_pos hlt]
      simp only [if_pos hcc]
      rcases h4 with ⟨h5, _, h6⟩ | ⟨p, ap, h5, h6, h7, _, h8⟩
      · rw [if_pos h5]
        simp only [off, h1, h6, length_ownSlots, Nat.sub_self, Nat.add_zero]
      · rw [if_neg (by rw [h5]; simp), h5, recordSize_eq h p n 0 h7 (by omega), Res.ok_bind]
        simp only [off, h1, h8, List.length_append, length_ownSlots, Nat.zero_add, Nat.add_sub_cancel]
    · have hcc : ¬ (0 ≤ i.toInt ∧ i.toInt < a.own) := by omega
      rw [if_neg hlt]
      simp only [if_neg hcc]
  · rw [if_neg hp] at hi
    have := i.isLt
    have hcc : ¬ (0 ≤ i.toInt ∧ i.toInt < a.own) := by omega
    rw [if_neg (fun hh => hp ((sle_iff i).1 hh))]
    simp only [if_neg hcc]

theorem aIdx_valid {A : ASt} {t j : Nat} {i : Word} (h : aIdx A t i = some j) : ∃ a, A.types[t]? = some a ∧ j < a.own := by
  simp only [aIdx] at h
  cases h1 : A.types[t]? with
  | none => rw [h1] at h; cases h
  | some a =>
    rw [h1] at h
    simp only at h
    split at h
    · next hc =>
      cases h
      refine ⟨a, rfl, ?_⟩
      have : i.toInt = i.toNat := by
        rw [BitVec.toInt_eq_toNat_cond]
        rw [BitVec.toInt_eq_toNat_cond] at hc
        split
        · rfl
        · next h1 => rw [if_neg h1] at hc; have := i.isLt; omega
      omega
    · cases h

theorem pRecord_eq (h : Sim A s) {v : AVal} (hv : Valid A.types A.recs.length v) :
    pRecord s (conc A.types v) = .ok (match aOpaque A v with | some (_, o) => !o | none => false) ∧
      ∀ k o, aOpaque A v = some (k, o) → k < A.types.length ∧ ∃ fs, rcdOf s (conc A.types v) = .ok ⟨k, fs⟩ := by
  cases v with
  | rcd r =>
    have hr : r < A.recs.length := hv
    obtain ⟨⟨k, f⟩, hk⟩ : ∃ p, A.recs[r]? = some p := ⟨_, List.getElem?_eq_getElem hr⟩
    obtain ⟨a, ha, hs⟩ := h.rcd_some hk
    have hkl := (List.getElem?_eq_some_iff.1 ha).1
    obtain ⟨a', q, h1, h2, _, h3, _⟩ := h.rtd_some hkl
    rw [ha] at h1; cases h1
    constructor
    · simp only [pRecord, conc, isValue, if_true, rcdOf_eq hs, Res.ok_bind, rtdOf_eq h2, h3, aOpaque, hk, ha]
    · intro k' o ho
      simp only [aOpaque, hk, ha, Option.some.injEq, Prod.mk.injEq] at ho
      obtain ⟨rfl, rfl⟩ := ho
      exact ⟨hkl, _, rcdOf_eq hs⟩
  | _ => exact ⟨rfl, fun _ _ h => by cases h⟩

theorem step_table {ts : List AType} {nr : Nat} {f : Nat → Option AVal} {t : List (Nat × Val)} (h : TabRep ts nr f t) {r p : AVal}
    (hr : Valid ts nr r) (hp : Valid ts nr p) : 
    match r with
    | .rtd i => if p.isProc then ∃ t', tableSet t (conc ts r) (conc ts p) = .ok t' ∧ TabRep ts nr (upd f i (some p)) t'
        else tableSet t (conc ts r) (conc ts p) = .err
    | _ => tableSet t (conc ts r) (conc ts p) = .err := by
  cases r with
  | rtd i =>
    have hc : conc ts (.rtd i) = .rtd i := rfl
    simp only [hc, tableSet, conc_isProc]
    split
    · next hpp => exact ⟨_, rfl, h.upd hr hpp hp⟩
    · rfl
  | _ => rfl

theorem step_ok (h : Sim A s) (n : Nat) (rs : List AVal) (hr : ∀ v ∈ rs, Valid A.types A.recs.length v) (hn : A.types.length ≤ n) (op : Op) :
    StepOK A (step n s (rs.map (conc A.types)) op) (aStep A rs op) := by
  cases op with
  | newType a b c d e fs =>
    refine StepOK.get fun va _ => StepOK.get fun vb hb => StepOK.get fun vc _ => StepOK.get fun vd _ => StepOK.get fun ve _ => ?_
    exact step_new h _ _ _ vb ve fs (hr vb hb)
  | constructor t =>
    refine StepOK.get fun v hv => ?_
    cases v with
    | rtd k =>
      have hk : k < A.types.length := hr _ hv
      obtain ⟨a, ha⟩ : ∃ a, A.types[k]? = some a := ⟨_, List.getElem?_eq_getElem hk⟩
      have : conc A.types (.ctor k) = .ctor k (0 + a.slots.length) := by simp only [conc, size, ha, Nat.zero_add]
      simp only [conc, pConstructor, recordSize_eq h k n 0 ha (by omega), Res.ok_bind]
      rw [← this]
      exact .same h hk
    | _ => rfl
  | predicate t =>
    refine StepOK.get fun v hv => ?_
    cases v with
    | rtd k => exact .same h (v := .pred k) (hr (.rtd k) hv)
    | _ => rfl
  | accessor t i =>
    refine StepOK.get fun v hv => StepOK.get fun w hw => ?_
    cases v with
    | rtd k =>
      cases w with
      | num j =>
        simp only [conc, pAccessor, fieldPos_eq h n k j (hr _ hv) hn]
        cases hj : aIdx A k j with
        | none => rfl
        | some q => exact .same h (v := .acc k q) (aIdx_valid hj)
      | _ => rfl
    | _ => cases w <;> rfl
  | mutator t i =>
    refine StepOK.get fun v hv => StepOK.get fun w hw => ?_
    cases v with
    | rtd k =>
      cases w with
      | num j =>
        simp only [conc, pMutator, fieldPos_eq h n k j (hr _ hv) hn]
        cases hj : aIdx A k j with
        | none => rfl
        | some q => exact .same h (v := .mutr k q) (aIdx_valid hj)
      | _ => rfl
    | _ => cases w <;> rfl
  | call f as =>
    refine StepOK.get fun v hv => ?_
    rw [getAll_eq]
    cases hg : aGetAll rs as with
    | none => rfl
    | some vs => exact step_call h n v vs (hr v hv) (fun w hw => hr w (aGetAll_mem hg w hw)) hn
  | isRecord v =>
    rw [step, aStep, get_eq]
    cases hg : aGet rs v with
    | none => rfl
    | some w =>
      have hw := hr w (List.mem_of_getElem? hg)
      simp only [Res.ok_bind, (pRecord_eq h hw).1, Option.map_some]
      cases ho : aOpaque A w with
      | none => exact .same h (v := .fls) trivial
      | some p =>
        obtain ⟨k, o⟩ := p
        cases o
        · exact .same h (v := .tru) trivial
        · exact .same h (v := .fls) trivial
  | recordRtd v =>
    refine StepOK.get fun w hw => ?_
    obtain ⟨h1, h2⟩ := pRecord_eq h (hr w hw)
    simp only [pRecordRtd, h1, Res.ok_bind]
    cases ho : aOpaque A w with
    | none => rfl
    | some p =>
      obtain ⟨k, o⟩ := p
      obtain ⟨h3, fs, h4⟩ := h2 k o ho
      cases o
      · simp only [Bool.not_false, if_true, h4, Res.ok_bind]
        exact .same h (v := .rtd k) h3
      · rfl
  | setEqual t p =>
    refine StepOK.get fun v hv => StepOK.get fun w hw => ?_
    have h1 := step_table h.eqR (hr v hv) (hr w hw)
    cases v with
    | rtd i =>
      simp only at h1 ⊢
      split at h1
      · next hp =>
        obtain ⟨t', h2, h3⟩ := h1
        rw [h2, if_pos hp]
        have hext : Ext A { A with eqP := upd A.eqP i (some w) } := ⟨⟨[], (List.append_nil _).symm⟩, Nat.le_refl _⟩
        exact ⟨{ s with eqT := t' }, rfl, ⟨h.len, h.types, h.rcds, h.valid, h3, h.hashR, h.wrR⟩, trivial, hext, Nat.le_succ _⟩
      · next hp => rw [h1, if_neg hp]; rfl
    | _ => simp only at h1 ⊢; rw [h1]; rfl
  | setHash t p =>
    refine StepOK.get fun v hv => StepOK.get fun w hw => ?_
    have h1 := step_table h.hashR (hr v hv) (hr w hw)
    cases v with
    | rtd i =>
      simp only at h1 ⊢
      split at h1
      · next hp =>
        obtain ⟨t', h2, h3⟩ := h1
        rw [h2, if_pos hp]
        have hext : Ext A { A with hashP := upd A.hashP i (some w) } := ⟨⟨[], (List.append_nil _).symm⟩, Nat.le_refl _⟩
        exact ⟨{ s with hashT := t' }, rfl, ⟨h.len, h.types, h.rcds, h.valid, h.eqR, h3, h.wrR⟩, trivial, hext, Nat.le_succ _⟩
      · next hp => rw [h1, if_neg hp]; rfl
    | _ => simp only at h1 ⊢; rw [h1]; rfl
  | setWriter t p =>
    refine StepOK.get fun v hv => StepOK.get fun w hw => ?_
    have h1 := step_table h.wrR (hr v hv) (hr w hw)
    cases v with
    | rtd i =>
      simp only at h1 ⊢
      split at h1
      · next hp =>
        obtain ⟨t', h2, h3⟩ := h1
        rw [h2, if_pos hp]
        have hext : Ext A { A with wr := upd A.wr i (some w) } := ⟨⟨[], (List.append_nil _).symm⟩, Nat.le_refl _⟩
        exact ⟨{ s with wrT := t' }, rfl, ⟨h.len, h.types, h.rcds, h.valid, h.eqR, h.hashR, h3⟩, trivial, hext, Nat.le_succ _⟩
      · next hp => rw [h1, if_neg hp]; rfl
    | _ => simp only at h1 ⊢; rw [h1]; rfl
  | equalProc t =>
    refine StepOK.get fun v hv => ?_
    cases v with
    | rtd i =>
      simp only [conc, tableRef_eq h.eqR, Res.ok_bind]
      exact .same h (tableRef_valid h.eqR i)
    | _ => rfl
  | hashProc t =>
    refine StepOK.get fun v hv => ?_
    cases v with
    | rtd i =>
      simp only [conc, tableRef_eq h.hashR, Res.ok_bind]
      exact .same h (tableRef_valid h.hashR i)
    | _ => rfl

/-- a whole program follows the specification -/
theorem run_ok (n : Nat) (ops : List Op) : ∀ {A : ASt} {s : Store} {rs : List AVal}, Sim A s → (∀ v ∈ rs, Valid A.types A.recs.length v) →
    A.types.length + ops.length ≤ n →
    ∃ s', run n s (rs.map (conc A.types)) ops = .ok (s', (aRun A rs ops).2.map (conc (aRun A rs ops).1.types)) ∧ Sim (aRun A rs ops).1 s' ∧
      (∀ v ∈ (aRun A rs ops).2, Valid (aRun A rs ops).1.types (aRun A rs ops).1.recs.length v) := by
  induction ops with
  | nil => intro A s rs h hr _; exact ⟨s, rfl, h, hr⟩
  | cons op ops ih =>
    intro A s rs h hr hn
    rw [List.length_cons] at hn
    have h1 := step_ok h n rs hr (by omega) op
    rw [run, aRun]
    cases ha : aStep A rs op with
    | none =>
      rw [ha] at h1
      rw [show step n s (rs.map (conc A.types)) op = .err from h1]
      have := ih (rs := rs ++ [.fls]) h (by
        intro v hv
        rcases List.mem_append.1 hv with hv | hv
        · exact hr v hv
        · rw [List.mem_singleton.1 hv]; trivial) (by omega)
      rw [List.map_append] at this
      exact this
    | some p =>
      obtain ⟨A', v⟩ := p
      rw [ha] at h1
      obtain ⟨s', h2, h3, h4, h5, h6⟩ := h1
      rw [h2]
      have h7 : rs.map (conc A.types) = rs.map (conc A'.types) := List.map_congr_left fun w hw => (h5.conc (hr w hw)).symm
      have := ih (rs := rs ++ [v]) h3 (by
        intro w hw
        rcases List.mem_append.1 hw with hw | hw
        · exact h5.valid (hr w hw)
        · rw [List.mem_singleton.1 hw]; exact h4) (by omega)
      rw [List.map_append] at this
      rw [h7]
      exact this

theorem sim_empty : Sim aEmpty empty := by
  refine ⟨rfl, fun k a r h => ?_, rfl, fun p hp => ?_, ?_, ?_, ?_⟩
  · simp [aEmpty] at h
  · simp [aEmpty] at hp
  all_goals exact fun i => ⟨rfl, fun v h => by simp [aEmpty] at h⟩

end Minim.Rec
