import Verif.LabelLemmas
import Verif.JitFvProps

set_option autoImplicit false

/-!
# Compiled instruction lists are well formed
-/

namespace Minim.Jit

open Minim.Sx Minim.Core

/-- A piece of an instruction list: labels, no two equal, are described by `P`; jumps go to labels of the piece or to those in `ext`; closures refer to one of
`k` templates. -/
structure Frag (P : Nat → Prop) (k : Nat) (ext : List Nat) (is : List Item) : Prop where
  nodup : (labs is).Nodup
  range : ∀ l ∈ labs is, P l
  jumps : ∀ i ∈ instrs is, ∀ l, target i = some l → l ∈ labs is ∨ l ∈ ext
  tmpls : ∀ i ∈ instrs is, ∀ c, tmplOf i = some c → c < k

theorem Frag.nil {P : Nat → Prop} {k : Nat} {ext : List Nat} : Frag P k ext [] := ⟨by simp [labs], by simp [labs], by simp [instrs], by simp [instrs]⟩

theorem Frag.mono {P Q : Nat → Prop} {k k' : Nat} {ext ext' : List Nat} {is : List Item} (h : Frag P k ext is) (hP : ∀ l, P l → Q l)
    (hk : k ≤ k') (he : ∀ l ∈ ext, l ∈ ext') : Frag Q k' ext' is :=
  ⟨h.nodup, fun l hl => hP l (h.range l hl), fun i hi l hl => (h.jumps i hi l hl).imp_right (he l),
    fun i hi c hc => Nat.lt_of_lt_of_le (h.tmpls i hi c hc) hk⟩

theorem Frag.append {P Q : Nat → Prop} {k : Nat} {ext : List Nat} {a b : List Item} (ha : Frag P k ext a) (hb : Frag Q k ext b)
    (hd : ∀ l, P l → Q l → False) : Frag (fun l => P l ∨ Q l) k ext (a ++ b) := by
  refine ⟨?_, ?_, ?_, ?_⟩
  · rw [labs_append, List.nodup_append]
    exact ⟨ha.nodup, hb.nodup, fun x hx y hy hxy => hd x (ha.range x hx) (hxy ▸ hb.range y hy)⟩
  · intro l hl
    rw [labs_append, List.mem_append] at hl
    exact hl.imp (ha.range l) (hb.range l)
  · intro i hi l hl
    rw [instrs_append, List.mem_append] at hi
    rw [labs_append, List.mem_append]
    rcases hi with hi | hi
    · exact (ha.jumps i hi l hl).imp_left .inl
    · exact (hb.jumps i hi l hl).imp_left .inr
  · intro i hi c hc
    rw [instrs_append, List.mem_append] at hi
    exact hi.elim (fun hi => ha.tmpls i hi c hc) (fun hi => hb.tmpls i hi c hc)

theorem Frag.cons {P : Nat → Prop} {k : Nat} {ext : List Nat} {i : I Nat Nat} {is : List Item} (h : Frag P k ext is)
    (hl : ∀ l, target i = some l → l ∈ ext) (hc : ∀ c, tmplOf i = some c → c < k) : Frag P k ext (.ins i :: is) := by
  refine ⟨h.nodup, h.range, ?_, ?_⟩
  · intro j hj l hjl
    simp only [instrs, List.mem_cons] at hj
    rcases hj with rfl | hj
    · exact .inr (hl l hjl)
    · exact h.jumps j hj l hjl
  · intro j hj c hjc
    simp only [instrs, List.mem_cons] at hj
    rcases hj with rfl | hj
    · exact hc c hjc
    · exact h.tmpls j hj c hjc

theorem Frag.lab {P : Nat → Prop} {k : Nat} {ext : List Nat} {l : Nat} {is : List Item} (h : Frag P k ext is) (hl : ¬ P l) :
    Frag (fun l' => l' = l ∨ P l') k ext (.lab l :: is) := by
  refine ⟨?_, ?_, ?_, ?_⟩
  · simp only [labs, List.nodup_cons]
    exact ⟨fun hm => hl (h.range l hm), h.nodup⟩
  · intro l' hl'
    simp only [labs, List.mem_cons] at hl'
    exact hl'.imp_right (h.range l')
  · intro i hi l' hl'
    simp only [labs, List.mem_cons]
    exact (h.jumps i hi l' hl').imp_left .inr
  · exact h.tmpls

theorem Frag.close {P : Nat → Prop} {k : Nat} {ext : List Nat} {l : Nat} {is : List Item} (h : Frag P k (l :: ext) is) (hl : l ∈ labs is) :
    Frag P k ext is := by
  refine ⟨h.nodup, h.range, fun i hi l' hl' => ?_, h.tmpls⟩
  rcases h.jumps i hi l' hl' with h' | h'
  · exact .inl h'
  · rcases List.mem_cons.1 h' with rfl | h'
    · exact .inl hl
    · exact .inr h'

/-- Labels made between two counts. -/
def Btw (n m : Nat) (l : Nat) : Prop := n ≤ l ∧ l < m

/-- Specification: every jump of the code, and of the code of every procedure in it, goes to an instruction of the same code. -/
inductive CodeOK : Code → Prop
  | mk (is : List (I Nat Code)) (ar : Ar) : (∀ i ∈ is, ∀ l, target i = some l → l < is.length) →
      (∀ i ∈ is, ∀ c, tmplOf i = some c → CodeOK c) → CodeOK (.mk is ar)

theorem target_mapI {L L' C C' : Type} (f : L → L') (g : C → C') (i : I L C) : target (mapI f g i) = (target i).map f := by
  cases i <;> rfl

theorem tmplOf_mapI {L L' C C' : Type} (f : L → L') (g : C → C') (i : I L C) : tmplOf (mapI f g i) = (tmplOf i).map g := by
  cases i <;> rfl

theorem labPos_lt {items : List Item} {l : Nat} (hnd : (labs items).Nodup) (hcl : closed items = true) (hl : l ∈ labs items) :
    labPos items l < (instrs items).length := by
  obtain ⟨pre, post, he⟩ := (mem_labs l items).1 hl
  rw [labPos_eq hnd he, he, instrs_append, List.length_append]
  have hc : closed (.lab l :: post) = true := by
    rw [he] at hcl
    clear he hl hnd
    induction pre with
    | nil => exact hcl
    | cons x pre ih => exact ih (closed_cons hcl)
  have := closed_any hc
  have : 0 < (instrs (.lab l :: post)).length := by
    simp only [instrs]
    clear hc hcl hl he hnd
    induction post with
    | nil => simp at this
    | cons x post ih =>
      cases x with
      | ins i => simp [instrs]
      | lab l' =>
        simp only [List.any_cons, isLab, Bool.not_true, Bool.false_or] at this
        simpa only [instrs] using ih this
  omega

theorem assemble_codeOK {items : List Item} {tm : List Code} {ar : Ar} {code : Code} (hwf : WellFormed items tm.length)
    (htm : ∀ c ∈ tm, CodeOK c) (h : assemble tm items ar = .ok code) : CodeOK code := by
  rw [assemble_ok tm ar hwf] at h
  cases h
  refine CodeOK.mk _ _ ?_ ?_
  · intro i hi l hl
    obtain ⟨j, hj, rfl⟩ := List.mem_map.1 hi
    rw [target_mapI] at hl
    obtain ⟨l', hl', rfl⟩ := Option.map_eq_some_iff.1 hl
    rw [List.length_map]
    exact labPos_lt hwf.nodup hwf.closed (hwf.jumps j hj l' hl')
  · intro i hi c hc
    obtain ⟨j, hj, rfl⟩ := List.mem_map.1 hi
    rw [tmplOf_mapI] at hc
    obtain ⟨c', hc', rfl⟩ := Option.map_eq_some_iff.1 hc
    have hlt := hwf.tmpls j hj c' hc'
    have : tm.reverse[c']? = some (tm.reverse[c']'(by simpa using hlt)) := List.getElem?_eq_getElem _
    rw [this]
    exact htm _ (List.mem_reverse.1 (List.getElem_mem _))

/-- What the compiler guarantees about its result. -/
structure OutOK (n : Nat) (tm : List Code) (t : Bool) (o : Out) : Prop where
  le : n ≤ o.2.1
  ext : ∃ new, o.2.2 = new ++ tm
  codes : (∀ c ∈ tm, CodeOK c) → ∀ c ∈ o.2.2, CodeOK c
  head : ∃ i r, o.1 = .ins i :: r
  closed : t = true → closed o.1 = true
  frag : Frag (Btw n o.2.1) o.2.2.length [] o.1

theorem tailRet_frag {P : Nat → Prop} {k : Nat} {ext : List Nat} (t : Bool) : Frag P k ext (tailRet t) := by
  cases t
  · exact Frag.nil
  · exact Frag.nil.cons (by simp [target]) (by simp [tmplOf])

theorem tailRet_closed (t : Bool) (is : List Item) : t = true → closed (is ++ tailRet t) = true := by
  rintro rfl
  exact closed_append rfl (by simp [tailRet])

theorem simple_ok {n : Nat} {tm : List Code} {t : Bool} (i : I Nat Nat) (hl : target i = none) (hc : tmplOf i = none) :
    OutOK n tm t (.ins i :: tailRet t, n, tm) :=
  ⟨Nat.le_refl _, ⟨[], rfl⟩, id, ⟨_, _, rfl⟩, fun h => tailRet_closed t [.ins i] h,
    (tailRet_frag t).cons (by simp [hl]) (by simp [hc])⟩

theorem bindArgs_frag {P : Nat → Prop} {k : Nat} {ext : List Nat} : ∀ (xs : List Sym) (a b : Nat), Frag P k ext (bindArgs xs a b)
  | [], _, _ => Frag.nil
  | _ :: xs, a, b => ((bindArgs_frag xs (a + 1) (b + 1)).cons (by simp [target]) (by simp [tmplOf])).cons (by simp [target]) (by simp [tmplOf])

theorem fillClosure_frag {P : Nat → Prop} {k : Nat} {ext : List Nat} (sc : Scope) : ∀ (xs : List Sym) (i : Nat), Frag P k ext (fillClosure sc xs i)
  | [], _ => Frag.nil
  | x :: xs, i => by
    refine ((fillClosure_frag sc xs (i + 1)).cons (by simp [target]) (by simp [tmplOf])).cons ?_ ?_
    · rw [lookupCellIns]; cases scopeRef sc x <;> simp [target]
    · rw [lookupCellIns]; cases scopeRef sc x <;> simp [tmplOf]

theorem Frag.app {P : Nat → Prop} {k : Nat} {ext : List Nat} {a b : List Item} (ha : Frag (fun _ => False) k ext a) (hb : Frag P k ext b) :
    Frag P k ext (a ++ b) :=
  (ha.append hb (fun _ h _ => h)).mono (fun _ h => h.elim False.elim id) (Nat.le_refl _) (fun _ h => h)

theorem clauseHead_frag {k : Nat} {ext : List Nat} (a b : Nat) (f : Formals) : Frag (fun _ => False) k ext (clauseHead a b f) := by
  rw [clauseHead]
  refine Frag.app (Frag.app (Frag.app ?_ (bindArgs_frag _ _ _)) ?_) ?_
  · exact (Frag.nil.cons (by simp [target]) (by simp [tmplOf])).cons (by simp [target]) (by simp [tmplOf])
  · cases f.rest
    · exact Frag.nil
    · exact (Frag.nil.cons (by simp [target]) (by simp [tmplOf])).cons (by simp [target]) (by simp [tmplOf])
  · exact Frag.nil.cons (by simp [target]) (by simp [tmplOf])

theorem closureIns_frag {P : Nat → Prop} {k : Nat} {ext : List Nat} (sc : Scope) (idx : Nat) (fvs : List Sym) (h : idx < k) :
    Frag P k ext (closureIns sc idx fvs) := by
  rw [closureIns.eq_def]
  refine Frag.cons ?_ (by simp [target]) (by simp [tmplOf, h])
  cases fvs with
  | nil => exact Frag.nil
  | cons x xs =>
    refine Frag.cons ?_ (by simp [target]) (by simp [tmplOf])
    exact Frag.app (fillClosure_frag sc _ 0) (Frag.nil.cons (by simp [target]) (by simp [tmplOf]))

/-- The branch of a clause entry. -/
theorem entry_frag {k : Nat} (f : Formals) (l : Nat) : Frag (fun _ => False) k [l]
    [.ins (if f.rest.isSome then .branchlt f.req.length l else .branchne f.req.length l)] := by
  cases f.rest.isSome
  · exact Frag.nil.cons (by simp [target]) (by simp [tmplOf])
  · exact Frag.nil.cons (by simp [target]) (by simp [tmplOf])

/-- The result of compiling the list of clauses. -/
structure ClausesOK (n : Nat) (tm : List Code) (prev : Option Nat) (cs : List Cl) (o : List Item × Option Nat × Nat × List Code) : Prop where
  le : n ≤ o.2.2.1
  ext : ∃ new, o.2.2.2 = new ++ tm
  codes : (∀ c ∈ tm, CodeOK c) → ∀ c ∈ o.2.2.2, CodeOK c
  empty : cs = [] → o.1 = [] ∧ o.2.1 = prev
  head : prev = none → cs ≠ [] → ∃ i r, o.1 = .ins i :: r
  last : cs ≠ [] → ∃ l, o.2.1 = some l ∧ n ≤ l ∧ l < o.2.2.1 ∧ l ∉ labs o.1
  prevIn : ∀ p, prev = some p → cs ≠ [] → p ∈ labs o.1
  frag : Frag (fun l => some l = prev ∨ Btw n o.2.2.1 l) o.2.2.2.length o.2.1.toList o.1

theorem lambda_wf {tm : List Code} {o : Out} (ho : OutOK 1 tm true o) (f : Formals) (a b : Nat) :
    WellFormed (clauseEntry none f 0 ++ clauseHead a b f ++ o.1 ++ [.lab 0, .ins .doArityError]) o.2.2.length := by
  have e1 : Frag (fun _ => False) o.2.2.length [0] (clauseEntry none f 0) := by
    rw [clauseEntry]
    exact (entry_frag f 0).cons (by simp [target]) (by simp [tmplOf])
  have e2 := e1.app ((clauseHead_frag (k := o.2.2.length) (ext := [0]) a b f).app (ho.frag.mono (fun _ h => h) (Nat.le_refl _) (by simp)))
  have e3 : Frag (fun l => l = 0 ∨ False) o.2.2.length [0] [.lab 0, .ins .doArityError] :=
    Frag.lab (P := fun _ => False) (Frag.nil.cons (by simp [target]) (by simp [tmplOf])) (by simp)
  have e4 := e2.append e3 (by rintro l ⟨h1, _⟩ (rfl | h); exacts [by omega, h])
  have e5 := e4.close (by simp [labs_append, labs])
  rw [List.append_assoc, List.append_assoc, ← List.append_assoc (clauseHead a b f), ← List.append_assoc (clauseEntry none f 0)]
  refine ⟨?_, ?_, e5.nodup, fun i hi l hl => (e5.jumps i hi l hl).elim id (by simp), e5.tmpls⟩
  · rw [clauseEntry]; exact ⟨_, _, rfl⟩
  · exact closed_append rfl (by simp)

mutual

/-- Specification: every `case-lambda` of the expression has a clause. -/
def hasClauses : E → Bool
  | .var _ | .lit _ | .quote _ | .quoteSyntax _ | .unbound => true
  | .define _ e => hasClauses e
  | .set _ e => hasClauses e
  | .ite c t e => hasClauses c && hasClauses t && hasClauses e
  | .letv _ _ => false
  | .letrecv _ _ => false
  | .lam _ body => hasClausesL body
  | .clam cs => !cs.isEmpty && hasClausesC cs
  | .begin es => hasClausesL es
  | .app f args => hasClauses f && hasClausesL args
  | .mvcall e c => hasClauses e && hasClauses c
  | .mvlet e _ body => hasClauses e && hasClauses body
  | .mvvals es => hasClausesL es

/-- Specification: the same for lists of expressions. -/
def hasClausesL : List E → Bool
  | [] => true
  | e :: es => hasClauses e && hasClausesL es

/-- Specification: the same for lists of clauses. -/
def hasClausesC : List Cl → Bool
  | [] => true
  | .mk _ body :: cs => hasClausesL body && hasClausesC cs

end

/-- Result of compiling arguments: as `OutOK`, but possibly empty and never at the end. -/
structure ArgsOK (n : Nat) (tm : List Code) (o : Out) : Prop where
  le : n ≤ o.2.1
  ext : ∃ new, o.2.2 = new ++ tm
  codes : (∀ c ∈ tm, CodeOK c) → ∀ c ∈ o.2.2, CodeOK c
  closed : closed o.1 = true
  frag : Frag (Btw n o.2.1) o.2.2.length [] o.1

theorem ext_len {tm tm' : List Code} (h : ∃ new, tm' = new ++ tm) : tm.length ≤ tm'.length := by
  obtain ⟨new, rfl⟩ := h; simp

theorem ext_trans {a b c : List Code} (h1 : ∃ new, b = new ++ a) (h2 : ∃ new, c = new ++ b) : ∃ new, c = new ++ a := by
  obtain ⟨x, rfl⟩ := h1
  obtain ⟨y, rfl⟩ := h2
  exact ⟨y ++ x, by simp⟩

/-- Putting two compiled pieces together. -/
theorem Frag.seq {n m p k k' : Nat} {ext : List Nat} {a b : List Item} (ha : Frag (Btw n m) k ext a) (hb : Frag (Btw m p) k' ext b) (hk : k ≤ k')
    (h1 : n ≤ m) (h2 : m ≤ p) : Frag (Btw n p) k' ext (a ++ b) :=
  ((ha.mono (fun _ h => h) hk (fun _ h => h)).append hb (by rintro l ⟨_, h⟩ ⟨h', _⟩; omega)).mono
    (by rintro l (⟨h, h'⟩ | ⟨h, h'⟩) <;> exact ⟨by omega, by omega⟩) (Nat.le_refl _) (fun _ h => h)

theorem Frag.call {n lbl k : Nat} {is : List Item} {m : Nat} (h : Frag (Btw (lbl + 1) m) k [] is) (hn : n = lbl) (hm : lbl + 1 ≤ m) :
    Frag (Btw n m) k [] (.ins (.saveCC lbl) :: (is ++ [.lab lbl])) := by
  subst hn
  have h1 : Frag (Btw (n + 1) m) k [n] is := h.mono (fun _ h => h) (Nat.le_refl _) (by simp)
  have h2 : Frag (fun l => l = n ∨ False) k [n] [.lab n] := Frag.lab (P := fun _ => False) Frag.nil (by simp)
  have h3 := (h1.append h2 (by rintro l ⟨h, _⟩ (rfl | h'); exacts [by omega, h'])).cons (i := .saveCC n) (by simp [target]) (by simp [tmplOf])
  exact (h3.close (by simp [labs, labs_append])).mono (by rintro l (⟨h, h'⟩ | (rfl | h)); exacts [⟨by omega, h'⟩, ⟨Nat.le_refl _, by omega⟩, h.elim])
    (Nat.le_refl _) (fun _ h => h)

theorem clauses_wf {cs : List Cl} {tm tm' : List Code} {is : List Item} {l m : Nat} (hne : cs ≠ [])
    (h2 : ClausesOK 0 tm none cs (is, some l, m, tm')) : WellFormed (is ++ [.lab l, .ins .doArityError]) tm'.length := by
  obtain ⟨l', hl, hl1, hl2, hl3⟩ := h2.last hne
  simp only at hl hl1 hl2 hl3
  cases hl
  obtain ⟨i, r, hr⟩ := h2.head rfl hne
  simp only at hr
  have f := h2.frag
  simp only [Option.toList] at f
  have f' : Frag (fun l' => l' ∈ labs is) tm'.length [l] is := ⟨f.nodup, fun _ h => h, f.jumps, f.tmpls⟩
  have e3 : Frag (fun l' => l' = l ∨ False) tm'.length [l] [.lab l, .ins .doArityError] :=
    Frag.lab (P := fun _ => False) (Frag.nil.cons (by simp [target]) (by simp [tmplOf])) (by simp)
  have e5 := (f'.append e3 (by rintro l' hl' (rfl | h); exacts [hl3 hl', h])).close (by simp [labs_append, labs])
  refine ⟨⟨i, _, by rw [hr]; rfl⟩, closed_append rfl (by simp), e5.nodup, fun i hi l hl => (e5.jumps i hi l hl).elim id (by simp), e5.tmpls⟩

mutual

theorem compile_ok : ∀ (e : E) (sc : Scope) (t : Bool) (n : Nat) (tm : List Code), hasClauses e = true →
    ∃ o, compile e sc t n tm = .ok o ∧ OutOK n tm t o
  | .var s, sc, t, n, tm, _ => by
    refine ⟨_, rfl, simple_ok _ ?_ ?_⟩ <;> cases scopeRef sc s <;> rfl
  | .lit _, _, _, _, _, _ => ⟨_, rfl, simple_ok _ rfl rfl⟩
  | .quote _, _, _, _, _, _ => ⟨_, rfl, simple_ok _ rfl rfl⟩
  | .quoteSyntax _, _, _, _, _, _ => ⟨_, rfl, simple_ok _ rfl rfl⟩
  | .unbound, _, _, _, _, _ => ⟨_, rfl, simple_ok _ rfl rfl⟩
  | .define xs e, sc, t, n, tm, h => by
    obtain ⟨⟨is, m, tm'⟩, h1, h2⟩ := compile_ok e sc false n tm (by simpa [hasClauses] using h)
    simp only [compile, h1, Res.ok_bind]
    refine ⟨_, rfl, ?_⟩
    refine ⟨h2.le, h2.ext, h2.codes, ?_, ?_, ?_⟩
    · obtain ⟨i, r, hr⟩ := h2.head
      exact ⟨i, _, by simp only at hr; rw [hr]; rfl⟩
    · rintro rfl; exact closed_append rfl (by simp)
    · exact h2.frag.seq ((tailRet_frag t).cons (by simp [target]) (by simp [tmplOf])) (Nat.le_refl _) h2.le (Nat.le_refl m)
  | .set x e, sc, t, n, tm, h => by
    obtain ⟨⟨is, m, tm'⟩, h1, h2⟩ := compile_ok e sc false n tm (by simpa [hasClauses] using h)
    simp only [compile, h1, Res.ok_bind]
    refine ⟨_, rfl, ?_⟩
    refine ⟨h2.le, h2.ext, h2.codes, ?_, ?_, ?_⟩
    · obtain ⟨i, r, hr⟩ := h2.head
      exact ⟨i, _, by simp only at hr; rw [hr]; rfl⟩
    · rintro rfl; exact closed_append rfl (by simp)
    · refine h2.frag.seq ((tailRet_frag t).cons ?_ ?_) (Nat.le_refl _) h2.le (Nat.le_refl m)
      · cases scopeRef sc x <;> simp [target]
      · cases scopeRef sc x <;> simp [tmplOf]
  | .ite c a b, sc, t, n, tm, h => by
    simp only [hasClauses, Bool.and_eq_true] at h
    obtain ⟨⟨ci, m1, tm1⟩, h1, o1⟩ := compile_ok c sc false n tm h.1.1
    obtain ⟨⟨ai, m2, tm2⟩, h2, o2⟩ := compile_ok a sc t m1 tm1 h.1.2
    obtain ⟨⟨bi, m3, tm3⟩, h3, o3⟩ := compile_ok b sc t m2 tm2 h.2
    have l1 := o1.le; have l2 := o2.le; have l3 := o3.le
    simp only at l1 l2 l3
    have k2 := ext_len o2.ext; have k3 := ext_len o3.ext
    simp only at k2 k3
    have F1 : Frag (Btw n m1) tm1.length [] ci := o1.frag
    have F2 : Frag (Btw m1 m2) tm2.length [] ai := o2.frag
    have F3 : Frag (Btw m2 m3) tm3.length [] bi := o3.frag
    obtain ⟨i0, r0, hr0⟩ := o1.head
    simp only at hr0
    cases t with
    | true =>
      simp only [compile, h1, h2, h3, Res.ok_bind, if_true]
      refine ⟨_, rfl, ?_⟩
      refine ⟨by simp only; omega, ext_trans o1.ext (ext_trans o2.ext o3.ext), fun h => o3.codes (o2.codes (o1.codes h)), ?_, ?_, ?_⟩
      · exact ⟨i0, _, by simp only [hr0]; rfl⟩
      · intro _
        obtain ⟨j, s, hs⟩ := o3.head
        have hb := o3.closed rfl
        simp only at hs hb
        have hl : closed (Item.lab m3 :: bi) = true := by rw [hs] at hb ⊢; exact hb
        have := closed_append (a := ci ++ .ins (.branchf m3) :: ai) hl (by simp)
        simpa using this
      · have f3 : Frag (fun l => l = m3 ∨ Btw m2 m3 l) tm3.length [m3] (.lab m3 :: bi) :=
          (F3.mono (fun _ h => h) (Nat.le_refl _) (by simp)).lab (by rintro ⟨_, h⟩; omega)
        have f2 : Frag (Btw m1 m2) tm3.length [m3] ai := F2.mono (fun _ h => h) k3 (by simp)
        have f23 := (f2.append f3 (by rintro l ⟨h, h'⟩ (rfl | ⟨h1, _⟩) <;> omega)).cons (i := .branchf m3) (by simp [target]) (by simp [tmplOf])
        have f1 : Frag (Btw n m1) tm3.length [m3] ci := F1.mono (fun _ h => h) (Nat.le_trans k2 k3) (by simp)
        have f := f1.append f23 (by rintro l ⟨h, h'⟩ (⟨h1, _⟩ | (rfl | ⟨h1, _⟩)) <;> omega)
        show Frag (Btw n (m3 + 1)) tm3.length [] _
        exact (f.close (by simp [labs_append, labs])).mono
          (by rintro l (⟨h, h'⟩ | (⟨h1, _⟩ | (rfl | ⟨h1, _⟩))) <;> exact ⟨by omega, by omega⟩) (Nat.le_refl _) (fun _ h => h)
    | false =>
      simp only [compile, h1, h2, h3, Res.ok_bind]
      refine ⟨_, rfl, ?_⟩
      refine ⟨by simp only; omega, ext_trans o1.ext (ext_trans o2.ext o3.ext), fun h => o3.codes (o2.codes (o1.codes h)), ?_, (by simp), ?_⟩
      · exact ⟨i0, _, by simp only [hr0]; rfl⟩
      · have f4 : Frag (fun l => l = m3 + 1 ∨ False) tm3.length [m3, m3 + 1] [.lab (m3 + 1)] := Frag.lab (P := fun _ => False) Frag.nil (by simp)
        have f34 := (F3.mono (ext' := [m3, m3 + 1]) (fun _ h => h) (Nat.le_refl _) (by simp)).append f4 (by rintro l ⟨_, h⟩ (rfl | h'); exacts [by omega, h'])
        have f3 := (f34.lab (l := m3) (by rintro (⟨_, h⟩ | (h | h)); exacts [by omega, by omega, h])).cons (i := .brancha (m3 + 1)) (by simp [target]) (by simp [tmplOf])
        have f2 : Frag (Btw m1 m2) tm3.length [m3, m3 + 1] ai := F2.mono (fun _ h => h) k3 (by simp)
        have f23 := (f2.append f3 (by
          rintro l ⟨h, h'⟩ (rfl | ⟨h1, _⟩ | rfl | h1)
          exacts [by omega, by omega, by omega, h1])).cons (i := .branchf m3) (by simp [target]) (by simp [tmplOf])
        have f1 : Frag (Btw n m1) tm3.length [m3, m3 + 1] ci := F1.mono (fun _ h => h) (Nat.le_trans k2 k3) (by simp)
        have f := f1.append f23 (by
          rintro l ⟨h, h'⟩ (⟨h1, _⟩ | rfl | ⟨h1, _⟩ | rfl | h1)
          exacts [by omega, by omega, by omega, by omega, h1])
        show Frag (Btw n (m3 + 2)) tm3.length [] _
        exact ((f.close (by simp [labs_append, labs])).close (by simp [labs_append, labs])).mono (by
          rintro l (⟨h, h'⟩ | ⟨h1, _⟩ | rfl | ⟨h1, _⟩ | rfl | h1)
          exacts [⟨by omega, by omega⟩, ⟨by omega, by omega⟩, ⟨by omega, by omega⟩, ⟨by omega, by omega⟩, ⟨by omega, by omega⟩, h1.elim]) (Nat.le_refl _) (fun _ h => h)
  | .letv _ _, _, _, _, _, h => by simp [hasClauses] at h
  | .letrecv _ _, _, _, _, _, h => by simp [hasClauses] at h
  | .lam f body, sc, t, n, tm, h => by
    obtain ⟨⟨is, m, tm'⟩, h1, h2⟩ := compileBody_ok body (clauseScope (freeVars (.lam f body) []).1 f) true 1 tm (by simpa [hasClauses] using h)
    have hw := lambda_wf h2 f (freeVars (.lam f body) []).1.length ((clauseBounds (.lam f body)).headD []).length
    have ha := assemble_ok tm' (clausesArity [f]) hw
    simp only [compile, h1, Res.ok_bind, ha]
    refine ⟨_, rfl, ?_⟩
    refine ⟨Nat.le_refl _, ?_, fun hc => ?_, ⟨_, _, rfl⟩, tailRet_closed t _, ?_⟩
    · obtain ⟨new, hn⟩ := h2.ext
      simp only at hn
      exact ⟨_ :: new, by simp only [hn]; rfl⟩
    · intro c hm
      rcases List.mem_cons.1 hm with rfl | hm
      · exact assemble_codeOK hw (h2.codes hc) ha
      · exact h2.codes hc c hm
    · exact (closureIns_frag (P := fun _ => False) sc tm'.length _ (by simp)).app (tailRet_frag t)
  | .clam cs, sc, t, n, tm, h => by
    simp only [hasClauses, Bool.and_eq_true] at h
    have hne : cs ≠ [] := by rintro rfl; simp at h
    obtain ⟨⟨is, last, m, tm'⟩, h1, h2⟩ := compileClauses_ok cs (freeVars (.clam cs) []).1 (clauseBounds (.clam cs)) none 0 tm h.2 (by simp)
    obtain ⟨l, hl, hl1, hl2, hl3⟩ := h2.last hne
    simp only at hl hl1 hl2 hl3
    subst hl
    have hw := clauses_wf hne h2
    have ha := assemble_ok tm' (clausesArity (cs.map Cl.fs)) hw
    simp only [compile, h1, Res.ok_bind, ha]
    refine ⟨_, rfl, ?_⟩
    refine ⟨Nat.le_refl _, ?_, fun hc => ?_, ⟨_, _, rfl⟩, tailRet_closed t _, ?_⟩
    · obtain ⟨new, hn⟩ := h2.ext
      simp only at hn
      exact ⟨_ :: new, by simp only [hn]; rfl⟩
    · intro c hm
      rcases List.mem_cons.1 hm with rfl | hm
      · exact assemble_codeOK hw (h2.codes hc) ha
      · exact h2.codes hc c hm
    · exact (closureIns_frag (P := fun _ => False) sc tm'.length _ (by simp)).app (tailRet_frag t)
  | .begin es, sc, t, n, tm, h => by
    simp only [compile]
    exact compileBody_ok es sc t n tm (by simpa [hasClauses] using h)
  | .app f args, sc, t, n, tm, h => by
    simp only [hasClauses, Bool.and_eq_true] at h
    obtain ⟨⟨fi, m1, tm1⟩, h1, o1⟩ := compile_ok f sc false (if t then n else n + 1) tm h.1
    obtain ⟨⟨ai, m2, tm2⟩, h2, o2⟩ := compileArgs_ok args sc m1 tm1 h.2
    have l1 := o1.le; have l2 := o2.le
    simp only at l1 l2
    have k2 := ext_len o2.ext
    simp only at k2
    obtain ⟨i0, r0, hr0⟩ := o1.head
    simp only at hr0
    have fa : Frag (Btw m1 m2) tm2.length [] (.ins .setProc :: .ins (.checkStack args.length) :: (ai ++ [.ins .apply])) := by
      refine Frag.cons (Frag.cons ?_ (by simp [target]) (by simp [tmplOf])) (by simp [target]) (by simp [tmplOf])
      exact o2.frag.seq (p := m2) (Frag.nil.cons (by simp [target]) (by simp [tmplOf])) (Nat.le_refl _) l2 (Nat.le_refl _)
    have fc := o1.frag.seq fa k2 l1 l2
    cases t with
    | true =>
      simp only [if_true] at h1
      simp only [compile, if_true, h1, h2, Res.ok_bind]
      refine ⟨_, rfl, ?_⟩
      refine ⟨by simp only; simp only [if_true] at l1; omega, ext_trans o1.ext o2.ext, fun h => o2.codes (o1.codes h), ?_, ?_, fc⟩
      · exact ⟨i0, _, by simp only [hr0]; rfl⟩
      · intro _
        have := closed_append (a := fi ++ .ins .setProc :: .ins (.checkStack args.length) :: ai) (b := [.ins .apply]) rfl (by simp)
        simpa using this
    | false =>
      simp only [Bool.false_eq_true, if_false] at l1 fc h1
      simp only [compile, h1, h2, Res.ok_bind, if_false, Bool.false_eq_true]
      refine ⟨_, rfl, ?_⟩
      refine ⟨by simp only; omega, ext_trans o1.ext o2.ext, fun h => o2.codes (o1.codes h), ⟨_, _, rfl⟩, (by simp), ?_⟩
      exact fc.call rfl (by omega)
  | .mvcall e c, sc, t, n, tm, h => by
    simp only [hasClauses, Bool.and_eq_true] at h
    obtain ⟨⟨ei, m1, tm1⟩, h1, o1⟩ := compile_ok e sc false (if t then n else n + 1) tm h.1
    obtain ⟨⟨ci, m2, tm2⟩, h2, o2⟩ := compile_ok c sc false m1 tm1 h.2
    have l1 := o1.le; have l2 := o2.le
    simp only at l1 l2
    have k2 := ext_len o2.ext
    simp only at k2
    obtain ⟨i0, r0, hr0⟩ := o1.head
    simp only at hr0
    have fa : Frag (Btw m1 m2) tm2.length [] (.ins .clearFrame :: .ins .doWithValues :: (ci ++ [.ins .setProc, .ins .apply])) := by
      refine Frag.cons (Frag.cons ?_ (by simp [target]) (by simp [tmplOf])) (by simp [target]) (by simp [tmplOf])
      exact o2.frag.seq (p := m2) ((Frag.nil.cons (by simp [target]) (by simp [tmplOf])).cons (by simp [target]) (by simp [tmplOf])) (Nat.le_refl _) l2 (Nat.le_refl _)
    have fc := o1.frag.seq fa k2 l1 l2
    cases t with
    | true =>
      simp only [if_true] at h1
      simp only [compile, if_true, h1, h2, Res.ok_bind]
      refine ⟨_, rfl, ?_⟩
      refine ⟨by simp only; simp only [if_true] at l1; omega, ext_trans o1.ext o2.ext, fun h => o2.codes (o1.codes h), ?_, ?_, fc⟩
      · exact ⟨i0, _, by simp only [hr0]; rfl⟩
      · intro _
        have := closed_append (a := ei ++ .ins .clearFrame :: .ins .doWithValues :: ci) (b := [.ins .setProc, .ins .apply]) rfl (by simp)
        simpa using this
    | false =>
      simp only [Bool.false_eq_true, if_false] at l1 fc h1
      simp only [compile, h1, h2, Res.ok_bind, if_false, Bool.false_eq_true]
      refine ⟨_, rfl, ?_⟩
      refine ⟨by simp only; omega, ext_trans o1.ext o2.ext, fun h => o2.codes (o1.codes h), ⟨_, _, rfl⟩, (by simp), ?_⟩
      exact fc.call rfl (by omega)
  | .mvlet e xs body, sc, t, n, tm, h => by
    simp only [hasClauses, Bool.and_eq_true] at h
    obtain ⟨⟨ei, m1, tm1⟩, h1, o1⟩ := compile_ok e sc false n tm h.1
    obtain ⟨⟨bi, m2, tm2⟩, h2, o2⟩ := compile_ok body (scopeBind sc xs) t m1 tm1 h.2
    have l1 := o1.le; have l2 := o2.le
    simp only at l1 l2
    have k2 := ext_len o2.ext
    simp only at k2
    obtain ⟨i0, r0, hr0⟩ := o1.head
    simp only at hr0
    simp only [compile, h1, h2, Res.ok_bind]
    refine ⟨_, rfl, ?_⟩
    refine ⟨by simp only; omega, ext_trans o1.ext o2.ext, fun h => o2.codes (o1.codes h), ?_, ?_, ?_⟩
    · exact ⟨i0, _, by simp only [hr0]; rfl⟩
    · intro ht
      have hb := o2.closed ht
      simp only at hb
      exact closed_append_ins _ _ _ hb
    · exact o1.frag.seq (o2.frag.cons (by simp [target]) (by simp [tmplOf])) k2 l1 l2
  | .mvvals [], sc, t, n, tm, _ => ⟨_, by simp only [compile]; rfl, simple_ok _ rfl rfl⟩
  | .mvvals (e :: r), sc, t, n, tm, h => by
    simp only [hasClauses, hasClausesL, Bool.and_eq_true] at h
    obtain ⟨⟨ei, m1, tm1⟩, h1, o1⟩ := compile_ok e sc false n tm h.1
    obtain ⟨⟨ri, m2, tm2⟩, h2, o2⟩ := compileArgs_ok r sc m1 tm1 h.2
    have l1 := o1.le; have l2 := o2.le
    simp only at l1 l2
    have k2 := ext_len o2.ext
    simp only at k2
    simp only [compile, h1, h2, Res.ok_bind]
    refine ⟨_, rfl, ?_⟩
    refine ⟨by simp only; omega, ext_trans o1.ext o2.ext, fun h => o2.codes (o1.codes h), ⟨_, _, rfl⟩, ?_, ?_⟩
    · intro ht
      subst ht
      have := closed_append (a := .ins (.checkStack (r.length + 1)) :: (ei ++ .ins .push :: (ri ++ [.ins .doValues, .ins .clearFrame]))) (b := [.ins .ret]) rfl (by simp)
      simpa [tailRet] using this
    · refine Frag.cons ?_ (by simp [target]) (by simp [tmplOf])
      refine o1.frag.seq (Frag.cons ?_ (by simp [target]) (by simp [tmplOf])) k2 l1 l2
      exact o2.frag.seq (p := m2) (((tailRet_frag t).cons (by simp [target]) (by simp [tmplOf])).cons (by simp [target]) (by simp [tmplOf])) (Nat.le_refl _) l2 (Nat.le_refl _)

theorem compileBody_ok : ∀ (es : List E) (sc : Scope) (t : Bool) (n : Nat) (tm : List Code), hasClausesL es = true →
    ∃ o, compileBody es sc t n tm = .ok o ∧ OutOK n tm t o
  | [], _, _, _, _, _ => ⟨_, rfl, simple_ok _ rfl rfl⟩
  | [e], sc, t, n, tm, h => by
    simp only [compileBody]
    exact compile_ok e sc t n tm (by simpa [hasClausesL] using h)
  | e :: e' :: r, sc, t, n, tm, h => by
    simp only [hasClausesL, Bool.and_eq_true] at h
    obtain ⟨⟨ei, m1, tm1⟩, h1, o1⟩ := compile_ok e sc false n tm h.1
    obtain ⟨⟨ri, m2, tm2⟩, h2, o2⟩ := compileBody_ok (e' :: r) sc t m1 tm1 (by simpa [hasClausesL] using h.2)
    have l1 := o1.le; have l2 := o2.le
    simp only at l1 l2
    have k2 := ext_len o2.ext
    simp only at k2
    obtain ⟨i0, r0, hr0⟩ := o1.head
    simp only at hr0
    obtain ⟨i1, r1, hr1⟩ := o2.head
    simp only at hr1
    rw [compileBody]
    simp only [h1, h2, Res.ok_bind]
    refine ⟨_, rfl, ?_⟩
    refine ⟨by simp only; omega, ext_trans o1.ext o2.ext, fun h => o2.codes (o1.codes h), ?_, ?_, ?_⟩
    · exact ⟨i0, _, by simp only [hr0]; rfl⟩
    · intro ht
      have hb := o2.closed ht
      simp only at hb
      exact closed_append hb (by rw [hr1]; simp)
    · exact o1.frag.seq o2.frag k2 l1 l2

theorem compileArgs_ok : ∀ (es : List E) (sc : Scope) (n : Nat) (tm : List Code), hasClausesL es = true →
    ∃ o, compileArgs es sc n tm = .ok o ∧ ArgsOK n tm o
  | [], _, n, tm, _ => ⟨_, rfl, Nat.le_refl _, ⟨[], rfl⟩, id, rfl, Frag.nil⟩
  | e :: r, sc, n, tm, h => by
    simp only [hasClausesL, Bool.and_eq_true] at h
    obtain ⟨⟨ei, m1, tm1⟩, h1, o1⟩ := compile_ok e sc false n tm h.1
    obtain ⟨⟨ri, m2, tm2⟩, h2, o2⟩ := compileArgs_ok r sc m1 tm1 h.2
    have l1 := o1.le; have l2 := o2.le
    simp only at l1 l2
    have k2 := ext_len o2.ext
    simp only at k2
    simp only [compileArgs, h1, h2, Res.ok_bind]
    refine ⟨_, rfl, ?_⟩
    refine ⟨by simp only; omega, ext_trans o1.ext o2.ext, fun h => o2.codes (o1.codes h), ?_, ?_⟩
    · exact closed_append_ins _ _ _ o2.closed
    · exact o1.frag.seq (o2.frag.cons (by simp [target]) (by simp [tmplOf])) k2 l1 l2

theorem compileClauses_ok : ∀ (cs : List Cl) (fvs : List Sym) (bounds : List (List Sym)) (prev : Option Nat) (n : Nat) (tm : List Code),
    hasClausesC cs = true → (∀ p, prev = some p → p < n) →
    ∃ o, compileClauses cs fvs bounds prev n tm = .ok o ∧ ClausesOK n tm prev cs o
  | [], _, _, prev, n, tm, _, _ =>
    ⟨_, rfl, Nat.le_refl _, ⟨[], rfl⟩, id, fun _ => ⟨rfl, rfl⟩, fun _ h => absurd rfl h, fun h => absurd rfl h, fun _ _ h => absurd rfl h, Frag.nil⟩
  | .mk f body :: cs, fvs, bounds, prev, n, tm, h, hp => by
    simp only [hasClausesC, Bool.and_eq_true] at h
    obtain ⟨⟨is, m1, tm1⟩, h1, o1⟩ := compileBody_ok body (clauseScope fvs f) true (n + 1) tm h.1
    obtain ⟨⟨rest, last, m2, tm2⟩, h2, o2⟩ := compileClauses_ok cs fvs bounds.tail (some n) m1 tm1 h.2 (by
      rintro p hp'
      have := o1.le
      simp only at this
      cases hp'
      omega)
    have l1 := o1.le; have l2 := o2.le
    simp only at l1 l2
    have k2 := ext_len o2.ext
    simp only at k2
    have f2 := o2.frag
    simp only at f2
    have f1 : Frag (Btw (n + 1) m1) tm2.length (n :: last.toList) is := o1.frag.mono (fun _ h => h) k2 (by simp)
    have fh := (clauseHead_frag (k := tm2.length) (ext := n :: last.toList) fvs.length (bounds.headD []).length f).app f1
    have fe := ((entry_frag (k := tm2.length) f n).mono (ext' := n :: last.toList) (Q := fun _ => False) (fun _ h => h) (Nat.le_refl _) (by simp)).app fh
    have f2' : Frag (fun l => some l = some n ∨ Btw m1 m2 l) tm2.length (n :: last.toList) rest :=
      f2.mono (fun _ h => h) (Nat.le_refl _) (by simp +contextual)
    have fa := fe.append f2' (by rintro l ⟨h, h'⟩ (h1 | ⟨h1, _⟩); exacts [by cases h1; omega, by omega])
    -- the label of this clause is defined by the next one, or pending
    have hlast : ∃ l, last = some l ∧ n ≤ l ∧ l < m2 ∧ l ∉ labs rest := by
      cases cs with
      | nil =>
        obtain ⟨e1, e2⟩ := o2.empty rfl
        simp only at e1 e2
        exact ⟨n, e2, Nat.le_refl _, by omega, by rw [e1]; simp [labs]⟩
      | cons c cs =>
        obtain ⟨l, e1, e2, e3, e4⟩ := o2.last (by simp)
        simp only at e1 e2 e3 e4
        exact ⟨l, e1, by omega, e3, e4⟩
    obtain ⟨l, hl, hln, hlm, hlr⟩ := hlast
    have hnl : l = n ∨ m1 ≤ l := by
      cases cs with
      | nil =>
        obtain ⟨e1, e2⟩ := o2.empty rfl
        simp only at e2
        rw [hl] at e2; cases e2; exact .inl rfl
      | cons c cs =>
        obtain ⟨l', e1, e2, e3, e4⟩ := o2.last (by simp)
        simp only at e1 e2
        rw [hl] at e1; cases e1; exact .inr e2
    set tailItems := [Item.ins (if f.rest.isSome then .branchlt f.req.length n else .branchne f.req.length n)] ++
      (clauseHead fvs.length (bounds.headD []).length f ++ is) ++ rest with hti
    have hext : Frag (fun l => Btw (n + 1) m1 l ∨ some l = some n ∨ Btw m1 m2 l) tm2.length last.toList tailItems := by
      cases cs with
      | nil =>
        obtain ⟨e1, e2⟩ := o2.empty rfl
        simp only at e2
        refine fa.mono (fun _ h => h) (Nat.le_refl _) ?_
        rw [e2]; simp
      | cons c cs =>
        refine fa.close ?_
        have := o2.prevIn n rfl (by simp)
        simp only at this
        rw [labs_append, List.mem_append]
        exact .inr this
    have hitems : clauseEntry prev f n ++ clauseHead fvs.length (bounds.headD []).length f ++ is ++ rest =
        (match prev with | none => Item.ins (.mov .res .ac) | some p => .lab p) :: tailItems := by
      rw [hti]; cases prev <;> simp [clauseEntry]
    have hlt : l ∉ labs tailItems := by
      rw [hti, labs_append, labs_append, labs_append, List.mem_append, List.mem_append, List.mem_append]
      rintro ((hm | (hm | hm)) | hm)
      · simp [labs] at hm
      · exact (clauseHead_frag (k := 0) (ext := []) fvs.length (bounds.headD []).length f).range l hm
      · have := o1.frag.range l hm
        obtain ⟨a, b⟩ := this
        simp only at a b
        omega
      · exact hlr hm
    simp only [compileClauses, h1, h2, Res.ok_bind]
    refine ⟨_, rfl, ?_⟩
    refine ⟨by simp only; omega, ext_trans o1.ext o2.ext, fun h => o2.codes (o1.codes h), (by simp), ?_, ?_, ?_, ?_⟩
    · rintro rfl _
      exact ⟨_, _, hitems⟩
    · intro _
      refine ⟨l, hl, hln, hlm, ?_⟩
      simp only [hitems]
      cases prev with
      | none => exact hlt
      | some p =>
        have := hp p rfl
        simp only [labs, List.mem_cons, not_or]
        exact ⟨by omega, hlt⟩
    · rintro p rfl _
      simp only [hitems, labs, List.mem_cons, true_or]
    · simp only [hitems]
      cases prev with
      | none =>
        exact (hext.cons (by simp [target]) (by simp [tmplOf])).mono
          (by rintro l (⟨h, h'⟩ | h | ⟨h, h'⟩); exacts [.inr ⟨by omega, by omega⟩, by cases h; exact .inr ⟨Nat.le_refl _, by omega⟩, .inr ⟨by omega, by omega⟩])
          (Nat.le_refl _) (fun _ h => h)
      | some p =>
        have hpn := hp p rfl
        exact (hext.lab (l := p) (by rintro (⟨h, h'⟩ | h | ⟨h, h'⟩); exacts [by omega, by cases h; omega, by omega])).mono
          (by rintro l (rfl | ⟨h, h'⟩ | h | ⟨h, h'⟩); exacts [.inl rfl, .inr ⟨by omega, by omega⟩, by cases h; exact .inr ⟨Nat.le_refl _, by omega⟩, .inr ⟨by omega, by omega⟩])
          (Nat.le_refl _) (fun _ h => h)

end

end Minim.Jit
