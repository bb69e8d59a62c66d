import Verif.ExpMod

set_option autoImplicit false

/-!
# The check of expanded modules

Model of `check/module!` (library/expander.min:299-401): an expanded module is searched for references to unknown variables.

Simplifications: a scope is a list of names, that of the innermost frame first (expander.min:31-57: a chain of sets; only the frame made last is ever added to); the message printed for
an unknown variable is left out.
-/

namespace Minim.Exp

open Minim.Sx Minim.Core Minim.Jit

/-- `for-each` with a check that ends the process (`exit`): false as soon as one is. -/
def forEach (f : T → Res Bool) : List T → Res Bool
  | [] => .ok true
  | e :: es => do if ← f e then forEach f es else .ok false

/-- `syntax->datum` (prelude.min:2292-2296). -/
def toDatum : T → Res X
  | .stx e => .ok (strip e)
  | _ => .err

/-- `check/formals!` (expander.min:309-320); the names are added to the scope.  Simplified: parameters that are no symbols raise an exception at once. -/
def formalIds : X → Res (List Sym)
  | .cons (.sym s) d => do let xs ← formalIds d; .ok (s :: xs)
  | .sym s => .ok [s]
  | .null => .ok []
  | _ => .err

/-- the identifiers of a binding (expander.min:353-354).  Simplified: identifiers that are no symbols raise an exception at once. -/
def datumIds : X → Res (List Sym)
  | .cons (.sym s) d => do let xs ← datumIds d; .ok (s :: xs)
  | .null => .ok []
  | _ => .err

/-- the identifiers and the value of each binding (expander.min:350-364) -/
def bindParts : List T → Res (List Sym × List T)
  | [] => .ok ([], [])
  | b :: bs => do
    let b ← stxElems b
    match b with
    | i :: v :: _ => do
      let i ← toDatum i
      let is ← datumIds i
      let (is', vs) ← bindParts bs
      .ok (is ++ is', v :: vs)
    | _ => .err

/-- the parameters and the body of a procedure (expander.min:327-332, 336-340) -/
def procParts (d : T) : Res (List Sym × List T) := do
  let fs ← stxCar d
  let b ← stxCdr d
  let fs ← toDatum fs
  let is ← formalIds fs
  let b ← rawList b
  .ok (is, b)

/-- `check/expr!` (expander.min:323-383); false if the process is ended because of an unknown variable. -/
def checkE : Nat → List Sym → T → Res Bool
  | 0, _, _ => .oof
  | n + 1, sc, e =>
    match headSym e with
    | some s =>
      if s = .lambda then do
        let d ← stxCdr e
        let (is, b) ← procParts d
        forEach (checkE n (is ++ sc)) b
      else if s = .caseLambda then do
        let d ← stxCdr e
        let cs ← rawList d
        forEach (fun c => do let (is, b) ← procParts c; forEach (checkE n (is ++ sc)) b) cs
      else if s = .letValues ∨ s = .letrecValues then do
        let d ← stxCdr e
        let bs ← stxCar d
        let b ← stxCdr d
        let bs ← stxElems bs
        let (is, vs) ← bindParts bs
        if ← forEach (checkE n (if s = .letValues then sc else is ++ sc)) vs then do
          let b ← rawList b
          forEach (checkE n (is ++ sc)) b
        else .ok false
      else if s = .setb then do
        let p ← stxElems e
        match p with
        | _ :: _ :: v :: _ => checkE n sc v
        | _ => .err
      else if s = .ifS ∨ s = .begin then do
        let d ← stxCdr e
        let es ← rawList d
        forEach (checkE n sc) es
      else if s = .quote ∨ s = .quoteSyntax then .ok true
      else do
        let es ← stxElems e
        forEach (checkE n sc) es
    | none =>
      match e with
      | .stx (.lit _) => .ok true
      | .stx (.cons _ _) => do
        let es ← stxElems e
        forEach (checkE n sc) es
      | .stx (.sym s) => .ok (decide (s ∈ sc))
      | _ => .err

/-- the identifiers of the definitions of a module (expander.min:304-306, 386-390) -/
def moduleIds : List T → Res (List Sym)
  | [] => .ok []
  | e :: es =>
    if headSym e = some .defineValues then do
      let d ← stxCdr e
      let i ← stxCar d
      let is ← stxElems i
      let r ← moduleIds es
      .ok (idSyms is ++ r)
    else moduleIds es

/-- what is checked of a form of a module (expander.min:393-398) -/
def checkForm (n : Nat) (sc : List Sym) (e : T) : Res Bool :=
  if headSym e = some .defineValues then do
    let d ← stxCdr e
    let d ← stxCdr d
    let v ← stxCar d
    checkE n sc v
  else checkE n sc e

/-- `check/module!` (expander.min:302-401). -/
def checkModule (n : Nat) (sc : List Sym) (es : List T) : Res Bool := do
  let is ← moduleIds es
  forEach (checkForm n (is ++ sc)) es

/-! ### specification -/

mutual

/-- Specification: every variable that is referred to (if `w`, also every variable that is assigned) is bound around it or one of `Γ`. -/
def Closed (w : Bool) (Γ : Sym → Prop) : E → Prop
  | .var x => Γ x
  | .lit _ => True
  | .quote _ => True
  | .quoteSyntax _ => True
  | .unbound => True
  | .define _ e => Closed w Γ e
  | .set x e => (w = true → Γ x) ∧ Closed w Γ e
  | .ite c t e => Closed w Γ c ∧ Closed w Γ t ∧ Closed w Γ e
  | .letv bs body => ClosedBds w Γ bs ∧ ClosedL w (fun x => x ∈ bdsIds bs ∨ Γ x) body
  | .letrecv bs body => ClosedBds w (fun x => x ∈ bdsIds bs ∨ Γ x) bs ∧ ClosedL w (fun x => x ∈ bdsIds bs ∨ Γ x) body
  | .lam f body => ClosedL w (fun x => x ∈ f.ids ∨ Γ x) body
  | .clam cs => ClosedCls w Γ cs
  | .begin es => ClosedL w Γ es
  | .app f as => Closed w Γ f ∧ ClosedL w Γ as
  | .mvcall e c => Closed w Γ e ∧ Closed w Γ c
  | .mvlet e xs b => Closed w Γ e ∧ Closed w (fun x => x ∈ xs ∨ Γ x) b
  | .mvvals es => ClosedL w Γ es

/-- Specification: the same of expressions. -/
def ClosedL (w : Bool) (Γ : Sym → Prop) : List E → Prop
  | [] => True
  | e :: es => Closed w Γ e ∧ ClosedL w Γ es

/-- Specification: the same of the right-hand side of a binding. -/
def ClosedBd (w : Bool) (Γ : Sym → Prop) : Bd → Prop
  | .mk _ e => Closed w Γ e

/-- Specification: the same of right-hand sides. -/
def ClosedBds (w : Bool) (Γ : Sym → Prop) : List Bd → Prop
  | [] => True
  | b :: bs => ClosedBd w Γ b ∧ ClosedBds w Γ bs

/-- Specification: the same of a clause. -/
def ClosedCl (w : Bool) (Γ : Sym → Prop) : Cl → Prop
  | .mk f body => ClosedL w (fun x => x ∈ f.ids ∨ Γ x) body

/-- Specification: the same of clauses. -/
def ClosedCls (w : Bool) (Γ : Sym → Prop) : List Cl → Prop
  | [] => True
  | c :: cs => ClosedCl w Γ c ∧ ClosedCls w Γ cs

end

/-- Specification: the identifiers the forms of a module define. -/
def modIds : List E → List Sym
  | [] => []
  | .define xs _ :: es => xs ++ modIds es
  | _ :: es => modIds es

/-! ### lemmas -/

def Chk (f : Nat → T → Res Bool) (x : X) (p : Prop) : Prop := ∃ b, Evt (fun n => f n (syn x) = .ok b) ∧ (b = true ↔ p)

theorem Chk.congr {f : Nat → T → Res Bool} {x : X} {p q : Prop} (h : Chk f x p) (hpq : p ↔ q) : Chk f x q := by
  obtain ⟨b, h1, h2⟩ := h
  exact ⟨b, h1, h2.trans hpq⟩

/-- check of a list -/
def ChkL (f : Nat → T → Res Bool) (xs : List X) (p : Prop) : Prop := ∃ b, Evt (fun n => forEach (f n) (xs.map syn) = .ok b) ∧ (b = true ↔ p)

theorem ChkL.nil {f : Nat → T → Res Bool} : ChkL f [] True := ⟨true, ⟨0, fun _ _ => rfl⟩, by simp⟩

theorem ChkL.cons {f : Nat → T → Res Bool} {x : X} {xs : List X} {p q : Prop} (h1 : Chk f x p) (h2 : ChkL f xs q) : ChkL f (x :: xs) (p ∧ q) := by
  obtain ⟨b, ⟨n1, h1⟩, hb⟩ := h1
  obtain ⟨c, ⟨n2, h2⟩, hc⟩ := h2
  refine ⟨b && c, ⟨max n1 n2, fun n hn => ?_⟩, by rw [Bool.and_eq_true, hb, hc]⟩
  have h1 := h1 n (by omega)
  have h2 := h2 n (by omega)
  simp only at h1 h2
  show forEach (f n) (syn x :: xs.map syn) = _
  rw [forEach, h1]
  cases b with
  | true => simp [h2]
  | false => simp

theorem ChkL.step {f g : Nat → T → Res Bool} {xs : List X} {x : X} {p : Prop} (h : ChkL f xs p) (hg : ∀ n, g (n + 1) (syn x) = forEach (f n) (xs.map syn)) : Chk g x p := by
  obtain ⟨b, ⟨n1, h1⟩, hb⟩ := h
  refine ⟨b, ⟨n1 + 1, fun n hn => ?_⟩, hb⟩
  obtain ⟨n, rfl⟩ : ∃ j, n = j + 1 := ⟨n - 1, by omega⟩
  rw [hg, h1 n (by omega)]

theorem formalIds_formals : ∀ (xs : List Sym) (r : Option Sym), formalIds (formals xs r) = .ok (xs ++ r.toList)
  | [], none => rfl
  | [], some r => rfl
  | x :: xs, r => by rw [formals, formalIds, formalIds_formals xs r]; rfl

theorem datumIds_ids : ∀ xs : List Sym, datumIds (ids xs) = .ok xs
  | [] => rfl
  | x :: xs => by
    have := datumIds_ids xs
    rw [ids] at this
    rw [ids, List.map_cons, ofList, datumIds, this]; rfl

theorem toDatum_syn (x : X) : toDatum (syn x) = .ok x := by
  have h := strip_syn x
  cases x <;> simp only [syn, toDatum] at h ⊢ <;> rw [strip] at h <;> rw [h]

theorem bindParts_syn : ∀ bs : List Bd, bindParts ((bs.map encBd).map syn) = .ok (bdsIds bs, (bs.map fun b => enc b.rhs).map syn)
  | [] => rfl
  | .mk xs e :: bs => by
    have h : stxElems (syn (encBd (.mk xs e))) = .ok [syn (ids xs), syn (enc e)] := by rw [encBd]; exact stxElems_ofList _
    rw [List.map_cons, List.map_cons, bindParts, h]
    simp only [Res.ok_bind, toDatum_syn, datumIds_ids, bindParts_syn bs]
    simp [bdsIds, Bd.ids, Bd.rhs]

theorem stxCar_cons (a d : T) : stxCar (.cons a d) = .ok a := rfl

theorem stxCdr_cons (a d : T) : stxCdr (.cons a d) = .ok d := rfl

theorem encCls_eq : ∀ cs : List Cl, encCls cs = ofList (cs.map encCl)
  | [] => rfl
  | c :: cs => by rw [encCls, encCls_eq cs]; rfl

theorem procParts_tl (f : Formals) (xs : List X) : procParts (syn.tl (.cons (formals f.req f.rest) (ofList xs))) = .ok (f.ids, xs.map syn) := by
  rw [syn.tl, procParts, stxCar, stxCdr]
  simp only [Res.ok_bind, toDatum_syn, formalIds_formals, rawList_tl]
  rfl

theorem procParts_syn (f : Formals) (xs : List X) : procParts (syn (.cons (formals f.req f.rest) (ofList xs))) = .ok (f.ids, xs.map syn) := by
  rw [syn, procParts, stxCar, stxCdr]
  simp only [Res.ok_bind, toDatum_syn, formalIds_formals, rawList_tl]
  rfl

variable {V : Sym → Prop}

mutual

theorem chk_all (hV : NoKw V) : ∀ (e : E), NF V e → ∀ sc, Chk (fun n => checkE n sc) (enc e) (Closed false (· ∈ sc) e)
  | .var x, _, sc => by
    refine ⟨decide (x ∈ sc), ⟨1, fun n hn => ?_⟩, by rw [Closed]; simp⟩
    obtain ⟨n, rfl⟩ : ∃ j, n = j + 1 := ⟨n - 1, by omega⟩
    rw [enc, syn]; simp [checkE, headSym]
  | .lit l, _, sc => by
    refine ⟨true, ⟨1, fun n hn => ?_⟩, by rw [Closed]; simp⟩
    obtain ⟨n, rfl⟩ : ∃ j, n = j + 1 := ⟨n - 1, by omega⟩
    rw [enc, syn]; simp [checkE, headSym]
  | .quote d, _, sc => by
    refine ⟨true, ⟨1, fun n hn => ?_⟩, by rw [Closed]; simp⟩
    obtain ⟨n, rfl⟩ : ∃ j, n = j + 1 := ⟨n - 1, by omega⟩
    rw [enc, ofList, syn, syn]; simp [checkE, headSym]
  | .quoteSyntax d, _, sc => by
    refine ⟨true, ⟨1, fun n hn => ?_⟩, by rw [Closed]; simp⟩
    obtain ⟨n, rfl⟩ : ∃ j, n = j + 1 := ⟨n - 1, by omega⟩
    rw [enc, ofList, syn, syn]; simp [checkE, headSym]
  | .set x e, h, sc => by
    rw [NF] at h
    obtain ⟨b, ⟨n1, h1⟩, hb⟩ := chk_all hV e h sc
    refine ⟨b, ⟨n1 + 1, fun n hn => ?_⟩, by rw [hb, Closed]; simp⟩
    obtain ⟨n, rfl⟩ : ∃ j, n = j + 1 := ⟨n - 1, by omega⟩
    have hel : stxElems (syn (enc (.set x e))) = .ok [syn (.sym .setb), syn (.sym x), syn (enc e)] := by rw [enc]; exact stxElems_ofList _
    have hh : headSym (syn (enc (.set x e))) = some .setb := by rw [enc]; rfl
    simp only [checkE, hh, reduceCtorEq, if_false, or_self, if_true, hel, Res.ok_bind]
    exact h1 n (by omega)
  | .ite c t e, h, sc => by
    rw [NF] at h
    refine (ChkL.step (xs := [enc c, enc t, enc e]) (.cons (chk_all hV c h.1 sc) (.cons (chk_all hV t h.2.1 sc) (.cons (chk_all hV e h.2.2 sc) .nil))) fun n => ?_).congr (by rw [Closed]; simp)
    have hh : headSym (syn (enc (.ite c t e))) = some .ifS := by rw [enc]; rfl
    have hd : stxCdr (syn (enc (.ite c t e))) = .ok (syn.tl (ofList [enc c, enc t, enc e])) := by rw [enc]; rfl
    simp only [checkE, hh, hd, reduceCtorEq, if_false, or_self, true_or, if_true, Res.ok_bind, rawList_tl]
  | .lam f body, h, sc => by
    rw [NF] at h
    refine (ChkL.step (chk_alls hV body h.2.2 (f.ids ++ sc)) fun n => ?_).congr ?_
    · have hh : headSym (syn (enc (.lam f body))) = some .lambda := by rw [enc]; rfl
      have hd : stxCdr (syn (enc (.lam f body))) = .ok (syn.tl (.cons (formals f.req f.rest) (ofList (body.map enc)))) := by rw [enc, encs_eq]; rfl
      simp only [checkE, hh, hd, if_true, Res.ok_bind, procParts_tl]
    · rw [Closed]; simp only [List.mem_append]
  | .clam cs, h, sc => by
    rw [NF] at h
    refine (ChkL.step (f := fun n c => do let (is, b) ← procParts c; forEach (checkE n (is ++ sc)) b) (chk_cls hV cs h sc) fun n => ?_).congr (by rw [Closed])
    have hh : headSym (syn (enc (.clam cs))) = some .caseLambda := by rw [enc]; rfl
    have hd : stxCdr (syn (enc (.clam cs))) = .ok (syn.tl (ofList (cs.map encCl))) := by rw [enc, encCls_eq]; rfl
    simp only [checkE, hh, hd, reduceCtorEq, if_false, if_true, Res.ok_bind, rawList_tl]
  | .begin es, h, sc => by
    rw [NF] at h
    refine (ChkL.step (chk_alls hV es h.2 sc) fun n => ?_).congr (by rw [Closed])
    have hh : headSym (syn (enc (.begin es))) = some .begin := by rw [enc]; rfl
    have hd : stxCdr (syn (enc (.begin es))) = .ok (syn.tl (ofList (es.map enc))) := by rw [enc, encs_eq]; rfl
    simp only [checkE, hh, hd, reduceCtorEq, if_false, or_self, or_true, if_true, Res.ok_bind, rawList_tl]
  | .app f as, h, sc => by
    rw [NF] at h
    refine (ChkL.step (xs := enc f :: as.map enc) (.cons (chk_all hV f h.1 sc) (chk_alls hV as h.2 sc)) fun n => ?_).congr (by rw [Closed])
    have hel : stxElems (syn (enc (.app f as))) = .ok ((enc f :: as.map enc).map syn) := by rw [enc, encs_eq]; exact stxElems_syn _ _
    by_cases hf : ∃ s, f = .var s
    · obtain ⟨s, rfl⟩ := hf
      have hs : V s := by have := h.1; rwa [NF] at this
      have hk := hV s hs
      have hh : headSym (syn (enc (.app (.var s) as))) = some s := by rw [enc, enc]; rfl
      simp only [keywords, List.mem_cons, List.not_mem_nil, or_false, not_or] at hk
      simp only [checkE, hh, hel, hk, if_false, or_self, Res.ok_bind]
    · have hh : headSym (syn (enc (.app f as))) = none := by
        rw [enc]
        cases f <;> first | exact (hf ⟨_, rfl⟩).elim | simp [enc, ofList, syn, headSym]
      have hc : ∃ a d, syn (enc (.app f as)) = .stx (.cons a d) := by rw [enc]; exact ⟨_, _, rfl⟩
      obtain ⟨a, d, hc⟩ := hc
      rw [hc] at hh hel ⊢
      simp only [checkE, hh, hel, Res.ok_bind]
  | .letv bs body, h, sc => by
    rw [NF] at h
    obtain ⟨b, ⟨n1, h1⟩, hb⟩ := chk_bds hV bs h.2.1 sc
    obtain ⟨c, ⟨n2, h2⟩, hc⟩ := chk_alls hV body h.2.2.2.2 (bdsIds bs ++ sc)
    refine ⟨b && c, ⟨max n1 n2 + 1, fun n hn => ?_⟩, by rw [Bool.and_eq_true, hb, hc, Closed]; simp only [List.mem_append]⟩
    obtain ⟨n, rfl⟩ : ∃ j, n = j + 1 := ⟨n - 1, by omega⟩
    have h1 := h1 n (by omega)
    have h2 := h2 n (by omega)
    have hh : headSym (syn (enc (.letv bs body))) = some .letValues := by rw [enc]; rfl
    have hd : stxCdr (syn (enc (.letv bs body))) = .ok (.cons (syn (ofList (bs.map encBd))) (syn.tl (ofList (body.map enc)))) := by rw [enc, encs_eq, encBds_eq]; rfl
    simp only at h1 h2
    simp only [checkE, hh, hd, reduceCtorEq, if_false, true_or, if_true, Res.ok_bind, stxCar_cons, stxCdr_cons, stxElems_ofList, bindParts_syn, h1]
    cases b with
    | true => simp only [if_true, rawList_tl, Res.ok_bind, h2, Bool.true_and]
    | false => simp
  | .letrecv bs body, h, sc => by
    rw [NF] at h
    obtain ⟨b, ⟨n1, h1⟩, hb⟩ := chk_bds hV bs h.2.1 (bdsIds bs ++ sc)
    obtain ⟨c, ⟨n2, h2⟩, hc⟩ := chk_alls hV body h.2.2.2.2 (bdsIds bs ++ sc)
    refine ⟨b && c, ⟨max n1 n2 + 1, fun n hn => ?_⟩, by rw [Bool.and_eq_true, hb, hc, Closed]; simp only [List.mem_append]⟩
    obtain ⟨n, rfl⟩ : ∃ j, n = j + 1 := ⟨n - 1, by omega⟩
    have h1 := h1 n (by omega)
    have h2 := h2 n (by omega)
    have hh : headSym (syn (enc (.letrecv bs body))) = some .letrecValues := by rw [enc]; rfl
    have hd : stxCdr (syn (enc (.letrecv bs body))) = .ok (.cons (syn (ofList (bs.map encBd))) (syn.tl (ofList (body.map enc)))) := by rw [enc, encs_eq, encBds_eq]; rfl
    simp only at h1 h2
    simp only [checkE, hh, hd, reduceCtorEq, if_false, or_true, if_true, Res.ok_bind, stxCar_cons, stxCdr_cons, stxElems_ofList, bindParts_syn, h1]
    cases b with
    | true => simp only [if_true, rawList_tl, Res.ok_bind, h2, Bool.true_and]
    | false => simp
  | .unbound, h, _ => by rw [NF] at h; exact h.elim
  | .define .., h, _ => by rw [NF] at h; exact h.elim
  | .mvcall .., h, _ => by rw [NF] at h; exact h.elim
  | .mvlet .., h, _ => by rw [NF] at h; exact h.elim
  | .mvvals _, h, _ => by rw [NF] at h; exact h.elim

theorem chk_alls (hV : NoKw V) : ∀ (es : List E), NFl V es → ∀ sc, ChkL (fun n => checkE n sc) (es.map enc) (ClosedL false (· ∈ sc) es)
  | [], _, sc => by rw [ClosedL]; exact .nil
  | e :: es, h, sc => by
    rw [NFl] at h; rw [ClosedL]
    exact .cons (chk_all hV e h.1 sc) (chk_alls hV es h.2 sc)

theorem chk_bd (hV : NoKw V) : ∀ (b : Bd), NFbd V b → ∀ sc, Chk (fun n => checkE n sc) (enc b.rhs) (ClosedBd false (· ∈ sc) b)
  | .mk _ e, h, sc => by rw [NFbd] at h; rw [ClosedBd]; exact chk_all hV e h sc

theorem chk_bds (hV : NoKw V) : ∀ (bs : List Bd), NFbds V bs → ∀ sc, ChkL (fun n => checkE n sc) (bs.map fun b => enc b.rhs) (ClosedBds false (· ∈ sc) bs)
  | [], _, sc => by rw [ClosedBds]; exact .nil
  | b :: bs, h, sc => by
    rw [NFbds] at h; rw [ClosedBds]
    exact .cons (chk_bd hV b h.1 sc) (chk_bds hV bs h.2 sc)

theorem chk_cl (hV : NoKw V) : ∀ (c : Cl), NFcl V c → ∀ sc, Chk (fun n c => do let (is, b) ← procParts c; forEach (checkE n (is ++ sc)) b) (encCl c) (ClosedCl false (· ∈ sc) c)
  | .mk f body, h, sc => by
    rw [NFcl] at h
    obtain ⟨b, ⟨n1, h1⟩, hb⟩ := chk_alls hV body h.2.2 (f.ids ++ sc)
    refine ⟨b, ⟨n1, fun n hn => ?_⟩, by rw [hb, ClosedCl]; simp only [List.mem_append]⟩
    have h1 := h1 n hn
    show (do let (is, b) ← procParts (syn (encCl (.mk f body))); forEach (checkE n (is ++ sc)) b) = _
    rw [encCl, encs_eq, procParts_syn]
    exact h1

theorem chk_cls (hV : NoKw V) : ∀ (cs : List Cl), NFcls V cs → ∀ sc, ChkL (fun n c => do let (is, b) ← procParts c; forEach (checkE n (is ++ sc)) b) (cs.map encCl) (ClosedCls false (· ∈ sc) cs)
  | [], _, sc => by rw [ClosedCls]; exact .nil
  | c :: cs, h, sc => by
    rw [NFcls] at h; rw [ClosedCls]
    exact .cons (chk_cl hV c h.1 sc) (chk_cls hV cs h.2 sc)

end

/-- a form of an expanded module: a definition of an expression in normal form, or such an expression -/
inductive TopNF (V : Sym → Prop) : E → Prop where
  | df (xs : List Sym) (e : E) : NF V e → TopNF V (.define xs e)
  | xpr (e : E) : NF V e → TopNF V e

theorem head_plain (hV : NoKw V) {e : E} (h : NF V e) : headSym (syn (enc e)) ≠ some .defineValues := by
  cases hb : isBegin e with
  | false => exact headSym_ne fun s d h' => (nf_head hV h hb s d h').2.1
  | true =>
    cases e <;> simp [isBegin] at hb
    rw [enc]
    simp [syn, headSym]

theorem modIds_plain {e : E} (h : NF V e) (es : List E) : modIds (e :: es) = modIds es := by
  cases e <;> first | rfl | (rw [NF] at h; exact h.elim)

theorem moduleIds_eq (hV : NoKw V) : ∀ es : List E, (∀ e ∈ es, TopNF V e) → moduleIds (es.map fun e => syn (enc e)) = .ok (modIds es)
  | [], _ => rfl
  | e :: es, h => by
    have ih := moduleIds_eq hV es fun e he => h e (List.mem_cons_of_mem _ he)
    cases h e (by simp) with
    | df xs r hr =>
      have hh : headSym (syn (enc (.define xs r))) = some .defineValues := by rw [enc]; rfl
      have hd : stxCdr (syn (enc (.define xs r))) = .ok (.cons (syn (ids xs)) (syn.tl (ofList [enc r]))) := by rw [enc]; rfl
      have hi : stxElems (syn (ids xs)) = .ok ((xs.map X.sym).map syn) := by rw [ids]; exact stxElems_ofList _
      rw [List.map_cons, moduleIds, if_pos hh, hd]
      simp only [Res.ok_bind, stxCar_cons, hi, ih]
      rw [idSyms_ids]; rfl
    | xpr _ hn => rw [List.map_cons, moduleIds, if_neg (head_plain hV hn), ih, modIds_plain hn]

theorem checkForm_all (hV : NoKw V) {e : E} (h : TopNF V e) (sc : List Sym) : Chk (fun n => checkForm n sc) (enc e) (Closed false (· ∈ sc) e) := by
  cases h with
  | df xs r hr =>
    obtain ⟨b, ⟨n0, h1⟩, hb⟩ := chk_all hV r hr sc
    refine ⟨b, ⟨n0, fun n hn => ?_⟩, by rw [hb, Closed]⟩
    have hh : headSym (syn (enc (.define xs r))) = some .defineValues := by rw [enc]; rfl
    have hd : stxCdr (syn (enc (.define xs r))) = .ok (.cons (syn (ids xs)) (.cons (syn (enc r)) .null)) := by rw [enc]; rfl
    show checkForm n sc _ = _
    rw [checkForm, if_pos hh, hd]
    exact h1 n hn
  | xpr _ hn =>
    obtain ⟨b, ⟨n0, h1⟩, hb⟩ := chk_all hV e hn sc
    refine ⟨b, ⟨n0, fun n hn' => ?_⟩, hb⟩
    show checkForm n sc _ = _
    rw [checkForm, if_neg (head_plain hV hn)]
    exact h1 n hn'

theorem checkForms_all (hV : NoKw V) (sc : List Sym) : ∀ es : List E, (∀ e ∈ es, TopNF V e) → ChkL (fun n => checkForm n sc) (es.map enc) (ClosedL false (· ∈ sc) es)
  | [], _ => by rw [ClosedL]; exact .nil
  | e :: es, h => by
    rw [ClosedL]
    exact .cons (checkForm_all hV (h e (by simp)) sc) (checkForms_all hV sc es fun e he => h e (List.mem_cons_of_mem _ he))

theorem checkModule_all (hV : NoKw V) (sc : List Sym) (es : List E) (h : ∀ e ∈ es, TopNF V e) :
    ∃ b, Evt (fun n => checkModule n sc (es.map fun e => syn (enc e)) = .ok b) ∧ (b = true ↔ ClosedL false (fun x => x ∈ modIds es ∨ x ∈ sc) es) := by
  obtain ⟨b, ⟨n0, h1⟩, hb⟩ := checkForms_all hV (modIds es ++ sc) es h
  refine ⟨b, ⟨n0, fun n hn => ?_⟩, by rw [hb]; simp only [List.mem_append]⟩
  have h1 := h1 n hn
  simp only at h1 ⊢
  rw [checkModule, moduleIds_eq hV es h]
  rw [List.map_map] at h1
  exact h1

theorem xtops_nf {N : Sym → Prop} (hN : Names N) {ss : List S} (ho : OkTops N ss) (hd : (topIds ss).Nodup) {xs : Xforms} (hx : Sc N xs) : ∀ e ∈ xtops ss, TopNF (Vis N) e := by
  obtain ⟨out, st', _, _, _, _, h3⟩ := (loop_all (ex := fun _ => .err) hN _ ss (Nat.le_refl _) ho ⟨xs, [], []⟩ hx hd (by simp)).1
  have : ∀ {es : List E} {out : List T}, List.Forall₂ (Pre N) es out → ∀ e ∈ es, TopNF (Vis N) e := by
    intro es out h
    induction h with
    | nil => simp
    | cons h _ ih =>
      intro e he
      rcases List.mem_cons.1 he with rfl | he
      · cases h with
        | df is r ho hd => exact .df _ _ ((nf_xp N r ho).1 hd true)
        | xpr _ hn => exact .xpr _ hn
      · exact ih e he
  exact this h3

end Minim.Exp
