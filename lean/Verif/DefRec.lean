import Verif.Record

set_option autoImplicit false

/-!
# C101: `define-record-type`

Model of the macro (record.min:58-253): how clauses are read, which definitions they give, and what these do, on top of the model of the record procedures (Record.lean).

Simplifications: syntax objects are data; that templates are instantiated as written is C95 and C96.  A syntax error is `none`.  Expressions of the user (parent, uid, protocol, methods) are evaluated
by an arbitrary function `ev`.  Generic interfaces are known by the names of the variables; that an accessor finds what was registered is C100; whether procedures fit an interface is the parameter
`fits`.  The definitions run one after the other in a module, whose variables hide those of the library.
-/

namespace Minim.DRT

open Minim.Rec

/-- Syntax. -/
inductive Dat where
  | ident (s : String)
  | bool (b : Bool)
  | list (ds : List Dat)
  | other (n : Nat)

/-- A field in one of the long forms. -/
inductive Fld where
  | imm (f acc : String)
  | mtb (f acc m : String)
deriving DecidableEq, Repr

/-- The name of the field. -/
def Fld.name : Fld → String
  | .imm f _ => f
  | .mtb f _ _ => f

/-- The name of its accessor. -/
def Fld.acc : Fld → String
  | .imm _ a => a
  | .mtb _ a _ => a

/-- The name of its mutator. -/
def Fld.mutator : Fld → Option String
  | .imm _ _ => none
  | .mtb _ _ m => some m

/-- Field specifications (record.min:124-171): the long form of one. -/
def normField (sname : String) : Dat → Option Fld
  | .list (.ident k :: args) =>
    if k = "immutable" then
      match args with
      | [.ident f, .ident a] => some (.imm f a)
      | [.ident f] => some (.imm f (sname ++ "-" ++ f))
      | _ => none
    else if k = "mutable" then
      match args with
      | [.ident f, .ident a, .ident m] => some (.mtb f a m)
      | [.ident f] => some (.mtb f (sname ++ "-" ++ f) (sname ++ "-" ++ f ++ "-set!"))
      | _ => none
    else none
  | .ident f => some (.imm f (sname ++ "-" ++ f))
  | _ => none

/-- `map` over the specifications. -/
def normFields (sname : String) : List Dat → Option (List Fld)
  | [] => some []
  | d :: ds =>
    match normField sname d, normFields sname ds with
    | some f, some fs => some (f :: fs)
    | _, _ => none

/-- A clause. -/
inductive Clause where
  | parent (d : Dat)
  | uid (d : Dat)
  | opq (b : Bool)
  | sld (b : Bool)
  | protocol (d : Dat)
  | methods (g : String) (impls : List Dat)
  | fields (fs : List Fld)

/-- The patterns of clauses (record.min:76-172) with the checks of their parts. -/
def parse (sname : String) : Dat → Option Clause
  | .list (.ident k :: args) =>
    if k = "parent" then (match args with | [d] => some (.parent d) | _ => none)
    else if k = "uid" then (match args with | [d] => some (.uid d) | _ => none)
    else if k = "opaque" then (match args with | [.bool b] => some (.opq b) | _ => none)
    else if k = "sealed" then (match args with | [.bool b] => some (.sld b) | _ => none)
    else if k = "protocol" then (match args with | [d] => some (.protocol d) | _ => none)
    else if k = "methods" then (match args with | .ident g :: ds => some (.methods g ds) | _ => none)
    else if k = "fields" then (normFields sname args).map .fields
    else none
  | _ => none

/-- The variables of the macro (record.min:63-70). -/
structure Sp where
  seen : List String
  parent : Option Dat
  uid : Option Dat
  sld : Bool
  opq : Bool
  protocol : Option Dat
  fields : List Fld
  methods : List (String × List Dat)

/-- Their initial values. -/
def Sp.init : Sp := ⟨[], none, none, false, false, none, [], []⟩

/-- One clause (record.min:77-171); the table of methods is a list. -/
def clause (sp : Sp) : Clause → Option Sp
  | .parent d => if "parent" ∈ sp.seen then none else some { sp with seen := "parent" :: sp.seen, parent := some d }
  | .uid d => if "uid" ∈ sp.seen then none else some { sp with seen := "uid" :: sp.seen, uid := some d }
  | .opq b => if "opaque" ∈ sp.seen then none else some { sp with seen := "opaque" :: sp.seen, opq := b }
  | .sld b => if "sealed" ∈ sp.seen then none else some { sp with seen := "sealed" :: sp.seen, sld := b }
  | .protocol d => if "protocol" ∈ sp.seen then none else some { sp with seen := "protocol" :: sp.seen, protocol := some d }
  | .methods g ds => if g ∈ sp.methods.map (·.1) then none else some { sp with methods := sp.methods ++ [(g, ds)] }
  | .fields fs => if "fields" ∈ sp.seen then none else some { sp with seen := "fields" :: sp.seen, fields := fs }

/-- The loop over the clauses (record.min:73-173). -/
def clauseLoop (sname : String) : Sp → List Dat → Option Sp
  | sp, [] => some sp
  | sp, d :: ds =>
    match parse sname d with
    | none => none
    | some c =>
      match clause sp c with
      | none => none
      | some sp' => clauseLoop sname sp' ds

/-- The first operand (record.min:60, 243-250): names of type, constructor and predicate. -/
def header : Dat → Option (String × String × String)
  | .list [.ident n, .ident c, .ident p] => some (n, c, p)
  | .ident n => some (n, "make-" ++ n, n ++ "?")
  | _ => none

/-! ### execution -/

/-- The procedures of the library the definitions call. -/
inductive P where
  | isSealed | make | ctor | pred | acc | mutr
deriving DecidableEq

/-- Their names. -/
def P.name : P → String
  | .isSealed => "record-type-sealed?"
  | .make => "make-record-type-descriptor"
  | .ctor => "record-constructor"
  | .pred => "record-predicate"
  | .acc => "record-accessor"
  | .mutr => "record-mutator"

/-- What variables hold. -/
inductive V where
  | val (v : Val)
  | prim (p : P)

/-- Variables; `none` is unbound or not yet initialised. -/
abbrev Env := String → Option V

/-- Definition of a variable. -/
def Env.set (e : Env) (x : String) (v : Val) : Env := fun y => if y = x then some (.val v) else e y

section run

variable (sy : String → Nat) (ev : Env → Dat → Res Val) (papp : Val → Val → Res Val) (fits : String → List Val → Bool)

/-- The procedures; `record-type-sealed?` is prelude.min:1325-1341. -/
def prim (n : Nat) (s : Store) : P → List Val → Res (Store × Val)
  | .isSealed, [.rtd i] => match s.rtds[i]? with
    | some r => .ok (s, r.sealed)
    | none => .ub
  | .make, [a, b, c, d, e, f] => makeType s a b c d e f
  | .ctor, [t] => (pConstructor n s t).bind fun v => .ok (s, v)
  | .pred, [t] => (pPredicate t).bind fun v => .ok (s, v)
  | .acc, [t, i] => (pAccessor n s t i).bind fun v => .ok (s, v)
  | .mutr, [t, i] => (pMutator n s t i).bind fun v => .ok (s, v)
  | _, _ => .err

/-- Call of a procedure of the library by its name, whatever the variable holds. -/
def callG (n : Nat) (s : Store) (e : Env) (p : P) (args : List Val) : Res (Store × Val) :=
  match e p.name with
  | some (.prim q) => prim n s q args
  | some (.val v) => apply n s v args
  | none => .err

/-- A variable that holds a value. -/
def var (e : Env) (x : String) : Res Val :=
  match e x with
  | some (.val v) => .ok v
  | _ => .err

/-- An optional expression; `#f` if there is no clause. -/
def optE (e : Env) : Option Dat → Res Val
  | none => .ok .fls
  | some d => ev e d

/-- A boolean. -/
def ofB (b : Bool) : Val := if b then .tru else .fls

/-- The field specification for the descriptor (record.min:186-192). -/
def Fld.spec (f : Fld) : FSpec :=
  match f with
  | .imm f _ => .spec false (sy f)
  | .mtb f _ _ => .spec true (sy f)

/-- The definition of the type (record.min:212-220). -/
def defType (n : Nat) (name : String) (sp : Sp) (s : Store) (e : Env) : Res (Store × Env) :=
  (optE ev e sp.parent).bind fun p =>
  (if p = .fls then .ok .fls else (callG n s e .isSealed [p]).bind fun r => .ok r.2).bind fun b =>
  if b = .fls then
    (optE ev (e.set "p" p) sp.uid).bind fun u =>
    (callG n s e .make [.sym (sy name), p, u, ofB sp.sld, ofB sp.opq, .fvec (sp.fields.map (Fld.spec sy))]).bind fun r =>
    .ok (r.1, e.set name r.2)
  else .err

/-- The variables of the body in which methods are registered (record.min:222-226): when the expressions of the user are evaluated these are defined but not initialised. -/
def hidden : List String := ["methods", "gen-id", "fns"]

/-- The environment inside that body. -/
def inner (e : Env) : Env := fun x => if x ∈ hidden then none else e x

/-- Values of expressions, in order. -/
def evs (e : Env) : List Dat → Res (List Val)
  | [] => .ok []
  | d :: ds => (ev e d).bind fun v => (evs e ds).bind fun vs => .ok (v :: vs)

/-- Registration of methods (record.min:221-227): the registry of the new type. -/
def regs (e : Env) : List (String × List Dat) → Res (List (String × List Val))
  | [] => .ok []
  | (g, ds) :: l =>
    if g ∈ hidden then .err
    else (evs ev (inner e) ds).bind fun vs =>
      if vs.all isProc && fits g vs then (regs e l).bind fun r => .ok ((g, vs) :: r) else .err

/-- The methods of gen:equal+hash and gen:custom-write (record.min:228-235). -/
def install (s : Store) (t : Val) (r : List (String × List Val)) : Res Store :=
  (match r.lookup "gen:equal+hash" with
   | some [p, q] => (tableSet s.eqT t p).bind fun a => (tableSet s.hashT t q).bind fun b => .ok { s with eqT := a, hashT := b }
   | some _ => .err
   | none => .ok s).bind fun s =>
  match r.lookup "gen:custom-write" with
  | some [w] => (tableSet s.wrT t w).bind fun a => .ok { s with wrT := a }
  | some _ => .err
  | none => .ok s

/-- The methods of a type. -/
def defMethods (name : String) (sp : Sp) (s : Store) (e : Env) : Res Store :=
  (var e name).bind fun t => (regs ev fits e sp.methods).bind fun r => install s t r

/-- The definition of the constructor (record.min:236-239); `papp` applies the protocol. -/
def defCtor (n : Nat) (name construct : String) (sp : Sp) (s : Store) (e : Env) : Res (Store × Env) :=
  (var e name).bind fun t =>
  (callG n s e .ctor [t]).bind fun r =>
  (optE ev e sp.protocol).bind fun p =>
  if p = .fls then .ok (r.1, e.set construct r.2) else (papp p r.2).bind fun c => .ok (r.1, e.set construct c)

/-- The definition of the predicate (record.min:240). -/
def defPred (n : Nat) (name predicate : String) (s : Store) (e : Env) : Res (Store × Env) :=
  (var e name).bind fun t => (callG n s e .pred [t]).bind fun r => .ok (r.1, e.set predicate r.2)

/-- `enumerate` (prelude.min:1088-1099). -/
def enumerate {α : Type} : List α → Nat → List (α × Nat)
  | [], _ => []
  | x :: xs, i => (x, i) :: enumerate xs (i + 1)

/-- Definitions of accessors or mutators (record.min:193-210, 241-242): name and index. -/
def defAll (p : P) (n : Nat) (name : String) : List (String × Nat) → Store → Env → Res (Store × Env)
  | [], s, e => .ok (s, e)
  | (x, i) :: l, s, e => (var e name).bind fun t => (callG n s e p [t, .num (BitVec.ofNat 64 i)]).bind fun r => defAll p n name l r.1 (e.set x r.2)

/-- Accessors with their index. -/
def accs (fs : List Fld) : List (String × Nat) := (enumerate fs 0).map fun x => (x.1.acc, x.2)

/-- Mutators with their index: `#f` is filtered out. -/
def muts (fs : List Fld) : List (String × Nat) := (enumerate fs 0).filterMap fun x => x.1.mutator.map fun m => (m, x.2)

/-- All definitions. -/
def runDefs (n : Nat) (name construct predicate : String) (sp : Sp) (s : Store) (e : Env) : Res (Store × Env) :=
  (defType sy ev n name sp s e).bind fun r =>
  (defMethods ev fits name sp r.1 r.2).bind fun s =>
  (defCtor ev papp n name construct sp s r.2).bind fun r =>
  (defPred n name predicate r.1 r.2).bind fun r =>
  (defAll .acc n name (accs sp.fields) r.1 r.2).bind fun r =>
  defAll .mutr n name (muts sp.fields) r.1 r.2

end run

/-! ### clauses -/

/-- The kind of a clause that may occur only once. -/
def Clause.kind : Clause → Option String
  | .parent _ => some "parent"
  | .uid _ => some "uid"
  | .opq _ => some "opaque"
  | .sld _ => some "sealed"
  | .protocol _ => some "protocol"
  | .methods _ _ => none
  | .fields _ => some "fields"

/-- The interface of a clause of methods. -/
def Clause.gen : Clause → Option String
  | .methods g _ => some g
  | _ => none

/-- The clauses given. -/
def parseAll (sname : String) : List Dat → Option (List Clause)
  | [] => some []
  | d :: ds =>
    match parse sname d, parseAll sname ds with
    | some c, some cs => some (c :: cs)
    | _, _ => none

/-- The loop on parsed clauses. -/
def loopC : Sp → List Clause → Option Sp
  | sp, [] => some sp
  | sp, c :: cs =>
    match clause sp c with
    | none => none
    | some sp' => loopC sp' cs

theorem clauseLoop_iff (sname : String) : ∀ (ds : List Dat) (sp r : Sp), clauseLoop sname sp ds = some r ↔ ∃ cs, parseAll sname ds = some cs ∧ loopC sp cs = some r
  | [], sp, r => by simp [clauseLoop, parseAll, loopC]
  | d :: ds, sp, r => by
    simp only [clauseLoop, parseAll]
    cases hp : parse sname d with
    | none => simp
    | some c =>
      cases hc : clause sp c with
      | none =>
        simp only [hc, reduceCtorEq, false_iff]
        rintro ⟨cs, h1, h2⟩
        cases hq : parseAll sname ds with
        | none => simp [hq] at h1
        | some cs' =>
          simp only [hq, Option.some.injEq] at h1
          subst h1
          simp [loopC, hc] at h2
      | some sp' =>
        simp only [hc, clauseLoop_iff sname ds sp' r]
        constructor
        · rintro ⟨cs, h1, h2⟩
          exact ⟨c :: cs, by simp [h1], by simp [loopC, hc, h2]⟩
        · rintro ⟨cs, h1, h2⟩
          cases hq : parseAll sname ds with
          | none => simp [hq] at h1
          | some cs' =>
            simp only [hq, Option.some.injEq] at h1
            subst h1
            exact ⟨cs', rfl, by simpa [loopC, hc] using h2⟩

/-- What the variables say about a clause. -/
def Sp.has (sp : Sp) : Clause → Prop
  | .parent d => sp.parent = some d
  | .uid d => sp.uid = some d
  | .opq b => sp.opq = b
  | .sld b => sp.sld = b
  | .protocol d => sp.protocol = some d
  | .methods g ds => (g, ds) ∈ sp.methods
  | .fields fs => sp.fields = fs

/-- When a clause is accepted. -/
def Fresh (sp : Sp) (c : Clause) : Prop := (∀ k, c.kind = some k → k ∉ sp.seen) ∧ ∀ g, c.gen = some g → g ∉ sp.methods.map (·.1)

theorem clause_some (sp : Sp) (c : Clause) : (∃ sp', clause sp c = some sp') ↔ Fresh sp c := by
  cases c <;> simp only [clause, Fresh, Clause.kind, Clause.gen, Option.some.injEq, reduceCtorEq, forall_eq', false_implies, implies_true, and_true, true_and] <;>
  · constructor
    · rintro ⟨x, h⟩ hm
      rw [if_pos hm] at h
      cases h
    · intro hm
      exact ⟨_, if_neg hm⟩

theorem clause_seen {sp sp' : Sp} {c : Clause} (h : clause sp c = some sp') : (∀ k, k ∈ sp'.seen ↔ k ∈ sp.seen ∨ c.kind = some k) ∧
    ∀ g, g ∈ sp'.methods.map (·.1) ↔ g ∈ sp.methods.map (·.1) ∨ c.gen = some g := by
  cases c <;> simp only [clause] at h <;> split at h <;> cases h <;> constructor <;> intro k <;>
    simp [Clause.kind, Clause.gen, or_comm, eq_comm, List.mem_cons] <;> try (rw [or_comm])

theorem clause_has {sp sp' : Sp} {c : Clause} (h : clause sp c = some sp') (c' : Clause) :
    sp'.has c' ↔ c' = c ∨ ((c'.kind = none ∨ c'.kind ≠ c.kind) ∧ sp.has c') := by
  cases c <;> simp only [clause] at h <;> split at h <;> cases h <;> cases c' <;>
    simp [Sp.has, Clause.kind, eq_comm, or_comm]

/-- Kinds of the clauses. -/
def kinds (cs : List Clause) : List String := cs.filterMap Clause.kind

/-- Interfaces of the clauses. -/
def gens (cs : List Clause) : List String := cs.filterMap Clause.gen

theorem loopC_some : ∀ (cs : List Clause) (sp : Sp), (∃ r, loopC sp cs = some r) ↔
    (kinds cs).Nodup ∧ (gens cs).Nodup ∧ (∀ k ∈ kinds cs, k ∉ sp.seen) ∧ ∀ g ∈ gens cs, g ∉ sp.methods.map (·.1)
  | [], sp => by simp [loopC, kinds, gens]
  | c :: cs, sp => by
    have hk : kinds (c :: cs) = (match c.kind with | some k => [k] | none => []) ++ kinds cs := by
      simp only [kinds, List.filterMap_cons]; cases c.kind <;> rfl
    have hg : gens (c :: cs) = (match c.gen with | some k => [k] | none => []) ++ gens cs := by
      simp only [gens, List.filterMap_cons]; cases c.gen <;> rfl
    rw [hk, hg]
    simp only [loopC]
    cases hc : clause sp c with
    | none =>
      have : ¬ Fresh sp c := fun h => by
        obtain ⟨x, hx⟩ := (clause_some sp c).2 h
        rw [hc] at hx; cases hx
      simp only [reduceCtorEq, exists_false, false_iff]
      rintro ⟨_, _, h1, h2⟩
      refine this ⟨fun k h => h1 k (by rw [h]; simp), fun g h => h2 g (by rw [h]; simp)⟩
    | some sp' =>
      have hf : Fresh sp c := (clause_some sp c).1 ⟨sp', hc⟩
      obtain ⟨s1, s2⟩ := clause_seen hc
      simp only [loopC_some cs sp']
      constructor
      · rintro ⟨h1, h2, h3, h4⟩
        refine ⟨?_, ?_, ?_, ?_⟩
        · cases hck : c.kind with
          | none => simpa using h1
          | some k =>
            simp only [List.singleton_append, List.nodup_cons]
            exact ⟨fun hm => h3 k hm ((s1 k).2 (.inr hck)), h1⟩
        · cases hck : c.gen with
          | none => simpa using h2
          | some k =>
            simp only [List.singleton_append, List.nodup_cons]
            exact ⟨fun hm => h4 k hm ((s2 k).2 (.inr hck)), h2⟩
        · intro k hm
          rcases List.mem_append.1 hm with hm | hm
          · cases hck : c.kind with
            | none => simp [hck] at hm
            | some k' =>
              simp only [hck, List.mem_singleton] at hm
              subst hm
              exact hf.1 k hck
          · exact fun h => h3 k hm ((s1 k).2 (.inl h))
        · intro k hm
          rcases List.mem_append.1 hm with hm | hm
          · cases hck : c.gen with
            | none => simp [hck] at hm
            | some k' =>
              simp only [hck, List.mem_singleton] at hm
              subst hm
              exact hf.2 k hck
          · exact fun h => h4 k hm ((s2 k).2 (.inl h))
      · rintro ⟨h1, h2, h3, h4⟩
        refine ⟨(List.nodup_append.1 h1).2.1, (List.nodup_append.1 h2).2.1, ?_, ?_⟩
        · intro k hm hs
          rcases (s1 k).1 hs with hs | hs
          · exact h3 k (List.mem_append_right _ hm) hs
          · rw [hs] at h1
            simp only [List.singleton_append, List.nodup_cons] at h1
            exact h1.1 hm
        · intro k hm hs
          rcases (s2 k).1 hs with hs | hs
          · exact h4 k (List.mem_append_right _ hm) hs
          · rw [hs] at h2
            simp only [List.singleton_append, List.nodup_cons] at h2
            exact h2.1 hm

theorem loopC_has : ∀ (cs : List Clause) (sp r : Sp), loopC sp cs = some r → ∀ c, r.has c ↔ c ∈ cs ∨ ((∀ k, c.kind = some k → k ∉ kinds cs) ∧ sp.has c)
  | [], sp, r, h, c => by
    simp only [loopC, Option.some.injEq] at h
    subst h
    simp [kinds]
  | d :: cs, sp, r, h, c => by
    have hok := (loopC_some (d :: cs) sp).1 ⟨r, h⟩
    simp only [loopC] at h
    cases hc : clause sp d with
    | none => simp [hc] at h
    | some sp' =>
      simp only [hc] at h
      rw [loopC_has cs sp' r h c, clause_has hc c]
      have hkd : ∀ k, d.kind = some k → k ∉ kinds cs := by
        intro k hk hm
        have := hok.1
        simp only [kinds, List.filterMap_cons, hk, List.nodup_cons] at this
        exact this.1 hm
      have hmem : ∀ k, k ∈ kinds (d :: cs) ↔ d.kind = some k ∨ k ∈ kinds cs := by
        intro k
        simp only [kinds, List.filterMap_cons]
        cases d.kind <;> simp [eq_comm]
      constructor
      · rintro (h1 | ⟨h1, rfl | ⟨h2, h3⟩⟩)
        · exact .inl (List.mem_cons_of_mem _ h1)
        · exact .inl (List.mem_cons_self ..)
        · refine .inr ⟨?_, h3⟩
          intro k hk hm
          rcases (hmem k).1 hm with hm | hm
          · rcases h2 with h2 | h2
            · rw [hk] at h2; cases h2
            · exact h2 (hk.trans hm.symm)
          · exact h1 k hk hm
      · rintro (h1 | ⟨h1, h2⟩)
        · rcases List.mem_cons.1 h1 with rfl | h1
          · exact .inr ⟨hkd, .inl rfl⟩
          · exact .inl h1
        · refine .inr ⟨fun k hk hm => h1 k hk ((hmem k).2 (.inr hm)), .inr ⟨?_, h2⟩⟩
          cases hk : c.kind with
          | none => exact .inl rfl
          | some k => exact .inr fun he => h1 k hk ((hmem k).2 (.inl he.symm))

/-- **C101 (clauses)**: the macro accepts exactly well-formed clauses, at most one of each kind and at most one of methods for each interface; the type is then described by exactly the values in the
clauses, in whatever order they are, and defaults for the others. -/
theorem C101_clauses (sname : String) (ds : List Dat) : ((∃ sp, clauseLoop sname .init ds = some sp) ↔ ∃ cs, parseAll sname ds = some cs ∧ (kinds cs).Nodup ∧ (gens cs).Nodup) ∧
    ∀ sp cs, clauseLoop sname .init ds = some sp → parseAll sname ds = some cs → ∀ c, sp.has c ↔ c ∈ cs ∨ ((∀ k, c.kind = some k → k ∉ kinds cs) ∧ Sp.init.has c) := by
  constructor
  · constructor
    · rintro ⟨sp, h⟩
      obtain ⟨cs, h1, h2⟩ := (clauseLoop_iff sname ds _ _).1 h
      obtain ⟨h3, h4, _⟩ := (loopC_some cs _).1 ⟨sp, h2⟩
      exact ⟨cs, h1, h3, h4⟩
    · rintro ⟨cs, h1, h2, h3⟩
      obtain ⟨r, hr⟩ := (loopC_some cs .init).2 ⟨h2, h3, by simp [Sp.init], by simp [Sp.init]⟩
      exact ⟨r, (clauseLoop_iff sname ds _ _).2 ⟨cs, h1, hr⟩⟩
  · intro sp cs h hp c
    obtain ⟨cs', h1, h2⟩ := (clauseLoop_iff sname ds _ _).1 h
    rw [hp] at h1
    cases h1
    exact loopC_has cs _ sp h2 c

/-- **C101 (short forms of fields)**: they mean what the comment in front of the macro says (record.min:38-54). -/
theorem C101_short (n f : String) :
    normField n (.list [.ident "immutable", .ident f]) = normField n (.list [.ident "immutable", .ident f, .ident (n ++ "-" ++ f)]) ∧
    normField n (.list [.ident "mutable", .ident f]) = normField n (.list [.ident "mutable", .ident f, .ident (n ++ "-" ++ f), .ident (n ++ "-" ++ f ++ "-set!")]) ∧
    normField n (.ident f) = normField n (.list [.ident "immutable", .ident f]) ∧
    (∀ a, normField n (.list [.ident "immutable", .ident f, .ident a]) = some (.imm f a)) ∧ ∀ a m, normField n (.list [.ident "mutable", .ident f, .ident a, .ident m]) = some (.mtb f a m) := by
  refine ⟨?_, ?_, ?_, ?_, ?_⟩ <;> simp [normField]

/-- **C101 (names)**: the first operand is three names or one, which stands for the names n, make-n and n?. -/
theorem C101_header (n : String) : (∀ c p, header (.list [.ident n, .ident c, .ident p]) = some (n, c, p)) ∧ header (.ident n) = header (.list [.ident n, .ident ("make-" ++ n), .ident (n ++ "?")]) :=
  ⟨fun _ _ => rfl, rfl⟩

/-! ### execution -/

theorem okB {α β : Type} (a : α) (f : α → Res β) : (Res.ok a).bind f = f a := rfl

theorem recordSize_mono {s s' : Store} (hs : ∀ (i : Nat) (r : Rtd), s.rtds[i]? = some r → s'.rtds[i]? = some r) : ∀ (n m : Nat) (v : Val) (z k : Nat), recordSize s n v z = .ok k → n ≤ m →
    recordSize s' m v z = .ok k
  | 0, _, _, _, _, h, _ => by simp [recordSize] at h
  | n + 1, 0, _, _, _, _, h => by omega
  | n + 1, m + 1, v, z, k, h, hm => by
    simp only [recordSize] at h ⊢
    cases v with
    | rtd i =>
      simp only [rtdOf] at h ⊢
      cases hi : s.rtds[i]? with
      | none => simp [hi, bind, Res.bind] at h
      | some r =>
        rw [hs i r hi]
        simp only [hi, bind, Res.bind] at h ⊢
        split
        · rename_i hp
          rwa [if_pos hp] at h
        · rename_i hp
          rw [if_neg hp] at h
          exact recordSize_mono hs n m _ _ _ h (by omega)
    | _ => simp [rtdOf, bind, Res.bind] at h

theorem recordSize_add {s : Store} (d : Nat) : ∀ (n : Nat) (v : Val) (z k : Nat), recordSize s n v z = .ok k → recordSize s n v (d + z) = .ok (d + k)
  | 0, _, _, _, h => by simp [recordSize] at h
  | n + 1, v, z, k, h => by
    simp only [recordSize] at h ⊢
    cases v with
    | rtd i =>
      simp only [rtdOf] at h ⊢
      cases hi : s.rtds[i]? with
      | none => simp [hi, bind, Res.bind] at h
      | some r =>
        simp only [hi, bind, Res.bind] at h ⊢
        split
        · rename_i hp
          rw [if_pos hp] at h
          simp only [Res.ok.injEq] at h ⊢
          omega
        · rename_i hp
          rw [if_neg hp] at h
          have := recordSize_add d n _ _ _ h
          rwa [Nat.add_assoc] 
    | _ => simp [rtdOf, bind, Res.bind] at h

/-- A parent that can be extended, with the number of its fields: none, or a type that is not sealed and has no writer. -/
inductive Parent (s : Store) (n : Nat) : Val → Nat → Prop where
  | none : Parent s n .fls 0
  | some {p : Nat} {r : Rtd} {off : Nat} : s.rtds[p]? = some r → r.sealed = .fls → recordSize s n (.rtd p) 0 = .ok off → s.wrT.lookup p = none → Parent s n (.rtd p) off

/-- The tables hold procedures only (they are filled by `tableSet`). -/
def Tabs (s : Store) : Prop := (∀ i v, s.eqT.lookup i = some v → isProc v = true) ∧ ∀ i v, s.hashT.lookup i = some v → isProc v = true

theorem inherit_ok {t : List (Nat × Val)} (ht : ∀ i v, t.lookup i = some v → isProc v = true) (i p : Nat) : ∃ t', inherit t (.rtd i) ((t.lookup p).getD .fls) = .ok t' := by
  unfold inherit
  cases h : t.lookup p with
  | none => exact ⟨t, by simp⟩
  | some v =>
    have hv := ht p v h
    refine ⟨(i, v) :: t, ?_⟩
    have hne : v ≠ .fls := by rintro rfl; simp [isProc] at hv
    simp [hne, tableSet, hv]

theorem makeType_ok {s : Store} {n : Nat} {p : Val} {off : Nat} (hp : Parent s n p off) (ht : Tabs s) (a u b c : Val) (fs : List FSpec) :
    ∃ s', makeType s a p u b c (.fvec fs) = .ok (s', .rtd s.rtds.length) ∧ s'.rtds = s.rtds ++ [⟨a, p, u, b, c, fs⟩] ∧ s'.rcds = s.rcds ∧ s'.wrT = s.wrT := by
  cases hp with
  | none => exact ⟨{ s with rtds := s.rtds ++ [⟨a, .fls, u, b, c, fs⟩] }, by simp [makeType, makeRtd, bind, Res.bind], rfl, rfl, rfl⟩
  | @some p r off h1 h2 h3 h4 =>
    obtain ⟨e', he⟩ := inherit_ok ht.1 s.rtds.length p
    obtain ⟨h', hh⟩ := inherit_ok ht.2 s.rtds.length p
    exact ⟨{ s with rtds := s.rtds ++ [⟨a, .rtd p, u, b, c, fs⟩], eqT := e', hashT := h' }, by simp [makeType, makeRtd, bind, Res.bind, tableRef, h4, he, hh], rfl, rfl, rfl⟩

section run

variable (sy : String → Nat) (ev : Env → Dat → Res Val) (papp : Val → Val → Res Val) (fits : String → List Val → Bool)

/-- The library procedures have their meaning. -/
def Lib (e : Env) : Prop := ∀ p : P, e p.name = some (.prim p)

/-- Names that hide none of them. -/
def Free (x : String) : Prop := ∀ p : P, x ≠ p.name

theorem Lib.set {e : Env} (h : Lib e) {x : String} (hx : Free x) (v : Val) : Lib (e.set x v) := fun p => by
  unfold Env.set
  rw [if_neg (Ne.symm (hx p))]
  exact h p

theorem set_self (e : Env) (x : String) (v : Val) : (e.set x v) x = some (.val v) := by simp [Env.set]

theorem set_ne (e : Env) {x y : String} (v : Val) (h : y ≠ x) : (e.set x v) y = e y := by simp [Env.set, h]

theorem var_eq {e : Env} {x : String} {v : Val} (h : e x = some (.val v)) : var e x = .ok v := by simp [var, h]

theorem defAll_ok {n : Nat} {s : Store} {name : String} {t : Nat} {q : P} {mk : Nat → Val} (k : Nat)
    (hq : ∀ i, i < k → prim n s q [.rtd t, .num (BitVec.ofNat 64 i)] = .ok (s, mk i)) : ∀ (l : List (String × Nat)) (e : Env), Lib e → e name = some (.val (.rtd t)) →
    (∀ x ∈ l, x.2 < k ∧ Free x.1 ∧ x.1 ≠ name) → (l.map (·.1)).Nodup →
    ∃ e', defAll q n name l s e = .ok (s, e') ∧ Lib e' ∧ (∀ x ∈ l, e' x.1 = some (.val (mk x.2))) ∧ ∀ y, y ∉ l.map (·.1) → e' y = e y
  | [], e, hL, _, _, _ => ⟨e, rfl, hL, by simp, fun _ _ => rfl⟩
  | (x, i) :: l, e, hL, hn, hl, hd => by
    obtain ⟨h1, h2, h3⟩ := hl (x, i) (by simp)
    simp only [List.map_cons, List.nodup_cons] at hd
    obtain ⟨e', r1, rL, r2, r3⟩ := defAll_ok k hq l (e.set x (mk i)) (hL.set h2 _) (by rw [set_ne _ _ (Ne.symm h3)]; exact hn) (fun y hy => hl y (by simp [hy])) hd.2
    refine ⟨e', ?_, rL, ?_, ?_⟩
    · simp only [defAll, var_eq hn, callG, hL q, hq i h1, Res.bind, r1]
    · intro y hy
      rcases List.mem_cons.1 hy with rfl | hy
      · rw [r3 x hd.1, set_self]
      · exact r2 y hy
    · intro y hy
      simp only [List.map_cons, List.mem_cons, not_or] at hy
      rw [r3 y hy.2, set_ne _ _ hy.1]

theorem mem_enumerate {α : Type} : ∀ (l : List α) (j : Nat) (x : α) (i : Nat), (x, i) ∈ enumerate l j ↔ ∃ k, i = j + k ∧ l[k]? = some x
  | [], j, x, i => by simp [enumerate]
  | y :: l, j, x, i => by
    simp only [enumerate, List.mem_cons, Prod.mk.injEq, mem_enumerate l]
    constructor
    · rintro (⟨rfl, rfl⟩ | ⟨k, rfl, h⟩)
      · exact ⟨0, rfl, rfl⟩
      · exact ⟨k + 1, by omega, by simpa using h⟩
    · rintro ⟨k, rfl, h⟩
      cases k with
      | zero => simp at h; exact .inl ⟨h.symm, rfl⟩
      | succ k => exact .inr ⟨k, by omega, by simpa using h⟩

theorem install_ok (s : Store) (t : Nat) (r : List (String × List Val)) (h1 : ∀ vs, r.lookup "gen:equal+hash" = some vs → vs.length = 2 ∧ vs.all isProc = true)
    (h2 : ∀ vs, r.lookup "gen:custom-write" = some vs → vs.length = 1 ∧ vs.all isProc = true) :
    ∃ s', install s (.rtd t) r = .ok s' ∧ s'.rtds = s.rtds ∧ s'.rcds = s.rcds ∧
      (∀ p q, r.lookup "gen:equal+hash" = some [p, q] → s'.eqT.lookup t = some p ∧ s'.hashT.lookup t = some q) ∧
      ∀ w, r.lookup "gen:custom-write" = some [w] → s'.wrT.lookup t = some w := by
  unfold install
  cases he : r.lookup "gen:equal+hash" with
  | none =>
    cases hw : r.lookup "gen:custom-write" with
    | none => exact ⟨s, rfl, rfl, rfl, by simp, by simp⟩
    | some vs =>
      obtain ⟨l1, l2⟩ := h2 vs hw
      match vs, l1 with
      | [w], _ =>
        simp only [List.all_cons, List.all_nil, Bool.and_true] at l2
        exact ⟨{ s with wrT := (t, w) :: s.wrT }, by simp [Res.bind, tableSet, l2], rfl, rfl, by simp, by simp⟩
  | some vs =>
    obtain ⟨l1, l2⟩ := h1 vs he
    match vs, l1 with
    | [p, q], _ =>
      simp only [List.all_cons, List.all_nil, Bool.and_true, Bool.and_eq_true] at l2
      cases hw : r.lookup "gen:custom-write" with
      | none => exact ⟨{ s with eqT := (t, p) :: s.eqT, hashT := (t, q) :: s.hashT }, by simp [Res.bind, tableSet, l2], rfl, rfl, by simp, by simp⟩
      | some ws =>
        obtain ⟨k1, k2⟩ := h2 ws hw
        match ws, k1 with
        | [w], _ =>
          simp only [List.all_cons, List.all_nil, Bool.and_true] at k2
          exact ⟨{ s with eqT := (t, p) :: s.eqT, hashT := (t, q) :: s.hashT, wrT := (t, w) :: s.wrT }, by simp [Res.bind, tableSet, l2, k2], rfl, rfl, by simp, by simp⟩

theorem regs_all {e : Env} : ∀ {ms : List (String × List Dat)} {r : List (String × List Val)}, regs ev fits e ms = .ok r → ∀ g vs, r.lookup g = some vs → vs.all isProc = true ∧ fits g vs = true
  | [], r, h, g, vs, hl => by simp [regs] at h; subst h; simp at hl
  | (g', ds) :: ms, r, h, g, vs, hl => by
    simp only [regs] at h
    split at h
    · cases h
    · cases hv : evs ev (inner e) ds with
      | ok ws =>
        simp only [hv, Res.bind] at h
        split at h
        · rename_i hf
          cases hr : regs ev fits e ms with
          | ok r' =>
            simp only [hr, Res.ok.injEq] at h
            subst h
            simp only [List.lookup_cons] at hl
            split at hl
            · rename_i hg
              simp only [Option.some.injEq] at hl
              subst hl
              have := beq_iff_eq.1 hg
              subst this
              simpa using hf
            · exact regs_all hr g vs hl
          | _ => simp [hr] at h
        · cases h
      | _ => simp [hv, Res.bind] at h

/-- **C101 (definitions)**: for a type with any parent that can be extended, any fields and methods that fit their interfaces, and names that are all different and hide no procedure of the library,
the definitions succeed: a new type with the given properties is bound to the name, its constructor, its predicate, for every field an accessor for its position behind the fields of the parent, and
for every mutable field such a mutator; other variables keep their values; methods of gen:equal+hash and gen:custom-write are installed.
Missing: a protocol, parents with a writer (see `C101_negated_writer`), names that hide procedures of the library (`C101_negated_shadow`). -/
theorem C101_define_partial (n : Nat) (name construct predicate : String) (sp : Sp) (s : Store) (e : Env) (pv uv : Val) (off : Nat) (r : List (String × List Val))
    (hL : Lib e) (hT : Tabs s) (hpe : optE ev e sp.parent = .ok pv) (hP : Parent s n pv off) (hu : optE ev (e.set "p" pv) sp.uid = .ok uv) (hpr : sp.protocol = none)
    (hr : regs ev fits (e.set name (.rtd s.rtds.length)) sp.methods = .ok r)
    (hfits : ∀ g vs, fits g vs = true → (g = "gen:equal+hash" → vs.length = 2) ∧ (g = "gen:custom-write" → vs.length = 1))
    (hk : sp.fields.length < 2 ^ 63)
    (hnd : (name :: construct :: predicate :: ((accs sp.fields).map (·.1) ++ (muts sp.fields).map (·.1))).Nodup)
    (hfree : ∀ x ∈ name :: construct :: predicate :: ((accs sp.fields).map (·.1) ++ (muts sp.fields).map (·.1)), Free x) :
    ∃ s' e', runDefs sy ev papp fits (n + 1) name construct predicate sp s e = .ok (s', e') ∧
      s'.rtds = s.rtds ++ [⟨.sym (sy name), pv, uv, ofB sp.sld, ofB sp.opq, sp.fields.map (Fld.spec sy)⟩] ∧ s'.rcds = s.rcds ∧
      e' name = some (.val (.rtd s.rtds.length)) ∧
      e' construct = some (.val (.ctor s.rtds.length (sp.fields.length + off))) ∧
      e' predicate = some (.val (.pred s.rtds.length)) ∧
      (∀ i f, sp.fields[i]? = some f → e' f.acc = some (.val (.acc s.rtds.length (i + off))) ∧ ∀ m, f.mutator = some m → e' m = some (.val (.mutr s.rtds.length (i + off)))) ∧
      (∀ y, y ∉ name :: construct :: predicate :: ((accs sp.fields).map (·.1) ++ (muts sp.fields).map (·.1)) → e' y = e y) ∧
      (∀ p q, r.lookup "gen:equal+hash" = some [p, q] → s'.eqT.lookup s.rtds.length = some p ∧ s'.hashT.lookup s.rtds.length = some q) ∧
      ∀ w, r.lookup "gen:custom-write" = some [w] → s'.wrT.lookup s.rtds.length = some w := by
  obtain ⟨s1, m1, m2, m3, m4⟩ := makeType_ok hP hT (.sym (sy name)) uv (ofB sp.sld) (ofB sp.opq) (sp.fields.map (Fld.spec sy))
  obtain ⟨s2, i1, i2, i3, i4, i5⟩ := install_ok s1 s.rtds.length r
    (fun vs h => ⟨(hfits _ _ (regs_all ev fits hr _ _ h).2).1 rfl, (regs_all ev fits hr _ _ h).1⟩) (fun vs h => ⟨(hfits _ _ (regs_all ev fits hr _ _ h).2).2 rfl, (regs_all ev fits hr _ _ h).1⟩)
  have hrt : s2.rtds[s.rtds.length]? = some ⟨.sym (sy name), pv, uv, ofB sp.sld, ofB sp.opq, sp.fields.map (Fld.spec sy)⟩ := by rw [i2, m2]; simp
  have hext : ∀ (i : Nat) (x : Rtd), s.rtds[i]? = some x → s2.rtds[i]? = some x := by
    intro i x hx
    rw [i2, m2, List.getElem?_append_left (List.getElem?_eq_some_iff.1 hx).1]
    exact hx
  simp only [List.nodup_cons, List.mem_cons, List.mem_append, not_or] at hnd
  obtain ⟨⟨d1, d2, d3, d4⟩, ⟨d5, d6, d7⟩, ⟨d8, d9⟩, d10⟩ := hnd
  obtain ⟨da, dm, dam⟩ := List.nodup_append.1 d10
  have fn := hfree name (by simp)
  have fc := hfree construct (by simp)
  have fp := hfree predicate (by simp)
  have hmax : (0#64).sle (BitVec.ofNat 64 0) = true := by decide
  have hidx : ∀ i, i < sp.fields.length → (0#64).sle (BitVec.ofNat 64 i) = true ∧ (BitVec.ofNat 64 i).toNat = i := by
    intro i hi
    have h1 : (BitVec.ofNat 64 i).toNat = i := by simp; omega
    refine ⟨?_, h1⟩
    rw [BitVec.sle_eq_decide, decide_eq_true_eq, BitVec.toInt_eq_toNat_cond, BitVec.toInt_eq_toNat_cond, h1]
    simp
    omega
  have hsize : recordSize s2 (n + 1) (.rtd s.rtds.length) 0 = .ok (sp.fields.length + off) := by
    simp only [recordSize, rtdOf, hrt, bind, Res.bind, List.length_map, Nat.zero_add]
    cases hP with
    | none => simp
    | @some p r0 off h1 h2 h3 h4 =>
      rw [if_neg (by simp)]
      have := recordSize_add (sp.fields.length) n _ 0 off (recordSize_mono hext n n _ _ _ h3 (Nat.le_refl n))
      simpa using this
  have hpos : ∀ i, i < sp.fields.length → fieldPos (n + 1) s2 (.rtd s.rtds.length) (.num (BitVec.ofNat 64 i)) = .ok (s.rtds.length, i + off) := by
    intro i hi
    obtain ⟨h1, h2⟩ := hidx i hi
    simp only [fieldPos, h1, if_true, rtdOf, hrt, bind, Res.bind, List.length_map, h2, hi]
    cases hP with
    | none => simp
    | @some p r0 off k1 k2 k3 k4 =>
      rw [if_neg (by simp)]
      rw [recordSize_mono hext n (n + 1) _ _ _ k3 (by omega)]
  have hacc : ∀ i, i < sp.fields.length → prim (n + 1) s2 .acc [.rtd s.rtds.length, .num (BitVec.ofNat 64 i)] = .ok (s2, .acc s.rtds.length (i + off)) := fun i hi => by
    simp [prim, pAccessor, hpos i hi, bind, Res.bind]
  have hmut : ∀ i, i < sp.fields.length → prim (n + 1) s2 .mutr [.rtd s.rtds.length, .num (BitVec.ofNat 64 i)] = .ok (s2, .mutr s.rtds.length (i + off)) := fun i hi => by
    simp [prim, pMutator, hpos i hi, bind, Res.bind]
  have hmemA : ∀ x ∈ accs sp.fields, x.2 < sp.fields.length := by
    rintro ⟨x, i⟩ hx
    obtain ⟨⟨f, j⟩, h1, h2⟩ := List.mem_map.1 hx
    obtain ⟨k, h3, h4⟩ := (mem_enumerate _ _ _ _).1 h1
    simp only [Prod.mk.injEq] at h2
    have := (List.getElem?_eq_some_iff.1 h4).1
    omega
  have hmemM : ∀ x ∈ muts sp.fields, x.2 < sp.fields.length := by
    rintro ⟨x, i⟩ hx
    obtain ⟨⟨f, j⟩, h1, h2⟩ := List.mem_filterMap.1 hx
    obtain ⟨k, h3, h4⟩ := (mem_enumerate _ _ _ _).1 h1
    simp only [Option.map_eq_some_iff, Prod.mk.injEq] at h2
    obtain ⟨_, _, _, h2⟩ := h2
    have := (List.getElem?_eq_some_iff.1 h4).1
    omega
  -- the environments
  have hL1 : Lib (e.set name (.rtd s.rtds.length)) := hL.set fn _
  have hL2 : Lib ((e.set name (.rtd s.rtds.length)).set construct (.ctor s.rtds.length (sp.fields.length + off))) := hL1.set fc _
  have hL3 : Lib (((e.set name (.rtd s.rtds.length)).set construct (.ctor s.rtds.length (sp.fields.length + off))).set predicate (.pred s.rtds.length)) := hL2.set fp _
  have hn3 : (((e.set name (.rtd s.rtds.length)).set construct (.ctor s.rtds.length (sp.fields.length + off))).set predicate (.pred s.rtds.length)) name = some (.val (.rtd s.rtds.length)) := by
    rw [set_ne _ _ d2, set_ne _ _ d1, set_self]
  obtain ⟨e4, a1, aL, a2, a3⟩ := defAll_ok sp.fields.length hacc (accs sp.fields) _ hL3 hn3
    (fun x hx => ⟨hmemA x hx, hfree _ (by simp only [List.mem_cons, List.mem_append]; exact .inr (.inr (.inr (.inl (List.mem_map_of_mem hx))))), fun h => d3 (by rw [← h]; exact List.mem_map_of_mem hx)⟩) da
  obtain ⟨e5, b1, bL, b2, b3⟩ := defAll_ok sp.fields.length hmut (muts sp.fields) e4 aL (by rw [a3 _ d3]; exact hn3)
    (fun x hx => ⟨hmemM x hx, hfree _ (by simp only [List.mem_cons, List.mem_append]; exact .inr (.inr (.inr (.inr (List.mem_map_of_mem hx))))), fun h => d4 (by rw [← h]; exact List.mem_map_of_mem hx)⟩) dm
  refine ⟨s2, e5, ?_, i2.trans m2, i3.trans m3, ?_, ?_, ?_, ?_, ?_, i4, i5⟩
  · have hseal : (if pv = .fls then Res.ok Val.fls else (callG (n + 1) s e .isSealed [pv]).bind fun r => .ok r.2) = .ok .fls := by
      cases hP with
      | none => simp
      | @some p r0 off h1 h2 h3 h4 => simp [callG, hL .isSealed, prim, h1, h2, Res.bind]
    have ht : defType sy ev (n + 1) name sp s e = .ok (s1, e.set name (.rtd s.rtds.length)) := by
      unfold defType
      rw [hpe, okB, hseal, okB, if_pos rfl, hu, okB]
      simp only [callG, hL .make, prim, m1, okB]
    simp only [runDefs, ht, Res.bind, defMethods, var_eq (set_self e name _), hr, i1, defCtor, callG, hL1 .ctor, prim, pConstructor, hsize, bind, hpr, optE, if_true, defPred]
    rw [var_eq (v := .rtd s.rtds.length) (by rw [set_ne _ _ d1, set_self])]
    simp only [hL2 .pred, pPredicate, a1, b1]
  · rw [b3 _ d4, a3 _ d3, hn3]
  · rw [b3 _ d7, a3 _ d6, set_ne _ _ d5, set_self]
  · rw [b3 _ d9, a3 _ d8, set_self]
  · intro i f hf
    have hm : (f, i) ∈ enumerate sp.fields 0 := (mem_enumerate _ _ _ _).2 ⟨i, by omega, hf⟩
    have h1 : (f.acc, i) ∈ accs sp.fields := List.mem_map.2 ⟨(f, i), hm, rfl⟩
    refine ⟨?_, ?_⟩
    · rw [b3 f.acc fun h => dam _ (List.mem_map_of_mem (f := Prod.fst) h1) _ h rfl]
      exact a2 _ h1
    · intro m hmm
      have h2 : (m, i) ∈ muts sp.fields := List.mem_filterMap.2 ⟨(f, i), hm, by simp [hmm]⟩
      exact b2 _ h2
  · intro y hy
    simp only [List.mem_cons, List.mem_append, not_or] at hy
    obtain ⟨y1, y2, y3, y4, y5⟩ := hy
    rw [b3 y y5, a3 y y4, set_ne _ _ y3, set_ne _ _ y2, set_ne _ _ y1]

/-- **C101 (sealed parents)** are refused. -/
theorem C101_sealed (n : Nat) (name construct predicate : String) (sp : Sp) (s : Store) (e : Env) (p : Nat) (r : Rtd) (hL : Lib e) (hpe : optE ev e sp.parent = .ok (.rtd p))
    (hr : s.rtds[p]? = some r) (hs : r.sealed ≠ .fls) : runDefs sy ev papp fits n name construct predicate sp s e = .err := by
  simp [runDefs, defType, hpe, Res.bind, callG, hL .isSealed, prim, hr, hs]

/-- **C101 fails for parents with gen:custom-write**: whatever the clauses, a type with a parent that has a writer cannot be defined (because of prelude.min:1318, see C44). -/
theorem C101_negated_writer (n : Nat) (name construct predicate : String) (sp : Sp) (s : Store) (e : Env) (p w : Nat) (r : Rtd) (uv : Val) (hL : Lib e) (hT : Tabs s)
    (hpe : optE ev e sp.parent = .ok (.rtd p)) (hu : optE ev (e.set "p" (.rtd p)) sp.uid = .ok uv) (hr : s.rtds[p]? = some r) (hs : r.sealed = .fls) (hw : s.wrT.lookup p = some (.proc w)) :
    runDefs sy ev papp fits n name construct predicate sp s e = .err := by
  obtain ⟨e', he⟩ := inherit_ok hT.1 s.rtds.length p
  obtain ⟨h', hh⟩ := inherit_ok hT.2 s.rtds.length p
  simp [runDefs, defType, hpe, hu, Res.bind, callG, hL .isSealed, hL .make, prim, hr, hs, makeType, makeRtd, bind, tableRef, hw, he, hh]

/-- **C101 fails for methods named like variables of the expansion**: a method given by the variable `fns` (or `methods`, `gen-id`) is looked up among the variables of the macro, which are not
initialised, although the user has defined it. -/
theorem C101_negated_capture (e : Env) (g x : String) (hx : x ∈ hidden) (v : Val) (_he : e x = some (.val v)) (ev : Env → Dat → Res Val) (hev : ∀ e y, ev e (.ident y) = var e y) :
    regs ev fits e [(g, [.ident x])] = .err := by
  simp only [regs]
  split
  · rfl
  · simp [evs, hev, var, inner, hx, Res.bind]

end run

/-- **C101 (use)**: with the bindings of `C101_define_partial`, the constructor takes the fields of the parent and then its own, the predicate holds of what it makes, an accessor returns the value of
its field, and after a mutator the accessor of this field returns the new value and all other positions are as before. -/
theorem C101_use (n : Nat) (s : Store) (t k off : Nat) (args : List Val) (ha : args.length = k + off) :
    ∃ s' x, apply (n + 1) s (.ctor t (k + off)) args = .ok (s', .rcd x) ∧ s'.rtds = s.rtds ∧ apply (n + 1) s' (.pred t) [.rcd x] = .ok (s', .tru) ∧
      (∀ i (h : i < k), apply (n + 1) s' (.acc t (i + off)) [.rcd x] = .ok (s', args[i + off])) ∧
      ∀ i, i < k → ∀ v, ∃ s'' u, apply (n + 1) s' (.mutr t (i + off)) [.rcd x, v] = .ok (s'', u) ∧ apply (n + 1) s'' (.acc t (i + off)) [.rcd x] = .ok (s'', v) ∧
        ∀ j (h : j < k), j ≠ i → apply (n + 1) s'' (.acc t (j + off)) [.rcd x] = .ok (s'', args[j + off]) := by
  refine ⟨{ s with rcds := s.rcds ++ [⟨t, args⟩] }, s.rcds.length, by simp [apply, ha, makeRecord], rfl, by simp [apply, applyPred, isValue, rcdOf, bind, Res.bind, recordValueLoop], ?_, ?_⟩
  · intro i hi
    have : i + off < args.length := by omega
    simp [apply, applyPred, isValue, rcdOf, bind, Res.bind, recordValueLoop, recordRef, this]
  · intro i hi v
    have hl : i + off < args.length := by omega
    refine ⟨{ s with rcds := s.rcds ++ [⟨t, args.set (i + off) v⟩] }, .other 0, ?_, ?_, ?_⟩
    · simp [apply, applyPred, isValue, rcdOf, bind, Res.bind, recordValueLoop, recordSet, hl]
    · simp [apply, applyPred, isValue, rcdOf, bind, Res.bind, recordValueLoop, recordRef, hl]
    · intro j hj hne
      have hl' : j + off < args.length := by omega
      simp [apply, applyPred, isValue, rcdOf, bind, Res.bind, recordValueLoop, recordRef, hl', show ¬ i = j by omega]

/-- A library. -/
def lib : Env := fun x =>
  if x = "record-type-sealed?" then some (.prim .isSealed) else if x = "make-record-type-descriptor" then some (.prim .make) else if x = "record-constructor" then some (.prim .ctor)
  else if x = "record-predicate" then some (.prim .pred) else if x = "record-accessor" then some (.prim .acc) else if x = "record-mutator" then some (.prim .mutr) else none

theorem lib_ok : Lib lib := fun p => by cases p <;> rfl

/-- The fields of a type `record` with the short form. -/
def shadowSp : Sp := { Sp.init with fields := [.imm "accessor" "record-accessor", .imm "size" "record-size"] }

/-- **C101 fails when a name hides a procedure of the library**: for `(define-record-type record (fields accessor size))`, whose first accessor is called `record-accessor`, the definition of the second
accessor calls the first one. -/
theorem C101_negated_shadow : clauseLoop "record" .init [.list [.ident "fields", .ident "accessor", .ident "size"]] = some { shadowSp with seen := ["fields"] } ∧
    runDefs (fun _ => 0) (fun _ _ => .err) (fun _ _ => .err) (fun _ _ => true) 5 "record" "make-record" "record?" shadowSp ⟨[], [], [], [], []⟩ lib = .err := by
  constructor
  · rfl
  · rfl

/-- A type with two fields, one mutable, is defined. -/
def demoSp : Sp := { Sp.init with fields := [.imm "x" "point-x", .mtb "y" "point-y" "point-y-set!"] }

example : clauseLoop "point" .init [.list [.ident "fields", .ident "x", .list [.ident "mutable", .ident "y"]]] = some { demoSp with seen := ["fields"] } := rfl

example : ∃ s' e', runDefs (fun _ => 0) (fun _ _ => .err) (fun _ _ => .err) (fun _ _ => true) 5 "point" "make-point" "point?" demoSp ⟨[], [], [], [], []⟩ lib = .ok (s', e') ∧
    e' "point-y-set!" = some (.val (.mutr 0 1)) := ⟨_, _, rfl, rfl⟩

/-- The hypotheses of `C101_define_partial` can be met. -/
example : ∃ s' e', runDefs (fun _ => 0) (fun _ _ => .err) (fun _ _ => .err) (fun _ _ => false) 5 "point" "make-point" "point?" demoSp ⟨[], [], [], [], []⟩ lib = .ok (s', e') ∧
    e' "point-y" = some (.val (.acc 0 1)) := by
  obtain ⟨s', e', h, _, _, _, _, _, h', _⟩ := C101_define_partial (fun _ => 0) (fun _ _ => .err) (fun _ _ => .err) (fun _ _ => false) 4 "point" "make-point" "point?" demoSp ⟨[], [], [], [], []⟩ lib
    .fls .fls 0 [] lib_ok ⟨by simp, by simp⟩ rfl .none rfl rfl rfl (by simp) (by decide) (by decide)
    (by
      have : (("point" :: "make-point" :: "point?" :: ((accs demoSp.fields).map (·.1) ++ (muts demoSp.fields).map (·.1))).all fun x =>
        [P.isSealed, .make, .ctor, .pred, .acc, .mutr].all fun q => decide (x ≠ q.name)) = true := by decide
      intro x hx q
      have h1 := List.all_eq_true.1 this x hx
      have h2 := List.all_eq_true.1 h1 q (by cases q <;> decide)
      simpa using h2)
  exact ⟨s', e', h, (h' 1 _ rfl).1⟩

end Minim.DRT
