import Verif.Basic

set_option autoImplicit false

/-!
# C100: generic interfaces

Model of generics.min: interfaces, the registry of implementations, `record-type-add-generic!`, `generics-accessor`, `generic-instance?` and `define-generics`.

Simplifications: interfaces and record types are known by their identity, a number.  The registry is a finite map from record types to lists, because record types as keys are compared by identity
(`equal?` of things that are no record values, prelude.min:1837-1893; C69-C71 show that hashtables are finite maps).  Interfaces are records, so `assoc` compares them with `equal?`, which first
tests identity and then calls the user's procedure, if one is installed with `record-type-equal-procedure` for the type of interfaces, which `record-rtd` of an interface returns: this is the
parameter `geq`.  (`default-record-equal-procedure` cannot install one, see C74.)
Arities are what `procedure-arity` returns.
-/

namespace Minim.Gen

/-- What `procedure-arity` returns: a number, `(n . #f)`, or something else (several alternatives). -/
inductive Ar where
  | exact (n : Nat)
  | atLeast (n : Nat)
  | several (k : Nat)
deriving DecidableEq, Repr

/-- A procedure. -/
structure Proc where
  id : Nat
  arity : Ar
deriving DecidableEq, Repr

/-- Data: formals of methods, and what `define-generics` is given. -/
inductive Dat where
  | nil
  | sym (x : Nat)
  | cons (a d : Dat)
  | other (n : Nat)
deriving DecidableEq, Repr

/-- An interface (generics.min:20-28): name, and names and formals of the methods. -/
structure Iface where
  id : Nat
  name : Nat
  methods : List (Nat × Dat)
deriving DecidableEq, Repr

/-- Values. -/
inductive Val where
  | fls
  | sym (x : Nat)
  | rtd (i : Nat)
  | iface (g : Iface)
  | proc (p : Proc)
  | null
  | cons (a d : Val)
  | other (n : Nat)
deriving DecidableEq, Repr

/-- Exceptions raised by the procedures, with the object that is reported. -/
inductive Err where
  | notIface (v : Val)
  | notRtd (v : Val)
  | notProcs (v : Val)
  | count (expected got : Nat)
  | arity (method : Nat) (p : Proc)
  | notSym (v : Val)
  | noMethod (x : Nat)
  | noImpl (name : Nat) (rtd : Nat)
  | fault
deriving DecidableEq, Repr

/-- The registry `$record-generics` (generics.min:43). -/
abbrev Reg := Nat → Option (List (Iface × List Proc))

/-- `(and (list? impls) (andmap procedure? impls))` (51), with the list of procedures. -/
def procs : Val → Option (List Proc)
  | .null => some []
  | .cons (.proc p) d => (procs d).map (p :: ·)
  | _ => none

/-- The loop for `expected-arity` (69-73); `none`: `cdr` of something that is no pair. -/
def expected : Dat → Nat → Option Ar
  | .nil, i => some (.exact i)
  | .sym _, i => some (.atLeast i)
  | .cons _ d, i => expected d (i + 1)
  | .other _, _ => none

/-- The loop over methods and procedures (65-81). -/
def checkArity : List (Nat × Dat) → List Proc → Except Err Unit
  | (x, f) :: ms, p :: ps =>
    match expected f 0 with
    | none => .error .fault
    | some a => if p.arity = a then checkArity ms ps else .error (.arity x p)
  | _, _ => .ok ()

/-- The update of the registry (84-89). -/
def update (reg : Reg) (t : Nat) (g : Iface) (ps : List Proc) : Reg := fun u =>
  if u = t then
    match reg t with
    | some l => some ((g, ps) :: l)
    | none => some [(g, ps)]
  else reg u

/-- `record-type-add-generic!` (45-89). -/
def add (reg : Reg) (rtd gen impls : Val) : Except Err Reg :=
  match gen with
  | .iface g =>
    match rtd with
    | .rtd t =>
      match procs impls with
      | some ps =>
        if g.methods.length = ps.length then
          match checkArity g.methods ps with
          | .ok _ => .ok (update reg t g ps)
          | .error e => .error e
        else .error (.count g.methods.length ps.length)
      | none => .error (.notProcs impls)
    | v => .error (.notRtd v)
  | v => .error (.notIface v)

/-- `index-of` (list.min:119-124) on the names of the methods. -/
def indexOf (x : Nat) : List Nat → Nat → Option Nat
  | [], _ => none
  | y :: ys, i => if x = y then some i else indexOf x ys (i + 1)

/-- `assoc` (list.min:111-117) with `equal?` on interfaces. -/
def assoc (geq : Iface → Iface → Bool) (g : Iface) : List (Iface × List Proc) → Option (Iface × List Proc)
  | [] => none
  | e :: l => if g = e.1 ∨ geq g e.1 then some e else assoc geq g l

/-- `generics-accessor` (91-100): the interface and the index kept in the closure.  A wrong name is reported as a wrong interface. -/
def accessor (gen name : Val) : Except Err (Iface × Nat) :=
  match gen with
  | .iface g =>
    match name with
    | .sym x =>
      match indexOf x (g.methods.map (·.1)) 0 with
      | some i => .ok (g, i)
      | none => .error (.noMethod x)
    | _ => .error (.notSym gen)
  | v => .error (.notIface v)

/-- The closure of `generics-accessor` (101-110). -/
def access (geq : Iface → Iface → Bool) (reg : Reg) (g : Iface) (i : Nat) (rtd : Val) : Except Err Proc :=
  match rtd with
  | .rtd t =>
    match assoc geq g ((reg t).getD []) with
    | some e =>
      match e.2[i]? with
      | some p => .ok p
      | none => .error .fault
    | none => .error (.noImpl g.name t)
  | v => .error (.notRtd v)

/-- The closure of `generic-instance?` (112-118): whether the result is true (it is not `#t` but the entry). -/
def instanceOf (geq : Iface → Iface → Bool) (reg : Reg) (g : Iface) (v : Val) : Option (Iface × List Proc) :=
  match v with
  | .rtd t =>
    match reg t with
    | some l => assoc geq g l
    | none => none
  | _ => none

/-! ### specification -/

/-- What formals accept: `n` arguments. -/
def Accepts : Dat → Nat → Prop
  | .nil, n => n = 0
  | .sym _, _ => True
  | .cons _ d, n => ∃ m, n = m + 1 ∧ Accepts d m
  | .other _, _ => False

/-- What an arity says about `n` arguments. -/
def Ar.Allows (several : Nat → Nat → Prop) : Ar → Nat → Prop
  | .exact k, n => n = k
  | .atLeast k, n => k ≤ n
  | .several k, n => several k n

/-- Formals. -/
def IsFormals : Dat → Prop
  | .nil => True
  | .sym _ => True
  | .cons (.sym _) d => IsFormals d
  | _ => False

/-- A list as a value. -/
def ofProcs : List Proc → Val
  | [] => .null
  | p :: ps => .cons (.proc p) (ofProcs ps)

/-- As many procedures as methods, each with the arity of the formals. -/
def FitsL : List (Nat × Dat) → List Proc → Prop
  | [], [] => True
  | m :: ms, p :: ps => expected m.2 0 = some p.arity ∧ FitsL ms ps
  | _, _ => False

/-- What the registration of `ps` for `g` requires. -/
def Fits (g : Iface) (ps : List Proc) : Prop := FitsL g.methods ps

/-- One call of `record-type-add-generic!`. -/
structure Call where
  rtd : Val
  gen : Val
  impls : Val

/-- A sequence of calls; one that raises an exception leaves the registry as it is. -/
def run (reg : Reg) : List Call → Reg
  | [] => reg
  | c :: cs => run (match add reg c.rtd c.gen c.impls with | .ok r => r | .error _ => reg) cs

/-- The registration that counts: the last one for this type and this interface whose procedures fit. -/
def Latest (cs : List Call) (t : Nat) (g : Iface) (ps : List Proc) : Prop :=
  ∃ a b, cs = a ++ ⟨.rtd t, .iface g, ofProcs ps⟩ :: b ∧ Fits g ps ∧ ∀ ps', Fits g ps' → ⟨.rtd t, .iface g, ofProcs ps'⟩ ∉ b

/-- Procedure for a method: that in the position of the name. -/
def implOf (x : Nat) : List (Nat × Dat) → List Proc → Option Proc
  | (y, _) :: ms, p :: ps => if x = y then some p else implOf x ms ps
  | _, _ => none

/-! ### lemmas -/

theorem procs_iff : ∀ (v : Val) (ps : List Proc), procs v = some ps ↔ v = ofProcs ps
  | .null, ps => by cases ps <;> simp [procs, ofProcs]
  | .cons (.proc p) d, ps => by
    cases ps with
    | nil => simp [procs, ofProcs]
    | cons q qs =>
      simp only [procs, Option.map_eq_some_iff, ofProcs, Val.cons.injEq, Val.proc.injEq, List.cons.injEq]
      constructor
      · rintro ⟨a, h1, rfl, rfl⟩
        exact ⟨rfl, (procs_iff d _).1 h1⟩
      · rintro ⟨rfl, h⟩
        exact ⟨qs, (procs_iff d qs).2 h, rfl, rfl⟩
  | .cons .fls d, ps => by cases ps <;> simp [procs, ofProcs]
  | .cons (.sym _) d, ps => by cases ps <;> simp [procs, ofProcs]
  | .cons (.rtd _) d, ps => by cases ps <;> simp [procs, ofProcs]
  | .cons (.iface _) d, ps => by cases ps <;> simp [procs, ofProcs]
  | .cons .null d, ps => by cases ps <;> simp [procs, ofProcs]
  | .cons (.cons _ _) d, ps => by cases ps <;> simp [procs, ofProcs]
  | .cons (.other _) d, ps => by cases ps <;> simp [procs, ofProcs]
  | .fls, ps => by cases ps <;> simp [procs, ofProcs]
  | .sym _, ps => by cases ps <;> simp [procs, ofProcs]
  | .rtd _, ps => by cases ps <;> simp [procs, ofProcs]
  | .iface _, ps => by cases ps <;> simp [procs, ofProcs]
  | .proc _, ps => by cases ps <;> simp [procs, ofProcs]
  | .other _, ps => by cases ps <;> simp [procs, ofProcs]

theorem checkArity_iff : ∀ (ms : List (Nat × Dat)) (ps : List Proc), ms.length = ps.length →
    (checkArity ms ps = .ok () ↔ FitsL ms ps)
  | [], [], _ => by simp [checkArity, FitsL]
  | (x, f) :: ms, p :: ps, h => by
    have ih := checkArity_iff ms ps (by simpa using h)
    simp only [checkArity, FitsL]
    cases he : expected f 0 with
    | none => simp
    | some a =>
      by_cases hp : p.arity = a
      · simp [hp, ih]
      · simp [hp, Ne.symm hp]
  | [], _ :: _, h => by simp at h
  | _ :: _, [], h => by simp at h

theorem FitsL.length : ∀ {ms : List (Nat × Dat)} {ps : List Proc}, FitsL ms ps → ms.length = ps.length
  | [], [], _ => rfl
  | _ :: _, _ :: _, h => by simp [FitsL.length h.2]

theorem Fits.length {g : Iface} {ps : List Proc} (h : Fits g ps) : g.methods.length = ps.length := FitsL.length h

theorem add_ok {reg reg' : Reg} {rtd gen impls : Val} : add reg rtd gen impls = .ok reg' ↔
    ∃ t g ps, rtd = .rtd t ∧ gen = .iface g ∧ impls = ofProcs ps ∧ Fits g ps ∧ reg' = update reg t g ps := by
  constructor
  · intro h
    unfold add at h
    split at h
    · rename_i g
      split at h
      · rename_i t
        split at h
        · rename_i ps hp
          split at h
          · rename_i hl
            split at h
            · rename_i hc
              cases h
              exact ⟨t, g, ps, rfl, rfl, (procs_iff _ _).1 hp, (checkArity_iff _ _ hl).1 hc, rfl⟩
            · cases h
          · cases h
        · cases h
      · cases h
    · cases h
  · rintro ⟨t, g, ps, rfl, rfl, rfl, hf, rfl⟩
    have hc := (checkArity_iff _ _ hf.length).2 hf
    simp [add, (procs_iff _ _).2 rfl, hf.length, hc]

theorem indexOf_eq (x : Nat) : ∀ (ys : List Nat) (i : Nat), indexOf x ys i = (indexOf x ys 0).map (· + i)
  | [], i => rfl
  | y :: ys, i => by
    simp only [indexOf]
    split
    · simp
    · rw [indexOf_eq x ys (i + 1), indexOf_eq x ys (0 + 1)]
      cases indexOf x ys 0 <;> simp; omega

theorem implOf_eq (x : Nat) : ∀ (ms : List (Nat × Dat)) (ps : List Proc), ms.length = ps.length →
    implOf x ms ps = (indexOf x (ms.map (·.1)) 0).bind (ps[·]?)
  | [], [], _ => rfl
  | (y, f) :: ms, p :: ps, h => by
    simp only [implOf, List.map_cons, indexOf]
    split
    · simp
    · rw [implOf_eq x ms ps (by simpa using h), indexOf_eq x _ (0 + 1)]
      cases indexOf x (ms.map (·.1)) 0 <;> simp
  | [], _ :: _, h => by simp at h
  | _ :: _, [], h => by simp at h

/-- The default of `equal?` on interfaces. -/
def noEq : Iface → Iface → Bool := fun _ _ => false

theorem assoc_update (reg : Reg) (t u : Nat) (g k : Iface) (ps : List Proc) :
    assoc noEq k ((update reg t g ps u).getD []) = if u = t ∧ k = g then some (g, ps) else assoc noEq k ((reg u).getD []) := by
  unfold update
  by_cases hu : u = t
  · subst hu
    cases hr : reg u <;> by_cases hk : k = g <;> simp [assoc, noEq, hk]
  · simp [hu]

theorem run_append (reg : Reg) : ∀ (a b : List Call), run reg (a ++ b) = run (run reg a) b
  | [], _ => rfl
  | c :: a, b => by simp only [List.cons_append, run, run_append _ a b]

theorem run_assoc : ∀ (cs : List Call) (reg : Reg) (t : Nat) (g : Iface),
    (∃ ps, Latest cs t g ps ∧ assoc noEq g ((run reg cs t).getD []) = some (g, ps)) ∨
    ((∀ ps, Fits g ps → ⟨.rtd t, .iface g, ofProcs ps⟩ ∉ cs) ∧ assoc noEq g ((run reg cs t).getD []) = assoc noEq g ((reg t).getD []))
  | [], reg, t, g => .inr ⟨by simp, rfl⟩
  | c :: cs, reg, t, g => by
    simp only [run]
    rcases run_assoc cs (match add reg c.rtd c.gen c.impls with | .ok r => r | .error _ => reg) t g with ⟨ps, ⟨a, b, h1, h2, h3⟩, h4⟩ | ⟨h1, h2⟩
    · exact .inl ⟨ps, ⟨c :: a, b, by simp [h1], h2, h3⟩, h4⟩
    · by_cases hc : ∃ ps, Fits g ps ∧ c = ⟨.rtd t, .iface g, ofProcs ps⟩
      · obtain ⟨ps, hf, rfl⟩ := hc
        refine .inl ⟨ps, ⟨[], cs, rfl, hf, h1⟩, ?_⟩
        rw [h2]
        have : add reg (.rtd t) (.iface g) (ofProcs ps) = .ok (update reg t g ps) := add_ok.2 ⟨t, g, ps, rfl, rfl, rfl, hf, rfl⟩
        simp only [this, assoc_update]
        simp
      · refine .inr ⟨?_, ?_⟩
        · intro ps hf hm
          rcases List.mem_cons.1 hm with h | h
          · exact hc ⟨ps, hf, h.symm⟩
          · exact h1 ps hf h
        · rw [h2]
          cases ha : add reg c.rtd c.gen c.impls with
          | error e => rfl
          | ok r =>
            obtain ⟨t', g', ps, e1, e2, e3, hf, rfl⟩ := add_ok.1 ha
            simp only [assoc_update]
            rw [if_neg]
            rintro ⟨rfl, rfl⟩
            exact hc ⟨ps, hf, by cases c; simp_all⟩

/-! ### theorems -/

/-- **C100 (formals)**: the arity required of an implementation allows exactly the numbers of arguments that the formals accept. -/
theorem C100_arity (several : Nat → Nat → Prop) : ∀ (f : Dat) (i : Nat) (a : Ar), expected f i = some a → ∀ n, a.Allows several (n + i) ↔ Accepts f n
  | .nil, i, a, h, n => by simp only [expected, Option.some.injEq] at h; subst h; simp [Ar.Allows, Accepts]
  | .sym _, i, a, h, n => by simp only [expected, Option.some.injEq] at h; subst h; simp [Ar.Allows, Accepts]
  | .other _, i, a, h, n => by simp [expected] at h
  | .cons e d, i, a, h, n => by
    simp only [expected] at h
    have hs : ∀ m, Accepts (.cons e d) (m + 1) ↔ Accepts d m := fun m => by simp [Accepts]
    cases n with
    | succ m => rw [hs, ← C100_arity several d (i + 1) a h m, show m + 1 + i = m + (i + 1) by omega]
    | zero =>
      have : ∀ (d : Dat) (i : Nat) (a : Ar), expected d i = some a → (∃ k, a = .exact k ∧ i ≤ k) ∨ (∃ k, a = .atLeast k ∧ i ≤ k) := by
        intro d
        induction d with
        | nil => intro i a h; simp only [expected, Option.some.injEq] at h; exact .inl ⟨i, h.symm, Nat.le_refl i⟩
        | sym _ => intro i a h; simp only [expected, Option.some.injEq] at h; exact .inr ⟨i, h.symm, Nat.le_refl i⟩
        | other _ => intro i a h; simp [expected] at h
        | cons _ d _ ih =>
          intro i a h
          simp only [expected] at h
          rcases ih _ _ h with ⟨k, h1, h2⟩ | ⟨k, h1, h2⟩
          · exact .inl ⟨k, h1, by omega⟩
          · exact .inr ⟨k, h1, by omega⟩
      rcases this d _ a h with ⟨k, rfl, hk⟩ | ⟨k, rfl, hk⟩ <;> simp [Ar.Allows, Accepts] <;> omega

/-- **C100 (registration)**: `record-type-add-generic!` succeeds exactly for a record type, an interface and a list of procedures that fit its methods one by one. -/
theorem C100_add (reg : Reg) (rtd gen impls : Val) : (∃ r, add reg rtd gen impls = .ok r) ↔ ∃ t g ps, rtd = .rtd t ∧ gen = .iface g ∧ impls = ofProcs ps ∧ Fits g ps := by
  constructor
  · rintro ⟨r, h⟩
    obtain ⟨t, g, ps, h1, h2, h3, h4, _⟩ := add_ok.1 h
    exact ⟨t, g, ps, h1, h2, h3, h4⟩
  · rintro ⟨t, g, ps, h1, h2, h3, h4⟩
    exact ⟨_, add_ok.2 ⟨t, g, ps, h1, h2, h3, h4, rfl⟩⟩

/-- **C100 (lookup)**: after any calls of `record-type-add-generic!`, successful or not, starting with an empty registry, an accessor applied to a record type returns the procedure given for its
method in the last successful registration of the interface for that type; if there is none, an exception is raised.  Other types and other interfaces play no role.
Missing: programs that change the equality of interfaces, see `C100_negated_equal`. -/
theorem C100_lookup_partial (cs : List Call) (t : Nat) (g : Iface) (x : Nat) (hx : x ∈ g.methods.map (·.1)) :
    ∃ i, accessor (.iface g) (.sym x) = .ok (g, i) ∧
      ((∃ ps p, Latest cs t g ps ∧ implOf x g.methods ps = some p ∧ access noEq (run (fun _ => none) cs) g i (.rtd t) = .ok p) ∨
       ((∀ ps, Fits g ps → ⟨.rtd t, .iface g, ofProcs ps⟩ ∉ cs) ∧ access noEq (run (fun _ => none) cs) g i (.rtd t) = .error (.noImpl g.name t))) := by
  have hi : ∀ l : List Nat, x ∈ l → ∃ i, indexOf x l 0 = some i ∧ i < l.length := by
    intro l
    induction l with
    | nil => simp
    | cons y ys ih =>
      intro h
      simp only [indexOf]
      split
      · exact ⟨0, rfl, by simp⟩
      · rename_i hne
        obtain ⟨i, h1, h2⟩ := ih (by simpa [hne] using h)
        exact ⟨i + 1, by rw [indexOf_eq, h1]; rfl, by simpa using h2⟩
  obtain ⟨i, hi1, hi2⟩ := hi _ hx
  refine ⟨i, by simp [accessor, hi1], ?_⟩
  rcases run_assoc cs (fun _ => none) t g with ⟨ps, h1, h2⟩ | ⟨h1, h2⟩
  · have hf : Fits g ps := h1.choose_spec.choose_spec.2.1
    have hl : i < ps.length := by rw [← hf.length]; simpa using hi2
    refine .inl ⟨ps, ps[i], h1, ?_, ?_⟩
    · rw [implOf_eq x _ _ hf.length, hi1]; simp [hl]
    · simp [access, h2, hl]
  · exact .inr ⟨h1, by simp [access, h2, assoc]⟩

/-- **C100 (`generic-instance?`)**: true exactly of the record types for which the interface was successfully registered. -/
theorem C100_instance_partial (cs : List Call) (g : Iface) (v : Val) :
    (instanceOf noEq (run (fun _ => none) cs) g v).isSome = true ↔ ∃ t ps, v = .rtd t ∧ Fits g ps ∧ ⟨.rtd t, .iface g, ofProcs ps⟩ ∈ cs := by
  cases v with
  | rtd t =>
    have he : instanceOf noEq (run (fun _ => none) cs) g (.rtd t) = assoc noEq g ((run (fun _ => none) cs t).getD []) := by
      simp only [instanceOf]
      cases run (fun _ => none) cs t <;> rfl
    rw [he]
    rcases run_assoc cs (fun _ => none) t g with ⟨ps, ⟨a, b, h1, h2, h3⟩, h4⟩ | ⟨h1, h2⟩
    · rw [h4]
      simp only [Option.isSome_some, true_iff]
      exact ⟨t, ps, rfl, h2, by rw [h1]; simp⟩
    · rw [h2]
      simp only [Option.getD_none, assoc, Option.isSome_none, Bool.false_eq_true, false_iff]
      rintro ⟨t', ps, h, hf, hm⟩
      cases h
      exact h1 ps hf hm
  | _ => simp [instanceOf]

/-- An interface with one method without arguments. -/
def exI (id : Nat) : Iface := ⟨id, 7, [(1, .nil)]⟩

/-- Implementations of it. -/
def exP (k : Nat) : List Proc := [⟨k, .exact 0⟩]

/-- **C100 fails with another equality of records**: with a procedure installed by `(record-type-equal-procedure (record-rtd gen:x) p)` that compares the contents, two interfaces with the same name and methods are confused: the accessor of
the first returns the implementation of the second. -/
theorem C100_negated_equal : ∃ (geq : Iface → Iface → Bool) (cs : List Call) (g h : Iface) (t : Nat) (ps : List Proc), g ≠ h ∧ Latest cs t g ps ∧
    ∃ p q, implOf 1 g.methods ps = some p ∧ access geq (run (fun _ => none) cs) g 0 (.rtd t) = .ok q ∧ q ≠ p :=
  ⟨fun a b => a.name == b.name && a.methods == b.methods, [⟨.rtd 0, .iface (exI 0), ofProcs (exP 10)⟩, ⟨.rtd 0, .iface (exI 1), ofProcs (exP 20)⟩], exI 0, exI 1, 0, exP 10, by decide,
    ⟨[], _, rfl, ⟨rfl, trivial⟩, by
      intro ps' _ h
      simp only [List.mem_singleton, Call.mk.injEq, Val.iface.injEq] at h
      exact absurd h.2.1 (by decide)⟩, ⟨10, .exact 0⟩, ⟨20, .exact 0⟩, rfl, rfl, by decide⟩

/-- **C100: nothing is inherited.**  An implementation registered for the parent (type 0) is not found for the child (type 1): the registry does not look at parents. -/
theorem C100_no_inheritance : ∃ (cs : List Call) (ps : List Proc), Latest cs 0 (exI 0) ps ∧ access noEq (run (fun _ => none) cs) (exI 0) 0 (.rtd 1) = .error (.noImpl 7 1) :=
  ⟨[⟨.rtd 0, .iface (exI 0), ofProcs (exP 10)⟩], exP 10, ⟨[], [], rfl, ⟨rfl, trivial⟩, by simp⟩, rfl⟩

/-- **C100: errors of `generics-accessor`** for a name that is no symbol report the interface, which is right, instead of the name. -/
theorem C100_negated_report (g : Iface) (v : Val) (h : ∀ x, v ≠ .sym x) : accessor (.iface g) v = .error (.notSym (.iface g)) := by
  cases v <;> first | rfl | exact absurd rfl (h _)

/-! ### `define-generics` -/

/-- The inner loop over the formals (149-160): `none` is a syntax error. -/
def checkFormals : Dat → Bool
  | .nil => true
  | .sym _ => true
  | .cons (.sym _) d => checkFormals d
  | _ => false

/-- The outer loop (141-164): `tab` is the table so far, newest first. -/
def tableLoop : List (Dat × Dat) → List (Nat × Dat) → Option (List (Nat × Dat))
  | [], tab => some tab
  | (.sym m, f) :: cs, tab => if checkFormals f then tableLoop cs ((m, f) :: tab) else none
  | _ :: _, _ => none

/-- The split of clauses by the patterns `[method-id . formals]` (134, 173-180): all clauses must be pairs. -/
def clauses : List Dat → Option (List (Dat × Dat))
  | [] => some []
  | .cons a d :: cs => (clauses cs).map ((a, d) :: ·)
  | _ :: _ => none

/-- `define-generics` (132-182): the table of methods of the interface that is bound to `gen:id`, or a syntax error. -/
def defineGenerics (id : Dat) (cs : List Dat) : Option (List (Nat × Dat)) :=
  match clauses cs with
  | some l =>
    match id with
    | .sym _ => (tableLoop l []).map List.reverse
    | _ => none
  | none => none

theorem checkFormals_iff : ∀ f : Dat, checkFormals f = true ↔ IsFormals f
  | .nil => by simp [checkFormals, IsFormals]
  | .sym _ => by simp [checkFormals, IsFormals]
  | .other _ => by simp [checkFormals, IsFormals]
  | .cons (.sym _) d => by simp only [checkFormals, IsFormals]; exact checkFormals_iff d
  | .cons .nil d => by simp [checkFormals, IsFormals]
  | .cons (.cons _ _) d => by simp [checkFormals, IsFormals]
  | .cons (.other _) d => by simp [checkFormals, IsFormals]

theorem tableLoop_iff : ∀ (cs : List (Dat × Dat)) (tab r : List (Nat × Dat)), tableLoop cs tab = some r ↔
    ∃ ms : List (Nat × Dat), cs = ms.map (fun m => (.sym m.1, m.2)) ∧ (∀ m ∈ ms, IsFormals m.2) ∧ r = ms.reverse ++ tab
  | [], tab, r => by
    simp only [tableLoop, Option.some.injEq]
    constructor
    · rintro rfl; exact ⟨[], rfl, by simp, by simp⟩
    · rintro ⟨ms, h, _, rfl⟩
      cases ms
      · simp
      · simp at h
  | (a, f) :: cs, tab, r => by
    constructor
    · intro h
      cases a with
      | sym m =>
        simp only [tableLoop] at h
        split at h
        · rename_i hf
          obtain ⟨ms, h1, h2, h3⟩ := (tableLoop_iff cs _ r).1 h
          exact ⟨(m, f) :: ms, by simp [h1], by simpa using ⟨(checkFormals_iff f).1 hf, fun a b h => h2 (a, b) h⟩, by simp [h3]⟩
        · cases h
      | _ => simp [tableLoop] at h
    · rintro ⟨ms, h1, h2, h3⟩
      cases ms with
      | nil => simp at h1
      | cons m ms =>
        simp only [List.map_cons, List.cons.injEq, Prod.mk.injEq] at h1
        obtain ⟨⟨rfl, rfl⟩, h1⟩ := h1
        simp only [tableLoop]
        rw [if_pos ((checkFormals_iff _).2 (h2 m (by simp)))]
        exact (tableLoop_iff cs _ r).2 ⟨ms, h1, fun m' h => h2 m' (by simp [h]), by simp [h3]⟩

theorem clauses_iff : ∀ (cs : List Dat) (l : List (Dat × Dat)), clauses cs = some l ↔ cs = l.map (fun c => .cons c.1 c.2)
  | [], l => by cases l <;> simp [clauses]
  | c :: cs, l => by
    cases c with
    | cons a d =>
      simp only [clauses, Option.map_eq_some_iff]
      constructor
      · rintro ⟨l', h, rfl⟩
        simp [(clauses_iff cs l').1 h]
      · intro h
        cases l with
        | nil => simp at h
        | cons x l =>
          simp only [List.map_cons, List.cons.injEq, Dat.cons.injEq] at h
          obtain ⟨⟨rfl, rfl⟩, h⟩ := h
          exact ⟨l, (clauses_iff cs l).2 h, rfl⟩
    | _ => cases l <;> simp [clauses]

/-- **C100 (`define-generics`)** accepts exactly an identifier and clauses made of an identifier and formals; the interface has these methods in this order. -/
theorem C100_define (id : Dat) (cs : List Dat) (ms : List (Nat × Dat)) : defineGenerics id cs = some ms ↔
    (∃ x, id = .sym x) ∧ cs = ms.map (fun m => .cons (.sym m.1) m.2) ∧ ∀ m ∈ ms, IsFormals m.2 := by
  unfold defineGenerics
  constructor
  · intro h
    split at h
    · rename_i l hl
      split at h
      · obtain ⟨r, h1, h2⟩ := Option.map_eq_some_iff.1 h
        obtain ⟨ms', e1, e2, e3⟩ := (tableLoop_iff _ _ _).1 h1
        simp only [List.append_nil] at e3
        subst e3
        rw [List.reverse_reverse] at h2
        subst h2
        refine ⟨⟨_, rfl⟩, ?_, e2⟩
        rw [(clauses_iff _ _).1 hl, e1]
        simp
      · cases h
    · cases h
  · rintro ⟨⟨x, rfl⟩, h, hf⟩
    have h1 : clauses cs = some (ms.map fun m => (.sym m.1, m.2)) := (clauses_iff _ _).2 (by simp [h])
    simp only [h1]
    rw [(tableLoop_iff _ [] (ms.reverse)).2 ⟨ms, rfl, hf, by simp⟩]
    simp

/-- Every method of an interface made by `define-generics` can be implemented: its formals give an arity. -/
theorem C100_formals : ∀ (f : Dat) (i : Nat), IsFormals f → ∃ a, expected f i = some a
  | .nil, _, _ => ⟨_, rfl⟩
  | .sym _, _, _ => ⟨_, rfl⟩
  | .cons (.sym _) d, i, h => C100_formals d (i + 1) h

/-- **C100: a method defined twice** is accepted; the second implementation can never be obtained. -/
theorem C100_negated_duplicate : defineGenerics (.sym 0) [.cons (.sym 1) .nil, .cons (.sym 1) (.cons (.sym 2) .nil)] = some [(1, .nil), (1, .cons (.sym 2) .nil)] ∧
    ∀ (g : Iface) (i : Nat), g.methods = [(1, .nil), (1, .cons (.sym 2) .nil)] → ∀ x, accessor (.iface g) x = .ok (g, i) → i = 0 := by
  refine ⟨by decide, ?_⟩
  intro g i hg x h
  cases x with
  | sym x =>
    simp only [accessor, hg, List.map_cons, List.map_nil, indexOf] at h
    by_cases hx : x = 1
    · simp only [hx, if_true, Except.ok.injEq, Prod.mk.injEq, true_and] at h
      exact h.symm
    · simp [hx] at h
  | _ => simp [accessor] at h

example : ∃ cs ps, Latest cs 0 (exI 0) ps ∧ 1 ∈ (exI 0).methods.map (·.1) :=
  ⟨[⟨.rtd 0, .iface (exI 0), ofProcs (exP 10)⟩], exP 10, ⟨[], [], rfl, ⟨rfl, trivial⟩, by simp⟩, by decide⟩

example : expected (.cons (.sym 1) (.cons (.sym 2) (.sym 3))) 0 = some (.atLeast 2) ∧ Accepts (.cons (.sym 1) (.cons (.sym 2) (.sym 3))) 5 := by
  refine ⟨rfl, 4, rfl, 3, rfl, trivial⟩

end Minim.Gen
