import Verif.Bytecode

set_option autoImplicit false

/-!
# The virtual machine

Model of the instruction loop of eval.c (lines 437-705).  The stack segments are abstracted to a list of saved frames; whether frames stay inside the segments is a
separate question (C53).
-/

namespace Minim.Jit

open Minim.Sx Minim.Core

/-- A variable cell, the pair `(id . value)`: the cell of a top-level variable (`top_env_find`, env.c; there is one for each environment and identifier) or one
made by `bind` or `bind-values` (eval.c:342-369, 532-535). -/
inductive Loc where
  | glob (env : Nat) (s : Sym)
  | cell (n : Nat)
deriving DecidableEq, Repr

/-- Machine words, `C` being the representation of procedures: objects; the marker of multiple values (`minim_values`); top-level environments; raw
numbers (the argument count as moved by `mov`, eval.c:404-405); cells; `undef` for NULL and uninitialised words. -/
inductive V (C : Type) where
  | null | sym (s : Sym) | lit (l : Lit) | other (n : Nat) | stx (d : X) | void | unbound
  | values | tenv (n : Nat) | num (n : Nat) | cell (l : Loc) | undef
  | cons (a d : V C)
  | clo (c : C)

/-- Procedures (`Mclosure`, procedure.c:11-19): code, cells of the free variables, environment of creation.  Names are left out. -/
structure MC where
  code : Code
  cells : List (Option Loc)
  env : Nat

/-- Machine words with machine procedures. -/
abbrev MV := V MC

/-- A quoted datum as an object. -/
def ofX {C : Type} : X → V C
  | .null => .null
  | .sym s => .sym s
  | .lit l => .lit l
  | .other n => .other n
  | .cons a d => .cons (ofX a) (ofX d)

/-- The operand of `literal`. -/
def kval {C : Type} : K → V C
  | .datum d => ofX d
  | .stx d => .stx d
  | .unbound => .unbound
  | .void => .void

/-- A saved frame (`Mcontinuation`, frame.c:5-15, and the return address, eval.c:140): the code with the position to return to, the environment, procedure and
arguments of the frame. -/
structure Frame where
  code : List (I Nat Code)
  pc : Nat
  env : Nat
  cp : MV
  args : List MV

/-- The state of the machine: instruction stream, scratch registers, procedure, arguments of the current frame (`tc_ac` is their number), environment,
all environments made so far (their slots hold cells or nothing), cells, top-level variables of each environment, current top-level environment, multiple
values (`tc_vc`, `tc_values`), saved frames, error handler. -/
structure St where
  code : List (I Nat Code)
  pc : Nat
  res : MV
  t0 : MV
  t1 : MV
  cp : MV
  args : List MV
  env : Nat
  envs : List (List (Option Loc))
  cells : List MV
  globs : Nat → Sym → Option MV
  tenv : MV
  vals : List MV
  cont : List Frame
  handler : MV

/-- What the machine relies on: C functions behind `ccall` (`none`: the function signals an error) and the compiler behind `do-eval`. -/
structure Host where
  prim : Nat → List MV → Option MV
  comp : MV → Res Code

/-- The outcome of one instruction. -/
inductive Ev where
  | next (s : St)
  | done (v : MV) (s : St)
  | err
  | ub

/-- `istream++` (eval.c:640). -/
def St.adv (s : St) : St := { s with pc := s.pc + 1 }

/-- The value in a cell.  The cell of a top-level variable is only made by `tl_env_lookup_cell` (eval.c:320-327), which adds the variable with the marker of unbound
variables if it is not there. -/
def St.read (s : St) : Loc → Option MV
  | .glob e x => some ((s.globs e x).getD .unbound)
  | .cell n => s.cells[n]?

/-- Setting a top-level variable (modelling device). -/
def setGlob (g : Nat → Sym → Option MV) (e : Nat) (x : Sym) (v : MV) : Nat → Sym → Option MV :=
  fun e' x' => if e' = e ∧ x' = x then some v else g e' x'

/-- Storing into a cell (`minim_cdr(cell) = val`). -/
def St.write (s : St) (l : Loc) (v : MV) : St :=
  match l with
  | .glob e x => { s with globs := setGlob s.globs e x v }
  | .cell n => { s with cells := s.cells.set n v }

/-- The slot `i` of the current environment (`minim_env_ref`): none outside the environment or if nothing has been stored. -/
def St.slot (s : St) (i : Nat) : Option Loc :=
  match s.envs[s.env]? with
  | some f => (f[i]?).getD none
  | none => none

/-- The number of slots of the current environment. -/
def St.slots (s : St) : Nat :=
  match s.envs[s.env]? with
  | some f => f.length
  | none => 0

/-- Storing a cell into a slot (`env_bind_cell`, eval.c:334-336). -/
def St.setSlot (s : St) (i : Nat) (l : Option Loc) : St :=
  match s.envs[s.env]? with
  | some f => { s with envs := s.envs.set s.env (f.set i l) }
  | none => s

/-- A new cell in a slot (`Mcons(id, val)`, eval.c:356, 367, 534). -/
def St.bindSlot (s : St) (i : Nat) (v : MV) : St :=
  { s with cells := s.cells ++ [v] }.setSlot i (some (.cell s.cells.length))

/-- `force_single_value` (eval.c:262-266). -/
def force : MV → Option MV
  | .values => none
  | v => some v

/-- `load_reg` (eval.c:394-409). -/
def St.load (s : St) : Reg → MV
  | .res => s.res
  | .t0 => s.t0
  | .t1 => s.t1
  | .cp => s.cp
  | .ac => .num s.args.length

/-- `store_reg` (eval.c:411-431).  No code stores into the argument count: undefined here. -/
def St.store (s : St) (r : Reg) (v : MV) : Option St :=
  match r with
  | .res => some { s with res := v }
  | .t0 => some { s with t0 := v }
  | .t1 => some { s with t1 := v }
  | .cp => some { s with cp := v }
  | .ac => none

/-- The loop of `env_bind_values` (eval.c:353-359). -/
def St.bindAll (s : St) (i : Nat) : List MV → St
  | [] => s
  | v :: vs => (s.bindSlot i v).bindAll (i + 1) vs

/-- The loop of `tl_env_bind_values` (eval.c:279-290); the identifiers are at least as many as the values. -/
def St.bindGlobs (s : St) (e : Nat) : List Sym → List MV → St
  | x :: xs, v :: vs => St.bindGlobs { s with globs := setGlob s.globs e x v } e xs vs
  | _, _ => s

/-- `env_load_closure` (eval.c:388-392). -/
def St.loadClosure (s : St) (i : Nat) : List (Option Loc) → St
  | [] => s
  | l :: ls => (s.setSlot i l).loadClosure (i + 1) ls

/-- A list object (`do_rest`, eval.c:167-193). -/
def listV {C : Type} : List (V C) → V C
  | [] => .null
  | v :: vs => .cons v (listV vs)

/-- The elements of a list object (`minim_listp`, and the loop of `do_apply`, eval.c:209-230). -/
def unlist {C : Type} : V C → Option (List (V C))
  | .null => some []
  | .cons a d => (unlist d).map (a :: ·)
  | _ => none

/-- `application` and `call_closure` (eval.c:518-525, 647-653).  A NULL procedure is dereferenced. -/
def St.app (s : St) : Ev :=
  match s.cp with
  | .clo c => .next { s with code := c.code.ins, pc := 0, env := c.env }
  | .undef => .ub
  | _ => .err

/-- Is the result `#f` (eval.c:606)? -/
def isFalse {C : Type} : V C → Bool
  | .lit .fls => true
  | _ => false

/-- One instruction (eval.c:477-636). -/
def St.exec (h : Host) (s : St) : I Nat Code → Ev
  | .literal k => .next { s with res := kval k }.adv
  -- env_lookup_value, eval.c:371-382
  | .lookup i =>
    match s.slot i with
    | none => .ub
    | some l =>
      match s.read l with
      | none => .ub
      | some .unbound => .err
      | some v => .next { s with res := v }.adv
  -- env_lookup_cell, eval.c:384-386
  | .lookupCell i =>
    match s.slot i with
    | none => .ub
    | some l => .next { s with res := .cell l }.adv
  -- tl_env_lookup_value, eval.c:307-318
  | .tlLookup x =>
    match s.tenv with
    | .tenv e =>
      match s.globs e x with
      | none => .err
      | some .unbound => .err
      | some v => .next { s with res := v }.adv
    | _ => .ub
  -- tl_env_lookup_cell, eval.c:320-327
  | .tlLookupCell x =>
    match s.tenv with
    | .tenv e =>
      match s.globs e x with
      | none => .next { s with res := .cell (.glob e x), globs := setGlob s.globs e x .unbound }.adv
      | some _ => .next { s with res := .cell (.glob e x) }.adv
    | _ => .ub
  | .setProc =>
    match force s.res with
    | none => .err
    | some v => .next { s with cp := v }.adv
  -- push_arg, eval.c:118-121
  | .push =>
    match force s.res with
    | none => .err
    | some v => .next { s with args := s.args ++ [v] }.adv
  -- pop_arg, eval.c:123-127
  | .pop =>
    match s.args.getLast? with
    | none => .ub
    | some v => .next { s with res := v, args := s.args.dropLast }.adv
  | .mov d r =>
    match s.store d (s.load r) with
    | none => .ub
    | some s' => .next s'.adv
  | .closureRef r i =>
    match s.load r with
    | .clo c =>
      match (c.cells[i]?).getD none with
      | none => .ub
      | some l => .next { s with res := .cell l }.adv
    | _ => .ub
  -- the procedure is changed in place; no other reference to it exists while its variables are filled in
  | .closureSet r i src =>
    match s.load r, s.load src with
    | .clo c, .cell l =>
      if i < c.cells.length then
        match s.store r (.clo { c with cells := c.cells.set i (some l) }) with
        | none => .ub
        | some s' => .next s'.adv
      else .ub
    | _, _ => .ub
  | .closureBind =>
    match s.cp with
    | .clo c => if c.cells.length ≤ s.slots then .next (s.loadClosure 0 c.cells).adv else .ub
    | _ => .ub
  | .apply => s.app
  -- restore_frame, eval.c:671-701
  | .ret =>
    match s.cont with
    | [] => .done s.res s
    | f :: k => .next { s with code := f.code, pc := f.pc, env := f.env, cp := f.cp, args := f.args, cont := k }
  -- do_ccall, eval.c:145-165
  | .ccall p =>
    if 6 < s.args.length then .err
    else
      match h.prim p s.args with
      | none => .err
      | some v => .next { s with res := v }.adv
  | .bind i _ => if i < s.slots then .next { s.bindSlot i s.res with res := .void }.adv else .ub
  | .bindCell i =>
    match s.res with
    | .cell l => if i < s.slots then .next { s.setSlot i (some l) with res := .void }.adv else .ub
    | _ => .ub
  -- env_bind_values, eval.c:342-369
  | .bindValues i n ids =>
    match s.res with
    | .values =>
      if s.vals.length = n then
        if n ≤ ids.length ∧ i + n ≤ s.slots then .next { s.bindAll i s.vals with res := .void }.adv else .ub
      else .err
    | v =>
      if n = 1 then
        if 1 ≤ ids.length ∧ i < s.slots then .next { s.bindSlot i v with res := .void }.adv else .ub
      else .err
  -- tl_env_bind_values, eval.c:268-305
  | .tlBindValues n ids =>
    match s.tenv with
    | .tenv e =>
      match s.res with
      | .values =>
        if s.vals.length = n then
          if n ≤ ids.length then .next { s.bindGlobs e ids s.vals with res := .void }.adv else .ub
        else .err
      | v =>
        if n = 1 then
          match ids with
          | [] => .ub
          | x :: _ => .next { s with globs := setGlob s.globs e x v, res := .void }.adv
        else .err
    | _ => .ub
  -- env_rebind, eval.c:338-340
  | .rebind i =>
    match s.slot i with
    | none => .ub
    | some l => .next { s.write l s.res with res := .void }.adv
  -- tl_env_rebind, eval.c:329-332: the cdr of `#f` if there is no such variable
  | .tlRebind x =>
    match s.tenv with
    | .tenv e =>
      match s.globs e x with
      | none => .ub
      | some _ => .next { s with globs := setGlob s.globs e x s.res }.adv
    | _ => .ub
  -- Menv leaves the slots uninitialised, env.c:176-180
  | .pushEnv n => .next { s with env := s.envs.length, envs := s.envs ++ [List.replicate n none] }.adv
  -- push_frame, eval.c:129-143
  | .saveCC l =>
    .next { s with cont := ⟨s.code, l, s.env, s.cp, s.args⟩ :: s.cont, cp := .void, args := [] }.adv
  | .getArg r i =>
    match s.args[i]? with
    | none => .ub
    | some v =>
      match s.store r v with
      | none => .ub
      | some s' => .next s'.adv
  -- the register operand is ignored, eval.c:565-567
  | .setArg i _ => if i < s.args.length then .next { s with args := s.args.set i s.res }.adv else .ub
  | .getTenv r =>
    match s.store r s.tenv with
    | none => .ub
    | some s' => .next s'.adv
  | .setTenv r => .next { s with tenv := s.load r }.adv
  -- do_apply, eval.c:195-231; with fewer than two arguments indices wrap around
  | .doApply =>
    match s.args with
    | f :: x :: xs =>
      match f with
      | .clo _ =>
        match unlist ((x :: xs).getLast (by simp)) with
        | none => .err
        | some vs => { s with cp := f, args := (x :: xs).dropLast ++ vs }.app
      | _ => .err
    | _ => .ub
  | .doArityError => .err
  | .doEval =>
    match h.comp s.res with
    | .ok c => .next { s with res := .clo ⟨c, [], s.envs.length⟩, envs := s.envs ++ [[]] }.adv
    | .err => .err
    | .ub => .ub
    | .oof => .err
  -- do_raise, eval.c:656-668
  | .doRaise =>
    match s.handler with
    | .lit .fls => .err
    | v => { s with cp := v }.app
  | .doRest i => if s.args.length < i then .err else .next { s with res := listV (s.args.drop i) }.adv
  -- do_values, eval.c:233-246
  | .doValues =>
    match s.args with
    | [v] => .next { s with res := v, vals := [] }.adv
    | vs => .next { s with res := .values, vals := vs }.adv
  -- values_to_args, eval.c:248-257
  | .doWithValues =>
    match s.res with
    | .values => .next { s with args := s.args ++ s.vals }.adv
    | v => .next { s with args := s.args ++ [v] }.adv
  | .clearFrame => .next { s with cp := .undef, args := [] }.adv
  | .brancha l => .next { s with pc := l }
  | .branchf l => if isFalse s.res then .next { s with pc := l } else .next s.adv
  | .branchgt n l =>
    match s.res with
    | .num m => if m > n then .next { s with pc := l } else .next s.adv
    | _ => .ub
  | .branchlt n l =>
    match s.res with
    | .num m => if m < n then .next { s with pc := l } else .next s.adv
    | _ => .ub
  | .branchne n l =>
    match s.res with
    | .num m => if m ≠ n then .next { s with pc := l } else .next s.adv
    | _ => .ub
  | .makeClosure c n => .next { s with res := .clo ⟨c, List.replicate n none, s.env⟩ }.adv
  -- maybe_grow_stack, eval.c:114-116: see C53
  | .checkStack _ => .next s.adv

/-- One step (eval.c:471-476, 638-644): behind the last instruction an error is signalled. -/
def step (h : Host) (s : St) : Ev :=
  match s.code[s.pc]? with
  | none => .err
  | some i => s.exec h i

/-- Any number of steps. -/
inductive Steps (h : Host) : St → St → Prop where
  | refl (s : St) : Steps h s s
  | step {s s' s'' : St} : step h s = .next s' → Steps h s' s'' → Steps h s s''

theorem Steps.trans {h : Host} {a b c : St} (h1 : Steps h a b) (h2 : Steps h b c) : Steps h a c := by
  induction h1 with
  | refl => exact h2
  | step hs _ ih => exact .step hs (ih h2)

theorem Steps.one {h : Host} {a b : St} (hs : Minim.Jit.step h a = .next b) : Steps h a b := .step hs (.refl b)

end Minim.Jit
