import Verif.Basic

set_option autoImplicit false

/-!
# Stack segments

Model of the argument stack of a thread (eval.c:72-143, 195-257, 454-468, 671-699; thread.c; frame.c; boot/c/boot.c:15-19).  Sizes of segments are in bytes, positions in
words of eight bytes, as in the source: `tc_esp = tc_sfp + tc_stack_size - stack_slop` adds a number of bytes to a pointer to words.
-/

namespace Minim.Stk

/-- A word of the stack: never written, NULL, a return address, an argument. -/
inductive W (α : Type) where
  | junk | null | ra (pc : Nat) | val (v : α)

/-- A position: segment and word. -/
abbrev Ptr := Nat × Nat

/-- `Mcontinuation` (frame.c:5-15): frame pointer and number of arguments; environment and procedure left out, the field `pc` is never read. -/
structure Cont where
  sfp : Ptr
  ac : Nat

/-- `Mcached_stack` (frame.c:17-24): segment, its size, current continuation. -/
structure Rec where
  base : Nat
  size : Nat
  ret : List Cont

/-- The stack registers of a thread (minim.h:795-822): memory with the sizes of the segments allocated, `tc_stack_base`, `tc_stack_size`, `tc_stack_link`, `tc_sfp`, `tc_esp`
(as a word of the current segment), `tc_ac`, `tc_ccont`. -/
structure SK (α : Type) where
  mem : Nat → Nat → W α
  sizes : List Nat
  base : Nat
  size : Nat
  link : List Rec
  sfp : Ptr
  esp : Nat
  ac : Nat
  ccont : List Cont

/-- `stack_size` (minim.h:44). -/
def stackSize : Nat := 65520

/-- `stack_slop` (minim.h:45-46). -/
def stackSlop : Nat := 1024

/-- `minim_boot_init` (boot.c:15-19) and the start of `eval_istream` (eval.c:455-457). -/
def boot {α : Type} : SK α :=
  { mem := fun s i => if s = 0 ∧ i = 0 then .null else .junk, sizes := [stackSize], base := 0, size := stackSize, link := [], sfp := (0, 0),
    esp := stackSize - stackSlop, ac := 0, ccont := [] }

/-- The word `i` above the frame pointer is inside its segment. -/
def SK.inside {α : Type} (s : SK α) (i : Nat) : Bool :=
  match s.sizes[s.sfp.1]? with
  | some n => decide (8 * (s.sfp.2 + i + 1) ≤ n)
  | none => false

/-- Writing the word `i` above the frame pointer: undefined outside of the segment. -/
def SK.store {α : Type} (s : SK α) (i : Nat) (w : W α) : Res (SK α) :=
  if s.inside i then .ok { s with mem := fun sg j => if sg = s.sfp.1 ∧ j = s.sfp.2 + i then w else s.mem sg j } else .ub

/-- Reading the word `i` above the frame pointer. -/
def SK.load {α : Type} (s : SK α) (i : Nat) : Res (W α) := if s.inside i then .ok (s.mem s.sfp.1 (s.sfp.2 + i)) else .ub

/-- `stack_overflowp` (eval.c:75-77) for `n` words.  Comparing addresses of different segments does not occur unless the frame pointer has left the segment. -/
def SK.overflow {α : Type} (s : SK α) (n : Nat) : Bool := decide (s.sfp.2 + n ≥ s.esp)

/-- `grow_stack` (eval.c:79-98) for `n` words. -/
def SK.grow {α : Type} (s : SK α) (n : Nat) : SK α :=
  let req := 8 * n + stackSlop
  let actual := if req > stackSize then req else stackSize
  { s with sizes := s.sizes ++ [actual], base := s.sizes.length, size := actual, link := ⟨s.base, s.size, s.ccont⟩ :: s.link, sfp := (s.sizes.length, 0),
           esp := actual - stackSlop }

/-- `maybe_grow_stack` (eval.c:114-116) with `reserve_stack` (100-104). -/
def SK.check {α : Type} (s : SK α) (n : Nat) : SK α := if s.overflow (1 + (s.ac + n)) then s.grow (1 + (s.ac + n)) else s

/-- `push_arg` (eval.c:118-121). -/
def SK.push {α : Type} (s : SK α) (v : α) : Res (SK α) := do
  let s ← s.store (1 + s.ac) (.val v)
  .ok { s with ac := s.ac + 1 }

/-- `push_arg` for several values (eval.c:228-230, 250-252). -/
def SK.pushes {α : Type} (s : SK α) : List α → Res (SK α)
  | [] => .ok s
  | v :: vs => do let s ← s.push v; s.pushes vs

/-- `push_frame` (eval.c:129-143). -/
def SK.saveCC {α : Type} (s : SK α) (pc : Nat) : Res (SK α) :=
  { s with ccont := ⟨s.sfp, s.ac⟩ :: s.ccont, sfp := (s.sfp.1, s.sfp.2 + (1 + s.ac)), ac := 0 }.store 0 (.ra pc)

/-- `tc_frame_ref(tc, i)`: an argument.  Reading a word that is no argument is undefined here. -/
def SK.arg {α : Type} (s : SK α) (i : Nat) : Res α := do
  match ← s.load (1 + i) with
  | .val v => .ok v
  | _ => .ub

/-- The loop that shifts arguments down (eval.c:217-218): `k` steps from `i` on. -/
def SK.shift {α : Type} (s : SK α) : Nat → Nat → Res (SK α)
  | 0, _ => .ok s
  | k + 1, i => do
    let w ← s.load (1 + (i + 1))
    let s ← s.store (1 + i) w
    s.shift k (i + 1)

/-- The loop that copies the frame to a new segment (eval.c:224-225): from position `p`. -/
def SK.copy {α : Type} (s : SK α) (p : Ptr) : Nat → Nat → Res (SK α)
  | 0, _ => .ok s
  | k + 1, i => do
    let w ← { s with sfp := p }.load (i + 1)
    let s ← s.store (1 + i) w
    s.copy p k (i + 1)

/-- `do_apply` (eval.c:195-231) from the check of the argument list on; `vs` are the elements of the list.  There are at least two arguments. -/
def SK.spread {α : Type} (s : SK α) (vs : List α) : Res (SK α) := do
  let ac := s.ac
  let p := s.sfp
  let s ← { s with ac := ac - 2 }.shift (ac - 2) 0
  let n := 1 + s.ac + vs.length
  let s ← if s.overflow n then (s.grow n).copy p ac 0 else .ok s
  s.pushes vs

/-- What a return does: continue at an address, or leave `eval_istream`. -/
inductive Ret where
  | resume (pc : Nat) | exit
deriving DecidableEq, Repr

/-- `restore_frame` (eval.c:671-701).  Jumping to a word that is no return address is undefined, and so is the frame of the null continuation. -/
def SK.ret {α : Type} (s : SK α) : Res (Ret × SK α) :=
  if s.sfp.1 = s.base ∧ s.sfp.2 = 0 then
    match s.link with
    | [] => .ok (.exit, s)
    | r :: rs => resume { s with base := r.base, size := r.size, link := rs, sfp := (r.base, 0), esp := r.size - stackSlop } r.ret
  else resume s s.ccont
where
  /-- eval.c:692-699. -/
  resume (s : SK α) : List Cont → Res (Ret × SK α)
    | [] => .ub
    | c :: cs => do
      match ← s.load 0 with
      | .ra pc => .ok (.resume pc, { s with ccont := cs, sfp := c.sfp, ac := c.ac })
      | _ => .ub

/-- The start of `eval_istream` (eval.c:455-457) when called from a C function such as `load`. -/
def SK.enter {α : Type} (s : SK α) : Res (SK α) := do
  let s ← s.store 0 .null
  .ok { s with ac := 0 }

/-- Instructions as far as they concern the stack (eval.c:494-622): `check-stack`, `push`, `save-cc`, `clear-frame`, `get-arg`, `set-arg`, `do-apply`, `do-with-values`, `ret`; `enter` is the start of
another `eval_istream` in a C function called from compiled code. -/
inductive Op (α : Type) where
  | check (n : Nat) | push (v : α) | saveCC (pc : Nat) | clear | getArg (i : Nat) | setArg (i : Nat) (v : α) | spread (vs : List α) | withValues (vs : List α) | ret | enter

/-- What can be observed: arguments read, returns. -/
inductive Obs (α : Type) where
  | arg (v : α) | ret (r : Ret)

/-- One instruction. -/
def SK.exec {α : Type} (s : SK α) : Op α → Res (List (Obs α) × SK α)
  | .check n => .ok ([], s.check n)
  | .push v => do let s ← s.push v; .ok ([], s)
  | .saveCC pc => do let s ← s.saveCC pc; .ok ([], s)
  | .clear => .ok ([], { s with ac := 0 })
  | .getArg i => do let v ← s.arg i; .ok ([.arg v], s)
  | .setArg i v => do let s ← s.store (1 + i) (.val v); .ok ([], s)
  | .spread vs => do let s ← s.spread vs; .ok ([], s)
  | .withValues vs => do let s ← s.pushes vs; .ok ([], s)
  | .ret => do let (r, s) ← s.ret; .ok ([.ret r], s)
  | .enter => do let s ← s.enter; .ok ([], s)

/-- A sequence of instructions. -/
def SK.run {α : Type} (s : SK α) : List (Op α) → Res (List (Obs α) × SK α)
  | [] => .ok ([], s)
  | o :: os => do
    let (a, s) ← s.exec o
    let (b, s) ← s.run os
    .ok (a ++ b, s)

end Minim.Stk
