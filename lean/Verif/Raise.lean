import Verif.Machine

set_option autoImplicit false

/-!
# C99: errors and the machine

What happens in the machine when an error is raised: `raise` (eval.c:656-668) and errors signalled by C code (`do_error2`, error.c:5-29), which jump back into the instruction loop (eval.c:463-467).

Simplifications: the state in which a C function signals an error is the state before the instruction; everything that the instruction changed is overwritten by the call of the handler.
`setjmp` and `longjmp` are a jump within the same run of the loop (nested runs, made by `load`, are the subject of C78).
-/

namespace Minim.Jit

/-- The outcome of one step, with errors. -/
inductive EvE where
  | next (s : St)
  | done (v : MV) (s : St)
  /-- a message is printed and the process ends -/
  | exit
  | ub

/-- A `raise` without a handler (eval.c:658-664): the process ends in `boot_error_proc`. -/
def unhandled (s : St) : Bool :=
  match s.code[s.pc]?, s.handler with
  | some .doRaise, .lit .fls => true
  | _, _ => false

/-- `do_error2` (error.c:5-29): without a saved frame or without a handler for errors of C code the process ends; otherwise the handler is applied to name, message and values (`info`). -/
def cError (ch : Option MC) (info : List MV) (s : St) : EvE :=
  match s.cont, ch with
  | [], _ => .exit
  | _ :: _, none => .exit
  | _ :: _, some c =>
    match { s with cp := .clo c, args := info }.app with
    | .next s' => .next s'
    | _ => .ub

/-- One step of the machine, with errors. -/
def stepE (h : Host) (ch : Option MC) (info : St → List MV) (s : St) : EvE :=
  match step h s with
  | .next s' => .next s'
  | .done v s' => .done v s'
  | .ub => .ub
  | .err => if unhandled s then .exit else cError ch (info s) s

/-- **C99 (`raise`)**: the handler is applied to what was raised, in place of the call of `raise`. -/
theorem C99_raise {h : Host} {s : St} {c : MC} (hi : s.code[s.pc]? = some .doRaise) (hc : s.handler = .clo c) (ch : Option MC) (info : St → List MV) :
    stepE h ch info s = .next { s with cp := .clo c, code := c.code.ins, pc := 0, env := c.env } := by
  simp [stepE, step, hi, St.exec, hc, St.app]

/-- **C99 (errors of C code)**: every error signalled by C code while a frame is saved applies the handler for such errors to its description; when that returns, the frame goes on.
Missing: errors at the top level, see `C99_negated_top_level`. -/
theorem C99_c_error_partial {h : Host} {s : St} (he : step h s = .err) (hu : unhandled s = false) (hk : s.cont ≠ []) (c : MC) (info : St → List MV) :
    stepE h (some c) info s = .next { s with cp := .clo c, args := info s, code := c.code.ins, pc := 0, env := c.env } := by
  obtain ⟨f, k, hf⟩ := List.exists_cons_of_ne_nil hk
  simp [stepE, he, hu, cError, hf, St.app]

/-- An unbound variable in the body of a call: the handler for errors of C code is entered. -/
example (h : Host) (c : MC) (x : Minim.Sx.Sym) (f : Frame) (info : St → List MV) : ∃ s s' : St, step h s = .err ∧ unhandled s = false ∧ s.cont ≠ [] ∧ stepE h (some c) info s = .next s' :=
  ⟨⟨[.tlLookup x, .ret], 0, .void, .undef, .undef, .void, [], 0, [], [], fun _ _ => none, .tenv 0, [], [f], .lit .fls⟩, _, rfl, rfl, by simp, rfl⟩

/-- Several steps, with errors. -/
inductive StepsE (h : Host) (ch : Option MC) (info : St → List MV) : St → St → Prop where
  | refl (s : St) : StepsE h ch info s s
  | step {s s' s'' : St} : stepE h ch info s = .next s' → StepsE h ch info s' s'' → StepsE h ch info s s''

theorem StepsE.snoc {h : Host} {ch : Option MC} {info : St → List MV} {a b c : St} (h1 : StepsE h ch info a b) (h2 : stepE h ch info b = .next c) : StepsE h ch info a c := by
  induction h1 with
  | refl => exact .step h2 (.refl c)
  | step hs _ ih => exact .step hs (ih h2)

/-- **C99: an error at the top level does not reach the handlers**: in the outermost frame, that is in the operator and operands of a form of a program that are no calls themselves, errors of C code
end the process whatever handlers are installed. -/
theorem C99_negated_top_level (h : Host) (c d : MC) (x : Minim.Sx.Sym) (info : St → List MV) : ∃ s : St, s.handler = .clo d ∧ s.code = [.tlLookup x, .ret] ∧ step h s = .err ∧
    stepE h (some c) info s = .exit :=
  ⟨⟨[.tlLookup x, .ret], 0, .void, .undef, .undef, .void, [], 0, [], [], fun _ _ => none, .tenv 0, [], [], .clo d⟩, rfl, rfl, rfl, rfl⟩

/-- **C99: errors return.**  If the handler returns, what it returns is the value of the call of `raise`: the code behind it runs on. -/
theorem C99_raise_returns {h : Host} {s s' : St} {c : MC} {f : Frame} {k : List Frame} (hi : s.code[s.pc]? = some .doRaise) (hc : s.handler = .clo c) (ch : Option MC) (info : St → List MV)
    (hr : StepsE h ch info { s with cp := .clo c, code := c.code.ins, pc := 0, env := c.env } s') (hret : s'.code[s'.pc]? = some .ret) (hk : s'.cont = f :: k) :
    StepsE h ch info s { s' with code := f.code, pc := f.pc, env := f.env, cp := f.cp, args := f.args, cont := k } :=
  .step (C99_raise hi hc ch info) (hr.snoc (by simp [stepE, step, hret, St.exec, hk]))

/-- The same for errors of C code: the call in progress gets the value of the handler. -/
theorem C99_c_error_returns {h : Host} {s s' : St} {c : MC} {f : Frame} {k : List Frame} (he : step h s = .err) (hu : unhandled s = false) (hn : s.cont ≠ []) (info : St → List MV)
    (hr : StepsE h (some c) info { s with cp := .clo c, args := info s, code := c.code.ins, pc := 0, env := c.env } s') (hret : s'.code[s'.pc]? = some .ret) (hk : s'.cont = f :: k) :
    StepsE h (some c) info s { s' with code := f.code, pc := f.pc, env := f.env, cp := f.cp, args := f.args, cont := k } :=
  .step (C99_c_error_partial he hu hn c info) (hr.snoc (by simp [stepE, step, hret, St.exec, hk]))

/-- The code of `(lambda (e) e)` as a handler: the argument is the result. -/
def idCode : List (I Nat Code) := [.getArg .res 0, .ret]

/-- **C99: `raise` is continuable** (R7RS 6.11: if the handler of `raise` returns, a secondary exception is raised): with `(lambda (e) e)` as handler the caller of `raise` goes on with the object
that was raised. -/
theorem C99_negated_raise (h : Host) (ch : Option MC) (info : St → List MV) (c : MC) (hc : c.code.ins = idCode) (f : Frame) (k : List Frame) (v : MV) (s : St)
    (hi : s.code[s.pc]? = some .doRaise) (hh : s.handler = .clo c) (ha : s.args = [v]) (hk : s.cont = f :: k) :
    ∃ s', StepsE h ch info s s' ∧ s'.code = f.code ∧ s'.pc = f.pc ∧ s'.res = v ∧ s'.cont = k := by
  refine ⟨_, C99_raise_returns hi hh ch info (s' := { s with cp := .clo c, code := c.code.ins, pc := 1, env := c.env, res := v }) (f := f) (k := k) ?_ ?_ hk, rfl, rfl, rfl, rfl⟩
  · refine .step ?_ (.refl _)
    simp [stepE, step, hc, idCode, St.exec, ha, St.store, St.adv]
  · simp [hc, idCode]

/-- A state in which something is raised with a handler and a frame to return to. -/
example (c : MC) (f : Frame) (v : MV) : ∃ s : St, s.code[s.pc]? = some .doRaise ∧ s.handler = .clo c ∧ s.args = [v] ∧ s.cont = [f] :=
  ⟨⟨[.doRaise], 0, .void, .undef, .undef, .void, [v], 0, [], [], fun _ _ => none, .tenv 0, [], [f], .clo c⟩, rfl, rfl, rfl, rfl⟩

end Minim.Jit
