import Verif.Basic

set_option autoImplicit false

/-!
# C99: exceptions

Model of the exceptions of prelude.min: the record types (2429-2485), the default handler (2487-2553), the procedures that raise exceptions (2557-2644, installed over the versions for booting in
6-32), the check of arities (731-752), and what C code reports through `$c-error-handler` (prelude.min:30-32, eval.c:19-66).

Simplifications: the text of an object as `display` and `write` print it is a parameter (`dsp`, `wr`), and so is `format` (its directives are the subject of C66), which may itself raise an exception.
Exceptions are values; that raising one calls the handler is in Raise.lean.
-/

namespace Minim.Exn

/-- Values, as far as they matter here. -/
inductive Val where
  | fls | tru | null
  | sym (s : String)
  | str (s : String)
  | int (n : Int)
  | cons (a d : Val)
  | stx (d : Val)
  | proc (n : Nat)
  | other (n : Nat)
deriving DecidableEq, Repr

/-- Exception records: `&exn` with `who` and `message`, and the types below it (2429-2485). -/
inductive Exn where
  | base (who msg : Val)
  | argument (who msg expect actual : Val)
  | arity (who msg expect actual : Val)
  | range (who msg value descr lower upper index : Val)
  | missing (who msg descr value key : Val)
  | syntax (who msg form subform : Val)
deriving DecidableEq, Repr

/-- `exn-who` -/
def Exn.who : Exn → Val
  | .base w _ | .argument w _ _ _ | .arity w _ _ _ | .range w _ _ _ _ _ _ | .missing w _ _ _ _ | .syntax w _ _ _ => w

/-- `exn-message` -/
def Exn.msg : Exn → Val
  | .base _ m | .argument _ m _ _ | .arity _ m _ _ | .range _ m _ _ _ _ _ | .missing _ m _ _ _ | .syntax _ m _ _ => m

/-- `argument-exn?` and the others -/
def Exn.isArgument : Exn → Bool | .argument .. => true | _ => false
def Exn.isArity : Exn → Bool | .arity .. => true | _ => false

section lib

variable (dsp wr : Val → String) (fmt : String → List Val → Except Exn String)

/-- `(if who (symbol? who) #t)` -/
def whoOk : Val → Bool
  | .fls | .sym _ => true
  | _ => false

/-- `raise-argument-error` (2591-2597). -/
def raiseArgument (who expected v : Val) : Exn :=
  if whoOk who then
    match expected with
    | .str _ => .argument who (.str "contract violation") expected v
    | _ => .argument (.sym "raise-argument-error") (.str "contract violation") (.str "string?") expected
  else .argument (.sym "raise-argument-error") (.str "contract violation") (.str "symbol? or #f") who

/-- The message of `error` (2562-2571). -/
def errMsg (m : String) : List Val → String
  | [] => m
  | [x] => m ++ "\n" ++ "  argument: " ++ wr x
  | xs => m ++ "\n" ++ "  arguments...:" ++ String.join (xs.map fun x => "\n   " ++ wr x)

/-- `error` (2557-2573). -/
def error (who msg : Val) (args : List Val) : Exn :=
  if (match who with | .fls | .sym _ | .str _ => true | _ => false) then
    match msg with
    | .str m => .base who (.str (errMsg wr m args))
    | _ => raiseArgument (.sym "error") (.str "string?") msg
  else raiseArgument (.sym "error") (.str "symbol? or string? or #f") who

/-- `errorf` (2575-2581). -/
def errorf (who f : Val) (args : List Val) : Exn :=
  if whoOk who then
    match f with
    | .str s =>
      match fmt s args with
      | .ok t => error wr who (.str t) []
      | .error e => e
    | _ => raiseArgument (.sym "errorf") (.str "string?") f
  else raiseArgument (.sym "errorf") (.str "symbol? or #f") who

/-- The loop of `procedure-arity?` (737-749): `p` is the number before. -/
def arityLoop : Val → Int → Bool
  | .null, _ => true
  | .fls, _ => true
  | .cons (.int n) d, p => if n ≥ 0 then (if n > p then arityLoop d n else false) else false
  | _, _ => false

/-- `procedure-arity?` (731-752). -/
def isArityVal : Val → Bool
  | .int n => n ≥ 0
  | .cons (.int n) d => if n ≥ 0 then arityLoop d n else false
  | _ => false

/-- `raise-arity-error` (2583-2589). -/
def raiseArity (who arity cnt : Val) : Exn :=
  if whoOk who then
    if isArityVal arity then .arity who (.str "arity mismatch") arity cnt
    else raiseArgument (.sym "raise-arity-error") (.str "procedure-arity?") arity
  else raiseArgument (.sym "raise-arity-error") (.str "symbol? or #f") who

/-- `integer?` -/
def isInt : Val → Bool | .int _ => true | _ => false

/-- `raise-range-error` (2599-2614). -/
def raiseRange (who v descr lower upper index : Val) : Exn :=
  if whoOk who then
    match descr with
    | .str d =>
      if isInt lower then
        if isInt upper then
          if isInt index then .range who (.str (if d.length = 0 then "index out of bounds" else d ++ " index out of bounds")) v descr lower upper index
          else raiseArgument (.sym "raise-range-error") (.str "integer?") index
        else raiseArgument (.sym "raise-range-error") (.str "integer?") upper
      else raiseArgument (.sym "raise-range-error") (.str "integer?") lower
    | _ => raiseArgument (.sym "raise-range-error") (.str "string?") descr
  else raiseArgument (.sym "raise-range-error") (.str "symbol? or #f") who

/-- `raise-missing-error` (2616-2622). -/
def raiseMissing (who descr x k : Val) : Exn :=
  if whoOk who then
    match descr with
    | .str d => .missing who (.str (d ++ " not found")) descr x k
    | _ => raiseArgument (.sym "raise-argument-error") (.str "string?") descr
  else raiseArgument (.sym "raise-argument-error") (.str "symbol? or #f") who

/-- `$syntax->datum` of a syntax object, `#f` for anything else. -/
def datumOr : Val → Val
  | .stx d => d
  | _ => .fls

/-- `(if stx (syntax? stx) #t)` -/
def stxOk : Val → Bool
  | .fls | .stx _ => true
  | _ => false

/-- `raise-syntax-error` (2624-2644) with all arguments. -/
def raiseSyntax (who msg form sub : Val) : Exn :=
  if whoOk who then
    match msg with
    | .str _ =>
      if stxOk form then
        if stxOk sub then .syntax who msg (datumOr form) (datumOr sub)
        else raiseArgument (.sym "syntax-error") (.str "syntax or #f") sub
      else raiseArgument (.sym "syntax-error") (.str "syntax or #f") form
    | _ => raiseArgument (.sym "syntax-error") (.str "string") msg
  else raiseArgument (.sym "syntax-error") (.str "symbol? or #f") who

/-- An error of C code with an optional name (`do_error2`, error.c:5-29, when a handler can be called, and the handler, prelude.min:30-32). -/
def cError (name : Option String) (msg : String) (args : List Val) : Exn :=
  error wr (match name with | some n => .str n | none => .fls) (.str msg) args

/-- `arity_mismatch_exn` (eval.c:27-62) for a procedure with this arity. -/
def arityMismatch (name : Option String) (arity : Val) (actual : Nat) : Exn :=
  match arity with
  | .cons a .fls => cError wr name "arity mismatch, expected at least" [a, .int actual]
  | .cons a d => cError wr name "arity mismatch, expected between" [a, d, .int actual]
  | _ => cError wr name "arity mismatch" [arity, .int actual]

/-- The constructor made by `record-constructor` (prelude.min:1388-1395) applied to a wrong number of arguments; `make` is the constructor itself. -/
def constructorArity (make : Nat) (size n : Nat) : Exn := raiseArity (.proc make) (.int size) (.int n)

/-! ### the default handler -/

/-- `display-exn` (2489-2493). -/
def headLine (e : Exn) : String :=
  if e.who = .fls then "error: " ++ dsp e.msg ++ "\n" else dsp e.who ++ ": " ++ dsp e.msg ++ "\n"

/-- The exception of `cdr` (43-47). -/
def cdrExn (x : Val) : Exn := raiseArgument (.sym "cdr") (.str "pair?") x

/-- The loop of `display-arity` (2498-2506): the text, and an exception if one is raised on the way. -/
def arityLoopText : Val → String × Option Exn
  | .null => ("\n", none)
  | .cons a .fls => (", at least " ++ dsp a ++ "\n", none)
  | .cons a d => (", " ++ dsp a ++ (arityLoopText d).1, (arityLoopText d).2)
  | x => ("", some (cdrExn x))

/-- `display-arity` (2494-2511). -/
def arityText : Val → String × Option Exn
  | .int n => (dsp (.int n) ++ "\n", none)
  | .cons a .fls => ("at least " ++ dsp a ++ "\n", none)
  | .cons a d => (dsp a ++ (arityLoopText dsp d).1, (arityLoopText dsp d).2)
  | x => ("", some (cdrExn x))

/-- What the handler prints for an exception that is no arity exception and no range exception (2513-2551). -/
def plainText : Exn → String
  | .argument w m x a => headLine dsp (.argument w m x a) ++ "  expected: " ++ dsp x ++ "\n" ++ "  given: " ++ dsp a ++ "\n"
  | .missing w m d v k => headLine dsp (.missing w m d v k) ++ "  " ++ dsp d ++ ": " ++ dsp k ++ "\n" ++ "  in: " ++ dsp v ++ "\n"
  | .syntax w m f s => headLine dsp (.syntax w m f s) ++ (if f = .fls then "" else "  in: " ++ dsp f ++ "\n") ++ (if s = .fls then "" else "  at: " ++ dsp s ++ "\n")
  | e => headLine dsp e

/-- The default handler (2487-2553): what is printed for an exception record before the process ends with code 1.  An exception inside the handler calls the handler again. -/
def handlerText : Exn → String
  | .arity w m x a =>
    match arityText dsp x with
    | (t, none) => headLine dsp (.arity w m x a) ++ "  expected: " ++ t ++ "  given: " ++ dsp a ++ "\n"
    | (t, some e) => headLine dsp (.arity w m x a) ++ "  expected: " ++ t ++ plainText dsp e
  | .range w m v d l u i =>
    match d with
    | .str s => headLine dsp (.range w m v d l u i) ++ "  range: [" ++ dsp l ++ ", " ++ dsp u ++ ")\n" ++
        (if s.length = 0 then "  index: " ++ dsp i ++ "\n" else "  " ++ s ++ " index: " ++ dsp i ++ "\n") ++ "  in: " ++ dsp v ++ "\n"
    | x => headLine dsp (.range w m v d l u i) ++ "  range: [" ++ dsp l ++ ", " ++ dsp u ++ ")\n" ++ plainText dsp (raiseArgument (.sym "string-length") (.str "string?") x)
  | e => plainText dsp e

/-- The handler on any object: one that is no exception record is only printed (2552). -/
def handlerAny : Exn ⊕ Val → String
  | .inl e => handlerText dsp e
  | .inr v => "uncaught exception: " ++ dsp v ++ "\n"

/-! ### theorems -/

/-- A name that may be given for `who`. -/
def Named (who : Val) : Prop := who = .fls ∨ ∃ s, who = .sym s

theorem whoOk_iff {who : Val} : whoOk who = true ↔ Named who := by
  cases who <;> simp [whoOk, Named]

/-- **C99 (`raise-argument-error`)**: it always raises an argument exception; with a proper name and description it carries exactly name, description and value. -/
theorem C99_argument (who expected v : Val) : (raiseArgument who expected v).isArgument = true ∧
    ∀ s, Named who → expected = .str s → raiseArgument who expected v = .argument who (.str "contract violation") expected v := by
  constructor
  · unfold raiseArgument
    split
    · cases expected <;> rfl
    · rfl
  · rintro s h rfl
    simp [raiseArgument, whoOk_iff.2 h]

private theorem errNl (t : String) : "\n" ++ ("  argument: " ++ t) = "\n  argument: " ++ t := by
  rw [← String.append_assoc]; rfl

/-- **C99 (`error`)**: a name (or `#f`), a message and any irritants give a plain exception with the name and a message that begins with the given one. -/
theorem C99_error (who : Val) (hw : who = .fls ∨ (∃ s, who = .sym s) ∨ ∃ s, who = .str s) (m : String) (args : List Val) :
    ∃ t, error wr who (.str m) args = .base who (.str (m ++ t)) ∧ (args = [] → t = "") ∧ ∀ x, args = [x] → t = "\n  argument: " ++ wr x := by
  have h : error wr who (.str m) args = .base who (.str (errMsg wr m args)) := by
    unfold error
    rcases hw with rfl | ⟨s, rfl⟩ | ⟨s, rfl⟩ <;> rfl
  rw [h]
  match args with
  | [] => exact ⟨"", by simp [errMsg], fun _ => rfl, by simp⟩
  | [x] => exact ⟨"\n  argument: " ++ wr x, by simp only [errMsg, String.append_assoc, errNl], by simp, by simp⟩
  | x :: y :: l => exact ⟨_, by simp only [errMsg, String.append_assoc]; rfl, by simp, by simp⟩

/-- **C99 (errors of C code)** become plain exceptions with the name of the C function, or `#f`. -/
theorem C99_c_error_record (name : Option String) (msg : String) (args : List Val) : ∃ t, cError wr name msg args = .base (match name with | some n => .str n | none => .fls) (.str (msg ++ t)) := by
  obtain ⟨t, h, _⟩ := C99_error wr (match name with | some n => .str n | none => .fls) (by cases name with | none => exact .inl rfl | some n => exact .inr (.inr ⟨n, rfl⟩)) msg args
  exact ⟨t, h⟩

/-- **C99 (the other kinds)**: well-formed arguments give a record of the kind with the values as they are. -/
theorem C99_kinds (who : Val) (hw : Named who) (d : String) (v k : Val) (l u i : Int) (a : Val) (n : Val) (m : String) (f s : Val) (ha : isArityVal a = true) :
    raiseArity who a n = .arity who (.str "arity mismatch") a n ∧
    (∃ t, raiseRange who v (.str d) (.int l) (.int u) (.int i) = .range who (.str t) v (.str d) (.int l) (.int u) (.int i)) ∧
    raiseMissing who (.str d) v k = .missing who (.str (d ++ " not found")) (.str d) v k ∧
    raiseSyntax who (.str m) (.stx f) (.stx s) = .syntax who (.str m) f s ∧ raiseSyntax who (.str m) (.stx f) .fls = .syntax who (.str m) f .fls ∧
    raiseSyntax who (.str m) .fls .fls = .syntax who (.str m) .fls .fls := by
  have h := whoOk_iff.2 hw
  refine ⟨by simp [raiseArity, h, ha], ⟨_, by simp [raiseRange, h, isInt]; rfl⟩, by simp [raiseMissing, h], ?_, ?_, ?_⟩ <;> simp [raiseSyntax, h, stxOk, datumOr]

/-- Arities as alternatives in ascending order, the last one possibly a lower bound. -/
def enc : List Int → Bool → Val
  | [], o => if o then .fls else .null
  | n :: ns, o => .cons (.int n) (enc ns o)

/-- Ascending. -/
def Asc : Int → List Int → Prop
  | _, [] => True
  | p, n :: ns => p < n ∧ Asc n ns

/-- How alternatives are written. -/
def alts : List Int → Bool → String
  | [], _ => ""
  | [n], o => (if o then "at least " else "") ++ dsp (.int n)
  | n :: ns, o => dsp (.int n) ++ ", " ++ alts ns o

theorem arityLoop_enc : ∀ (x : Val) (p : Int), 0 ≤ p → (arityLoop x p = true ↔ ∃ ns o, x = enc ns o ∧ Asc p ns)
  | .null, p, _ => ⟨fun _ => ⟨[], false, rfl, trivial⟩, fun _ => rfl⟩
  | .fls, p, _ => ⟨fun _ => ⟨[], true, rfl, trivial⟩, fun _ => rfl⟩
  | .cons a d, p, hp => by
    constructor
    · intro h
      cases a with
      | int n =>
        simp only [arityLoop] at h
        split at h
        · split at h
          · rename_i h1 h2
            obtain ⟨ns, o, rfl, h3⟩ := (arityLoop_enc d n h1).1 h
            exact ⟨n :: ns, o, rfl, h2, h3⟩
          · simp at h
        · simp at h
      | _ => simp [arityLoop] at h
    · rintro ⟨ns, o, h, h2⟩
      cases ns with
      | nil => cases o <;> simp [enc] at h
      | cons n ns =>
        simp only [enc, Val.cons.injEq] at h
        obtain ⟨rfl, rfl⟩ := h
        obtain ⟨h2, h3⟩ := h2
        simp only [arityLoop]
        rw [if_pos (by omega), if_pos h2]
        exact (arityLoop_enc _ n (by omega)).2 ⟨ns, o, rfl, h3⟩
  | .tru, p, _ => ⟨fun h => by simp [arityLoop] at h, fun ⟨ns, o, h, _⟩ => by cases ns <;> cases o <;> simp [enc] at h⟩
  | .sym _, p, _ => ⟨fun h => by simp [arityLoop] at h, fun ⟨ns, o, h, _⟩ => by cases ns <;> cases o <;> simp [enc] at h⟩
  | .str _, p, _ => ⟨fun h => by simp [arityLoop] at h, fun ⟨ns, o, h, _⟩ => by cases ns <;> cases o <;> simp [enc] at h⟩
  | .int _, p, _ => ⟨fun h => by simp [arityLoop] at h, fun ⟨ns, o, h, _⟩ => by cases ns <;> cases o <;> simp [enc] at h⟩
  | .stx _, p, _ => ⟨fun h => by simp [arityLoop] at h, fun ⟨ns, o, h, _⟩ => by cases ns <;> cases o <;> simp [enc] at h⟩
  | .proc _, p, _ => ⟨fun h => by simp [arityLoop] at h, fun ⟨ns, o, h, _⟩ => by cases ns <;> cases o <;> simp [enc] at h⟩
  | .other _, p, _ => ⟨fun h => by simp [arityLoop] at h, fun ⟨ns, o, h, _⟩ => by cases ns <;> cases o <;> simp [enc] at h⟩

/-- **C99 (`procedure-arity?`)**: it accepts exactly numbers from 0 on and ascending sequences of them, the last possibly a lower bound. -/
theorem C99_arity_check (x : Val) : isArityVal x = true ↔ (∃ n : Int, 0 ≤ n ∧ x = .int n) ∨ ∃ n ns o, x = enc (n :: ns) o ∧ 0 ≤ n ∧ Asc n ns := by
  cases x with
  | int n => simp [isArityVal, enc]
  | cons a d =>
    cases a with
    | int n =>
      simp only [isArityVal, enc, Val.cons.injEq, Val.int.injEq, reduceCtorEq, and_false, exists_false, false_or]
      constructor
      · intro h
        split at h
        · rename_i hn
          obtain ⟨ns, o, h1, h2⟩ := (arityLoop_enc d n hn).1 h
          exact ⟨n, ns, o, ⟨rfl, h1⟩, hn, h2⟩
        · simp at h
      · rintro ⟨m, ns, o, ⟨rfl, h1⟩, h2, h3⟩
        rw [if_pos h2]
        exact (arityLoop_enc d n h2).2 ⟨ns, o, h1, h3⟩
    | _ => simp [isArityVal, enc]
  | _ => simp [isArityVal, enc]

theorem arityLoopText_enc : ∀ (n : Int) (ns : List Int) (o : Bool), arityLoopText dsp (enc (n :: ns) o) = (", " ++ alts dsp (n :: ns) o ++ "\n", none)
  | n, [], false => by simp [enc, arityLoopText, alts]
  | n, [], true => by simp [enc, arityLoopText, alts, ← String.append_assoc]
  | n, m :: ns, o => by
    have ih := arityLoopText_enc m ns o
    simp only [enc] at ih ⊢
    simp only [arityLoopText, ih, alts, String.append_assoc]

/-- **C99 (the default handler on arity errors)**: for every exception made by `raise-arity-error` with a proper arity, the handler prints name, message, the alternatives and the number given, and
no exception is raised inside the handler. -/
theorem C99_arity_text (who m a c : Val) (ha : isArityVal a = true) :
    ∃ t, handlerText dsp (.arity who m a c) = headLine dsp (.arity who m a c) ++ "  expected: " ++ t ++ "\n" ++ "  given: " ++ dsp c ++ "\n" ∧
      ((∃ n, a = .int n ∧ t = dsp a) ∨ ∃ n ns o, a = enc (n :: ns) o ∧ t = alts dsp (n :: ns) o) := by
  rcases (C99_arity_check a).1 ha with ⟨n, _, rfl⟩ | ⟨n, ns, o, rfl, _, _⟩
  · exact ⟨dsp (.int n), by simp [handlerText, arityText, String.append_assoc], .inl ⟨n, rfl, rfl⟩⟩
  · refine ⟨alts dsp (n :: ns) o, ?_, .inr ⟨n, ns, o, rfl, rfl⟩⟩
    have h : arityText dsp (enc (n :: ns) o) = (alts dsp (n :: ns) o ++ "\n", none) := by
      cases ns with
      | nil => cases o <;> simp [enc, arityText, arityLoopText, alts]
      | cons m ns =>
        have h1 := arityLoopText_enc dsp m ns o
        simp only [enc] at h1 ⊢
        simp only [arityText, h1, alts, String.append_assoc]
    simp only [handlerText, h, String.append_assoc]

/-- Lines of a report. -/
def report (ls : List String) : String := ls.foldr (fun l r => l ++ "\n" ++ r) ""

/-- **C99 (the default handler on the other kinds)**: the report has the line of name and message, and one line for each of the values, in a fixed order. -/
theorem C99_report (who : Val) (m d : String) (x a v k l u i f s : Val) (hd : d.length ≠ 0) (hf : f ≠ .fls) (hs : s ≠ .fls) :
    let head := (if who = .fls then "error" else dsp who) ++ ": " ++ dsp (.str m)
    handlerText dsp (.base who (.str m)) = report [head] ∧
    handlerText dsp (.argument who (.str m) x a) = report [head, "  expected: " ++ dsp x, "  given: " ++ dsp a] ∧
    handlerText dsp (.missing who (.str m) (.str d) v k) = report [head, "  " ++ dsp (.str d) ++ ": " ++ dsp k, "  in: " ++ dsp v] ∧
    handlerText dsp (.range who (.str m) v (.str d) l u i) = report [head, "  range: [" ++ dsp l ++ ", " ++ dsp u ++ ")", "  " ++ d ++ " index: " ++ dsp i, "  in: " ++ dsp v] ∧
    handlerText dsp (.range who (.str m) v (.str "") l u i) = report [head, "  range: [" ++ dsp l ++ ", " ++ dsp u ++ ")", "  index: " ++ dsp i, "  in: " ++ dsp v] ∧
    handlerText dsp (.syntax who (.str m) f s) = report [head, "  in: " ++ dsp f, "  at: " ++ dsp s] ∧
    handlerText dsp (.syntax who (.str m) f .fls) = report [head, "  in: " ++ dsp f] ∧
    handlerText dsp (.syntax who (.str m) .fls .fls) = report [head] := by
  have hp : ")\n" = ")" ++ "\n" := rfl
  have he : "error: " = "error" ++ ": " := rfl
  have hl : "".length = 0 := rfl
  refine ⟨?_, ?_, ?_, ?_, ?_, ?_, ?_, ?_⟩ <;>
  · simp only [handlerText, plainText, report, List.foldr, headLine, Exn.who, Exn.msg, hd, hf, hs, hl, if_false, if_true, hp, he]
    split <;> simp only [String.append_assoc, String.append_empty]

/-- The first argument that is not as required. -/
def firstBad : List (Val × Bool) → Option Val
  | [] => none
  | (v, ok) :: l => if ok then firstBad l else some v

/-- `string?` -/
def isStr : Val → Bool | .str _ => true | _ => false

/-- **C99 (wrong arguments of the raising procedures)**: the first argument that is not as required is reported by an argument exception, in the name of the procedure. -/
theorem C99_invalid (who d v l u i k m f s a c bad : Val) :
    (firstBad [(who, whoOk who), (d, isStr d), (l, isInt l), (u, isInt u), (i, isInt i)] = some bad → ∃ t, raiseRange who v d l u i = .argument (.sym "raise-range-error") (.str "contract violation") (.str t) bad) ∧
    (firstBad [(who, whoOk who), (a, isArityVal a)] = some bad → ∃ t, raiseArity who a c = .argument (.sym "raise-arity-error") (.str "contract violation") (.str t) bad) ∧
    (firstBad [(who, whoOk who), (d, isStr d)] = some bad → ∃ t, raiseArgument who d v = .argument (.sym "raise-argument-error") (.str "contract violation") (.str t) bad) ∧
    (firstBad [(who, whoOk who), (d, isStr d)] = some bad → ∃ n t, raiseMissing who d v k = .argument (.sym n) (.str "contract violation") (.str t) bad) ∧
    (firstBad [(who, whoOk who), (m, isStr m), (f, stxOk f), (s, stxOk s)] = some bad → ∃ t, raiseSyntax who m f s = .argument (.sym "syntax-error") (.str "contract violation") (.str t) bad) := by
  have ra : ∀ n t (x : Val), raiseArgument (.sym n) (.str t) x = .argument (.sym n) (.str "contract violation") (.str t) x := fun _ _ _ => rfl
  refine ⟨?_, ?_, ?_, ?_, ?_⟩
  · intro h
    unfold raiseRange
    cases hw : whoOk who <;> simp only [hw, firstBad, if_true, if_false, Bool.false_eq_true] at h ⊢
    · cases h; exact ⟨_, ra _ _ _⟩
    cases hd : isStr d
    · simp only [hd, if_false, Bool.false_eq_true] at h
      cases h
      cases d <;> first | exact ⟨_, ra _ _ _⟩ | simp [isStr] at hd
    · simp only [hd, if_true] at h
      cases d with
      | str d =>
        cases hl : isInt l <;> simp only [hl, if_true, if_false, Bool.false_eq_true] at h ⊢
        · cases h; exact ⟨_, ra _ _ _⟩
        cases hu : isInt u <;> simp only [hu, if_true, if_false, Bool.false_eq_true] at h ⊢
        · cases h; exact ⟨_, ra _ _ _⟩
        cases hi : isInt i <;> simp only [hi, if_true, if_false, Bool.false_eq_true] at h ⊢
        · cases h; exact ⟨_, ra _ _ _⟩
        cases h
      | _ => simp [isStr] at hd
  · intro h
    unfold raiseArity
    cases hw : whoOk who <;> simp only [hw, firstBad, if_true, if_false, Bool.false_eq_true] at h ⊢
    · cases h; exact ⟨_, ra _ _ _⟩
    cases ha : isArityVal a <;> simp only [ha, if_true, if_false, Bool.false_eq_true] at h ⊢
    · cases h; exact ⟨_, ra _ _ _⟩
    cases h
  · intro h
    unfold raiseArgument
    cases hw : whoOk who <;> simp only [hw, firstBad, if_true, if_false, Bool.false_eq_true] at h ⊢
    · cases h; exact ⟨_, rfl⟩
    cases d <;> simp only [isStr, if_true, if_false, Bool.false_eq_true] at h <;> cases h <;> exact ⟨_, rfl⟩
  · intro h
    unfold raiseMissing
    cases hw : whoOk who <;> simp only [hw, firstBad, if_true, if_false, Bool.false_eq_true] at h ⊢
    · cases h; exact ⟨_, _, ra _ _ _⟩
    cases d <;> simp only [isStr, if_true, if_false, Bool.false_eq_true] at h <;> cases h <;> exact ⟨_, _, ra _ _ _⟩
  · intro h
    unfold raiseSyntax
    cases hw : whoOk who <;> simp only [hw, firstBad, if_true, if_false, Bool.false_eq_true] at h ⊢
    · cases h; exact ⟨_, ra _ _ _⟩
    cases hd : isStr m
    · simp only [hd, if_false, Bool.false_eq_true] at h
      cases h
      cases m <;> first | exact ⟨_, ra _ _ _⟩ | simp [isStr] at hd
    · simp only [hd, if_true] at h
      cases m with
      | str d =>
        cases hl : stxOk f <;> simp only [hl, if_true, if_false, Bool.false_eq_true] at h ⊢
        · cases h; exact ⟨_, ra _ _ _⟩
        cases hu : stxOk s <;> simp only [hu, if_true, if_false, Bool.false_eq_true] at h ⊢
        · cases h; exact ⟨_, ra _ _ _⟩
        cases h
      | _ => simp [isStr] at hd

/-- Every text of the default handler begins with the line of name and message. -/
theorem C99_head_line (e : Exn) : ∃ t, handlerText dsp e = headLine dsp e ++ t := by
  have hp : ∀ e, ∃ t, plainText dsp e = headLine dsp e ++ t := by
    intro e
    cases e <;> simp only [plainText, String.append_assoc]
    all_goals first
      | exact ⟨_, rfl⟩
      | exact ⟨"", by simp⟩
  cases e with
  | arity w m x a =>
    simp only [handlerText]
    split <;> simp only [String.append_assoc] <;> exact ⟨_, rfl⟩
  | range w m v d l u i =>
    simp only [handlerText]
    split <;> simp only [String.append_assoc] <;> exact ⟨_, rfl⟩
  | base w m => exact hp (.base w m)
  | argument w m x a => exact hp (.argument w m x a)
  | missing w m d v k => exact hp (.missing w m d v k)
  | «syntax» w m f s => exact hp (.syntax w m f s)

/-- **C99 fails for calls with a wrong number of arguments**: what the machine raises is a plain exception, `arity-exn?` is false of it. -/
theorem C99_negated_arity_kind (name : Option String) (arity : Val) (n : Nat) : (arityMismatch wr name arity n).isArity = false := by
  have h : ∀ m l, (cError wr name m l).isArity = false := fun m l => by
    obtain ⟨t, ht⟩ := C99_c_error_record wr name m l
    rw [ht]; rfl
  unfold arityMismatch
  split <;> exact h _ _

/-- **C99 fails for record constructors**: a wrong number of arguments is reported as a wrong argument of `raise-arity-error`, because the constructor itself is passed for its name. -/
theorem C99_negated_constructor (make size n : Nat) :
    constructorArity make size n = .argument (.sym "raise-arity-error") (.str "contract violation") (.str "symbol? or #f") (.proc make) ∧ (constructorArity make size n).isArity = false :=
  ⟨rfl, rfl⟩

/-- **C99 fails for `raise-missing-error`**: wrong arguments are reported in the name of another procedure. -/
theorem C99_negated_missing (who d x k : Val) (h : ¬ Named who) : (raiseMissing who d x k).who = .sym "raise-argument-error" := by
  have h' : whoOk who = false := by
    cases hw : whoOk who
    · rfl
    · exact absurd (whoOk_iff.1 hw) h
  simp only [raiseMissing, h', Bool.false_eq_true, if_false]; rfl

end lib

/-- A display for examples. -/
def exDsp : Val → String
  | .int n => toString n
  | .sym s => s
  | .str s => s
  | _ => "?"

example : handlerText exDsp (raiseArity (.sym "f") (enc [1, 3] true) (.int 2)) = "f: arity mismatch\n  expected: 1, at least 3\n  given: 2\n" := by decide

example : Named (.sym "f") ∧ isArityVal (enc [1, 3] true) = true ∧ isArityVal (.cons (.int 3) (.int 4)) = false := ⟨.inr ⟨_, rfl⟩, by decide, by decide⟩

/-- An arity made by hand that is none: the handler is called again by `cdr`. -/
example : handlerText exDsp (.arity .fls (.str "m") (.cons (.int 0) (.int 1)) (.int 2)) = "error: m\n  expected: 0cdr: contract violation\n  expected: pair?\n  given: 1\n" := by decide

end Minim.Exn
