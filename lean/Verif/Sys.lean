import Verif.PathProps

set_option autoImplicit false

/-!
# Directories, `load` and the command line

Model of the parts of src/core/c/system.c that use the operating system, of the procedures of prelude.min and module.min that call them, and of src/boot/c/minim.c.

The operating system is a parameter (`OS`); what is assumed about it is `OS.Laws` in SysProps.lean, and `Tree` there is an instance.
Simplifications: names have no NUL and fit in PATH_MAX; files and directories are not changed while the program runs; a file is the list of its forms, so reading does not fail.  A form is a tree of its uses of the current
directory and of `load` (`Prog`); what it does otherwise is a function on the rest `W` of the state.  An error ends the program.
-/

namespace Minim.Sys

open Minim.Path

/-- the text of a path -/
abbrev Name := List Byte

/-- what a form does: it ends with a value, fails, asks for the current directory, sets it, loads a file, overwrites a character of the string that `(current-directory)` gives, or does something else -/
inductive Prog (V W : Type) where
  | ret (v : V)
  | fail
  | pwd (k : Name → Prog V W)
  | cd (p : Name) (k : Prog V W)
  | load (p : Name) (k : V → Prog V W)
  | poke (i : Nat) (c : Byte) (k : Prog V W)
  | act (f : W → W) (k : W → Prog V W)

/-- The operating system: `chdir`, `getcwd`, `fopen` with reading, `realpath`; the first argument is the working directory of the process.  A directory can be opened and has no forms (reading fails, which read_object takes for the end). -/
structure OS (V W : Type) where
  Dir : Type
  chdir : Dir → Name → Option Dir
  getcwd : Dir → Name
  fopen : Dir → Name → Option (List (Prog V W))
  realpath : Dir → Name → Option Name

/-- the working directory of the process, the string of `tc_directory` (minim.h:812), and the rest -/
structure St {V W : Type} (O : OS V W) where
  cwd : O.Dir
  text : Name
  w : W

section

variable {V W : Type} (O : OS V W) (void : V)

/-- `tc_directory` at the start (thread.c:26) -/
def initSt (d : O.Dir) (w : W) : St O := ⟨d, O.getcwd d, w⟩

/-- `set_current_dir` (system.c:67-73), `current_directory_set_proc` (system.c:160-164) and `(current-directory path)` (prelude.min:2411-2414) -/
def setDir (p : Name) (s : St O) : Res (St O) :=
  match O.chdir s.cwd p with
  | none => .err
  | some d => .ok { s with cwd := d, text := p }

/-- the loop of `get_file_dir` (system.c:83): the last index below `i` with a separator -/
def lastSep (p : Name) : Nat → Option Nat
  | 0 => none
  | i + 1 => if p.getD i 0#8 ≠ 47#8 then lastSep p i else some i

/-- `get_file_dir` (system.c:79-94) -/
def getFileDir (p : Name) : Option Name :=
  match lastSep p p.length with
  | none => none
  | some i => some (p.take (i + 1))

/-- one form; `ld` is `load_file` (`load`, prelude.min:2392-2396; `current-directory`, prelude.min:2407-2414; `current_directory_proc`, system.c:155-158) -/
def runProg (ld : Name → St O → Res (V × St O)) : Prog V W → St O → Res (V × St O)
  | .ret v, s => .ok (v, s)
  | .fail, _ => .err
  | .pwd k, s => runProg ld (k s.text) s
  | .cd p k, s => setDir O p s >>= fun s => runProg ld k s
  | .load p k, s => ld p s >>= fun r => runProg ld (k r.1) r.2
  | .poke i c k, s => if i < s.text.length then runProg ld k { s with text := s.text.set i c } else .err
  | .act f k, s => runProg ld (k (f s.w)) { s with w := f s.w }

/-- the loop of `load_file` (system.c:111-115) -/
def runForms (ld : Name → St O → Res (V × St O)) : List (Prog V W) → V → St O → Res (V × St O)
  | [], v, s => .ok (v, s)
  | p :: ps, _, s => runProg O ld p s >>= fun r => runForms ld ps r.1 r.2

/-- `load_file` (system.c:96-120); the first argument bounds the depth of nested calls.  Where `realpath` fails, `get_file_dir` takes the length of a null pointer. -/
def loadFile : Nat → Name → St O → Res (V × St O)
  | 0, _, _ => .oof
  | n + 1, p, s =>
    match O.fopen s.cwd p with
    | none => .err
    | some forms =>
      let old := O.getcwd s.cwd
      match O.realpath s.cwd p with
      | none => .ub
      | some q =>
        match getFileDir q with
        | none => .err
        | some c => do
          let s1 ← setDir O c s
          let r ← runForms O (loadFile n) forms void s1
          let s2 ← setDir O old r.2
          pure (r.1, s2)

/-- the path that `import`, `load`, `enter!` and `read/module` of the library give to a name (module.min:219-222, 229-232, 247-250); `join` is `build-path` (C65) -/
def modPath (text name : Name) : Name := if name.head? = some 47#8 then name else join text [name]

end

/-! ### the command line -/

/-- the settings of minim.c (minim.c:15-17) -/
structure Opts where
  libs : Bool := true
  inter : Bool := false
  quiet : Bool := false
deriving DecidableEq, Repr

/-- a character of a C string: the text is followed by NUL -/
def at_ (s : Name) (i : Nat) : Byte := s.getD i 0#8

/-- the ASCII text of a literal -/
def asc (s : String) : Name := s.toList.map fun c => BitVec.ofNat 8 c.toNat

/-- `handle_flags` (minim.c:24-53); the result is the settings and the arguments from the index that is returned, or the flag that `unknown_flag_exn` (minim.c:19-22) reports before it leaves with code 1 -/
def handleFlags : Opts → List Name → Except Name (Opts × List Name)
  | o, [] => .ok (o, [])
  | o, a :: as =>
    if at_ a 0 ≠ 45#8 then .ok (o, a :: as)
    else if at_ a 1 = 45#8 then
      if at_ a 2 = 0#8 then .ok (o, as)
      else if a = asc "--interactive" then handleFlags { o with inter := true } as
      else if a = asc "--no-libs" then handleFlags { o with libs := false } as
      else if a = asc "--quiet" then handleFlags { o with quiet := true } as
      else .error a
    else if at_ a 1 = 105#8 then handleFlags { o with inter := true } as
    else if at_ a 1 = 113#8 then handleFlags { o with quiet := true } as
    else .error a

/-- what `main` evaluates for the first argument that is no flag (minim.c:84-100) -/
inductive Start where
  | nothing
  | import_ (file : Name)
  | load (file : Name)
deriving DecidableEq, Repr

/-- what `main` does: whether it prints the version, whether it loads boot.min, the list of `(command-line)`, the file it runs, whether it starts a prompt -/
structure Plan where
  banner : Bool
  libs : Bool
  cmd : List Name
  start : Start
  prompt : Bool
deriving DecidableEq, Repr

/-- the loop that builds the list (minim.c:81-82): from the last argument to the first -/
def cmdLoop (as : List Name) : List Name := as.reverse.foldl (fun acc a => a :: acc) []

/-- `main` (minim.c:62-125) with the arguments after the name of the program -/
def main (args : List Name) : Except Name Plan :=
  match handleFlags {} args with
  | .error f => .error f
  | .ok (o, rest) =>
    .ok { banner := !o.quiet
          libs := o.libs
          cmd := cmdLoop rest
          start := match rest with
            | [] => .nothing
            | f :: _ => if !o.inter && o.libs then .import_ f else .load f
          prompt := args.isEmpty || o.inter }

/-- what `eval_expr` gives: an object, or the mark of multiple values, which are in `tc_values` -/
inductive Evaled (V : Type) where
  | one (v : V)
  | values (vs : List V)

/-- what is written to standard output -/
inductive Out (V : Type) where
  | promptText
  | line (v : V)
deriving DecidableEq, Repr

section

variable {V : Type} (isVoid : V → Bool)

/-- the lines for one result (minim.c:110-120) -/
def showC : Evaled V → List (Out V)
  | .one v => if isVoid v then [] else [.line v]
  | .values vs => vs.map .line

/-- the prompt of minim.c (minim.c:103-122), for a standard input whose forms have these results -/
def replC : List (Evaled V) → List (Out V)
  | [] => [.promptText]
  | e :: es => .promptText :: showC isVoid e ++ replC es

/-- the values that `call-with-values` passes on -/
def Evaled.list : Evaled V → List V
  | .one v => [v]
  | .values vs => vs

/-- the lines for one result at the prompt of the library (module.min:207-213) -/
def showL (e : Evaled V) : List (Out V) := (e.list.filter fun v => !isVoid v).map .line

/-- `$repl` (module.min:198-215) -/
def replL : List (Evaled V) → List (Out V)
  | [] => [.promptText]
  | e :: es => .promptText :: showL isVoid e ++ replL es

end

end Minim.Sys
