# Formal model of Minim in Lean 4: design

Source: `/repo` (bksaiki/Minim), read as text. Nothing is compiled or run; the only tie between model
and code is the reading, so every definition of the model cites the file and lines it models.

## Trusted base

* Lean 4.33.0's kernel, and the axioms `propext`, `Classical.choice`, `Quot.sound` (printed per theorem
  by `#print axioms`; the list is kept in the section "Axioms" below).
* The reading of the C and Scheme sources into Lean definitions.
* LP64, 8-bit bytes, two's complement, `char` signed (x86-64 Linux / gcc, as `minim.h:22,29` demands).
* glibc behaviour where the code relies on it (`fgetc` at end of file returns -1, `atoi`, `%ld`).

* For C106, `OS.Laws` (SysProps.lean): what `chdir`, `getcwd`, `fopen` and `realpath` have to do with each other.  `Tree.laws` proves these laws for directory trees without links.
* For C104 and C105, `tools/gen_code.py`: that it reads prelude.min, boot.min, prim.c and env.c as the reader and the C compiler do, and writes each top-level expression as the
  expression of the intermediate language it is.  Its output is committed; it is not run by the build.

Not modelled (unless a module says otherwise): the OS beyond these laws, files that change while the program runs, allocation failure,
`setjmp/longjmp` unwinding, wall-clock, signals, the Boehm back end of the GC.

## Conventions

* `Res α`: outcome of C code: `ok a`, `err` (the code signals an error / exits), `ub` (the C standard or
  the object representation gives no meaning to the step: overflow, NULL/foreign pointer dereference, out-of-bounds
  access, wild shift). Undefined behaviour is an outcome, never assumed away. Where loops may diverge the
  model takes fuel and theorems state that enough fuel exists, or that no fuel suffices.
* One directory-less module pair per area: `Verif/X.lean` (model), `Verif/XLemmas.lean` (helper lemmas), `Verif/XProps.lean`
  (property theorems, their independent specifications, non-vacuity `example`s).
* If the code violates a property, the negation is proved with a concrete witness and the strongest true restriction
  is proved with the suffix `_partial`.

## Plan per property

| id | model | proof |
|----|-------|-------|
| C01 | `read_fasl_uptr`/`write_fasl_uptr` over byte lists, `BitVec 64` words; shift ≥ 64 is `ub` | induction on the number of 7-bit blocks |
| C02 | `write_fasl`/`read_fasl` over an inductive datum type, reader with fuel | structural induction, reader consumes exactly the encoding |
| C03 | same | corollary of C02 with arbitrary suffix |
| C04 | `fgetc` at EOF yields byte 255 | negation: truncated word makes the shift undefined; partial: truncation at a type byte is an error |
| C05 | symbols as (object id, name) with an intern table | negation for generated symbols and record types; partial for interned symbols |
| C06,C07 | bucket vector, `bucket_sizes`, hash as a parameter (any function of the eq-class) | refinement to `Key → Option Val`, invariant by induction over operations |
| C08,C09 | prelude hashtables: store + cells, resize on insert/delete | same, parametrised by hash/equiv |
| C10 | cells live in a heap, copies allocate fresh cells | separation invariant |
| C11 | update with an updater that is a state transformer | negation by witness; partial for updaters that do not touch the table |
| C12–C14 | `top_env_*` with cell heap | refinement; C14 negated |
| C15,C16 | intern table with stale-index insertion | partial up to the first resize; negation by an explicit history |
| C17,C18 | heap of objects, `minim_eqp`, `minim_equalp` with fuel | induction on fuel; unfolding to trees |
| C19,C20 | prelude `equal?`/`equal-hash` over values with hashtables | negation (hashtable asymmetry); partial |
| C21–C24 | C arithmetic on `Int` with 64-bit range check giving `ub`; prelude folds | omega/Int lemmas; negations for `modulo`, `/`, 1-argument comparison |
| C25,C30 | object trees with improper lists; `car`/`cdr` of non-pair is `ub` | induction |
| C26 | prelude guards + C primitives | `≠ ub` for all objects |
| C27–C29 | prelude/library definitions as recursive functions with effects as traces | induction |
| C31–C35 | NUL-terminated buffers | induction; negations for `string->list`, `atoi`, NUL |
| C36–C40 | reader as a function on byte lists with fuel, printer | induction over data; negations |
| C41 | syntax wrappers | induction |
| C42–C44 | rtd chains, records as vectors | induction on the chain; negation for writer |
| C45 | `check_expr` over S-expressions with `ub` | equivalence with an inductive grammar, plus `ub` witnesses |
| C46–C48 | passes on S-expressions / core AST with reference semantics | simulation; negations |
| C49 | `free_vars` | set equality by induction |
| C50 | label resolution | induction over instruction lists |
| C51,C52 | bytecode, VM, compile of core forms | compiler correctness by induction on evaluation |
| C53 | stack segment arithmetic | negation/partial |
| C54–C60 | mark/sweep over a record table | reachability invariant, induction |
| C61 | heap model of `merge!`/`sort!` | sortedness, permutation, stability |
| C62,C63 | sets over C08's tables | refinement to `Finset`-like membership |
| C64 | promise state machine | history induction; negation for re-entrant bodies |
| C65 | strings as char lists | induction |
| C66,C67 | format loop, string port | induction; negations |
| C68 | closure objects | negation |
| C69–C93 | see the module descriptions below | as stated there |
| C94 | generator of matchers and an evaluator for the generated text; patterns as trees with a matching relation as specification | strong induction on the pattern: the generated matcher decides the relation; induction over clauses |
| C95 | the phases of the template engine and an evaluator for the generated text; templates as trees with an instance relation as specification | each phase computes a function of the tree; induction on the tree for the evaluation, on rows for ellipses |
| C96 | rules as pattern and template trees; a rewriting relation as specification | C94 and C95 composed |
| C97 | the traversal of expand/expr reduced to templates, applications, binding forms, clauses and macro uses, with the parameter as state; trace of what each template sees | induction on the expression |
| C98 | the rules as pattern and template trees, expanded with the models of C94 and C95; evaluator for the forms in the templates with the user's expressions as an arbitrary function of environment and state | each rule: earlier patterns do not match, instance computed; induction on data, clauses, iterations |
| C99 | the machine of C78 with error steps; exception records, raising procedures and default handler of the prelude as functions on a small value type with arbitrary display and write | case analysis; induction on arities |
| C100 | registry as finite map from identities of record types to lists, interfaces with identity, equality of interfaces as parameter | invariant over sequences of registrations |
| C101 | clauses as data, parse plus loop with a list of kinds seen; the definitions run in an environment that also holds the library | clauses by invariant of the loop; definitions by evaluation, with `recordSize` shown stable under new types |
| C102 | the checks of each procedure, written out; tables of procedures with signatures | contracts parsed from the texts in the messages; per procedure by case analysis, loops by induction |
| C103 | the same | per word by case analysis |
| C104 | the expressions of prelude.min and boot.min, translated by tools/gen_code.py; the evaluator of C52 | variables used from outside an expression, a syntactic notion; invariant of the evaluator: closures know their variables; the lists of missing names computed by the kernel |
| C105 | the same as for C104; a table of arities written by tools/gen_code.py, checked in Lean | calls and definitions collected syntactically; invariant of the evaluator: the table stays right, closures agree with it |
| C106 | an operating system with laws, an instance; forms as trees of their uses of directories and load | equation for load; invariant that the recorded string leads to the directory |
| C107 | relation between arguments, flags and rest; list of lines of a session | induction on the arguments |
| C108 | part spelled by a name; fold with range check; relation of neighbours | assigned variables found in the text, closures frozen after loading, a reflective evaluator for bodies, induction for loops |
| C109 | `List.map`, `filter`, `foldl`, `foldr`, `find?` | the same, with hypotheses on the procedure given |
| C110 | values shown by a session of the machine | C82 for files that contain the definition of call-with-values (a run that does not mention a variable does not depend on it); the conditions on the 292 forms are computed in portions |
| C111 | modules one after the other at top level | forms that change no variable may be left out: simulation of C46 with a store that may have more cells |
| C112 | part of a datum spelled by letters | path functions composed; table computed |
| C113 | files and ports without buffers | simulation with a buffer for each port, whose contents the library may move at any time |

## What is modelled, module by module

* `Fasl` (src/core/c/fasl.c): the complete reader and writer over byte lists. Objects are trees: sharing is not
  represented, symbols are their names (identity is C05). Strings and symbols are NUL-terminated byte lists.
* `Hash` (src/core/c/hashtable.c, the size table of symbol.c): bucket vectors and a heap of cells, so that aliasing between
  tables is observable. Bucket spines are values: no spine pair is ever shared, since copying, resizing and
  inserting cons new spines. Sizes are `Nat`; running past the size table is `ub`.
* `HashScm` (src/core/s/prelude.min:1454-1716): tables as records pointing to stores. Hash and equivalence procedures are
  parameters, pure and total, the same for all tables of a world.
* `Env` (src/core/c/env.c, the tl_ operations of eval.c:268-340, prelude.min:2330-2387): environments over the same cell heap;
  a cell holds its value (or the unbound object), cached hash and mutability flag. Symbols are an abstract type with any hash.
* `Intern` (src/core/c/symbol.c): the intern table with growth and the stale bucket index, `Mgensym`; a symbol is an address and
  a text. The hash function is a parameter of the positive theorems. The load factor comparison is exact.
* `FaslIdent` (fasl.c with symbol.c): objects with addresses; reading allocates and interns in reading order. Addresses of strings,
  fixnums and characters are not tracked.
- `Equal` (C17-C20): object.c `minim_eqp`, `minim_equalp`, `minim_vector_equalp`; hashtable.c `eq_hash2`, `eq_hash`; prelude.min
  `equal?`, `equal-hash`, on a memory of objects with addresses (sharing and cycles included).  Specification: finite trees
  (`Tree`, `Unfolds`) and accessibility.  Not modelled: record types with their own equality or hash procedures; the C stack
  (deep recursion overflows it).
- `Num` (C21-C24): number.c, all of it; prelude.min:517-722 (`=` `<` ..., sign predicates, `+ - * /`, `add1`, `sub1`, `remainder`,
  `modulo`).  Fixnums are 64-bit words; signed overflow, division by zero and LONG_MIN / -1 are undefined behaviour.
  Specification: Lean integers.
- **Native lists and vectors** (`ListHeap.lean`; properties `ListHeapProps.lean`): list.c:7-322 and the conversions of
  vector.c, with the prelude procedures `length`, `reverse`, `append`, `list->vector`, `vector->list`, one-list `for-each`
  over a heap of cells, so that sharing, mutation and cyclic or improper lists are visible.  Unchecked `car`/`cdr` of
  something that is not a pair is undefined behaviour.  Loops over cells take fuel; theorems show that any fuel above the
  length suffices.  Not modelled: exhaustion of memory.
- **Lists of the prelude and the library** (`ListScm.lean`; properties `ListScmProps.lean`): prelude.min:921-1099 and all of
  library/private/list.min, over immutable trees; callbacks are arbitrary functions of their arguments and a state of
  arbitrary type that may fail, so order and number of calls are visible.  Not modelled: callbacks that escape through
  continuations, mutation of pairs (see `ListHeap.lean`), `equal?` inside (a parameter, see C17-C19).

* **Strings, characters, vectors** (`Verif/Str.lean`, properties in `Verif/StrProps.lean`): `Mstring`, `Mstring2`, `string_length/ref/set`,
  `number_to_string`, `string_to_number`, `list_to_string`, `string_to_list` (string.c), `char_to_integer`, `integer_to_char`
  (char.c), `Mvector`, `vector_ref/set/fill` (vector.c), their checked versions in the prelude, `string-append` (prelude.min:852-886) and
  `substring` (string.min:8-26), and arbitrary programs over all of these.  A string is a block of bytes, its text ends at the first NUL,
  access outside a block is undefined.  libc's `sprintf("%ld")` and `atoi` are specified by hand (C11 7.22.1).  Memory
  exhaustion is not modelled: requests of 2^62 bytes or more end the modelled run.

* **Reader and printers** (`Verif/Reader.lean`; grammar and reading theorem in `Verif/ReaderLemmas.lean`, printing in `Verif/ReaderPrint.lean`, progress,
  termination and memory safety in `Verif/ReaderSafe.lean`, properties in `Verif/ReaderProps.lean`): all of read.c (`skip_whitespace`, `read_named_char`,
  `read_char`, `read_pair`, `read_vector`, `read_object`) as functions on the list of bytes not yet read, with the token buffer of 4096 bytes,
  signed `char`, `<ctype.h>` on negative values and overflow of `long` as undefined behaviour; the loop of `load_file` (system.c:109); `write_object` (print.c:5-89) and
  the writer of the prelude (prelude.min:2028-2118) for the types the reader can produce.  The specification is a grammar: tokens, the data they
  denote (`Den`), and the layouts of token sequences with white space and comments (`Lay`).  Not modelled: exhaustion of the C stack by nested data,
  printing of procedures, ports, records, hashtables and environments.

* **Syntax objects** (`Verif/Syntax.lean`, properties in `Verif/SyntaxProps.lean`): all of syntax.c and prelude.min:2280-2302 on finite trees (pairs, vectors,
  boxes, syntax objects, everything else opaque).  Not modelled: cyclic data, exhaustion of the C stack.
* **Records** (`Verif/Record.lean`; specification and representation in `Verif/RecordLemmas.lean`, simulation in `Verif/RecordSim.lean`, properties in `Verif/RecordProps.lean`):
  all of record.c, `make-record-type-descriptor` with its inheritance of procedures, `record-constructor`, `-predicate`, `-accessor`, `-mutator`, `record?`, `record-rtd`,
  `record-type-field-mutable?`, the tables of custom procedures, `record-equal-procedure`, `record-hash-procedure`, the default procedures (prelude.min:1222-1449, 1722-1832).
  Out-of-bounds access and use of a non-descriptor as a descriptor are undefined behaviour.  Programs are lists of calls that go on after errors.
  Eq-hashtables are finite maps.  Not modelled: the base record type as a value (only FASL input yields it), protocols, `define-record-type`.

* **Syntax checker** (`Verif/Sx.lean`, `Verif/Check.lean`, properties in `Verif/CheckProps.lean`): all of check.c on finite S-expressions; the accessors `minim_car`, `minim_cdr`
  on a non-pair are undefined behaviour.  Self-evaluating literals other than booleans are opaque.  Not modelled: error messages, exhaustion of the C stack.
* **Free variables** (`Verif/Core.lean`: abstract syntax of the compiler's input and intermediate forms; `Verif/JitFv.lean`, properties in `Verif/JitFvProps.lean`): the free-variable
  analysis of jitanalyze.c with its table.  The table maps expressions by address; the model maps them by structure, `C49_lookup` shows that this makes no difference.

* **Bytecode compiler** (`Verif/Bytecode.lean`; lemmas in `Verif/LabelLemmas.lean`, `Verif/CompileWf.lean`, `Verif/CompileSlots.lean`; properties in
  `Verif/CompileProps.lean`, `Verif/ArityProps.lean`): all of jitcompile.c, the bound-variable analysis of jitanalyze.c, label resolution (jitcommon.c), code vectors (jit.c).
  Labels and instructions, compared by address in C, are numbers in the model.  `resolve_refs` is handed a scope environment in place of a procedure environment when a procedure is
  compiled; the model has what the memory layout gives (documented at `templateRef`).  Left out: relocation tables kept for printing code.

* **Virtual machine** (`Verif/Machine.lean`): every instruction of the loop in eval.c with registers, argument frames, environments, variable cells, top-level environments, multiple values, saved
  frames and error handler.  Undefined behaviour (uninitialised slots, indices out of range, NULL procedure, `cdr` of `#f`) is the outcome `ub`.  Stack segments are abstracted to lists (C53 treats
  them); C functions behind `ccall` and the compiler behind `do-eval` are parameters (`Host`).  Built-in procedures with hand-written bytecode (jitprims.c: primitives, `apply`, `values`, `eval`) are in
  `Verif/SimBase.lean` and `Verif/MachineProps.lean`.
* **Reference semantics** (`Verif/RefSem.lean`, a specification): big-step evaluator of the intermediate language with store; procedures are closures over syntax.
* **Compiler correctness** (`Verif/SimBase.lean` ... `Verif/SimMain.lean`; properties in `Verif/MachineProps.lean`): forward simulation by induction over the fuel of the evaluator.
* **Errors and divergence of compiled code** (`Verif/FailSem.lean`, `Verif/SimFail.lean`, `Verif/FailProps.lean`): a specification of where an evaluation goes (`Into`: the next part to be evaluated,
  given values of the parts before it), of the errors that must be reported (`Bad`) and of those for which the machine gives something else or nothing is promised (`Loose`: conditions and assigned
  expressions with several values, assignment of a missing variable).  `err_iff` and `oof_iff` tie them to the evaluator.  The machine follows `Into` (`At.into`), reports `Bad`, and makes a step for
  every infinite chain of `Into`, hence the outcome of the run is that of the evaluation in both directions.  A top-level cell that does not exist reads as one holding the unbound marker
  (`tl_env_lookup_cell`, eval.c:320-327).

* **Stack segments** (`Verif/Stack.lean`): the argument stack of a thread: segments of a given number of bytes, frame pointer, end of the segment as computed, saved frames, growth, return, and
  the start of a nested evaluation.  Accesses outside of a segment, jumps to words that are no return address and reading words that are no argument are `ub`.  Environments, procedures and
  the values themselves are left out (they are in `Verif/Machine.lean`).  Properties in `Verif/StackProps.lean`.

* **The collector** (`Verif/Gc.lean`): the whole of src/gc/minim-gc: table of records with its chains, growing and shrinking, marking (roots, stack, conservative, atomic and custom markers), sweeping,
  allocation with the collection it may trigger, lack of memory, reallocation, explicit free, registration, statistics, shutdown.  Calls of the C library and of destructors are logged as events, undefined
  behaviour is an event.  The words scanned on the stack and in registers, the addresses returned by the C library and how often it fails are arguments of the operations.  Left out: the depth of the C
  stack while marking, destructors and markers that call the collector, rounding of the load factor (beyond 2^51 buckets).  Lemmas in `GcTable`, `GcMark`, `GcInv`, `GcHist`; specification of
  reachability in `GcMark`, of the log in `GcInv`; properties in `Verif/GcProps.lean`.

* **The optimiser** (`Verif/Passes.lean`): the three passes of src/boot/c/jitopt.c, function by function, with the symbols they generate and undefined behaviour where they take the car or cdr of
  something that is not a pair.  Specification: the reference semantics of C52 run over a sequence of top-level forms (`runs`, `Preserved` in `PassProg`): same values of every form and same values of
  every top-level variable, up to the code of procedures.  Lemmas: a rewriting relation that covers each pass (`PassRel`), its simulation (`PassWorld`, `PassInv`, `PassSim`, `PassLet`, `PassMain`), that
  its side conditions are preserved (`PassStep`, `PassCon`) and that the passes are sequences of rewriting steps (`PassCon`, `PassL1`); properties in `Verif/PassProps.lean`.

* **From program text to machine**: `Verif/Trees.lean`: the S-expressions of the core grammar are exactly the source trees of the compiler model, one tree each (`C45_trees`).  `Verif/PassTerm.lean`: a weight that
  the second pass makes smaller, and that the passes succeed on well-formed programs.  `Verif/TotalProps.lean`: C83.  `Verif/PassRun.lean`: the forms of a program, optimised, compiled and run one after the other on
  the machine as `load_file` does (system.c:108-112), after the definition of `call-with-values` in the prelude (`C82_machine_partial`, `C82_load_partial`).  Not modelled: calls of variables named `mv-call`,
  `mv-let`, `mv-values`, `make-unbound`, which the passes take for their own forms (`C82_negated_capture`).

* **Sorting** (`Verif/Sort.lean`): library/private/sort.min on the heap of `ListHeap`: `merge!`, `sort!` (list branch), `sort`.  The comparison procedure may read the heap and may fail; it does not change
  the heap.  Specification: permutation, ascending, stable (`SortOf`), for strict weak orders on the elements; properties in `Verif/SortProps.lean`.

* **String ports** (`Verif/Port.lean`): io.c (open_input_string, open_output_string, close_*, get_output_string, read_char, peek_char, char_ready, put_char, flush_output, put_string, newline)
  and the checked procedures of prelude.min:1195-1217, 1939-2026, 2160-2167, over C streams with a position and a direction; use of a closed stream and a change of direction without
  repositioning are undefined.  Specification (`Verif/PortProps.lean`): an output port is the bytes written since it was last read out, an input port the bytes still to come.  Not modelled:
  ports on files and the standard streams, failures of the operating system.

* **Formatting** (`Verif/Fmt.lean`): `fprintf`, `printf`'s core and `format` (prelude.min:2172-2259) on top of string ports and the printers.
* **Procedure objects** (`Verif/Proc.lean`): procedure_rename and the allocators it calls (procedure.c:39-57).
* **Promises** (`Verif/Promise.lean`): `delay`, `force`, `lazy` (library/private/promise.min) with arbitrary bodies over an arbitrary program state that may make and force promises.  Not
  modelled: a body that escapes by a continuation and programs that catch the failure of a body (a body that fails leaves the promise unforced and would be run again).

* **Paths** (`Verif/Path.lean`): library/private/path.min in full, on the strings of `Str`; the literals `""` and `"/"` are string objects like any others.  Specification
  (`Verif/PathProps.lean`): the relation `Comps` between a text and its components, and `join`.

* **Sets** (`Verif/SetS.lean`): library/private/set.min without printing, hashing and `equal?` of sets, on the hashtables of `HashScm`.  Specification (`Verif/SetProps.lean`): predicates on
  elements.

* **Enumeration sets** (`Verif/EnumS.lean`): the procedures of library/private/enum.min, on the sets of `SetS`; lists shared with the caller are objects.  Specification (`Verif/EnumProps.lean`): a
  list of symbols and predicates on it.

* **Object layout** (`Verif/Lay.lean`): the byte-level layout of every kind of object (size macros, accessor macros, tags) and the constructors that fill it; a store outside the allocated block is
  undefined behaviour.  Specification (`Verif/LayProps.lean`): an object is a kind and a value for each field.

* **Macro expander and derived forms** (`Verif/Exp.lean`): expander.min (expressions, bodies, modules) and the macros `and`, `or`, `cond`, `when`, `unless`, `let`, `let*`, `letrec`, named `let`,
  `let-values`, `letrec-values`, `define`, function by function on syntax objects; user-defined macros are arbitrary functions.  Specification (`Verif/ExpSurf.lean`): a direct semantics (`sev`) of the language with derived forms,
  which knows nothing of the expansion.  `Verif/ExpMain.lean` proves that the expander computes a core expression, `Verif/ExpStep.lean` that this expression simulates the specification.

* **Check of expanded modules** (`Verif/ExpCheck.lean`): `check/module!` (expander.min:299-401), which refuses modules with unknown variables. Scopes are lists of names; the message is left out.

* **Module loader** (`Verif/Load.lean`): module.min, the caches, the import, export and evaluation phases, the environments of the prompt. Expansion and evaluation of forms are parameters
  (they are modelled elsewhere); files are lists of forms; paths are texts, `build-path` and `split-path` as proved in C65. Specification: the import graph of the files (`Reach`), the first
  import that has a name (`firstOf`), the names the export forms list (`Listed`).

* **Library reader** (`Verif/LibRead.lean`): read.min, every procedure, and the loop of module.min that reads a file. Characters are bytes; results are syntax objects without locations;
  the fixnum operations are undefined on overflow. Specification (`LibReadSpec.lean`): a grammar of tokens and layouts of its own, since delimiters, white space, escapes, character names and
  comments differ from those of the core reader.
* **syntax-case** (`Verif/SxCase.lean`, `SxClause.lean`): stxcase.min, every procedure, with the procedures of stx.min and gen-temp.min that the expansion calls. The macro is a function from
  patterns to program text (`Code`), and `run` evaluates the text. Specification (`SxSpec.lean`): patterns as trees, the relation `M p d σ` (the datum matches under an assignment of the variables), and
  `Calm`, which describes the data on which the matcher raises an exception. Not modelled: source locations, messages, bodies of clauses (arbitrary functions of scope and environment), non-linear patterns.
* **Templates** (`Verif/SxTmpl.lean`): template-utils.min and template.min, every procedure: parsing to instructions, search for the variables of ellipses, folding of constants, generation of text
  (`TCode`) with renamed variables, `runT` evaluates the text. Specification (`SxTmplSpec.lean`): templates as trees, the relation `I t σ d` (the datum is the instance). Not modelled: source locations, messages.
* **Rule macros** (`Verif/SxRules.lean`): stxcase-extra.min. The specification `Rewrites` is stated with `M` and `I`.
* **Pattern variables in the expander** (`Verif/PatScope.lean`): `$expander-pattern-vars` and its saving and restoring (expander.min:262, 276-287, 429-635). Names are numbers; values of pattern variables, expansion of macros and everything else in the expander are left out.
* **`case` and `do`** (`Verif/SxCaseMac.lean`, `Verif/SxDoMac.lean`): all rules; the error clauses of `case` are left out. User expressions are opaque. The named `let` of `do` is evaluated by a small model of let.min:40-58.
* **Errors** (`Verif/Raise.lean`, `Verif/ExnLib.lean`): `do_error2`, `raise` and the return from handlers in the machine; error, errorf, raise-*-error, procedure-arity?, the default handler, arity_mismatch_exn. Printing of objects and `format` are parameters; the output of `exit` and ports are left out.
* **Generic interfaces** (`Verif/Generics.lean`): all procedures of generics.min and the table built by `define-generics`, on data instead of syntax objects.
* **define-record-type** (`Verif/DefRec.lean`): clauses, default names, and the generated definitions on top of `Verif/Record.lean`; user expressions are evaluated by a parameter.
* **Argument checks** (`Verif/Prelude.lean`): the checks of 150 procedures of prelude.min, up to the primitive reached or the report made.
* **Library code** (`Verif/LibNames.lean`, `LibPrelude.lean`, `LibBoot.lean`): all 292 top-level expressions of prelude.min and boot.min as expressions of the intermediate language and the names bound by env.c and prim.c, written by `tools/gen_code.py REPO OUTDIR`.
* **Arities** (`Verif/LibCalls.lean`, `LibCallsProps.lean`): specification and invariant for C105; no further code of the repository.
* **Directories and the command line** (`Verif/Sys.lean`): `set_current_dir`, `get_file_dir`, `load_file`, `current-directory`, the paths of module.min, `handle_flags`, `main` and the prompts of minim.c and module.min. The operating system is a parameter; evaluation of forms is a tree of their effects on the directory.
* **Running the text of the library** (`Verif/LibFix.lean` to `LibLaws.lean`): no new model of code; lemmas about RefSem.lean's evaluation of LibPrelude.lean and LibBoot.lean. `Prot` are the names the library defines; a program is decent when it neither defines nor assigns them. `Laws` says of the C functions what the procedures rely on; `lawP` is an instance with which the library is loaded by evaluation in the kernel.
- Ports on files (FilePort.lean): io.c on streams of the C library.  Trusted: streams write the bytes of their buffer in order at their own offset, at times of their choice and at the latest when flushed or closed; they read ahead at times of their choice; `exit` closes open streams (the Boehm collector runs no destructors at the end).

## Disagreements between code and properties

| property | what the code does | theorem |
|----------|--------------------|---------|
| C04 | a stream cut inside a word makes the reader shift by 64 or more bits; a stream cut inside text is accepted silently | `C04_negated_ub`, `C04_negated_silent` |
| C11 | `hashtable-update!` fetches the store before calling the updater: an updater that inserts the key leaves two bindings, one that deletes it or shrinks the table loses the result, one that grows the table loses other bindings | `C11_negated_*` |
| C12 | a closure's forward reference makes `environment-ref` return the unbound object; a value eq to the failure procedure gets it called; `(copy-environment e m '(x x))` makes two cells and assignments get undone on growth | `C12_negated_*` |
| C14 | `environment-set!` never looks at the mutability flag | `C14_negated_set` |
| C70 | `set!` of an undefined top-level variable takes the cdr of #f | `C70_negated_set_undefined` |
| C05 | `fasl-read` interns generated symbols and allocates a new record type for each record, so a record read back fails its own predicate | `C05_negated_gensym`, `C05_negated_record` |
| C15 | `intern_symbol` uses a bucket index computed before the table grows: the symbol that triggers the growth is lost and interning it again makes a second object | `C15_negated` |
| C19 | `equal?` of hashtables tests only that every entry of the first is in the second (prelude.min:1856-1863), so it is not symmetric | `C19_symmetry_fails` |
| C20 | `equal-hash` of a hashtable calls the unbound `hashtable->list` (prelude.min:1924) | `C20_negated_table_hash` |
| C18 | `equal?` does not return on two distinct circular lists (object.c:107-131); documented restriction to acyclic data | `C18_cyclic_diverges` |
| C22 | `modulo` adds the divisor when the signs differ even if the remainder is 0 (number.c:57-58): (modulo -4 2) is 2 | `C22_negated_modulo` |
| C22 | `remainder` and `modulo` do not test for zero (prelude.min:708-722) | `C22_negated_zero` |
| C22 | LONG_MIN / -1 is undefined in all three operations | `C22_negated_min` |
| C23 | `/` with three or more arguments subtracts (prelude.min:690, 692) | `C23_negated_div` |
| C24 | comparisons of one number return the number (prelude.min:531-534) | `C24_negated_single` |
| C26 | `for-each` (likewise `map`, `andmap`, `ormap`) checks its list once and then uses unchecked accessors; a callback that changes the list during the traversal causes undefined behaviour (prelude.min:967-1073) | `C26_negated_mutation` |
| C29 | `member` returns the element found, so `(member #f (list #f))` is `#f` although `#f` is a member (list.min:63-67) | `C29_negated_member` |
| C31 | `string->list` includes the terminating NUL as last character, for every string | `Minim.Str.C31_negated` |
| C32 | `string->number` uses `atoi`: undefined behaviour for every fixnum outside the range of `int`; text that is no number is read as 0 | `Minim.Str.C32_negated`, `Minim.Str.C32_negated_garbage` |
| C35 | NUL is accepted by `make-string` and `string-set!`, but ends the string | `Minim.Str.C35_negated_nul`, `Minim.Str.C35_negated_make_nul` |
| C71 | `integer->char` cuts its argument to one signed byte without a check, for every integer outside -128..127 | `Minim.Str.C71_negated` |
| C36 | `write` escapes alarm, backspace, vertical tab, page and return in strings by sequences the reader rejects | `Minim.Rd.C36_negated_string` |
| C36 | `write` prints the empty vector as `#)`, boxes as `#<garbage>`; the smallest fixnum overflows when read; the character 0xFF is taken for the end of input | `Minim.Rd.C36_negated_vector`, `Minim.Rd.C36_negated_other`, `Minim.Rd.C36_negated_fixnum` |
| C36 | the C printer does not escape strings | `Minim.Rd.C36_negated_c` |
| C37 | block and datum comments in front of `)` are errors; in front of a dot they change the datum; `||#` does not close a comment | `Minim.Rd.C37_negated_close`, `Minim.Rd.C37_negated_dot`, `Minim.Rd.C37_negated_bar` |
| C39 | a symbol or string of exactly 4096 characters overruns the buffer; numbers beyond the fixnums overflow; bytes 0x80-0xFE are passed to `isdigit` as negative numbers | `Minim.Rd.C39_negated_symbol`, `Minim.Rd.C39_negated_string`, `Minim.Rd.C39_negated_number`, `Minim.Rd.C39_negated_byte` |
| C39 | an unclosed vector is read forever; a quote at the end of input yields a list containing the C null pointer | `Minim.Rd.C39_negated_vector`, `Minim.Rd.C39_negated_quote` |
| C40 | a token starting with digits and going on with something else is read with its first digit doubled; behind `+` the sign is lost | `Minim.Rd.C40_negated`, `Minim.Rd.C40_negated_plus` |
| C41 | one layer of syntax is removed only, so syntax immediately inside syntax (which `datum->syntax` never makes) would not be seen as a list | `Minim.Stx.C41_needs_flat` |
| C44 | below a record type with a custom writer no record type can be made: `record-writer` is called with the parent's writer as its only argument | `Minim.Rec.C44_negated_writer` |
| C72 | `record-mutator` returns a working mutator for fields declared immutable | `Minim.Rec.C72_negated` |
| C73 | `make-record-type-descriptor` checks none of its arguments: a field list that is no vector is undefined behaviour; sealed parents, duplicate names and malformed fields are accepted, malformed fields make `record-type-field-mutable?` undefined | `Minim.Rec.C73_negated_fields`, `Minim.Rec.C73_negated_checks` |
| C74 | `default-record-equal-procedure` and `default-record-hash-procedure` cannot be set; reading the hash procedure returns the equality procedure | `Minim.Rec.C74_negated` |
| C45 | the operator of an application is never checked: `((if) 1)` is accepted | `Minim.Chk.C45_negated_operator` |
| C45 | `(lambda)`, `(begin)`, bodies without expression and `case-lambda` clauses that are no pairs are undefined behaviour instead of syntax errors | `Minim.Chk.C45_negated_ub` |
| C77 | `update_arity` ignores the count of a rest clause smaller than the first recorded count: `(case-lambda [(x y z . r) ..] [(x . r) ..])` reports "at least 3" but accepts 1 | `Minim.Jit.C77_negated` |
| C77 | arities such as `(0 . 1)` and `(0 1 . 2)` are reported, which `procedure-arity?` rejects | `Minim.Jit.C77_negated_improper` |
| C52 | multiple values made while the arguments of a call are being collected take the waiting arguments along: `(cons 0 (let-values ([(a b) (let ([x 1]) (values x x))]) a))` signals an arity error | `Minim.Jit.C52_negated_values` |
| C52 | `do-values` is followed by `clear-frame`: `(cons 0 (begin (values 1 2) 3))` dereferences a null procedure | `Minim.Jit.C52_negated_clear` |
| C52 | outside procedures `(set! x v)` of a top-level variable returns `v`; of an undefined variable it takes the cdr of `#f` | `Minim.Jit.C52_negated_set`, `Minim.Jit.C52_negated_set_undefined` |
| C52 | `if` accepts a condition with no or several values as true | `Minim.Jit.C52_negated_if` |
| C76 | `(eval expr env)`: `set-arg` ignores its register operand, so that the expression instead of the old environment is saved; afterwards the expression is the top-level environment | `Minim.Jit.C76_negated`, `Minim.Jit.C76_negated_general` |
| C53 | `tc_esp = tc_sfp + tc_stack_size - stack_slop` adds bytes to a pointer to words: the end of a segment is taken to be eight times as far as it is; 8190 nested calls, or `apply` on a list of 8190 elements, write past the end of the segment | `Minim.Stk.C53_negated_overrun`, `Minim.Stk.C53_negated_depth`, `Minim.Stk.C53_negated_apply` |
| C53 | when a segment is linked, the return address is not copied, and the return takes it from the start of the older segment | `Minim.Stk.C53_negated_grow` |
| C78 | `load` called in a position that is not last crashes: the nested evaluation overwrites the return address with NULL and then returns to it | `Minim.Stk.C78_negated` |
| C54 | `GC_realloc` takes the block out of the table before a collection for lack of memory: what it points to is freed | `Minim.Gc.C54_negated_realloc` |
| C54 | blocks at addresses below the code or above the bottom of the stack are never marked through pointers | `Minim.Gc.C54_negated_range` |
| C56 | `GC_free` never runs the destructor, although README.md says so; `GC_realloc` forgets it | `Minim.Gc.C56_negated_free`, `Minim.Gc.C56_negated_realloc` |
| C57 | when memory runs out `GC_realloc` loses the block, other allocations read from the null pointer | `Minim.Gc.C57_negated_lost`, `Minim.Gc.C57_negated_null` |
| C58 | `GC_get_collectable` subtracts from the number of buckets (`alloc`) instead of the number of bytes (`allocs`) | `Minim.Gc.C58_negated_collectable` |
| C59 | `gc_remove` copies the flag bits of the removed record to its predecessor in the chain: freeing a root can make another block a root | `Minim.Gc.C59_negated` |
| C60 | for lack of memory a collection is run even while collections are paused | `Minim.Gc.C60_negated` |
| C79 | sizes overflow: `GC_alloc(2^64-1)` gets 31 bytes, `GC_calloc(2^32, 2^32)` gets none | `Minim.Gc.C79_negated_alloc`, `Minim.Gc.C79_negated_calloc` |
| C46 | the first pass makes calls of `call-with-values` and `values`, which a program may have bound locally; of two bindings of one identifier in `let-values` the wrong one wins | `Minim.Jit.C46_negated`, `Minim.Jit.C46_negated_twice` |
| C47 | calls of a local variable named `values` become multiple values; the consumer is evaluated after the producer ran; consumers with a rest parameter and calls with a missing argument are undefined behaviour; arity errors vanish | `Minim.Jit.C47_negated_shadow`, `Minim.Jit.C47_negated_order`, `Minim.Jit.C47_negated_rest`, `Minim.Jit.C47_negated_missing`, `Minim.Jit.C47_negated_arity` |
| C48 | `((lambda (x) 1))` and `((lambda (a b) a) (values 1 2))` stop being errors; arguments are passed through whatever `values` is bound to | `Minim.Jit.C48_negated_arity`, `Minim.Jit.C48_negated_spread`, `Minim.Jit.C48_negated_shadow` |
| C82 | the optimiser turns an arity error into a value | `Minim.Jit.C82_negated` |
| C82 | a call of a variable named `mv-values` is compiled as if it were the optimiser's own form | `Minim.Jit.C82_negated_capture` |
| C83 | `(case-lambda)` is accepted by the checker but the compiler fails on it | `Minim.Jit.C83_negated_clauses` |
| C67 | characters after a NUL written to a string port are lost by `get-output-string` | `Minim.Port.C67_negated_nul` |
| C67 | `(put-string p s i n)` computes `(+ i n)` without an overflow check | `Minim.Port.C67_negated_range` |
| C67 | `write-char` refers to the unbound `$write-char` and never writes | `Minim.Port.C67_negated_write_char` |
| C85 | every operation on a closed port, closing it again included, uses the closed `FILE *` (the OPEN flag is never tested) | `Minim.Port.C85_negated` |
| C66 | `~~` in a format string is always refused: the check refers to the unbound variable `xs` | `Minim.Fmt.C66_negated` |
| C68 | `procedure-rename` changes the name of its argument and returns the argument | `Minim.Proc.C68_negated` |
| C64 | a promise forced by its own body is evaluated again, and the value that the inner `force` returned is replaced by the outer one | `Minim.Promise.C64_negated` |
| C65 | `(build-path "" "a")` is refused (the test for a final separator reads index -1), although empty parts are dropped in other places | `Minim.Path.C65_negated` |
| C65 | the components `"/"` that `path->list` returns are the literal of the procedure itself: changing one with `string-set!` changes all later results | `Minim.Path.C65_negated_literal` |
| C63 | `make-enumeration` keeps repeated symbols: the sets list them repeatedly | `Minim.EnumS.C63_negated` |
| C63 | `enum-set->list` of a whole enumeration returns the list of the enumeration itself; assigning to its pairs changes the enumeration but not the sets made before | `Minim.EnumS.C63_negated_shared` |
| C86 | making a character allocates 4 bytes and stores the character at offset 4 | `Minim.Lay.C86_negated_char` |
| C86 | the size of a vector of 2^60-2 or more elements overflows `long` | `Minim.Lay.C86_negated_vector` |
| C86 | the size of a record of 2^28-2 or more fields overflows `int` | `Minim.Lay.C86_negated_record` |
| C87 | `(or #f or-t)`: the expansion of `or` captures the variable `or-t` of the program | `Minim.Exp.C87_negated_capture` |
| C87 | `(let ([when (lambda (a b) a)]) (when '1 '2))`: a variable named like a macro is expanded as the macro | `Minim.Exp.C87_negated_shadow` |
| C87 | `(let ([void (lambda () '7)]) (when #f '1))`: the expansion calls the `void` of the program | `Minim.Exp.C87_negated_void` |
| C87 | `(let f ([x f]) x)`: the initial values of a named `let` see the loop procedure | `Minim.Exp.C87_negated_named` |
| C88 | `expand`, used by the prompt, keeps only the first form of an expansion: `(begin (define x 1) (define y 2))` does not define `y` | `Minim.Exp.C88_negated_prompt` |
| C88 | the list of macros is reversed with every macro definition of a module, so that of a macro that is imported and defined again once one, once the other is used | `Minim.Exp.C88_negated_redefine` |
| C88 | of several top-level forms made by one macro only the first is expanded with the macros of the module that defines it | `Minim.Exp.C88_negated_begin` |
| C89 | `check/module!` does not look at the target of a `set!`: a module that assigns an unknown variable is accepted and raises an exception when it is run | `Minim.Exp.C89_negated` |
| C90 | a module is put into the cache only after it is evaluated: modules that import each other are loaded without end instead of being reported | `Minim.Load.C90_negated_cycle` |
| C90 | the cache is indexed by the text of the path: a file imported as `b` and as `./b` is evaluated twice | `Minim.Load.C90_negated_names` |
| C90 | an absolute path in an `import` form is appended to the directory of the importing file | `Minim.Load.C90_negated_absolute` |
| C91 | `enter!` passes the environments of expansion and evaluation in the wrong order: the definitions of the module are unknown at its prompt | `Minim.Load.C91_negated` |
| C92 | `digit?` applies `char->integer` to the eof object: a number at the end of the input is an error | `Minim.LRd.C92_negated_number` |
| C92 | an unclosed block comment or vector makes the reader loop | `Minim.LRd.C92_negated_forever` |
| C92 | a file that ends with a block comment has the eof object as its last form | `Minim.LRd.C92_negated_comment` |
| C92 | a quote at the end of the input quotes the eof object | `Minim.LRd.C92_negated_quote` |
| C93 | tab, return and page are symbol characters in the library reader | `Minim.LRd.C93_negated_tab` |
| C93 | `(a .(b))` is a list of three for the core reader and a list of two for the library reader | `Minim.LRd.C93_negated_dot` |
| C93 | `1+` is read as `11+` by the core reader | `Minim.LRd.C93_negated_symbol` |
| C93 | character names and escapes of the core reader are errors in the library reader | `Minim.LRd.C93_negated_names` |
| C94 | a vector pattern with elements behind its ellipsis tries the patterns at the front on the last elements: `#(1 x ... 2)` does not match `#(1 7 2)` | `Minim.Sc.C94_negated_vector_tail` |
| C94 | a vector pattern behind a dot never matches | `Minim.Sc.C94_negated_dotted_vector` |
| C94 | `_` raises an exception at the end of an improper list | `Minim.Sc.C94_negated_wildcard` |
| C94 | a literal behind a dot raises an exception when it meets a list, and later clauses are not tried | `Minim.Sc.C94_negated_dotted_literal`, `Minim.Sc.C94_negated_later_clause` |
| C94 | a list with a tail that is a syntax object does not match an ellipsis | `Minim.Sc.C94_negated_wrapped_tail` |
| C94 | the variables `arg` and `rslt` of the expansion capture variables of the program | `Minim.Sc.C94_negated_capture` |
| C95 | a list with an ellipsis that ends in a variable or constant which is not a list raises an exception: `#'(x ... . y)` | `Minim.Sc.C95_negated_dotted_end`, `Minim.Sc.C95_negated_constant_end` |
| C95 | several ellipses in a row and the escape `(... ...)` are refused | `Minim.Sc.C95_negated_double_ellipsis`, `Minim.Sc.C95_negated_escape` |
| C95 | too many ellipses are found only when the program runs | `Minim.Sc.C95_negated_too_many` |
| C95 | a template that is just a variable may yield a bare list | `Minim.Sc.C95_negated_not_syntax` |
| C95 | a variable behind a dot gives a wrapped tail, which `syntax-case` does not match | `Minim.Sc.C95_negated_wrapped_tail` |
| C97 | pattern variables leak into later arguments of the same application: `(list (with-syntax ([y e]) #'y) #'y)` | `Minim.PatScope.C97_negated_leak`, `Minim.PatScope.C97_order_matters` |
| C97 | a local variable does not hide a pattern variable of the same name | `Minim.PatScope.C97_negated_shadow` |
| C98 | `case` captures `tmp`: `(let ([tmp 1]) (case 2 [(2) tmp]))` is 2 | `Minim.Sc.CaseM.C98_negated_capture` |
| C98 | `do` captures `loop`, cannot have a variable `loop`, and without result expressions is undefined behaviour | `Minim.Sc.DoM.C98_negated_do_capture`, `Minim.Sc.DoM.C98_negated_do_variable`, `Minim.Sc.DoM.C98_negated_do_result` |
| C99 | an error of C code at the top level, for instance an unbound variable as a form, ends the process without calling any handler | `Minim.Jit.C99_negated_top_level` |
| C99 | `raise` returns what the handler returns | `Minim.Jit.C99_negated_raise` |
| C99 | calling a procedure with a wrong number of arguments raises a plain exception, not an arity exception | `Minim.Exn.C99_negated_arity_kind` |
| C99 | a record constructor with a wrong number of arguments complains about the `who` argument of `raise-arity-error` (prelude.min:1395) | `Minim.Exn.C99_negated_constructor` |
| C99 | wrong arguments of `raise-missing-error` are reported for `raise-argument-error` | `Minim.Exn.C99_negated_missing` |
| C100 | `generics-accessor` compares interfaces with `equal?`: after `(record-type-equal-procedure (record-rtd gen:x) p)` with a structural `p` two interfaces with the same methods share implementations | `Minim.Gen.C100_negated_equal` |
| C100 | `generics-accessor` reports the interface when the name is no symbol (generics.min:95) | `Minim.Gen.C100_negated_report` |
| C100 | `define-generics` accepts a method name twice; the second method is unreachable | `Minim.Gen.C100_negated_duplicate` |
| C101 | a type with a parent that implements gen:custom-write cannot be defined (prelude.min:1318, C44) | `Minim.DRT.C101_negated_writer` |
| C101 | method expressions `fns`, `methods`, `gen-id` are captured by the expansion (record.min:222-226) | `Minim.DRT.C101_negated_capture` |
| C101 | `(define-record-type record (fields accessor size))` fails: its first accessor hides `record-accessor` | `Minim.DRT.C101_negated_shadow` |
| C102 | 45 procedures report a wrong name, argument, contract or use an undefined variable instead of reporting, e.g. make-string, string-append, `*`, `/`, vector-ref, hashtable-size, put-string, environment-ref (prelude.min) | `Minim.Pre.C102_negated_report` |
| C102 | `(< 1 0 'a)` is false, not an error (prelude.min:547-551) | `Minim.Pre.C102_negated_report` |
| C104 | prelude.min uses undefined variables: `division-0-error` in `/`, `init` and `len` in make-string, `s` in string-append, `name` in open-input-string, `fields` and `field` in make-record-type-descriptor, `v_` in record-type-equal-procedure and record-writer, `hashtable->list` in equal-hash, `str` in put-string, `$write-char` in write-char, `xs` in fprintf, `raise-arugment-error` in environment-ref | `Minim.Lib.C104_negated_prelude` |
| C105 | raise-argument-error is called with four arguments by the hashtable procedures when a hash procedure returns no fixnum, raise-range-error with five by substring, `$default-record-equal-procedure` and `$default-record-hash-procedure` with one: each of these gives an arity error | `Minim.Lib.C105_negated_calls`, `Minim.Lib.C105_negated_default` |
| C106 | set_current_dir records the path it was given: after `(current-directory "a")`, `(current-directory)` gives `"a"`, which means another directory or none from there; `(import "m")` then takes `a/m` in the new directory for the file | `Minim.Sys.C106_negated_text`, `C106_negated_none`, `C106_negated_module` |
| C106 | load changes what `(current-directory)` gives although the directory is the same | `Minim.Sys.C106_negated_load` |
| C106 | `(current-directory)` gives the string the system uses: it can be overwritten with string-set! | `Minim.Sys.C106_negated_shared` |
| C107 | short flags are recognised by their first letter: `-input` is `-i`, `-query` is `-q` | `Minim.Sys.C107_negated_letter` |
| C107 | `minim -q` and `minim --` do nothing: the prompt depends on the number of all arguments | `Minim.Sys.C107_negated_prompt` |
| C107 | the prompt of the C program writes void values among several values, that of the library does not | `Minim.Sys.C107_negated_void` |
| C111 | forms of the modules that are no definitions are left out of the boot file | `Minim.GenBoot.C111_negated_effect` |
| C111 | boot.min contains no call that gives the record type `set` its methods for equality, hashing and printing (set.min:46-53) | `Minim.GenBoot.C111_negated_methods` |
| C111 | in the boot file modules share their variables | `Minim.GenBoot.C111_negated_clash` |
| C111 | if a module cannot be read, the old boot file is lost | `Minim.GenBoot.C111_negated_lost` |
| C113 | a reader does not see what was written before the port for writing is flushed or closed; two ports for writing overwrite each other | `Minim.FPort.C113_negated_unflushed`, `Minim.FPort.C113_negated_two` |

## Axioms

Generated from `#print axioms` for every theorem named in MANIFEST.json (prefix `Minim.` dropped).

* Classical.choice, Quot.sound, propext: `Fasl.C01_uptr_round_trip`, `Fasl.C02_object_round_trip`, `Fasl.C02_sequence_round_trip`, `Fasl.C03_uniquely_decodable`, `Fasl.C04_negated_ub`, `Fasl.C04_negated_silent`, `Fasl.C04_object_boundary_partial`, `Fasl.C04_cutAt_is_truncation`, `Fasl.C04_never_silent_partial`, `FaslIdent.C05_symbols_partial`, `FaslIdent.C05_rtd_partial`, `FaslIdent.C05_negated_gensym`, `FaslIdent.C05_negated_record`, `FaslIdent.reload_eq`, `Hash.C06_runs`, `Hash.C08_runs`, `Hash.C11_unrelated_partial`, `Intern.C15_sound`, `Intern.C15_canonical_partial`, `Intern.C15_small_partial`, `Intern.C15_negated`, `Intern.C16_gensym_fresh`, `Equal.C17_equal_trans`, `Equal.C18_decides_tree_equality`, `Equal.C19_trans_partial`, `Equal.C19_symm_partial`, `Equal.C19_symm_no_tables_partial`, `Equal.C19_eq_implies_equal_partial`, `Equal.C20_equal_hash`, `Equal.C20_native_equal_hash`, `Equal.C20_table_consistent`, `Num.C21_add`, `Num.C21_sub`, `Num.C21_mul`, `Num.C21_neg`, `Num.C21_add1_sub1`, `Num.C23_add`, `Num.C23_mul`, `Num.C23_sub`, `Num.C22_division_law`, `Num.C22_negated_modulo`, `Num.C22_modulo_partial`, `Num.C22_negated_zero`, `Num.C23_units`, `Num.C23_negated_div`, `Num.C23_div_partial`, `LS.C27_map`, `LS.C27_for_each`, `LS.C27_and_or`, `LS.C27_pure`, `LS.C28_iota`, `LS.C28_enumerate`, `LS.C29_list_ref`, `LS.C29_list_set`, `LS.C29_index_of`, `Str.C31_negated`, `Str.C32_number_to_string`, `Str.C32_partial`, `Str.C32_negated`, `Str.C34_programs`, `Str.C34_vector_ref`, `Str.C34_vector_set`, `Str.C34_make_vector`, `Str.C35_ref`, `Str.C35_set`, `Str.C35_substring`, `Rec.C34_records`, `Rec.C42_refines`, `Str.C35_append`, `Str.C35_set_ref`, `Str.C35_make_string`, `Str.C35_negated_make_nul`, `Rd.C36_partial`, `Rd.C36_partial_c`, `Rd.C36_negated_c`, `Rd.C37_partial`, `Rd.C38_position`, `Rd.C38_file`, `Rd.C39_negated_symbol`, `Rd.C40_integer`, `Rd.C40_hexadecimal`, `Rd.C40_partial`, `Rd.C40_negated`, `Rd.C40_negated_plus`, `Rec.C42_last_write`, `Rec.C43_predicate`, `Rec.C44_partial`, `Rec.C44_override`, `Chk.C45_exact`, `Chk.C45_sound_partial`, `Chk.C45_rejects_partial`, `Jit.C46_partial`, `Jit.C47_partial`, `Jit.C48_partial`, `Jit.C50_compiled`, `Jit.C51_case_lambda`, `Jit.C51_lambda`, `Jit.C52_value_partial`, `Jit.C52_datum_partial`, `Jit.C52_error_partial`, `Jit.C52_diverge_partial`, `Jit.C52_outcome_partial`, `Jit.C52_assign_partial`, `Stk.C53_within_partial`, `Stk.C53_negated_overrun`, `Stk.C53_negated_depth`, `Stk.C53_negated_apply`, `Stk.C53_negated_grow`, `Gc.C54_survives_partial`, `Gc.C54_alloc_partial`, `Gc.C54_calloc_partial`, `Gc.C54_negated_realloc`, `Gc.C55_only_reachable`, `Gc.C56_collect_partial`, `Gc.C57_table_partial`, `Gc.C58_allocated_partial`, `Gc.C58_reachable_partial`, `Gc.C59_free_partial`, `Gc.C59_root_partial`, `Gc.C59_negated`, `Gc.C60_trigger_partial`, `Gc.C60_paused_partial`, `LH.C61_list`, `LH.C61_vector`, `LH.C61_any_order`, `SetS.C62`, `EnumS.C63_partial`, `Path.C65_partial`, `Path.C65_list`, `Path.C65_build`, `Path.C65_build_empty`, `Path.C65_rebuild`, `Path.C65_split`, `Path.C65_absolute`, `Fmt.C66_partial`, `Fmt.C66_fprintf_partial`, `Fmt.C66_negated`, `Port.C67_partial`, `Port.C67_refines_partial`, `Env.C69_captured_cell`, `Env.C70_defined_partial`, `Str.C71_char_integer_char`, `Str.C71_partial`, `Str.C71_negated`, `Rec.C72_partial`, `Jit.C75_slots`, `Jit.C76_value_partial`, `Jit.C77_exact_partial`, `Jit.C77_lambda`, `Stk.C78_load_tail_partial`, `Stk.C78_negated`, `Gc.C79_alloc_partial`, `Gc.C79_calloc_partial`, `Gc.C79_realloc_partial`, `Gc.C80_finalize`, `Gc.C81_dtor`, `Gc.C81_marker`, `Gc.C81_root`, `Gc.C81_root_survives`, `Gc.C81_dtor_runs`, `Jit.C82_optimise_partial`, `Jit.C82_machine_partial`, `Jit.C82_load_partial`, `Jit.C82_file_partial`, `Jit.C83_terminates`, `Jit.C83_total_partial`, `Lay.C86_partial`, `Exp.C87_expr_partial`, `Exp.C87_datum_partial`, `Exp.C88_module_partial`, `Exp.C88_globals_partial`, `Exp.C89_check_partial`, `Exp.C89_expanded_partial`, `Load.C90_once`, `Load.C90_imports`, `Load.C90_exports`, `Load.C90_acyclic`, `Load.C91_partial`, `LRd.C92_datum_partial`, `LRd.C92_file_partial`, `LRd.C92_negated_number`, `LRd.C93_partial`, `Sc.C94_match_partial`, `Sc.C94_never_wrong_partial`, `Sc.C94_syntax_case_partial`, `Sc.C94_syntax_case_never_wrong_partial`, `Sc.C94_match_unique`, `Sc.C95_template_partial`, `Sc.C95_flat_partial`, `Sc.C95_negated_double_ellipsis`, `Sc.C96_rules_partial`, `Sc.C96_with_syntax_partial`, `Sc.C96_syntax_rules_partial`, `Sc.CaseM.C98_case_partial`, `Sc.DoM.C98_do_partial`, `Sc.DoM.C98_negated_do_result`, `Exn.C99_error`, `Exn.C99_c_error_record`, `Exn.C99_kinds`, `Exn.C99_invalid`, `Exn.C99_arity_text`, `Exn.C99_report`, `Exn.C99_head_line`, `Exn.C99_negated_arity_kind`, `Gen.C100_arity`, `Gen.C100_add`, `Gen.C100_lookup_partial`, `Gen.C100_instance_partial`, `DRT.C101_clauses`, `DRT.C101_short`, `DRT.C101_define_partial`, `Pre.C102_report_partial`, `Pre.C102_guard`, `Pre.C102_compare`, `Pre.C102_negated_report`, `Pre.C103_select`, `Lib.C104_expression_partial`, `Lib.C104_library_partial`, `Lib.C104_boot_partial`, `Lib.C105_calls_partial`, `Lib.C105_library_partial`, `Sys.C106_load`, `Sys.C106_restores`, `Sys.C106_independent`, `Sys.C106_file_dir`, `Sys.C106_text_partial`, `Sys.C106_negated_text`, `Sys.C106_negated_none`, `Sys.C106_negated_module`, `Sys.C106_negated_load`, `Sys.C106_negated_shared`, `Sys.C107_plan`, `Sys.C107_partial`, `Sys.C107_command_line`, `Sys.C107_negated_letter`, `Sys.C107_negated_prompt`, `Fix.C108_accessors`, `Fix.C108_arithmetic`, `Fix.C108_comparisons`, `Fix.C108_numbers`, `Fix.C108_lists`, `Fix.C108_positions`, `Fix.C108_kept`, `Fix.C109_procedures_partial`, `Fix.C109_several_partial`, `Fix.C109_equal_partial`, `Fix.C110_load_partial`, `Fix.C110_call_partial`, `GenBoot.C111_partial`

* Quot.sound, propext: `Fasl.C02_write_outcome`, `Fasl.readFasl_ne_oof`, `Fasl.readFasl_fuel`, `Fasl.readFasl_consumes`, `Hash.C06_native_map`, `Hash.C06_native_map_any`, `Hash.C07_size_and_load`, `Hash.C07_growth`, `Hash.C08_scheme_map`, `Hash.C08_size`, `Hash.C09_entries`, `Hash.C10_copy_independent`, `Hash.C11_update_partial`, `Env.C12_env_map_partial`, `Env.C12_scheme_ref_partial`, `Env.C13_copy_partial`, `Env.C13_full_copy`, `Env.C14_flag_partial`, `Equal.C18_cyclic_diverges`, `Num.C22_defined`, `Num.C22_div_zero_partial`, `Num.C23_type_check`, `Num.C24_chain_partial`, `Num.C24_sign`, `LH.C25_reverse`, `LH.C25_append2`, `LH.C25_append`, `LH.C25_copy`, `LH.C25_memq`, `LH.C30_ref`, `LH.C28_make_list`, `LH.C26_no_ub_partial`, `LH.C26_negated_mutation`, `LS.C27_bad_arguments`, `LS.C26_library_improper`, `LS.C29_accessors`, `LS.C29_remove_star`, `LS.C29_filter`, `LS.C29_filter_pure`, `LS.C29_folds_pure`, `LH.C30_set`, `Str.C31_round_trip`, `Str.C31_string_to_list`, `Str.C31_list_to_string`, `Str.C31_list_to_string_type`, `Str.C31_partial`, `LH.C33_list_to_vector`, `LH.C33_vector_to_list`, `LH.C33_round_trip`, `Str.C34_vector_fill`, `Str.C35_substring_type`, `Rd.C36_strings`, `Rd.C36_negated_string`, `Rd.C36_negated_vector`, `Rd.C36_negated_fixnum`, `Rd.C36_negated_other`, `Rd.C37_characters`, `Rd.C37_block`, `Rd.C37_datum`, `Rd.C38_prefix`, `Rd.C39_partial`, `Rd.C39_no_ub_partial`, `Rd.C39_terminates_partial`, `Rd.C39_negated_string`, `Rd.C39_negated_number`, `Rd.C39_negated_byte`, `Stx.C41_inverse`, `Stx.C41_mixed`, `Stx.C41_wrapped`, `Stx.C41_flat`, `Stx.C41_list`, `Stx.C41_list_false`, `Stx.C41_errors`, `Rec.C42_constructed`, `Rec.C43_other`, `Rec.C44_until`, `Rec.C44_used`, `Rec.C44_negated_writer`, `Chk.C45_accepts`, `Chk.C45_negated_operator`, `Chk.C45_negated_ub`, `Core.C45_trees`, `Jit.C49_exact`, `Jit.C49_table`, `Jit.C49_lookup`, `Jit.C50_resolve`, `Jit.C52_negated_values`, `Jit.C52_negated_clear`, `Jit.C52_negated_set`, `Jit.C52_negated_set_undefined`, `Jit.C52_negated_if`, `Gc.C56_negated_free`, `Gc.C56_negated_realloc`, `Gc.C58_negated_collectable`, `Gc.C60_negated`, `Promise.C64_cached`, `Promise.C64_once_partial`, `Promise.C64_lazy`, `Fmt.C66_fprintf_refused`, `Port.C67_negated_write_char`, `Proc.C68_partial`, `Proc.C68_negated`, `Rec.C73_partial`, `Jit.C77_sound`, `Jit.C77_negated`, `Jit.C82_negated_capture`, `Port.C84_input`, `Port.C85_partial`, `Port.C85_negated`, `Lay.C86_tags`, `Lay.C86_negated_char`, `Lay.C86_negated_vector`, `Lay.C86_negated_record`, `Exp.C87_negated_capture`, `Exp.C87_negated_shadow`, `Exp.C87_negated_void`, `Exp.C87_negated_named`, `Exp.C88_negated_prompt`, `Exp.C89_negated`, `Load.C90_ends`, `LRd.C92_result`, `LRd.C92_ends`, `LRd.C92_negated_forever`, `Sc.C94_negated_vector_tail`, `Sc.C94_negated_dotted_literal`, `Sc.C94_negated_later_clause`, `Sc.C94_negated_wrapped_tail`, `Sc.C94_negated_capture`, `Sc.C95_negated_dotted_end`, `Sc.C95_negated_constant_end`, `Sc.C95_negated_escape`, `Sc.C95_negated_too_many`, `Sc.C95_negated_wrapped_tail`, `PatScope.C97_templates_see_scope_partial`, `PatScope.C97_bodies_partial`, `PatScope.C97_negated_leak`, `PatScope.C97_negated_shadow`, `PatScope.C97_order_matters`, `Exn.C99_argument`, `Exn.C99_arity_check`, `Exn.C99_negated_missing`, `Gen.C100_define`, `Gen.C100_no_inheritance`, `DRT.C101_use`, `DRT.C101_sealed`, `DRT.C101_negated_writer`, `DRT.C101_negated_capture`, `Lib.C104_negated_write_char`, `Lib.C105_negated_default`, `Sys.C106_sequence`, `Sys.C107_prompt_partial`, `GenBoot.C111_text_definitions`, `LH.C112_accessors`, `LH.C112_assign`, `FPort.C113_partial`, `FPort.C113_closed_partial`, `FPort.C113_flush_partial`

* none: `LS.C29_cons_star`, `Stx.C41_idempotent`, `Jit.C77_negated_improper`, `Sys.C106_back_partial`, `Sys.C106_module_partial`, `Sys.C107_negated_void`

* propext: `Hash.eq_consistent`, `Hash.C11_negated_duplicate`, `Hash.C11_negated_delete`, `Hash.C11_negated_shrink`, `Hash.C11_negated_growth`, `Env.C12_negated_forward_reference`, `Env.C12_negated_fail`, `Env.C12_negated_duplicates`, `Env.C14_negated_set`, `Equal.C17_eq_equivalence`, `Equal.C17_equal_refl`, `Equal.C17_equal_symm`, `Equal.C17_eq_implies_equal`, `Equal.acyclic_unfolds`, `Equal.unfolds_unique`, `Equal.C19_symmetry_fails`, `Equal.C19_refl_partial`, `Equal.C20_eq_hash`, `Equal.C20_negated_table_hash`, `Num.C22_negated_min`, `Num.C23_negated_div_witness`, `Num.C24_negated_single`, `Num.C24_type_check`, `LH.C25_listp`, `LH.C25_length`, `LH.C25_set_tail`, `LH.C26_improper_refused`, `LS.C28_enumerate_improper`, `LS.C29_accessors_improper`, `LS.C28_make_list`, `LS.C29_member_partial`, `LS.C29_negated_member`, `LS.C29_remove`, `LS.C29_foldl`, `LS.C29_foldr`, `LS.C29_assoc`, `Str.C32_negated_garbage`, `Str.C35_append_type`, `Str.C35_length`, `Str.C35_negated_nul`, `Rd.C37_space`, `Rd.C37_negated_close`, `Rd.C37_negated_dot`, `Rd.C37_negated_bar`, `Rd.C39_fuel`, `Rd.C39_negated_vector`, `Rd.C39_negated_quote`, `Stx.C41_elements`, `Stx.C41_needs_flat`, `Jit.C46_negated`, `Jit.C46_negated_twice`, `Jit.C47_negated_shadow`, `Jit.C47_negated_order`, `Jit.C47_negated_rest`, `Jit.C47_negated_missing`, `Jit.C47_negated_arity`, `Jit.C48_negated_arity`, `Jit.C48_negated_spread`, `Jit.C48_negated_shadow`, `Gc.C54_negated_range`, `Gc.C57_negated_lost`, `Gc.C57_negated_null`, `LH.C61_refused`, `EnumS.C63_negated`, `EnumS.C63_negated_shared`, `Promise.C64_refused`, `Promise.C64_negated`, `Path.C65_negated`, `Path.C65_negated_literal`, `Port.C67_negated_nul`, `Port.C67_negated_range`, `Env.C70_negated_set_undefined`, `Rec.C72_negated`, `Rec.C73_negated_fields`, `Rec.C73_negated_checks`, `Rec.C74_partial`, `Rec.C74_negated`, `Jit.boundVars_lookup`, `Jit.C76_one_arg`, `Jit.C76_two_args_partial`, `Jit.C76_arity`, `Jit.C76_negated`, `Jit.C76_negated_general`, `Gc.C79_negated_alloc`, `Gc.C79_negated_calloc`, `Jit.C82_negated`, `Jit.C83_negated_clauses`, `Exp.C88_negated_redefine`, `Exp.C88_negated_begin`, `Load.C90_negated_cycle`, `Load.C90_negated_names`, `Load.C90_negated_absolute`, `Load.C91_negated`, `LRd.C92_negated_comment`, `LRd.C92_negated_quote`, `LRd.C93_negated_tab`, `LRd.C93_negated_dot`, `LRd.C93_negated_symbol`, `LRd.C93_negated_names`, `Sc.C94_negated_dotted_vector`, `Sc.C94_negated_wildcard`, `Sc.C95_instance_unique`, `Sc.C95_negated_not_syntax`, `Sc.CaseM.C98_negated_capture`, `Sc.DoM.C98_negated_do_capture`, `Sc.DoM.C98_negated_do_variable`, `Jit.C99_raise`, `Jit.C99_c_error_partial`, `Jit.C99_negated_top_level`, `Jit.C99_raise_returns`, `Jit.C99_c_error_returns`, `Jit.C99_negated_raise`, `Exn.C99_negated_constructor`, `Gen.C100_formals`, `Gen.C100_negated_equal`, `Gen.C100_negated_report`, `Gen.C100_negated_duplicate`, `DRT.C101_header`, `DRT.C101_negated_shadow`, `Pre.C103_names`, `Lib.C104_boot`, `Lib.C104_negated_prelude`, `Lib.C105_table`, `Lib.C105_negated_calls`, `Sys.C106_missing`, `Sys.C107_library_prompt`, `GenBoot.C111_text_names`, `GenBoot.C111_text_prelude`, `GenBoot.C111_negated_effect`, `GenBoot.C111_negated_clash`, `GenBoot.C111_negated_lost`, `GenBoot.C111_negated_empty`, `GenBoot.C111_negated_methods`, `FPort.C113_negated_unflushed`, `FPort.C113_negated_two`, `FPort.C113_negated_truncated`
