{"id": "C01", "title": "FASL unsigned words round-trip", "statement": "Writing any machine word in the FASL variable-length encoding and reading it back yields the same word, and reading consumes exactly the bytes that were written no matter what follows them in the stream.", "quantifier": "every 64-bit word, every following byte sequence", "why_tests_cant": "2^64 words and unboundedly many continuations; the interesting words are those at 7-bit block boundaries", "anchors": ["src/core/c/fasl.c: read_fasl_uptr, write_fasl_uptr"]}
{"id": "C02", "title": "FASL objects round-trip", "statement": "Every object fasl-write accepts is reproduced by fasl-read up to equal? (same structure, same atoms), leaving the rest of the stream untouched, so any sequence of written objects is read back in order.", "quantifier": "every finite tree of null, booleans, eof, void, symbols, strings, fixnums, characters, pairs, vectors, record descriptors and records; every sequence of them", "why_tests_cant": "arbitrarily deep and wide data cannot be enumerated", "anchors": ["src/core/c/fasl.c: read_fasl, write_fasl, read_fasl_pair, write_fasl_pair, read_fasl_vector, read_fasl_record"]}
{"id": "C03", "title": "FASL encoding is uniquely decodable", "statement": "Two different serialisable objects never have the same encoding and no encoding is a proper prefix of another one.", "quantifier": "all pairs of serialisable objects", "why_tests_cant": "quantifies over all pairs of objects", "anchors": ["src/core/c/fasl.c: write_fasl"]}
{"id": "C04", "title": "Truncated FASL input is diagnosed", "statement": "fasl-read on a stream that ends in the middle of an object stops with the malformed-data error instead of running forever or executing an undefined shift.", "quantifier": "every proper prefix of every encoding", "why_tests_cant": "needs every truncation point of every encoding, and non-termination cannot be observed by a test", "anchors": ["src/core/c/fasl.c: read_fasl_uptr, read_fasl_type"]}
{"id": "C05", "title": "FASL preserves identity of symbols and record types", "statement": "A symbol that is eq? to another one before a FASL round trip is eq? to it afterwards, an uninterned symbol stays different from the interned symbol of the same name, and a record read back still satisfies its own record predicate.", "quantifier": "every symbol (interned or generated) and every record instance", "why_tests_cant": "identity must hold for all symbols and all types, not sampled ones", "anchors": ["src/core/c/fasl.c: read_fasl_symbol, read_fasl_record", "src/core/c/symbol.c: Mgensym", "src/core/s/prelude.min: record-predicate"]}
{"id": "C06", "title": "The native eq-hashtable behaves like a finite map", "statement": "For any sequence of set, find, copy, clear and any keys (including colliding hashes and across table growth) a find returns the value most recently set for an eq? key and reports absence otherwise.", "quantifier": "all operation sequences, all keys, all hash values", "why_tests_cant": "growth and collision interleavings are unbounded", "anchors": ["src/core/c/hashtable.c: eq_hashtable_set, eq_hashtable_find, eq_hashtable_find2, eq_hashtable_resize, hashtable_clear"]}
{"id": "C07", "title": "Hashtable size and load invariants", "statement": "After any sequence of operations the reported size equals the number of distinct keys present, it never exceeds the number of buckets of the native table, and the number of buckets is one of the fixed table sizes and the smallest that fits when the table grows.", "quantifier": "all operation sequences", "why_tests_cant": "depends on the whole operation history", "anchors": ["src/core/c/hashtable.c: eq_hashtable_set, eq_hashtable_resize, Mhashtable", "src/core/c/symbol.c: bucket_sizes"]}
{"id": "C08", "title": "Scheme hashtables behave like finite maps", "statement": "For every hash procedure consistent with its equivalence procedure, any sequence of hashtable-set!, hashtable-delete!, hashtable-update!, hashtable-clear! leaves a table whose hashtable-ref, hashtable-contains? and hashtable-size agree with an abstract finite map, across growing and shrinking.", "quantifier": "all operation sequences, all keys, all hash/equivalence pairs that are consistent", "why_tests_cant": "unbounded histories with arbitrary user hash functions", "anchors": ["src/core/s/prelude.min: make-custom-hashtable, hashtable-ref, hashtable-set!, hashtable-update!, hashtable-delete!, hashtable-contains?, hashtable-size"]}
{"id": "C09", "title": "hashtable-entries enumerates each binding once", "statement": "hashtable-entries, hashtable-keys and hashtable-vals return vectors of exactly hashtable-size elements listing every binding exactly once, keys and values at the same positions.", "quantifier": "every reachable table", "why_tests_cant": "every reachable table, any bucket layout", "anchors": ["src/core/s/prelude.min: hashtable-entries, hashtable-keys, hashtable-vals", "src/core/c/hashtable.c: hashtable_cells"]}
{"id": "C10", "title": "Copied hashtables are independent", "statement": "After hashtable-copy, operations on either table never change what the other one answers.", "quantifier": "all tables, all operation sequences applied to either copy", "why_tests_cant": "aliasing shows up only for particular later mutations", "anchors": ["src/core/c/hashtable.c: hashtable_copy2", "src/core/s/prelude.min: hashtable-copy"]}
{"id": "C11", "title": "hashtable-update! is atomic with respect to its updater", "statement": "hashtable-update! stores the updater's result under the key, leaving exactly one binding for it, even if the updater itself uses the same table.", "quantifier": "every table, key and updater, including re-entrant ones", "why_tests_cant": "re-entrant updaters that trigger growth are outside any practical test set", "anchors": ["src/core/s/prelude.min: hashtable-update!"]}
{"id": "C12", "title": "Top-level environments behave like finite maps", "statement": "For any history of environment-set!, definitions and lookups, across growth, environment-ref returns the latest value set for a symbol and the failure value for symbols never set; the symbol list contains each bound name exactly once.", "quantifier": "all operation sequences, all symbols", "why_tests_cant": "unbounded histories and bucket collisions", "anchors": ["src/core/c/env.c: top_env_insert, top_env_find, top_env_resize, environment_variable_set, environment_variable_ref, top_env_symbols"]}
{"id": "C13", "title": "Copied environments are independent snapshots", "statement": "copy-environment gives an environment that agrees with the original on every listed symbol, binds nothing else, and later changes to either one are invisible in the other.", "quantifier": "all environments, all symbol lists, all later operation sequences", "why_tests_cant": "aliasing appears only under later mutation", "anchors": ["src/core/c/env.c: top_env_copy, top_env_copy2, copy_environment"]}
{"id": "C14", "title": "Immutable environments reject assignment", "statement": "A binding copied with mutable? = #f (including all bindings of make-base-environment) cannot be changed by environment-set!.", "quantifier": "all environments, symbols and values", "why_tests_cant": "a for-all over bindings and later operations", "anchors": ["src/core/c/env.c: environment_variable_set, make_base_env, top_env_copy2"]}
{"id": "C15", "title": "Interning is canonical", "statement": "Interning equal names always gives the same symbol object and different names different objects, for any number of symbols.", "quantifier": "all sequences of interned names", "why_tests_cant": "the failure needs thousands of symbols to trigger a resize and one particular name", "anchors": ["src/core/c/symbol.c: intern_symbol, intern_table_resize, intern_table_insert"]}
{"id": "C16", "title": "Generated symbols are fresh", "statement": "A symbol returned by gensym is not eq? to any symbol that existed before nor to any symbol interned later, even one with the same spelling.", "quantifier": "all histories of intern and gensym", "why_tests_cant": "quantifies over all past and future interning histories", "anchors": ["src/core/c/symbol.c: Mgensym, intern_symbol"]}
{"id": "C17", "title": "eq? and the native equal? are equivalence relations", "statement": "Both are reflexive, symmetric and transitive on every heap, whenever the comparison terminates; eq? implies equal?.", "quantifier": "all heaps (including shared and cyclic structure), all triples of objects", "why_tests_cant": "laws over all heaps", "anchors": ["src/core/c/object.c: minim_eqp, minim_equalp, minim_vector_equalp"]}
{"id": "C18", "title": "equal? terminates on acyclic data and decides structural equality", "statement": "On data without cycles the native equal? always returns and answers true exactly when the two objects unfold to the same tree.", "quantifier": "all acyclic heaps and object pairs", "why_tests_cant": "unbounded depth", "anchors": ["src/core/c/object.c: minim_equalp"]}
{"id": "C19", "title": "The Scheme-level equal? is an equivalence relation", "statement": "equal? is reflexive, symmetric and transitive, also for hashtables and boxes.", "quantifier": "all values, including hashtables", "why_tests_cant": "needs all pairs of tables", "anchors": ["src/core/s/prelude.min: equal?"]}
{"id": "C20", "title": "Equal objects hash equally", "statement": "equal? objects have the same equal-hash and eq? objects the same eq-hash, so they land in the same bucket of any table.", "quantifier": "all pairs of objects", "why_tests_cant": "all pairs of objects", "anchors": ["src/core/c/hashtable.c: eq_hash2, hash_bytes, equal_hash_proc", "src/core/s/prelude.min: equal-hash"]}
{"id": "C21", "title": "Fixnum arithmetic is exact or undefined", "statement": "+, -, * and negation return the mathematical integer result whenever it fits in 64 bits and every other case is an overflow (undefined behaviour in C); no in-range result is ever wrong.", "quantifier": "all pairs of 64-bit integers and all argument lists", "why_tests_cant": "2^128 argument pairs", "anchors": ["src/core/c/number.c: fx2_add, fx2_sub, fx2_mul, fx_neg", "src/core/s/prelude.min: +, -, *"]}
{"id": "C22", "title": "Division laws", "statement": "For y != 0: x = y*(x/y) + (remainder x y) with |remainder| < |y| and the sign of x; modulo is in the half-open range between 0 and y and congruent to x; division by zero raises an error instead of undefined behaviour.", "quantifier": "all pairs of 64-bit integers", "why_tests_cant": "corner cases at sign boundaries and exact multiples", "anchors": ["src/core/c/number.c: fx2_div, fx_remainder, fx_modulo", "src/core/s/prelude.min: /, remainder, modulo"]}
{"id": "C23", "title": "Variadic arithmetic folds from the left", "statement": "(op a b c ...) equals ((a op b) op c) ... for +, -, * and /.", "quantifier": "all argument lists of any length", "why_tests_cant": "argument lists are unbounded", "anchors": ["src/core/s/prelude.min: +, -, *, /"]}
{"id": "C24", "title": "Numeric comparison chains", "statement": "(< a b c ...) and the other comparisons return #t exactly when every adjacent pair is related and #f otherwise, for one or more integer arguments.", "quantifier": "all argument lists", "why_tests_cant": "argument lists are unbounded", "anchors": ["src/core/s/prelude.min: =, <, >, <=, >="]}
{"id": "C25", "title": "Native list operations meet their specifications", "statement": "On proper lists length, reverse, append, list copy, memq and assq compute the mathematical list functions; append and copy share or copy cells exactly as documented and never modify their arguments.", "quantifier": "all lists", "why_tests_cant": "unbounded lists", "anchors": ["src/core/c/list.c: list_reverse, list_append2, list_length, copy_list, memq, assq_ref, assq_set, make_list"]}
{"id": "C26", "title": "List operations on improper input", "statement": "Library list functions signal an argument error, never undefined behaviour, when handed something that is not a proper list.", "quantifier": "all objects", "why_tests_cant": "all malformed inputs", "anchors": ["src/core/s/prelude.min: length, reverse, append, map, for-each, andmap, ormap, list->vector, list->string", "src/core/c/list.c"]}
{"id": "C27", "title": "map, for-each, andmap and ormap", "statement": "They apply the procedure to the elements in order, position-wise over all lists, signal an error on lists of different lengths, and return the list of results / conjunction / disjunction.", "quantifier": "all procedures, any number of lists of any length", "why_tests_cant": "unbounded lists, arbitrary procedures", "anchors": ["src/core/s/prelude.min: map, for-each, andmap, ormap"]}
{"id": "C28", "title": "iota, make-list, enumerate", "statement": "iota n is 0,1,...,n-1, make-list builds n copies, and enumerating pairs every element with its index.", "quantifier": "all n and all lists", "why_tests_cant": "unbounded n", "anchors": ["src/core/s/prelude.min: iota, make-list, enumerate", "src/core/c/list.c: make_list"]}
{"id": "C29", "title": "List library functions meet their specifications", "statement": "list-ref, list-set, first..tenth, cons*, member, remove, remove*, filter, foldl, foldr, assoc and index-of compute the standard functions and report out-of-range indices as errors.", "quantifier": "all lists, indices, predicates and accumulators", "why_tests_cant": "unbounded lists", "anchors": ["src/library/private/list.min"]}
{"id": "C30", "title": "Association-list update", "statement": "assq_set returns an association list in which the key maps to the new value and every other key is unchanged, keeping the order of keys, without modifying the old list.", "quantifier": "all association lists and keys", "why_tests_cant": "unbounded lists", "anchors": ["src/core/c/list.c: assq_set, assq_ref"]}
{"id": "C31", "title": "list->string and string->list are inverse", "statement": "For strings without NUL, list->string (string->list s) = s and string->list (list->string cs) = cs.", "quantifier": "all strings and all character lists", "why_tests_cant": "unbounded strings", "anchors": ["src/core/c/string.c: string_to_list, list_to_string"]}
{"id": "C32", "title": "number->string and string->number are inverse", "statement": "string->number (number->string n) = n for every fixnum n.", "quantifier": "all 64-bit integers", "why_tests_cant": "2^64 integers; the failures are outside the 32-bit range", "anchors": ["src/core/c/string.c: number_to_string, string_to_number"]}
{"id": "C33", "title": "vector->list and list->vector are inverse", "statement": "Both compositions are the identity on elements, of every length.", "quantifier": "all vectors and lists", "why_tests_cant": "unbounded lengths", "anchors": ["src/core/c/vector.c: list_to_vector, vector_to_list"]}
{"id": "C34", "title": "Checked accessors never touch memory out of bounds", "statement": "vector-ref, vector-set!, string-ref, string-set!, substring, list-ref and record field access either return the addressed element or raise an error; no integer index reaches an out-of-bounds access.", "quantifier": "all vectors/strings/records, all indices (negative, too large) and all non-integer arguments", "why_tests_cant": "all indices", "anchors": ["src/core/s/prelude.min: vector-ref, vector-set!, string-ref, string-set!, record-accessor, record-mutator", "src/library/private/string.min: substring"]}
{"id": "C35", "title": "String operations", "statement": "string-append, substring and string-length satisfy length and content laws; make-string n c has length n; string-set! then string-ref returns the stored character and leaves the others unchanged.", "quantifier": "all strings, indices and characters", "why_tests_cant": "unbounded strings; NUL characters are the corner case", "anchors": ["src/core/s/prelude.min: string-append, make-string, string-ref, string-set!, string-length", "src/library/private/string.min: substring", "src/core/c/string.c: Mstring2"]}
{"id": "C36", "title": "What write prints, read reads back", "statement": "read applied to the characters produced by write gives an equal? object, for data built from readable symbols, fixnums, booleans, characters, strings, lists and vectors.", "quantifier": "all such data of any depth", "why_tests_cant": "unbounded data; failures sit at special characters and empty containers", "anchors": ["src/core/c/read.c: read_object, read_pair, read_vector, read_char", "src/core/c/print.c: write_object", "src/core/s/prelude.min: write, put-datum"]}
{"id": "C37", "title": "Comments and whitespace are transparent", "statement": "Inserting whitespace, line comments, nested block comments or datum comments between tokens does not change what the reader returns.", "quantifier": "all datum texts and all comment texts", "why_tests_cant": "unbounded comment contents and nesting", "anchors": ["src/core/c/read.c: skip_whitespace, read_object"]}
{"id": "C38", "title": "The reader consumes exactly one datum", "statement": "After reading a datum the port is positioned right after it, so successive reads return the successive data of a file.", "quantifier": "all sequences of data", "why_tests_cant": "unbounded sequences", "anchors": ["src/core/c/read.c: read_object"]}
{"id": "C39", "title": "The reader is memory safe", "statement": "Reading any byte sequence either returns a datum, reports end of input, or signals a read error; it never overruns its token buffer nor loops forever.", "quantifier": "all byte sequences", "why_tests_cant": "all inputs; over-long tokens and truncated vectors", "anchors": ["src/core/c/read.c: read_object, read_vector"]}
{"id": "C40", "title": "Tokens starting with a digit", "statement": "A token of digits with optional sign reads as that integer and a token that merely starts with digits reads as the symbol with exactly that spelling.", "quantifier": "all tokens", "why_tests_cant": "all tokens", "anchors": ["src/core/c/read.c: read_object"]}
{"id": "C41", "title": "datum->syntax and syntax->datum are inverse", "statement": "Wrapping a datum as syntax and stripping it yields the original datum; syntax->list returns the elements exactly when the datum is a proper list.", "quantifier": "all data of any depth", "why_tests_cant": "unbounded data", "anchors": ["src/core/c/syntax.c: to_syntax, strip_syntax, syntax_to_list"]}
{"id": "C42", "title": "Record constructors, accessors and mutators", "statement": "For any chain of record types, field i of a type accessed on an instance of it or any subtype returns the value the constructor put there or the last mutator call for that field wrote; mutating one field changes no other.", "quantifier": "all inheritance chains, field indices and operation sequences", "why_tests_cant": "unbounded inheritance depth and histories", "anchors": ["src/core/s/prelude.min: record-constructor, record-accessor, record-mutator", "src/core/c/record.c: Mrecord, make_record, record_ref, record_set"]}
{"id": "C43", "title": "Record predicates follow inheritance", "statement": "A record predicate holds of an instance exactly when the instance's type is the predicate's type or inherits from it.", "quantifier": "all type hierarchies", "why_tests_cant": "unbounded hierarchies", "anchors": ["src/core/s/prelude.min: record-predicate"]}
{"id": "C44", "title": "Record types inherit equality, hash and writer procedures", "statement": "A new record type whose parent has a custom equal, hash or writer procedure uses them until overridden.", "quantifier": "all parents and procedures", "why_tests_cant": "all hierarchies", "anchors": ["src/core/s/prelude.min: make-record-type-descriptor, record-writer, record-type-equal-procedure"]}
{"id": "C45", "title": "Expression checking accepts exactly the core grammar", "statement": "check_expr accepts an S-expression exactly when it is generated by the core-form grammar and rejects every other one with a syntax error (never undefined behaviour).", "quantifier": "all S-expressions", "why_tests_cant": "unbounded expressions; malformed special forms", "anchors": ["src/core/c/check.c: check_expr"]}
{"id": "C46", "title": "letrec-values/let-values/case-lambda elimination preserves meaning", "statement": "The first optimisation pass yields an expression with the same observable result as its input.", "quantifier": "all core expressions and environments", "why_tests_cant": "unbounded programs", "anchors": ["src/core/c/jitopt.c: jit_opt_L0"]}
{"id": "C47", "title": "Multiple-values rewriting preserves meaning", "statement": "The second pass (values, call-with-values to mv-values, mv-call, mv-let) preserves results, including arity errors.", "quantifier": "all core expressions and environments", "why_tests_cant": "unbounded programs", "anchors": ["src/core/c/jitopt.c: jit_opt_L1"]}
{"id": "C48", "title": "Direct application of lambda is rewritten faithfully", "statement": "The third pass ((lambda ids body) args) preserves results including arity errors.", "quantifier": "all core expressions and environments", "why_tests_cant": "unbounded programs", "anchors": ["src/core/c/jitopt.c: jit_opt_L2"]}
{"id": "C49", "title": "Free-variable analysis is exact", "statement": "The computed list contains exactly the identifiers occurring free in the expression, each once.", "quantifier": "all core expressions", "why_tests_cant": "unbounded expressions", "anchors": ["src/core/c/jitanalyze.c: free_vars, bound_vars"]}
{"id": "C50", "title": "Label resolution preserves control flow", "statement": "Resolving labels to instruction references and flattening into a code vector keeps every jump aimed at the instruction that followed its label, for any number of labels, nested sequences and consecutive labels.", "quantifier": "all instruction lists with well-formed labels", "why_tests_cant": "unbounded programs", "anchors": ["src/core/c/jitcommon.c: resolve_refs, write_code", "src/core/c/jit.c"]}
{"id": "C51", "title": "Procedure application checks arity", "statement": "A compiled lambda or case-lambda runs the first clause that accepts the number of arguments, binds parameters in order (rest arguments as a list), and signals an arity error if none accepts.", "quantifier": "all clause lists, all argument counts", "why_tests_cant": "unbounded clause lists and counts", "anchors": ["src/core/c/jitcompile.c: compile_lambda, compile_case_lambda", "src/core/c/eval.c: do_rest"]}
{"id": "C52", "title": "Compiled code computes the value of the expression", "statement": "Running the bytecode of an expression on the virtual machine yields the value given by the reference semantics and restores the frame it started from.", "quantifier": "all expressions of the modelled fragment, all environments", "why_tests_cant": "unbounded programs", "anchors": ["src/core/c/jitcompile.c: compile_expr2", "src/core/c/eval.c: eval loop"]}
{"id": "C53", "title": "Calls never overrun the stack segment", "statement": "Whatever the nesting depth and argument counts, pushing frames and arguments stays within the allocated stack segment, a new segment being linked when needed.", "quantifier": "all call depths and argument counts", "why_tests_cant": "unbounded recursion depth", "anchors": ["src/core/c/eval.c: grow_stack, push_frame", "src/core/c/thread.c"]}
{"id": "C54", "title": "Garbage collection never frees reachable memory", "statement": "An object reachable from a root, a registered location or the scanned stack through pointers stored in live objects survives a collection.", "quantifier": "all heaps, all pointer graphs", "why_tests_cant": "all heaps", "anchors": ["src/gc/minim-gc/gc-impl.c: gc_mark, gc_sweep, gc_collect"]}
{"id": "C55", "title": "Garbage collection frees everything unreachable", "statement": "After a collection only reachable objects remain in the allocation table.", "quantifier": "all heaps", "why_tests_cant": "all heaps", "anchors": ["src/gc/minim-gc/gc-impl.c: gc_mark, gc_sweep"]}
{"id": "C56", "title": "Destructors run once, exactly for collected objects", "statement": "A collection runs the destructor of each object it frees exactly once and of no other; explicit free behaves the same way.", "quantifier": "all heaps", "why_tests_cant": "all heaps and histories", "anchors": ["src/gc/minim-gc/gc-impl.c: gc_sweep, gc_free", "src/gc/minim-gc/README.md"]}
{"id": "C57", "title": "The allocation table finds every live block", "statement": "After any sequence of allocations, frees, reallocations, expansions and shrinks a lookup succeeds exactly for the blocks currently allocated.", "quantifier": "all operation histories", "why_tests_cant": "unbounded histories across resizes", "anchors": ["src/gc/minim-gc/gc-impl.c: gc_add, gc_remove, gc_get_record, gc_resize, gc_expand, gc_shrink"]}
{"id": "C58", "title": "Allocation statistics are exact", "statement": "The collector's byte and block counts equal the totals over the live table after any history.", "quantifier": "all operation histories", "why_tests_cant": "history dependent", "anchors": ["src/gc/minim-gc/gc-impl.c: gc_add, gc_remove, gc_sweep"]}
{"id": "C59", "title": "Freeing a block does not change the status of others", "statement": "Removing one block leaves root and mark flags of every other block as they were.", "quantifier": "all tables and blocks", "why_tests_cant": "needs two colliding blocks with particular flags", "anchors": ["src/gc/minim-gc/gc-impl.c: gc_remove"]}
{"id": "C60", "title": "Pausing prevents collection", "statement": "While the collector is paused no allocation triggers a collection; outside a pause a collection is triggered once more than the threshold of new bytes was allocated.", "quantifier": "all histories of pause, resume and allocation", "why_tests_cant": "history dependent", "anchors": ["src/gc/minim-gc/gc.c: GC_pause, GC_resume", "src/gc/minim-gc/gc-impl.c"]}
{"id": "C61", "title": "sort returns a stable sorted permutation", "statement": "For a strict weak order, sort returns a permutation of its input in ascending order keeping the relative order of equivalent elements, and does not modify its argument.", "quantifier": "all lists/vectors and all strict weak orders", "why_tests_cant": "n! orders for each n", "anchors": ["src/library/private/sort.min: sort, sort!, merge!"]}
{"id": "C62", "title": "Sets obey set algebra", "statement": "set-add!, set-remove!, set-union, set-intersect, set-subtract, set-symmetric-difference, subset? and set=? agree with mathematical finite sets.", "quantifier": "all sets and operation sequences", "why_tests_cant": "unbounded sets", "anchors": ["src/library/private/set.min"]}
{"id": "C63", "title": "Enumeration sets", "statement": "enum-set operations agree with subsets of the universe, listing members in universe order; sets of different enumerations do not mix.", "quantifier": "all universes and subsets", "why_tests_cant": "exponentially many subsets", "anchors": ["src/library/private/enum.min"]}
{"id": "C64", "title": "Promises evaluate at most once", "statement": "force evaluates a promise's body at most once and afterwards always returns the first value.", "quantifier": "all promises, all sequences of force, re-entrant bodies", "why_tests_cant": "re-entrancy and history", "anchors": ["src/library/private/promise.min: force, lazy"]}
{"id": "C65", "title": "Paths", "statement": "path->list splits at separators, build-path joins them, and splitting a built path gives back its components.", "quantifier": "all path strings", "why_tests_cant": "unbounded strings; empty components", "anchors": ["src/library/private/path.min"]}
{"id": "C66", "title": "Formatting directives", "statement": "format copies ordinary characters, replaces ~a and ~s by the displayed and written arguments in order, ~% by a newline and ~~ by a tilde, and rejects a wrong number of arguments.", "quantifier": "all format strings and argument lists", "why_tests_cant": "unbounded strings", "anchors": ["src/core/s/prelude.min: format, fprintf"]}
{"id": "C67", "title": "String ports accumulate output", "statement": "get-output-string returns exactly the characters written to the port by put-char, put-string, write-char and newline since it was opened or last read out, in order, whatever happens on other ports in between; reading out empties the port.", "quantifier": "all sequences of operations on any number of ports", "why_tests_cant": "history dependent", "anchors": ["src/core/c/io.c: get_output_string, put_string_proc", "src/core/s/prelude.min: put-string, write-char, get-output-string"]}
{"id": "C68", "title": "Renaming a procedure does not affect the original", "statement": "procedure-rename returns a procedure with the new name and leaves the original's name unchanged.", "quantifier": "all procedures and names", "why_tests_cant": "aliasing", "anchors": ["src/core/c/procedure.c: procedure_rename"]}
{"id": "C69", "title": "Closures see later changes of captured top-level variables", "statement": "A closure's captured reference to a top-level variable always yields the variable's current value in its environment, whatever definitions, assignments, copies and growth happen after the capture.", "quantifier": "all histories before and after the capture", "why_tests_cant": "needs all histories and the growth points", "anchors": ["src/core/c/env.c: env_find, env_insert, environment_resize", "src/core/c/eval.c: tl_env_lookup_cell"]}
{"id": "C70", "title": "set! of an undefined top-level variable is diagnosed", "statement": "Assigning with set! to a name without a binding is reported as an error; histories that only assign bound names run without undefined behaviour.", "quantifier": "all histories of environment operations", "why_tests_cant": "undefined behaviour need not show up in a run", "anchors": ["src/core/c/eval.c: tl_env_set", "src/core/c/env.c"]}
{"id": "C71", "title": "char->integer and integer->char are inverse", "statement": "integer->char (char->integer c) = c for every character, and char->integer (integer->char n) = n for every integer n that integer->char accepts.", "quantifier": "all characters, all fixnums", "why_tests_cant": "2^64 integers", "anchors": ["src/core/c/char.c: char_to_integer, integer_to_char", "src/core/s/prelude.min: char->integer, integer->char"]}
{"id": "C72", "title": "Immutable record fields never change", "statement": "A record field declared immutable keeps the value its constructor put there for the life of the record, and is reported as immutable.", "quantifier": "all record types, fields and operation sequences", "why_tests_cant": "histories over all types", "anchors": ["src/core/s/prelude.minrecord-mutator, record-type-field-mutable?", "src/core/c/record.c: rtd_field_mutablep"]}
{"id": "C73", "title": "make-record-type-descriptor rejects ill-formed arguments", "statement": "make-record-type-descriptor signals an error if the name is no symbol, the parent neither #f nor an unsealed record type, or the fields are not a vector of distinct (mutable name) or (immutable name) forms.", "quantifier": "all arguments", "why_tests_cant": "unbounded argument space; undefined behaviour does not show in tests", "anchors": ["src/core/s/prelude.minmake-record-type-descriptor", "src/core/c/record.c: make_rtd"]}
{"id": "C74", "title": "Default record procedures can be read and replaced", "statement": "default-record-equal-procedure and default-record-hash-procedure return the current default procedure without argument and replace it when given a procedure.", "quantifier": "all procedures and call sequences", "why_tests_cant": "history dependent", "anchors": ["src/core/s/prelude.mindefault-record-equal-procedure, default-record-hash-procedure"]}
{"id": "C75", "title": "Compiled code stays within its environments", "statement": "Every variable access in compiled code, at any nesting of procedures and local bindings, refers to a slot of the run-time environment allocated for the procedure it belongs to, and closures are created with exactly as many variables as the procedure copies.", "quantifier": "all expressions", "why_tests_cant": "unbounded programs and nesting; an overrun is silent memory corruption", "anchors": ["src/core/c/jitcompile.c: compile_lambda_clause, compile_mvlet, compile_case_lambda2", "src/core/c/jitanalyze.c: jit_bound_vars", "src/core/c/eval.c: env_get, env_set"]}
{"id": "C76", "title": "eval runs in the given environment and restores the caller's", "statement": "(eval expr) runs expr in the current top-level environment; (eval expr env) runs it with env as top-level environment, and when it returns the former top-level environment is current again; other numbers of arguments are an error.", "quantifier": "all expressions, environments and machine states", "why_tests_cant": "a leaked environment shows only in later evaluations; all expressions", "anchors": ["src/core/c/jitprims.c: compile_eval", "src/core/c/eval.c: set-arg, get-tenv, set-tenv, do-eval"]}
{"id": "C77", "title": "procedure-arity reports what the procedure accepts", "statement": "For every lambda or case-lambda, procedure-arity returns an object accepted by procedure-arity? that stands for exactly the argument counts the procedure can be called with.", "quantifier": "all clause lists and argument counts", "why_tests_cant": "unbounded clause lists; order-dependent", "anchors": ["src/core/c/jitcompile.c: update_arity", "src/core/s/prelude.min: procedure-arity?"]}
{"id": "C78", "title": "Loading a file returns to the caller", "statement": "A call of load evaluates the expressions of the file in order and then returns to whatever called it, at any place where a procedure may be called.", "quantifier": "all stacks at the time of the call, all evaluations in the file", "why_tests_cant": "depends on the frames below the call; all nesting depths", "anchors": ["src/core/c/system.c: load_file, load_proc", "src/core/c/eval.c: eval_istream"]}
{"id": "C79", "title": "Allocations have the size asked for", "statement": "A block obtained from the collector has room for the number of bytes asked for, callocated blocks are zero, and a block that is resized keeps its contents.", "quantifier": "all histories, all sizes", "why_tests_cant": "all sizes, including those near the limits of size_t", "anchors": ["src/gc/minim-gc/gc-impl.c: gc_alloc_record, gc_calloc_record, gc_realloc_record"]}
{"id": "C80", "title": "Shutting the collector down releases everything", "statement": "Stopping the collector gives every block back exactly once, roots included, after running its destructor exactly once.", "quantifier": "all histories", "why_tests_cant": "all histories", "anchors": ["src/gc/minim-gc/gc-impl.c: gc_destroy", "src/gc/minim-gc/README.md"]}
{"id": "C81", "title": "Registration with the collector concerns one block and takes effect", "statement": "Registering a destructor, a marker or a root changes that attribute of the named block and nothing else; a registered root survives every collection, a registered destructor runs once when its block is collected.", "quantifier": "all histories, all blocks", "why_tests_cant": "all histories", "anchors": ["src/gc/minim-gc/gc.c: GC_register_dtor, GC_register_mrk, GC_register_root"]}
{"id": "C82", "title": "The optimiser as a whole preserves meaning", "statement": "A program compiled with the optimiser has the same values, form by form, and leaves the same values in its top-level variables as the program that was written.", "quantifier": "all sequences of top-level forms, all initial environments", "why_tests_cant": "unbounded programs", "anchors": ["src/core/c/jit.c: compile_expr", "src/core/c/jitopt.c"]}
{"id": "C83", "title": "Compilation ends and succeeds", "statement": "Compiling ends on every program, and on every program the checker accepts it succeeds, with code whose jumps stay inside the code and whose slots stay inside the environment.", "quantifier": "all programs", "why_tests_cant": "termination and totality over unbounded programs", "anchors": ["src/core/c/jit.c: compile_expr", "src/core/c/jitopt.c", "src/core/c/jitcompile.c"]}
{"id": "C84", "title": "String input ports deliver their string", "statement": "read-char on a string port delivers the characters of the string in order and then the end-of-file object for ever; peek-char and char-ready? show what comes next without consuming it.", "quantifier": "all strings, any number of reads and peeks", "why_tests_cant": "unbounded history", "anchors": ["src/core/c/io.c: open_input_string, read_char_proc, peek_char_proc"]}
{"id": "C85", "title": "Ports refuse what they cannot do", "statement": "An input operation on an output port, an output operation on an input port, and any operation on a closed port is refused with an error.", "quantifier": "all ports, all operations, all states", "why_tests_cant": "use after close is undefined behaviour, which a test run need not show", "anchors": ["src/core/c/io.c: close_input_port, close_output_port", "src/core/s/prelude.min: close-input-port, read-char, put-char"]}
{"id": "C86", "title": "Objects keep what is stored in them", "statement": "Every object is created with the fields its constructor was given; a field read returns what was last stored in it; storing one field changes no other field of any object, no memory outside the object is touched, and objects of different kinds are distinguished by their type tags.", "quantifier": "all sequences of constructions and field assignments, all kinds and sizes of objects", "why_tests_cant": "Tests read back a few fields; two overlapping accessors or a block one word short only show when a particular neighbour is used afterwards.", "anchors": ["src/core/minim.h", "src/core/c/char.c", "src/core/c/vector.c", "src/core/c/record.c"]}
{"id": "C87", "title": "Derived forms mean what they should mean", "statement": "A program with and, or, cond, when, unless, let, let*, letrec, named let, case-lambda, internal definitions and define (in both forms) is expanded to a core program without exception, and whatever values and effects the program has by the meaning of these forms, its expansion has.", "quantifier": "all well-formed expressions, all nestings of the forms, all sets of further macros that do not have the name of a variable, all stores and environments", "why_tests_cant": "Tests expand a few forms; capture, a wrong scope or a form dropped from a body show only when particular forms are nested.", "anchors": ["src/library/expander.min", "src/library/private/and-or.min", "src/library/private/cond.min", "src/library/private/let.min", "src/library/private/define.min", "src/library/private/when-unless.min"]}
{"id": "C88", "title": "Modules are expanded form by form", "statement": "A module of definitions and expressions, possibly grouped with begin or produced by derived forms, is expanded to core forms in the same order, and evaluating these defines the same variables with the same values.", "quantifier": "all lists of well-formed forms that define no identifier twice, all groupings, all sets of further macros that do not have the name of a variable or of a core form", "why_tests_cant": "Tests expand modules with a definition or two; the two passes, the splicing of begin and the deferred definitions interact only in larger modules.", "anchors": ["src/library/expander.min"]}
{"id": "C89", "title": "Modules that refer to unknown variables are refused", "statement": "Before a module is run, it is refused if and only if it refers to or assigns a variable that is neither bound around that place, nor defined by some form of the module, nor known from outside.", "quantifier": "all expanded modules, all nestings of binding forms, all sets of variables known from outside", "why_tests_cant": "Tests check a module with and a module without an unknown variable; whether each binding form opens the right scope for the right parts is a matter of all nestings.", "anchors": ["src/library/expander.min"]}
{"id": "C90", "title": "Modules are loaded once, after the modules they import", "statement": "Whatever modules are loaded in whatever order, each file that is needed is evaluated exactly once, after all files it imports, in an environment where an imported name has the value that the first import exporting it gave it; a module exports exactly what its export forms list; cyclic imports are reported.", "quantifier": "all import graphs, all contents of files, all sequences of loads, all expanders and evaluators", "why_tests_cant": "Tests import a handful of files; diamonds, repeated loads, re-exports and cycles are graphs of unbounded shape.", "anchors": ["src/library/module.min"]}
{"id": "C91", "title": "The prompt of a module sees its definitions", "statement": "After a module is loaded, expressions at its prompt are evaluated with the variables the module defines, imports and has from the base environment.", "quantifier": "all modules, all sequences of loads", "why_tests_cant": "No test starts a prompt; which environment it gets cannot be seen from evaluating the module itself.", "anchors": ["src/library/module.min"]}
{"id": "C92", "title": "Module files are read as the data they contain", "statement": "Reading a text yields exactly the data that its tokens denote, one after the other, whatever white space and comments surround them, as syntax objects in every part; each read stops right behind its datum, ends on every text, and the end of the text is reported where a datum is incomplete.", "quantifier": "all data, all spellings and layouts; for the shape of results, consumption and independence of the step bound all texts", "why_tests_cant": "Tests read a few files; nesting, comments, spellings of numbers and strings, and positions of the end of the text are unbounded.", "anchors": ["src/library/read.min", "src/library/module.min"]}
{"id": "C93", "title": "Both readers agree", "statement": "A text that both the core reader and the reader for modules accept denotes the same datum for both, up to the reading of the syntax quote.", "quantifier": "all texts whose tokens and layout are in both grammars", "why_tests_cant": "The readers are written in two languages and each is tested with its own samples; agreement is a statement about all texts.", "anchors": ["src/library/read.min", "src/core/c/read.c"]}
{"id": "C94", "title": "syntax-case matches patterns", "statement": "`syntax-case` evaluates the first clause whose pattern matches the input and whose fender holds. The pattern variables are bound to the parts of the input that the pattern says, below an ellipsis to the sequence of these parts. If no clause matches, an exception is raised. Other variables keep their meaning in fenders and results.", "quantifier": "all patterns (lists, dotted lists, vectors, nested ellipses, literals), all inputs, all lists of clauses", "why_tests_cant": "Tests try a few patterns on a few inputs; nesting of ellipses, positions of literals and lengths of inputs are unbounded, and a wrong match is only seen when a macro misbehaves.", "anchors": ["src/library/private/stxcase.min", "src/library/private/stx.min"]}
{"id": "C95", "title": "Templates yield their instances", "statement": "A `syntax` form yields the instance of its template: pattern variables are replaced by what they matched, a subtemplate with an ellipsis by one copy for every element of the sequences its variables stand for, everything else is kept. It raises an exception exactly when sequences below one ellipsis have different lengths. The result is the syntax object the reader would make for the same datum.", "quantifier": "all templates (lists, dotted lists, vectors, nested ellipses), all assignments of pattern variables", "why_tests_cant": "Tests try a few templates; the engine parses, annotates, folds constants and generates a program with renamed variables, and a slip in an index or a depth shows only for certain combinations of constants, ellipses and nesting.", "anchors": ["src/library/private/template-utils.min", "src/library/private/template.min"]}
{"id": "C96", "title": "Rule macros rewrite by the first matching rule", "statement": "A macro made of pattern/template rules (`syntax-case` with `syntax`, `syntax-rules`, `with-syntax`) rewrites a form with the first rule whose pattern matches to the instance of that rule's template, and raises an exception if no pattern matches.", "quantifier": "all lists of rules, all forms", "why_tests_cant": "Macros are written by users; the matcher and the template engine have to agree on names, depths and representation of every pattern variable for every rule and form.", "anchors": ["src/library/private/stxcase-extra.min", "src/library/private/stxcase.min", "src/library/private/template-utils.min"]}
{"id": "C97", "title": "Templates see the pattern variables in scope", "statement": "When the expander reaches a `syntax` template, the pattern variables it substitutes are exactly those of the enclosing `syntax-case` and `with-syntax` clauses: none is lost, none leaks out of its clause, and an inner variable with the same name hides it.", "quantifier": "all expressions, all nestings of clauses, macro uses and binding forms", "why_tests_cant": "The expander keeps pattern variables in a mutable parameter that macro expansion saves and restores; which template sees which variables depends on the order in which siblings are expanded.", "anchors": ["src/library/expander.min"]}
{"id": "C98", "title": "`case` and `do` mean what R7RS says", "statement": "`case` evaluates its expression once and then the body of the first clause that contains an equal datum, the `else` body if there is none, `(void)` without `else`. `do` binds the variables to the initial values and iterates: result expressions if the test is true, else commands, then all variables get their steps at once.", "quantifier": "all clauses, bindings, user expressions with side effects, numbers of iterations", "why_tests_cant": "Both are recursive rule macros: correctness needs every intermediate expansion for every number of clauses and data, and freedom from capture for every user expression.", "anchors": ["src/library/private/case.min", "src/library/private/do.min"]}
{"id": "C99", "title": "Errors reach the error handler as the right kind of exception", "statement": "Every error, whether raised by `raise`, by `error` and the `raise-…-error` procedures or by the runtime, calls the installed error handler with an exception record of the kind of the error, holding the name, message and values given; wrong arguments of the raising procedures are themselves reported as argument exceptions for the first wrong argument; the default handler prints all values of the record and ends the process; a handler that returns does not make the erroneous call return.", "quantifier": "all machine states, errors, handlers, names, messages and values", "why_tests_cant": "Errors occur in every state of the machine, jump out of C code and run user handlers; tests see single messages of the default handler.", "anchors": ["src/core/c/eval.c", "src/core/c/error.c", "src/core/s/prelude.min"]}
{"id": "C100", "title": "Generic interfaces dispatch to the registered implementation", "statement": "`record-type-add-generic!` accepts exactly a record type, an interface and as many procedures as the interface has methods, each accepting the arguments of its method; afterwards the accessor of a method returns, for that record type, the procedure of the last registration, and `generic-instance?` tells whether there is one. Registrations for other types or interfaces have no influence.", "quantifier": "all interfaces, formals, procedures, and sequences of successful and failing registrations", "why_tests_cant": "The registry is global and keyed by equality; correctness is a statement about all histories of registrations and all interfaces alive.", "anchors": ["src/library/private/generics.min"]}
{"id": "C101", "title": "define-record-type defines the type it describes", "statement": "`define-record-type` accepts exactly well-formed clauses with at most one of each kind (one methods clause per interface); it binds a new type with the given parent, uid, sealed and opaque flags and fields, its constructor, its predicate, an accessor for every field and a mutator for every mutable field, each for the position of its field behind those of the parent, and installs the methods; sealed parents are refused; other variables are unchanged.", "quantifier": "all clauses, names, numbers of fields, parents of any depth, and stores", "why_tests_cant": "Positions depend on the depth and sizes of all ancestors and the order of fields; the expansion interacts with any names the user chooses.", "anchors": ["src/library/private/record.min"]}
{"id": "C102", "title": "Library procedures check their arguments and report the wrong one", "statement": "A procedure of the standard library, applied to the right number of arguments, goes on to its primitive only if every argument satisfies its contract (and an index is inside its container, and lists that must have one length do); otherwise it raises an error that names the procedure itself, an argument that does not satisfy its contract, and a contract that argument indeed does not satisfy, or an index that is out of bounds.", "quantifier": "150 procedures of prelude.min, all argument lists of accepted length, all values", "why_tests_cant": "Primitives do not check anything, so a missing check is memory corruption; tests exercise few of the combinations of procedure, position and type of argument, and hardly ever read the message.", "anchors": ["src/core/s/prelude.min"]}
{"id": "C103", "title": "car to cddddr return the component their names spell", "statement": "For every word of one to four letters a and d there is a procedure c…r; it returns the component reached by the letters from right to left, and raises an argument error under its own name if and only if a pair is missing on the way.", "quantifier": "all 30 words, all values", "why_tests_cant": "The procedures are written out by hand, with up to four nested tests each; tests check one value of right shape each and hardly any of wrong shape.", "anchors": ["src/core/s/prelude.min"]}
{"id": "C104", "title": "The standard library refers only to things that exist", "statement": "After the library has been loaded, the evaluation of a program that uses only names of the library, whatever it calls and with whatever arguments, never uses or assigns a variable that does not exist: every variable in the code of prelude.min and boot.min is bound around its use, bound by the C code, or defined by one of the two files.", "quantifier": "all expressions of prelude.min and boot.min, all programs, all steps of their evaluation", "why_tests_cant": "A misspelt or missing variable shows only when the branch that uses it is evaluated, and the branches in question are the error branches nobody exercises.", "anchors": ["src/core/s/prelude.min", "src/boot/s/boot.min", "src/core/c/prim.c", "src/core/c/env.c"]}
{"id": "C105", "title": "The standard library calls its procedures with the right number of arguments", "statement": "After the library has been loaded, no evaluation of a program whose own calls are right, whatever procedures of the library it gets into, calls a procedure of the library or of the C code by its name with a number of arguments the procedure does not accept.", "quantifier": "all expressions of prelude.min and boot.min, all programs, all steps of their evaluation", "why_tests_cant": "A call with the wrong number of arguments shows only when the branch that makes it is evaluated; in this library those are branches that report errors, which the tests do not reach.", "anchors": ["src/core/s/prelude.min", "src/boot/s/boot.min", "src/core/c/prim.c"]}
{"id": "C106", "title": "Files are loaded in their own directory, and the current directory survives", "statement": "load evaluates the forms of a file in the directory of the file, so that names in it are relative to it, and leaves the current directory as it was, whatever the file does; (current-directory) gives a path that leads to the current directory, so that setting it back and importing relative names work.", "quantifier": "all file systems, all files and nestings of load, all programs that set and ask for the directory", "why_tests_cant": "Tests run from one directory and load a fixed set of files; directories, links and nested loads are unbounded, and relative paths matter only after the directory has been changed.", "anchors": ["src/core/c/system.c", "src/core/s/prelude.min", "src/library/module.min"]}
{"id": "C107", "title": "The command line and the prompt", "statement": "The arguments are flags, in any order and number, followed by a file and its arguments; the flags are exactly -i, --interactive, -q, --quiet, --no-libs and --, anything else that begins with a dash is refused before anything is done; (command-line) is the rest as it was given; without a file there is a prompt; a prompt writes every value of every form that is not void.", "quantifier": "all lists of arguments, all sessions", "why_tests_cant": "No test gives flags or uses the prompt; the lists of arguments and the sessions are unbounded.", "anchors": ["src/boot/c/minim.c", "src/library/module.min"]}
{"id": "C108", "title": "The text of the library computes what its names say", "statement": "After prelude.min and boot.min are loaded, and after any program that neither defines nor assigns names of the library, the thirty procedures car to cddddr return the part their name spells, + - * combine any number of fixnums from the left as long as nothing overflows, = < > <= >= of two or more fixnums ask whether each is related to the next, and add1, sub1, the predicates of numbers, list, length, reverse, append, cons*, iota, enumerate, first to tenth, list-ref and list-set return what they should; the names of the library keep the values loading gave them.", "quantifier": "all values, all lists and numbers of arguments, all C functions that obey the listed laws, all decent programs run before the call", "why_tests_cant": "Tests call the procedures with a few small arguments; lists, numbers of arguments and the programs that ran before are unbounded, and the procedures are mutually recursive closures over names that could be changed.", "anchors": ["src/core/s/prelude.min", "src/boot/s/boot.min", "src/library/private/list.min"]}
{"id": "C109", "title": "The text of the library calls the procedures it is given", "statement": "After the library is loaded, map, for-each, andmap and ormap on one or more lists, filter, foldl and foldr apply the procedure they are given to the elements in the right order and return the list, answer or value their names say; member, remove, assoc and index-of decide by equal?.", "quantifier": "all lists, all procedures that return and do not assign names of the library, all decent programs run before the call", "why_tests_cant": "Procedures given by the user and lists are unbounded.", "anchors": ["src/core/s/prelude.min", "src/library/private/list.min"]}
{"id": "C110", "title": "The compiled library computes on the machine what its text says", "statement": "prelude.min and boot.min are optimised and compiled form after form and run on the machine from the environment the C code makes; then the compiled forms of a program show the values the source forms have, the top-level variables end with the values they should have, and the compiled call of a procedure of the library with data ends with the value C108 and C109 give.", "quantifier": "all programs covered by C82 after the library, all calls of procedures of the library with data, all parametric C functions for which loading succeeds", "why_tests_cant": "Programs and data are unbounded; the property spans the library's text, the three optimisation passes, code generation and the machine.", "anchors": ["src/core/s/prelude.min", "src/boot/s/boot.min", "src/core/c/jitopt.c", "src/core/c/jit.c", "src/core/c/eval.c"]}
{"id": "C111", "title": "The boot file does what the modules it is made from do", "statement": "gen-boot.min writes exactly the definitions of the modules of the library, in order, and a program run after the boot file has the values it has after the modules themselves.", "quantifier": "all contents of the modules, all programs run afterwards", "why_tests_cant": "Programs and modules are unbounded; a form that is left out shows only in programs that depend on it.", "anchors": ["src/library/gen-boot.min", "src/boot/s/boot.min"]}
{"id": "C112", "title": "The C functions behind car to cddddr follow the path the name spells", "statement": "Each of the thirty accessors returns the part of its argument its letters spell and is undefined exactly if a step does not start at a pair; $set-car! and $set-cdr! replace one half of one pair and nothing else.", "quantifier": "all heaps, also cyclic ones, all arguments", "why_tests_cant": "Heaps are unbounded, and following a wrong pointer is undefined behaviour.", "anchors": ["src/core/c/list.c: car_proc to cddddr_proc, set_car_proc, set_cdr_proc", "src/core/c/prim.c"]}
{"id": "C113", "title": "What is written to a file is what is read from it", "statement": "Characters written to a port on a file are in the file in order once the port is closed, flushed or collected, and a port opened on the file afterwards delivers them in order and then the end of the file, whatever the C library does with its buffers and whenever ports are collected.", "quantifier": "all sequences of operations on any number of ports and files, all times at which buffers are written or filled and ports are collected", "why_tests_cant": "When buffers are written and ports are collected is not under the control of a test.", "anchors": ["src/core/c/io.c: gc_port_dtor, open_input_file, open_output_file, close_input_port, close_output_port, read_char_proc, peek_char_proc, put_char_proc, flush_output_proc"]}
