{
 "claims": [
  {
   "property": "C01",
   "status": "proved",
   "theorems": [
    "Minim.Fasl.C01_uptr_round_trip"
   ],
   "note": "every 64-bit word, any continuation"
  },
  {
   "property": "C02",
   "status": "proved",
   "theorems": [
    "Minim.Fasl.C02_object_round_trip",
    "Minim.Fasl.C02_sequence_round_trip",
    "Minim.Fasl.C02_write_outcome",
    "Minim.Fasl.readFasl_ne_oof",
    "Minim.Fasl.readFasl_fuel",
    "Minim.Fasl.readFasl_consumes"
   ],
   "note": "structural identity of the tree; sharing and symbol identity are C05"
  },
  {
   "property": "C03",
   "status": "proved",
   "theorems": [
    "Minim.Fasl.C03_uniquely_decodable"
   ],
   "note": ""
  },
  {
   "property": "C04",
   "status": "partial",
   "theorems": [
    "Minim.Fasl.C04_negated_ub",
    "Minim.Fasl.C04_negated_silent",
    "Minim.Fasl.C04_object_boundary_partial",
    "Minim.Fasl.C04_cutAt_is_truncation",
    "Minim.Fasl.C04_never_silent_partial"
   ],
   "note": "false of the code: negations proved; cuts in front of an object are errors, and text-free data is never read silently from a truncated stream"
  },
  {
   "property": "C05",
   "status": "partial",
   "theorems": [
    "Minim.FaslIdent.C05_symbols_partial",
    "Minim.FaslIdent.C05_rtd_partial",
    "Minim.FaslIdent.C05_negated_gensym",
    "Minim.FaslIdent.C05_negated_record",
    "Minim.FaslIdent.reload_eq"
   ],
   "note": "false of the code for every generated symbol and every record instance (universal negations); proved for canonical interned symbols"
  },
  {
   "property": "C06",
   "status": "proved",
   "theorems": [
    "Minim.Hash.C06_native_map",
    "Minim.Hash.C06_native_map_any",
    "Minim.Hash.C06_runs",
    "Minim.Hash.eq_consistent"
   ],
   "note": "refinement of bucket vectors with shared cell heap to finite maps, all histories, any number of tables"
  },
  {
   "property": "C07",
   "status": "proved",
   "theorems": [
    "Minim.Hash.C07_size_and_load",
    "Minim.Hash.C07_growth"
   ],
   "note": ""
  },
  {
   "property": "C08",
   "status": "proved",
   "theorems": [
    "Minim.Hash.C08_scheme_map",
    "Minim.Hash.C08_size",
    "Minim.Hash.C08_runs"
   ],
   "note": "any consistent hash/equivalence pair; user procedures are pure and total"
  },
  {
   "property": "C09",
   "status": "proved",
   "theorems": [
    "Minim.Hash.C09_entries"
   ],
   "note": ""
  },
  {
   "property": "C10",
   "status": "proved",
   "theorems": [
    "Minim.Hash.C10_copy_independent",
    "Minim.Hash.C08_scheme_map",
    "Minim.Hash.C06_native_map"
   ],
   "note": ""
  },
  {
   "property": "C11",
   "status": "partial",
   "theorems": [
    "Minim.Hash.C11_negated_duplicate",
    "Minim.Hash.C11_negated_delete",
    "Minim.Hash.C11_negated_shrink",
    "Minim.Hash.C11_negated_growth",
    "Minim.Hash.C11_update_partial",
    "Minim.Hash.C11_unrelated_partial"
   ],
   "note": "false of the code for updaters that insert into or delete from the table; proved for all others"
  },
  {
   "property": "C12",
   "status": "partial",
   "theorems": [
    "Minim.Env.C12_env_map_partial",
    "Minim.Env.C12_scheme_ref_partial",
    "Minim.Env.C12_negated_forward_reference",
    "Minim.Env.C12_negated_fail",
    "Minim.Env.C12_negated_duplicates"
   ],
   "note": "false of the code in three corner cases (negations); proved for all histories whose explicit symbol lists have no repetitions"
  },
  {
   "property": "C13",
   "status": "partial",
   "theorems": [
    "Minim.Env.C13_copy_partial",
    "Minim.Env.C13_full_copy"
   ],
   "note": "full for complete copies; for explicit symbol lists without repetitions (with repetitions the copy is malformed, C12_negated_duplicates)"
  },
  {
   "property": "C14",
   "status": "partial",
   "theorems": [
    "Minim.Env.C14_negated_set",
    "Minim.Env.C14_flag_partial"
   ],
   "note": "false of the code: the flag is recorded but never checked"
  },
  {
   "property": "C15",
   "status": "partial",
   "theorems": [
    "Minim.Intern.C15_sound",
    "Minim.Intern.C15_canonical_partial",
    "Minim.Intern.C15_small_partial",
    "Minim.Intern.C15_negated"
   ],
   "note": "false of the code once the table grows; different names always give different objects; canonical for every name whose first interning does not grow the table, across any later growth, and for all histories of at most 6157 names (sharp)"
  },
  {
   "property": "C16",
   "status": "proved",
   "theorems": [
    "Minim.Intern.C16_gensym_fresh"
   ],
   "note": ""
  },
  {
   "property": "C17",
   "status": "proved",
   "theorems": [
    "Minim.Equal.C17_eq_equivalence",
    "Minim.Equal.C17_equal_refl",
    "Minim.Equal.C17_equal_symm",
    "Minim.Equal.C17_equal_trans",
    "Minim.Equal.C17_eq_implies_equal"
   ],
   "note": "all memories, cyclic ones included"
  },
  {
   "property": "C18",
   "status": "proved",
   "theorems": [
    "Minim.Equal.C18_decides_tree_equality",
    "Minim.Equal.acyclic_unfolds",
    "Minim.Equal.unfolds_unique",
    "Minim.Equal.C18_cyclic_diverges"
   ],
   "note": "acyclicity is well-foundedness of the reference relation; unbounded depth"
  },
  {
   "property": "C19",
   "status": "partial",
   "theorems": [
    "Minim.Equal.C19_symmetry_fails",
    "Minim.Equal.C19_refl_partial",
    "Minim.Equal.C19_trans_partial",
    "Minim.Equal.C19_symm_partial",
    "Minim.Equal.C19_symm_no_tables_partial",
    "Minim.Equal.C19_eq_implies_equal_partial"
   ],
   "note": "false of the code for hashtables of different size (negation); reflexive and transitive for all values, symmetric whenever tables found equal have the same size"
  },
  {
   "property": "C20",
   "status": "partial",
   "theorems": [
    "Minim.Equal.C20_eq_hash",
    "Minim.Equal.C20_equal_hash",
    "Minim.Equal.C20_native_equal_hash",
    "Minim.Equal.C20_table_consistent",
    "Minim.Equal.C20_negated_table_hash"
   ],
   "note": "the computations have the same outcome for all equal objects; for hashtables that outcome always is an error (negation); record types with own procedures are not modelled"
  },
  {
   "property": "C21",
   "status": "proved",
   "theorems": [
    "Minim.Num.C21_add",
    "Minim.Num.C21_sub",
    "Minim.Num.C21_mul",
    "Minim.Num.C21_neg",
    "Minim.Num.C21_add1_sub1",
    "Minim.Num.C23_add",
    "Minim.Num.C23_mul",
    "Minim.Num.C23_sub"
   ],
   "note": "all words; argument lists through C23"
  },
  {
   "property": "C22",
   "status": "partial",
   "theorems": [
    "Minim.Num.C22_defined",
    "Minim.Num.C22_division_law",
    "Minim.Num.C22_negated_modulo",
    "Minim.Num.C22_modulo_partial",
    "Minim.Num.C22_negated_zero",
    "Minim.Num.C22_div_zero_partial",
    "Minim.Num.C22_negated_min"
   ],
   "note": "division law proved for all words; modulo is wrong exactly on multiples of opposite sign, and remainder/modulo by zero are undefined (negations)"
  },
  {
   "property": "C23",
   "status": "partial",
   "theorems": [
    "Minim.Num.C23_add",
    "Minim.Num.C23_mul",
    "Minim.Num.C23_sub",
    "Minim.Num.C23_units",
    "Minim.Num.C23_type_check",
    "Minim.Num.C23_negated_div",
    "Minim.Num.C23_negated_div_witness",
    "Minim.Num.C23_div_partial"
   ],
   "note": "proved for + - * on all argument lists; false for / with three or more arguments (negation), proved for one and two"
  },
  {
   "property": "C24",
   "status": "partial",
   "theorems": [
    "Minim.Num.C24_chain_partial",
    "Minim.Num.C24_negated_single",
    "Minim.Num.C24_type_check",
    "Minim.Num.C24_sign"
   ],
   "note": "proved for two or more numbers; false for one (negation)"
  },
  {
   "property": "C25",
   "status": "proved",
   "theorems": [
    "Minim.LH.C25_listp",
    "Minim.LH.C25_length",
    "Minim.LH.C25_reverse",
    "Minim.LH.C25_append2",
    "Minim.LH.C25_append",
    "Minim.LH.C25_copy",
    "Minim.LH.C25_memq",
    "Minim.LH.C25_set_tail",
    "Minim.LH.C30_ref",
    "Minim.LH.C28_make_list"
   ],
   "note": "over cell heaps: elements, sharing and unchanged arguments"
  },
  {
   "property": "C26",
   "status": "partial",
   "theorems": [
    "Minim.LH.C26_no_ub_partial",
    "Minim.LH.C26_improper_refused",
    "Minim.LH.C26_negated_mutation",
    "Minim.LS.C27_bad_arguments",
    "Minim.LS.C28_enumerate_improper",
    "Minim.LS.C29_accessors_improper",
    "Minim.LS.C26_library_improper"
   ],
   "note": "no undefined behaviour for any heap and argument, cyclic or improper; false for procedures whose callback mutates the list (negation)"
  },
  {
   "property": "C27",
   "status": "proved",
   "theorems": [
    "Minim.LS.C27_map",
    "Minim.LS.C27_for_each",
    "Minim.LS.C27_and_or",
    "Minim.LS.C27_pure",
    "Minim.LS.C27_bad_arguments"
   ],
   "note": "any number of lists of any length, procedures with arbitrary effects (callbacks that mutate the argument lists: see C26)"
  },
  {
   "property": "C28",
   "status": "proved",
   "theorems": [
    "Minim.LS.C28_iota",
    "Minim.LS.C28_make_list",
    "Minim.LS.C28_enumerate",
    "Minim.LS.C28_enumerate_improper",
    "Minim.LH.C28_make_list"
   ],
   "note": "all fixnums and lists (enumerate: fewer than 2^63 elements)"
  },
  {
   "property": "C29",
   "status": "partial",
   "theorems": [
    "Minim.LS.C29_list_ref",
    "Minim.LS.C29_list_set",
    "Minim.LS.C29_accessors",
    "Minim.LS.C29_accessors_improper",
    "Minim.LS.C29_cons_star",
    "Minim.LS.C29_member_partial",
    "Minim.LS.C29_negated_member",
    "Minim.LS.C29_remove",
    "Minim.LS.C29_remove_star",
    "Minim.LS.C29_filter",
    "Minim.LS.C29_filter_pure",
    "Minim.LS.C29_foldl",
    "Minim.LS.C29_foldr",
    "Minim.LS.C29_folds_pure",
    "Minim.LS.C29_assoc",
    "Minim.LS.C29_index_of"
   ],
   "note": "proved for all procedures except member, which cannot find #f (negation)"
  },
  {
   "property": "C30",
   "status": "proved",
   "theorems": [
    "Minim.LH.C30_ref",
    "Minim.LH.C30_set"
   ],
   "note": "all association lists, any equivalence as eq?"
  },
  {
   "property": "C31",
   "status": "partial",
   "theorems": [
    "Minim.Str.C31_round_trip",
    "Minim.Str.C31_string_to_list",
    "Minim.Str.C31_list_to_string",
    "Minim.Str.C31_list_to_string_type",
    "Minim.Str.C31_negated",
    "Minim.Str.C31_partial"
   ],
   "note": "first law proved; second law false for every list (negation), proved up to the extra NUL"
  },
  {
   "property": "C32",
   "status": "partial",
   "theorems": [
    "Minim.Str.C32_number_to_string",
    "Minim.Str.C32_partial",
    "Minim.Str.C32_negated",
    "Minim.Str.C32_negated_garbage"
   ],
   "note": "proved for the range of int, negated for every other fixnum"
  },
  {
   "property": "C33",
   "status": "proved",
   "theorems": [
    "Minim.LH.C33_list_to_vector",
    "Minim.LH.C33_vector_to_list",
    "Minim.LH.C33_round_trip"
   ],
   "note": "all lengths"
  },
  {
   "property": "C34",
   "status": "proved",
   "theorems": [
    "Minim.Str.C34_programs",
    "Minim.Str.C34_vector_ref",
    "Minim.Str.C34_vector_set",
    "Minim.Str.C34_make_vector",
    "Minim.Str.C34_vector_fill",
    "Minim.Str.C35_ref",
    "Minim.Str.C35_set",
    "Minim.Str.C35_substring",
    "Minim.Str.C35_substring_type",
    "Minim.LS.C29_list_ref",
    "Minim.Rec.C34_records",
    "Minim.Rec.C42_refines"
   ],
   "note": "all programs over the checked procedures, started from any constants; field lists given to make-record-type-descriptor are vectors (otherwise C73)"
  },
  {
   "property": "C35",
   "status": "partial",
   "theorems": [
    "Minim.Str.C35_append",
    "Minim.Str.C35_append_type",
    "Minim.Str.C35_substring",
    "Minim.Str.C35_substring_type",
    "Minim.Str.C35_length",
    "Minim.Str.C35_ref",
    "Minim.Str.C35_set",
    "Minim.Str.C35_set_ref",
    "Minim.Str.C35_make_string",
    "Minim.Str.C35_negated_nul",
    "Minim.Str.C35_negated_make_nul"
   ],
   "note": "proved for all characters except NUL, for which the laws fail (negations)"
  },
  {
   "property": "C36",
   "status": "partial",
   "theorems": [
    "Minim.Rd.C36_partial",
    "Minim.Rd.C36_partial_c",
    "Minim.Rd.C36_strings",
    "Minim.Rd.C36_negated_string",
    "Minim.Rd.C36_negated_vector",
    "Minim.Rd.C36_negated_fixnum",
    "Minim.Rd.C36_negated_other",
    "Minim.Rd.C36_negated_c"
   ],
   "note": "proved for all data of any depth except those for which it is false (negations): strings with five control characters, empty vectors, the smallest fixnum, character 0xFF, strings of 4096 or more characters"
  },
  {
   "property": "C37",
   "status": "partial",
   "theorems": [
    "Minim.Rd.C37_partial",
    "Minim.Rd.C37_space",
    "Minim.Rd.C37_characters",
    "Minim.Rd.C37_block",
    "Minim.Rd.C37_datum",
    "Minim.Rd.C37_negated_close",
    "Minim.Rd.C37_negated_dot",
    "Minim.Rd.C37_negated_bar"
   ],
   "note": "proved in front of every token for white space and line comments, in front of every datum for block and datum comments; false in front of closing parentheses and dots (negations)"
  },
  {
   "property": "C38",
   "status": "proved",
   "theorems": [
    "Minim.Rd.C38_position",
    "Minim.Rd.C38_prefix",
    "Minim.Rd.C38_file"
   ],
   "note": "for every sequence of data of the grammar in every layout; prefix theorem for arbitrary input"
  },
  {
   "property": "C39",
   "status": "partial",
   "theorems": [
    "Minim.Rd.C39_partial",
    "Minim.Rd.C39_no_ub_partial",
    "Minim.Rd.C39_terminates_partial",
    "Minim.Rd.C39_fuel",
    "Minim.Rd.C39_negated_symbol",
    "Minim.Rd.C39_negated_string",
    "Minim.Rd.C39_negated_number",
    "Minim.Rd.C39_negated_vector",
    "Minim.Rd.C39_negated_byte",
    "Minim.Rd.C39_negated_quote"
   ],
   "note": "false (negations); memory safety proved for ASCII input without over-long tokens, termination for input without vector syntax"
  },
  {
   "property": "C40",
   "status": "partial",
   "theorems": [
    "Minim.Rd.C40_integer",
    "Minim.Rd.C40_hexadecimal",
    "Minim.Rd.C40_partial",
    "Minim.Rd.C40_negated",
    "Minim.Rd.C40_negated_plus",
    "Minim.Rd.C39_negated_number"
   ],
   "note": "integers proved; symbols starting with a minus sign proved, all others negated"
  },
  {
   "property": "C41",
   "status": "proved",
   "theorems": [
    "Minim.Stx.C41_inverse",
    "Minim.Stx.C41_mixed",
    "Minim.Stx.C41_idempotent",
    "Minim.Stx.C41_wrapped",
    "Minim.Stx.C41_flat",
    "Minim.Stx.C41_list",
    "Minim.Stx.C41_list_false",
    "Minim.Stx.C41_elements",
    "Minim.Stx.C41_errors",
    "Minim.Stx.C41_needs_flat"
   ],
   "note": "all finite data; data containing syntax already: stripping removes that as well (C41_mixed)"
  },
  {
   "property": "C42",
   "status": "proved",
   "theorems": [
    "Minim.Rec.C42_refines",
    "Minim.Rec.C42_last_write",
    "Minim.Rec.C42_constructed"
   ],
   "note": "refinement to a specification without positions, for all programs, hierarchies and constants"
  },
  {
   "property": "C43",
   "status": "proved",
   "theorems": [
    "Minim.Rec.C43_predicate",
    "Minim.Rec.C43_other",
    "Minim.Rec.C42_refines"
   ],
   "note": "all states reachable by programs"
  },
  {
   "property": "C44",
   "status": "partial",
   "theorems": [
    "Minim.Rec.C44_partial",
    "Minim.Rec.C44_until",
    "Minim.Rec.C44_override",
    "Minim.Rec.C44_used",
    "Minim.Rec.C44_negated_writer"
   ],
   "note": "equality and hash procedures proved; false of writers (negation)"
  },
  {
   "property": "C45",
   "status": "partial",
   "theorems": [
    "Minim.Chk.C45_accepts",
    "Minim.Chk.C45_exact",
    "Minim.Chk.C45_sound_partial",
    "Minim.Chk.C45_rejects_partial",
    "Minim.Chk.C45_negated_operator",
    "Minim.Chk.C45_negated_ub",
    "Minim.Core.C45_trees"
   ],
   "note": "exact characterisation of what is accepted; soundness needs well-formed operators, rejection without undefined behaviour needs the shapes of Shaped (both negated otherwise)"
  },
  {
   "property": "C46",
   "status": "partial",
   "theorems": [
    "Minim.Jit.C46_partial",
    "Minim.Jit.C46_negated",
    "Minim.Jit.C46_negated_twice"
   ],
   "note": "all programs that do not rebind values and call-with-values and bind distinct identifiers in let-values; results, not errors and divergence; violated otherwise"
  },
  {
   "property": "C47",
   "status": "partial",
   "theorems": [
    "Minim.Jit.C47_partial",
    "Minim.Jit.C47_negated_shadow",
    "Minim.Jit.C47_negated_order",
    "Minim.Jit.C47_negated_rest",
    "Minim.Jit.C47_negated_missing",
    "Minim.Jit.C47_negated_arity"
   ],
   "note": "all programs that do not rebind values and call-with-values and whose consumers are abstractions, constants or variables never assigned; results; violated otherwise and for arity errors"
  },
  {
   "property": "C48",
   "status": "partial",
   "theorems": [
    "Minim.Jit.C48_partial",
    "Minim.Jit.C48_negated_arity",
    "Minim.Jit.C48_negated_spread",
    "Minim.Jit.C48_negated_shadow"
   ],
   "note": "all programs that do not rebind values and call-with-values; results; violated for arity errors"
  },
  {
   "property": "C49",
   "status": "proved",
   "theorems": [
    "Minim.Jit.C49_exact",
    "Minim.Jit.C49_table",
    "Minim.Jit.C49_lookup"
   ],
   "note": "all expressions of the intermediate language (no let-values, letrec-values: removed by the first pass)"
  },
  {
   "property": "C50",
   "status": "proved",
   "theorems": [
    "Minim.Jit.C50_resolve",
    "Minim.Jit.C50_compiled"
   ],
   "note": "all well-formed instruction lists; the lists the compiler makes are well formed, for all expressions"
  },
  {
   "property": "C51",
   "status": "proved",
   "theorems": [
    "Minim.Jit.C51_case_lambda",
    "Minim.Jit.C51_lambda"
   ],
   "note": "all clause lists, argument lists and machine states; procedures as compiled, with as many captured cells as the compiler allocates (C75)"
  },
  {
   "property": "C52",
   "status": "partial",
   "theorems": [
    "Minim.Jit.C52_value_partial",
    "Minim.Jit.C52_datum_partial",
    "Minim.Jit.C52_error_partial",
    "Minim.Jit.C52_diverge_partial",
    "Minim.Jit.C52_outcome_partial",
    "Minim.Jit.C52_assign_partial",
    "Minim.Jit.C52_negated_values",
    "Minim.Jit.C52_negated_clear",
    "Minim.Jit.C52_negated_set",
    "Minim.Jit.C52_negated_set_undefined",
    "Minim.Jit.C52_negated_if"
   ],
   "note": "all expressions of the intermediate language that make no multiple values while arguments are waiting and assign no top-level variable outside procedures, all stores, all parametric C functions without effects; values, errors and divergence of the run agree with those of the evaluation (both directions on an idle machine), except for runs that reach a condition or assigned expression with no or several values or the assignment of a variable that does not exist; the excluded cases are violated (witnesses); `C52_assign_partial` covers the effect of an assignment at top level"
  },
  {
   "property": "C53",
   "status": "partial",
   "theorems": [
    "Minim.Stk.C53_within_partial",
    "Minim.Stk.C53_negated_overrun",
    "Minim.Stk.C53_negated_depth",
    "Minim.Stk.C53_negated_apply",
    "Minim.Stk.C53_negated_grow"
   ],
   "note": "all instruction sequences whose frames fit in the first segment of 8190 words refine a stack of frames; beyond that the segment is overrun, and growing the stack breaks the return (general negations)"
  },
  {
   "property": "C54",
   "status": "partial",
   "theorems": [
    "Minim.Gc.C54_survives_partial",
    "Minim.Gc.C54_alloc_partial",
    "Minim.Gc.C54_calloc_partial",
    "Minim.Gc.C54_negated_realloc",
    "Minim.Gc.C54_negated_range"
   ],
   "note": "all histories, heaps and pointer graphs, blocks within the range taken for heap; violated by reallocation when memory is short, and by blocks out of range"
  },
  {
   "property": "C55",
   "status": "proved",
   "theorems": [
    "Minim.Gc.C55_only_reachable"
   ],
   "note": "all histories, heaps and pointer graphs; memory not exhausted"
  },
  {
   "property": "C56",
   "status": "partial",
   "theorems": [
    "Minim.Gc.C56_collect_partial",
    "Minim.Gc.C56_negated_free",
    "Minim.Gc.C56_negated_realloc"
   ],
   "note": "collections proved for all histories; GC_free never runs a destructor (general negation), GC_realloc forgets it"
  },
  {
   "property": "C57",
   "status": "partial",
   "theorems": [
    "Minim.Gc.C57_table_partial",
    "Minim.Gc.C57_negated_lost",
    "Minim.Gc.C57_negated_null"
   ],
   "note": "all histories in which at most one attempt of each request for memory fails; violated when memory runs out"
  },
  {
   "property": "C58",
   "status": "partial",
   "theorems": [
    "Minim.Gc.C58_allocated_partial",
    "Minim.Gc.C58_reachable_partial",
    "Minim.Gc.C58_negated_collectable"
   ],
   "note": "allocated and reachable bytes exact (modulo 2^64) for all histories; collectable bytes wrong"
  },
  {
   "property": "C59",
   "status": "partial",
   "theorems": [
    "Minim.Gc.C59_free_partial",
    "Minim.Gc.C59_root_partial",
    "Minim.Gc.C59_negated"
   ],
   "note": "blocks that are not roots proved; freeing a root only ever adds root flags; that it does is the violation"
  },
  {
   "property": "C60",
   "status": "partial",
   "theorems": [
    "Minim.Gc.C60_trigger_partial",
    "Minim.Gc.C60_paused_partial",
    "Minim.Gc.C60_negated"
   ],
   "note": "exact trigger for all histories of less than 2^64 bytes, memory available at once; violated when memory is short"
  },
  {
   "property": "C61",
   "status": "proved",
   "theorems": [
    "Minim.LH.C61_list",
    "Minim.LH.C61_vector",
    "Minim.LH.C61_any_order",
    "Minim.LH.C61_refused"
   ],
   "note": "all lists and vectors, all comparison procedures that compute a strict weak order on the elements; for other comparison procedures that answer: a permutation"
  },
  {
   "property": "C62",
   "status": "proved",
   "theorems": [
    "Minim.SetS.C62"
   ],
   "note": "all programs of set operations; hash and equivalence procedures are any consistent ones; the undefined case needs more inequivalent elements than the largest table has buckets"
  },
  {
   "property": "C63",
   "status": "partial",
   "theorems": [
    "Minim.EnumS.C63_partial",
    "Minim.EnumS.C63_negated",
    "Minim.EnumS.C63_negated_shared"
   ],
   "note": "all programs that do not assign to the pairs of shared lists; refuted: repeated symbols, shared lists"
  },
  {
   "property": "C64",
   "status": "partial",
   "theorems": [
    "Minim.Promise.C64_cached",
    "Minim.Promise.C64_once_partial",
    "Minim.Promise.C64_lazy",
    "Minim.Promise.C64_refused",
    "Minim.Promise.C64_negated"
   ],
   "note": "all bodies and histories without re-entrancy; re-entrant bodies are evaluated twice and change the value (refuted)"
  },
  {
   "property": "C65",
   "status": "partial",
   "theorems": [
    "Minim.Path.C65_partial",
    "Minim.Path.C65_list",
    "Minim.Path.C65_build",
    "Minim.Path.C65_build_empty",
    "Minim.Path.C65_rebuild",
    "Minim.Path.C65_split",
    "Minim.Path.C65_absolute",
    "Minim.Path.C65_negated",
    "Minim.Path.C65_negated_literal"
   ],
   "note": "all path strings and lists of parts, both round trips; refuted: an empty first part, and literals changed by the caller"
  },
  {
   "property": "C66",
   "status": "partial",
   "theorems": [
    "Minim.Fmt.C66_partial",
    "Minim.Fmt.C66_fprintf_partial",
    "Minim.Fmt.C66_fprintf_refused",
    "Minim.Fmt.C66_negated"
   ],
   "note": "format strings without ~~ (refuted): output and rejection for all strings and argument lists"
  },
  {
   "property": "C67",
   "status": "partial",
   "theorems": [
    "Minim.Port.C67_partial",
    "Minim.Port.C67_refines_partial",
    "Minim.Port.C67_negated_nul",
    "Minim.Port.C67_negated_range",
    "Minim.Port.C67_negated_write_char"
   ],
   "note": "refinement of any program over string ports to byte sequences; missing: NUL characters, overflowing ranges and write-char (refuted), closed ports (C85)"
  },
  {
   "property": "C68",
   "status": "partial",
   "theorems": [
    "Minim.Proc.C68_partial",
    "Minim.Proc.C68_negated"
   ],
   "note": "the result has the name and code; the original is renamed as well (refuted)"
  },
  {
   "property": "C69",
   "status": "proved",
   "theorems": [
    "Minim.Env.C69_captured_cell"
   ],
   "note": ""
  },
  {
   "property": "C70",
   "status": "partial",
   "theorems": [
    "Minim.Env.C70_negated_set_undefined",
    "Minim.Env.C70_defined_partial"
   ],
   "note": "false of the code: negation proved; histories assigning only bound names are free of undefined behaviour"
  },
  {
   "property": "C71",
   "status": "partial",
   "theorems": [
    "Minim.Str.C71_char_integer_char",
    "Minim.Str.C71_partial",
    "Minim.Str.C71_negated"
   ],
   "note": "first law proved; second for -128..127, negated for every other integer"
  },
  {
   "property": "C72",
   "status": "partial",
   "theorems": [
    "Minim.Rec.C72_partial",
    "Minim.Rec.C72_negated"
   ],
   "note": "false: mutators of immutable fields work; the report of mutability is proved"
  },
  {
   "property": "C73",
   "status": "partial",
   "theorems": [
    "Minim.Rec.C73_partial",
    "Minim.Rec.C73_negated_fields",
    "Minim.Rec.C73_negated_checks"
   ],
   "note": "false: only the parent is checked"
  },
  {
   "property": "C74",
   "status": "partial",
   "theorems": [
    "Minim.Rec.C74_partial",
    "Minim.Rec.C74_negated"
   ],
   "note": "false: cannot be set, hash procedure cannot be read"
  },
  {
   "property": "C75",
   "status": "proved",
   "theorems": [
    "Minim.Jit.C75_slots",
    "Minim.Jit.boundVars_lookup"
   ],
   "note": "all expressions of the intermediate language whose case-lambdas have a clause"
  },
  {
   "property": "C76",
   "status": "partial",
   "theorems": [
    "Minim.Jit.C76_one_arg",
    "Minim.Jit.C76_value_partial",
    "Minim.Jit.C76_two_args_partial",
    "Minim.Jit.C76_arity",
    "Minim.Jit.C76_negated",
    "Minim.Jit.C76_negated_general"
   ],
   "note": "one argument, arity errors and evaluation in the given environment proved; restoring the environment is violated for every expression"
  },
  {
   "property": "C77",
   "status": "partial",
   "theorems": [
    "Minim.Jit.C77_exact_partial",
    "Minim.Jit.C77_sound",
    "Minim.Jit.C77_lambda",
    "Minim.Jit.C77_negated",
    "Minim.Jit.C77_negated_improper"
   ],
   "note": "exact if rest clauses need at least as many arguments as the clauses before them; sound for all; violated otherwise (two witnesses)"
  },
  {
   "property": "C78",
   "status": "partial",
   "theorems": [
    "Minim.Stk.C78_load_tail_partial",
    "Minim.Stk.C78_negated"
   ],
   "note": "calls in tail position of a toplevel expression proved, one expression in the file (the next begins as the first did); every other call is violated"
  },
  {
   "property": "C79",
   "status": "partial",
   "theorems": [
    "Minim.Gc.C79_alloc_partial",
    "Minim.Gc.C79_calloc_partial",
    "Minim.Gc.C79_realloc_partial",
    "Minim.Gc.C79_negated_alloc",
    "Minim.Gc.C79_negated_calloc"
   ],
   "note": "all histories and sizes that do not overflow; violated by overflow"
  },
  {
   "property": "C80",
   "status": "proved",
   "theorems": [
    "Minim.Gc.C80_finalize"
   ],
   "note": "all histories; memory not exhausted"
  },
  {
   "property": "C81",
   "status": "proved",
   "theorems": [
    "Minim.Gc.C81_dtor",
    "Minim.Gc.C81_marker",
    "Minim.Gc.C81_root",
    "Minim.Gc.C81_root_survives",
    "Minim.Gc.C81_dtor_runs"
   ],
   "note": "all histories; the consequences for collections need every block in the range of addresses taken for heap, as C54"
  },
  {
   "property": "C82",
   "status": "partial",
   "theorems": [
    "Minim.Jit.C82_optimise_partial",
    "Minim.Jit.C82_machine_partial",
    "Minim.Jit.C82_load_partial",
    "Minim.Jit.C82_file_partial",
    "Minim.Jit.C82_negated",
    "Minim.Jit.C82_negated_capture"
   ],
   "note": "conjunction of the restrictions of C46 to C48; down to the machine that runs the compiled forms one after the other; `C82_file_partial` covers programs that contain the prelude's definition of call-with-values, and assignments at top level"
  },
  {
   "property": "C83",
   "status": "partial",
   "theorems": [
    "Minim.Jit.C83_terminates",
    "Minim.Jit.C83_total_partial",
    "Minim.Jit.C83_negated_clauses"
   ],
   "note": "termination of the optimiser for all programs; success for all programs whose case-lambda expressions have clauses and that call call-with-values only directly with a producer and a consumer without a mix of required and rest parameters; violated otherwise"
  },
  {
   "property": "C84",
   "status": "proved",
   "theorems": [
    "Minim.Port.C84_input",
    "Minim.Port.C67_refines_partial"
   ],
   "note": "all strings and any number of reads; interleavings with other ports by the refinement theorem"
  },
  {
   "property": "C85",
   "status": "partial",
   "theorems": [
    "Minim.Port.C85_partial",
    "Minim.Port.C85_negated"
   ],
   "note": "ports of the wrong kind and other values are refused; closed ports are refuted: undefined behaviour"
  },
  {
   "property": "C86",
   "status": "partial",
   "theorems": [
    "Minim.Lay.C86_partial",
    "Minim.Lay.C86_tags",
    "Minim.Lay.C86_negated_char",
    "Minim.Lay.C86_negated_vector",
    "Minim.Lay.C86_negated_record"
   ],
   "note": "all kinds except characters, all sizes that do not overflow; refuted: characters (one byte past the block), huge vectors and records"
  },
  {
   "property": "C87",
   "status": "partial",
   "theorems": [
    "Minim.Exp.C87_expr_partial",
    "Minim.Exp.C87_datum_partial",
    "Minim.Exp.C87_negated_capture",
    "Minim.Exp.C87_negated_shadow",
    "Minim.Exp.C87_negated_void",
    "Minim.Exp.C87_negated_named"
   ],
   "note": "successful runs of programs whose variables are not named like a macro, a keyword, or-t or (when bound) void or values; refuted without these restrictions"
  },
  {
   "property": "C88",
   "status": "partial",
   "theorems": [
    "Minim.Exp.C88_module_partial",
    "Minim.Exp.C88_globals_partial",
    "Minim.Exp.C88_negated_prompt",
    "Minim.Exp.C88_negated_redefine",
    "Minim.Exp.C88_negated_begin"
   ],
   "note": "modules without macro definitions of their own, successful runs; refuted: the prompt, redefined macros, several forms made by one macro"
  },
  {
   "property": "C89",
   "status": "partial",
   "theorems": [
    "Minim.Exp.C89_check_partial",
    "Minim.Exp.C89_expanded_partial",
    "Minim.Exp.C89_negated"
   ],
   "note": "references: exactly the modules without unknown variables are accepted; refuted for assigned variables, which are not checked"
  },
  {
   "property": "C90",
   "status": "partial",
   "theorems": [
    "Minim.Load.C90_once",
    "Minim.Load.C90_imports",
    "Minim.Load.C90_exports",
    "Minim.Load.C90_ends",
    "Minim.Load.C90_acyclic",
    "Minim.Load.C90_negated_cycle",
    "Minim.Load.C90_negated_names",
    "Minim.Load.C90_negated_absolute"
   ],
   "note": "proved for files identified by the text of their path; refuted: cycles are not reported, one file under two names is evaluated twice, absolute names in import forms"
  },
  {
   "property": "C91",
   "status": "partial",
   "theorems": [
    "Minim.Load.C91_partial",
    "Minim.Load.C91_negated"
   ],
   "note": "imported and base variables are seen; refuted: variables of the module itself are not"
  },
  {
   "property": "C92",
   "status": "partial",
   "theorems": [
    "Minim.LRd.C92_datum_partial",
    "Minim.LRd.C92_file_partial",
    "Minim.LRd.C92_result",
    "Minim.LRd.C92_ends",
    "Minim.LRd.C92_negated_number",
    "Minim.LRd.C92_negated_forever",
    "Minim.LRd.C92_negated_comment",
    "Minim.LRd.C92_negated_quote"
   ],
   "note": "proved for the grammar of LibReadSpec; refuted: numbers at the end of the input, unclosed comments and vectors, trailing block comments"
  },
  {
   "property": "C93",
   "status": "partial",
   "theorems": [
    "Minim.LRd.C93_partial",
    "Minim.LRd.C93_negated_tab",
    "Minim.LRd.C93_negated_dot",
    "Minim.LRd.C93_negated_symbol",
    "Minim.LRd.C93_negated_names"
   ],
   "note": "proved for texts made of tokens of both grammars; refuted: tabs, dots before parentheses, symbols that start with digits, names and escapes"
  },
  {
   "property": "C94",
   "status": "partial",
   "theorems": [
    "Minim.Sc.C94_match_partial",
    "Minim.Sc.C94_never_wrong_partial",
    "Minim.Sc.C94_syntax_case_partial",
    "Minim.Sc.C94_syntax_case_never_wrong_partial",
    "Minim.Sc.C94_match_unique",
    "Minim.Sc.C94_negated_vector_tail",
    "Minim.Sc.C94_negated_dotted_vector",
    "Minim.Sc.C94_negated_wildcard",
    "Minim.Sc.C94_negated_dotted_literal",
    "Minim.Sc.C94_negated_later_clause",
    "Minim.Sc.C94_negated_wrapped_tail",
    "Minim.Sc.C94_negated_capture"
   ],
   "note": "proved for all linear patterns except vector patterns behind a dot or with elements behind an ellipsis, for inputs made from plain data; on the data described by Calm the matcher raises an exception instead of failing; refuted for the rest"
  },
  {
   "property": "C95",
   "status": "partial",
   "theorems": [
    "Minim.Sc.C95_template_partial",
    "Minim.Sc.C95_instance_unique",
    "Minim.Sc.C95_flat_partial",
    "Minim.Sc.C95_negated_dotted_end",
    "Minim.Sc.C95_negated_constant_end",
    "Minim.Sc.C95_negated_double_ellipsis",
    "Minim.Sc.C95_negated_escape",
    "Minim.Sc.C95_negated_too_many",
    "Minim.Sc.C95_negated_not_syntax",
    "Minim.Sc.C95_negated_wrapped_tail"
   ],
   "note": "proved for all templates with one ellipsis per subtemplate whose lists with an ellipsis end in () or in a variable that stands for a list; refuted for the others"
  },
  {
   "property": "C96",
   "status": "partial",
   "theorems": [
    "Minim.Sc.C96_rules_partial",
    "Minim.Sc.C96_with_syntax_partial",
    "Minim.Sc.C96_syntax_rules_partial"
   ],
   "note": "for the patterns of C94 and the templates of C95; the generated transformer of syntax-rules is given up to wrapping of tails"
  },
  {
   "property": "C97",
   "status": "partial",
   "theorems": [
    "Minim.PatScope.C97_templates_see_scope_partial",
    "Minim.PatScope.C97_bodies_partial",
    "Minim.PatScope.C97_negated_leak",
    "Minim.PatScope.C97_negated_shadow",
    "Minim.PatScope.C97_order_matters"
   ],
   "note": "proved where no template follows, in the same application, an argument that binds pattern variables, and where no variable shadows a pattern variable; refuted otherwise"
  },
  {
   "property": "C98",
   "status": "partial",
   "theorems": [
    "Minim.Sc.CaseM.C98_case_partial",
    "Minim.Sc.CaseM.C98_negated_capture",
    "Minim.Sc.DoM.C98_do_partial",
    "Minim.Sc.DoM.C98_negated_do_result",
    "Minim.Sc.DoM.C98_negated_do_capture",
    "Minim.Sc.DoM.C98_negated_do_variable"
   ],
   "note": "proved for bodies that do not depend on the variables tmp (case) and loop (do), and for do with a result expression; refuted otherwise"
  },
  {
   "property": "C99",
   "status": "partial",
   "theorems": [
    "Minim.Jit.C99_raise",
    "Minim.Jit.C99_c_error_partial",
    "Minim.Jit.C99_negated_top_level",
    "Minim.Jit.C99_raise_returns",
    "Minim.Jit.C99_c_error_returns",
    "Minim.Jit.C99_negated_raise",
    "Minim.Exn.C99_argument",
    "Minim.Exn.C99_error",
    "Minim.Exn.C99_c_error_record",
    "Minim.Exn.C99_kinds",
    "Minim.Exn.C99_invalid",
    "Minim.Exn.C99_arity_check",
    "Minim.Exn.C99_arity_text",
    "Minim.Exn.C99_report",
    "Minim.Exn.C99_head_line",
    "Minim.Exn.C99_negated_arity_kind",
    "Minim.Exn.C99_negated_constructor",
    "Minim.Exn.C99_negated_missing"
   ],
   "note": "calling the handler: proved for raise with a handler and for errors of C code below a saved frame; refuted at the top level, for the kind of arity errors, and for handlers that return"
  },
  {
   "property": "C100",
   "status": "partial",
   "theorems": [
    "Minim.Gen.C100_arity",
    "Minim.Gen.C100_add",
    "Minim.Gen.C100_lookup_partial",
    "Minim.Gen.C100_instance_partial",
    "Minim.Gen.C100_define",
    "Minim.Gen.C100_formals",
    "Minim.Gen.C100_no_inheritance",
    "Minim.Gen.C100_negated_equal",
    "Minim.Gen.C100_negated_report",
    "Minim.Gen.C100_negated_duplicate"
   ],
   "note": "lookup is proved as long as the program does not install its own equality for interfaces (`record-type-equal-procedure` of their type), refuted otherwise"
  },
  {
   "property": "C101",
   "status": "partial",
   "theorems": [
    "Minim.DRT.C101_clauses",
    "Minim.DRT.C101_short",
    "Minim.DRT.C101_header",
    "Minim.DRT.C101_define_partial",
    "Minim.DRT.C101_use",
    "Minim.DRT.C101_sealed",
    "Minim.DRT.C101_negated_writer",
    "Minim.DRT.C101_negated_capture",
    "Minim.DRT.C101_negated_shadow"
   ],
   "note": "no protocol; parents without writer; generated names must be distinct and hide no record procedure; method expressions must not mention the variables of the expansion"
  },
  {
   "property": "C102",
   "status": "partial",
   "theorems": [
    "Minim.Pre.C102_report_partial",
    "Minim.Pre.C102_guard",
    "Minim.Pre.C102_compare",
    "Minim.Pre.C102_negated_report"
   ],
   "note": "reports are right for 100 procedures and wrong for 45 (with a witness for each); nothing wrong is accepted by any of these 145; comparisons accept anything after the first pair out of order. Procedures without checks, those of C99 and of other properties are not in the tables"
  },
  {
   "property": "C103",
   "status": "proved",
   "theorems": [
    "Minim.Pre.C103_select",
    "Minim.Pre.C103_names"
   ],
   "note": "for any letters, up to four, and any value"
  },
  {
   "property": "C104",
   "status": "partial",
   "theorems": [
    "Minim.Lib.C104_expression_partial",
    "Minim.Lib.C104_library_partial",
    "Minim.Lib.C104_boot",
    "Minim.Lib.C104_boot_partial",
    "Minim.Lib.C104_negated_prelude",
    "Minim.Lib.C104_negated_write_char"
   ],
   "note": "boot.min is clean; prelude.min uses 13 undefined variables in 12 definitions, listed exactly; no other unknown variable can be met. Missing: C functions that call procedures or have effects (`Prims`). The expressions of the two files are written by tools/gen_code.py"
  },
  {
   "property": "C105",
   "status": "partial",
   "theorems": [
    "Minim.Lib.C105_calls_partial",
    "Minim.Lib.C105_library_partial",
    "Minim.Lib.C105_table",
    "Minim.Lib.C105_negated_calls",
    "Minim.Lib.C105_negated_default"
   ],
   "note": "2732 direct calls of 431 top-level procedures; four are wrong, and no other wrong call of these procedures can be met. Missing: calls of local variables and of computed procedures, C functions that call procedures or have effects (`Prims`)"
  },
  {
   "property": "C106",
   "status": "partial",
   "theorems": [
    "Minim.Sys.C106_load",
    "Minim.Sys.C106_sequence",
    "Minim.Sys.C106_missing",
    "Minim.Sys.C106_restores",
    "Minim.Sys.C106_independent",
    "Minim.Sys.C106_file_dir",
    "Minim.Sys.C106_text_partial",
    "Minim.Sys.C106_back_partial",
    "Minim.Sys.C106_module_partial",
    "Minim.Sys.C106_negated_text",
    "Minim.Sys.C106_negated_none",
    "Minim.Sys.C106_negated_module",
    "Minim.Sys.C106_negated_load",
    "Minim.Sys.C106_negated_shared"
   ],
   "note": "What load does to the directory holds for every program. That (current-directory) leads to the directory holds only for programs that set it to paths from the root and do not overwrite the string; laws of the operating system are assumed (`OS.Laws`), trees without links satisfy them (`Tree.laws`)"
  },
  {
   "property": "C107",
   "status": "partial",
   "theorems": [
    "Minim.Sys.C107_plan",
    "Minim.Sys.C107_partial",
    "Minim.Sys.C107_command_line",
    "Minim.Sys.C107_library_prompt",
    "Minim.Sys.C107_prompt_partial",
    "Minim.Sys.C107_negated_letter",
    "Minim.Sys.C107_negated_prompt",
    "Minim.Sys.C107_negated_void"
   ],
   "note": "Exact for arguments that do not begin with -i or -q and go on; the prompt of the C program for results without void among several values. Reading and evaluation at the prompt are parameters"
  },
  {
   "property": "C108",
   "status": "proved",
   "theorems": [
    "Minim.Fix.C108_accessors",
    "Minim.Fix.C108_arithmetic",
    "Minim.Fix.C108_comparisons",
    "Minim.Fix.C108_numbers",
    "Minim.Fix.C108_lists",
    "Minim.Fix.C108_positions",
    "Minim.Fix.C108_kept"
   ],
   "note": "Proved of the text of the library (LibPrelude.lean, LibBoot.lean) under the semantics of RefSem.lean, from the environment the C code makes; the C functions are a parameter with the laws of `Laws`, an instance satisfies them and loads the library (`booted_some`). Calls that fail are the subject of other properties"
  },
  {
   "property": "C109",
   "status": "partial",
   "theorems": [
    "Minim.Fix.C109_procedures_partial",
    "Minim.Fix.C109_several_partial",
    "Minim.Fix.C109_equal_partial"
   ],
   "note": "For procedures that only add cells to the store and for calls that succeed; what equal? answers is a hypothesis"
  },
  {
   "property": "C110",
   "status": "partial",
   "theorems": [
    "Minim.Fix.C110_load_partial",
    "Minim.Fix.C110_call_partial"
   ],
   "note": "restrictions of C82 on the program, none on the library: its 292 forms are checked to meet them (LibOpt.lean); errors and divergence are missing; an instance loads the compiled library and calls append"
  },
  {
   "property": "C111",
   "status": "partial",
   "theorems": [
    "Minim.GenBoot.C111_partial",
    "Minim.GenBoot.C111_text_definitions",
    "Minim.GenBoot.C111_text_names",
    "Minim.GenBoot.C111_text_prelude",
    "Minim.GenBoot.C111_negated_effect",
    "Minim.GenBoot.C111_negated_clash",
    "Minim.GenBoot.C111_negated_lost",
    "Minim.GenBoot.C111_negated_empty",
    "Minim.GenBoot.C111_negated_methods"
   ],
   "note": "for modules whose other forms change no variable, evaluated one after the other at top level, and runs without error; the text of boot.min in the repository is examined, but not derived from the modules"
  },
  {
   "property": "C112",
   "status": "proved",
   "theorems": [
    "Minim.LH.C112_accessors",
    "Minim.LH.C112_assign"
   ],
   "note": ""
  },
  {
   "property": "C113",
   "status": "partial",
   "theorems": [
    "Minim.FPort.C113_partial",
    "Minim.FPort.C113_closed_partial",
    "Minim.FPort.C113_flush_partial",
    "Minim.FPort.C113_negated_unflushed",
    "Minim.FPort.C113_negated_two",
    "Minim.FPort.C113_negated_truncated"
   ],
   "note": "for programs that open no file for writing while another port on it is open, nor for reading while a port for writing is, and use no closed ports; the C library's streams and the files are assumed, as said in FilePort.lean"
  }
 ]
}