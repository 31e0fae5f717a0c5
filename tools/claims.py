S = "Splint."
def T(*names): return [S + n for n in names]

c("C01", "partial", "Comparison functions on positions characterised against place/Before, for files that are not derived from others; a file and its preprocessed text have different numbers, so lines before and after the first #include are misordered (witness). The equality test excludes library positions, stated in the iff.",
  *T("C01_full_is_false","C01_compare_number_neg_iff","C01_compare_number_zero_iff","C01_compare_neg_partial","C01_compare_zero_partial","C01_compare_antisymm","C01_compare_trans","C01_lessthan_partial","C01_notAfter_iff","C01_notAfter_partial","C01_notAfter_wrong","C01_equal_iff","C01_equal_not_refl","C01_withinLines_iff","C01_sameFileAndLine_iff","C01_advance","C01_decColumn"))
c("C02", "partial", "Exact for ordinary positions; the full statement is false in system headers/libraries and for unknown positions (witnesses proved).",
  *T("C02_dedup_partial","C02_sorted_partial","C02_no_false_duplicate","C02_log_holds_reported","C02_dedup_fails_in_system_header","C02_dedup_fails_unknown_position","C02_dedup_fails_derived","C02_full_is_false"))
c("C06", "partial", "Exact accounting at every clean-up, exact output per group; false at the end of a run because no clean-up follows the final checks (witness proved).",
  *T("C06_conservation_partial","C06_conservation_any_moment","C06_shown_in_order","C06_groups","C06_total_counts_all","C06_full_is_false"))
c("C34", "partial", "Exact condition proved; the full statement fails when specification warnings differ from a positive expected number (witness proved).",
  *T("C34_exit_status_exact","C34_exit_status_partial","C34_spec_mismatch_succeeds","C34_full_is_false","C34_run_succeeds_iff"))
c("C07", "partial", "Layout, text preservation and width proved for every text; termination proved for indentations up to 4 or leaving 21 columns; hang and overlong line witnesses proved.",
  *T("C07_layout","C07_text_preserved","C07_terminates_partial","C07_wrap_can_hang","C07_terminates_full_is_false","C07_printError_layout","C07_printError_text_preserved","C07_printError_terminates","C07_printError_width_partial","C07_printError_too_wide"))
c("C22", "partial", "Exact table of lost nulls (only a constant null merged with a checked non-null); preserved in every other merge, over any number of branches and in any order.",
  *T("C22_possiblyNull_iff","C22_constnull_lost","C22_full_is_false","C22_lost_exactly","C22_merge_partial","C22_fold_partial","C22_merge_order_partial","C22_merge_state"))
c("C23", "partial", "Exact table of pairs where the merge claims more than both branches; elsewhere proved, including the merge function with its adjustments.",
  *T("C23_gains","C23_full_is_false","C23_lost_exactly","C23_defined","C23_merge_partial","C23_fold_partial","C23_merge_state","C23_released_partial","C23_released_reldef","C23_exposure"))
c("C24", "partial", "must-escape, can-break, unreachable-code and missing-return conclusions proved for all executions of statements without labels in silenced dead code or inside a switch; the kinds forget returns in loops and lists (refutation).",
  *T("C24_must_escape_partial","C24_unreachable_partial","C24_function_partial","C24_loop_return_lost","C24_list_return_lost","C24_full_is_false","C24_unreachable_full_is_false","C24_silenced_unreachable","C24_goto_into_switch","C24_no_false_alarm","C24_conditional_kinds"))
c("C41", "partial", "Equality is an equivalence; exact tables for compatibility; the full statement is false (witness).",
  *T("C41_equal_iff","C41_equal_refl_symm","C41_equal_trans","C41_equal_compatible","C41_compatible_symm_exactly","C41_fixImplicit_exactly","C41_full_is_false","C41_compatible_obliged_partial","C41_derive_no_gain","C41_derive_path","C41_resolve","C41_resolve_assoc"))
c("C45", "partial", "Exact list of the merges that drop an obligation without a message.",
  *T("C45_dependent_drops","C45_full_is_false","C45_dropped_exactly","C45_obligation_partial"))
c("C44", "partial", "Stack restored and every query answered correctly for statements with well-placed cases; cases inside if/for leave stale clauses or fail an assertion (witnesses).",
  *T("C44_clauses_restored_partial","C44_function_partial","C44_case_in_if","C44_case_in_for","C44_two_cases_in_while","C44_full_is_false"))
c("C46", "proved", "Clause stack only; the other list templates share the scheme but are not modelled separately.",
  *T("C46_growable_array","C46_new","C46_history"))
c("C19", "partial", "Exact effect of every insertion and exact membership answer; the full statement is false (duplicates, lost elements, out-of-bounds reads: witnesses).",
  *T("C19_insert_contents","C19_insert_exactly","C19_member_exactly","C19_member_sound","C19_duplicate","C19_lost","C19_full_is_false","C19_increasing_partial","C19_unparseText","C19_mode_message"))
c("C40", "partial", "The table is exact; a declaration is processed without a failed assertion exactly when no pair with an error message is declared again, and then every answer is the last clause's.",
  *T("C40_table","C40_transfers","C40_redeclaration_fails","C40_lose_without_message","C40_lose_reported"))
c("C47", "partial", "Exact meaning of every list of merge clauses; symmetry fails when several clauses cover the other order (witness), exact criterion proved.",
  *T("C47_merge_table","C47_merge_closed","C47_asymmetric","C47_full_is_false","C47_symmetric_exactly","C47_symmetric_partial"))
c("C15", "partial", "Exact: a number or constant reads back if and only if it is readable (not a string, not a negative number with two significant digits, within int). Doubles assume that strtod inverts %f.",
  *T("C15_text","C15_int_partial","C15_int_full_is_false","C15_ynm","C15_const_partial","C15_const_full_is_false"))
c("C16", "partial", "Access sets and their table; bounds expressions, constraints, their lists and those of all functions read back if their numbers are readable (C15), their names are not one of three words, and there are no alternatives; each exception has a witness.",
  *T("C16_set","C16_table","C16_expr_partial","C16_expr_full_is_false","C16_numbers","C16_constraint_partial","C16_constraint_full_is_false","C16_list_partial","C16_list_all","C16_functions_partial"))
c("C17", "partial", "Exact result of every operation; the full claim fails exactly when the kind cannot hold the exact result (witness).",
  *T("C17_long_exactly","C17_char_exactly","C17_unlike","C17_fold_partial","C17_full_is_false","C17_invert"))
c("C18", "partial", "Exact list of the inconsistent pairs for answers, constants, strings and access sets.",
  *T("C18_ynm_partial","C18_ynm_zero","C18_cstring","C18_cstring_zero","C18_multiVal_partial","C18_full_is_false","C18_multiVal_inconsistent","C18_cstring_not_transitive","C18_sets_partial"))
c("C20", "partial", "Members proved for every history; identifiers equal exactly when the members were added in the same order, so canonicity fails for two or more members (witness).",
  *T("C20_members","C20_members_loaded","C20_identifiers_partial","C20_same_id_same_members","C20_small","C20_full_is_false"))
c("C13", "partial", "Proved in full for genericTable; for cstringTable an update to the number that means 'not found' is accepted (witness), all other histories proved.",
  *T("Tables.C13_generic","Tables.C13_cstring_partial","Tables.C13_cstring_full_is_false"))
c("C14", "partial", "Exact: reads stay inside the random table if and only if no character of the key has its sign bit set.",
  *T("Tables.C14_hash_partial","Tables.C14_full_is_false"))
c("C03", "partial", "Proved for every history of well placed comments; a counted line inside a region ends it (refutation), and library positions see the regions of other files.",
  *T("FlagMarkers.C03_C04_answers_partial","FlagMarkers.C03_region_partial","FlagMarkers.C03_count_ends_region","FlagMarkers.C03_full_is_false","FlagMarkers.C03_library_position","FlagMarkers.C03_before_first_include"))
c("C04", "partial", "Proved for every history of well placed comments; for naming flags the older of two settings governs; comments read out of order are misplaced (refutation).",
  *T("FlagMarkers.C03_C04_answers_partial","FlagMarkers.C04_last_setting","FlagMarkers.C04_names","FlagMarkers.C04_command_line","FlagMarkers.C04_out_of_order","FlagMarkers.C04_before_first_include","FlagMarkers.C04_full_is_false"))
c("C05", "partial", "Proved for every history of well placed comments, up to the order of the complaints.",
  *T("FlagMarkers.C05_counts_partial","FlagMarkers.C05_complaint_partial","FlagMarkers.C05_only_read","FlagMarkers.C05_message_counts_once"))
c("C43", "partial", "On comparable references the identity tests are equality of the text; constants, merged references and unknown indices break symmetry or transitivity (witnesses); inclusion exact per kind.",
  *T("SRef.C43_realSame_exactly","SRef.C43_realSame_partial","SRef.C43_realSame_full_is_false","SRef.C43_realSame_conj","SRef.C43_same_exactly","SRef.C43_same_partial","SRef.C43_same_symm","SRef.C43_same_full_is_false","SRef.C43_similar_partial","SRef.C43_similar_symm","SRef.C43_similar_full_is_false","SRef.C43_derived","SRef.C43_included_full_is_false","SRef.C43_included_ptr","SRef.C43_included_partial","SRef.C43_included_field_exactly","SRef.C43_included_ptr_exactly","SRef.C43_similar_exactly"))
c("C31", "partial", "Sets proved up to 25 accesses per reference; alias tables lose one entry in scope under an exact condition (witness).",
  *T("C31_set_partial","C31_set_full_is_false","C31_table_full_is_false","C31_table_exactly","C31_table_partial"))
c("C32", "partial", "Every history on comparable references is set algebra; constants are members of every nonempty set and intersections are too large (witnesses).",
  *T("C32_history_partial","C32_full_is_false","C32_deleteBase","C32_levelCopy","C32_newUnion","C32_equal","C32_intersect_partial","C32_intersect_full_is_false"))
c("C42", "partial", "Exact on unmerged references without +mustmod; with +mustmod a change of the internal state is never reported, and a merged reference with one free alternative hides the other (witnesses).",
  *T("SRef.C42_partial","SRef.C42_full_is_false","SRef.C42_internal_reported","SRef.C42_listed_permitted","SRef.C42_other_element","SRef.C42_merged","SRef.C42_value"))
c("C48", "partial", "The documented meaning holds with a modifies clause; without one the two flags are exchanged (exact).",
  *T("SRef.C48_partial","SRef.C48_full_is_false","SRef.C48_exactly"))
c("C49", "partial", "Every sequence of modifications of unmerged references; special state markers in the list are reported elsewhere and left out.",
  *T("SRef.C49_marks","SRef.C49_unused"))
c("C33", "partial", "On paths: an alias is recorded and kept through every history that clears neither side; clearing a variable or element is complete, clearing a field or target is not (witness); facts are true unless a variable is assigned a path through itself (witness p = p->next).",
  *T("C33_recorded","C33_kept","C33_cleared_full_is_false","C33_cleared_partial","C33_cleared_killed","C33_sound_full_is_false","C33_sound_partial","C33_merge_partial"))
c("C50", "partial", "Direct aliases are recorded in both directions; aliases of aliases can be missed (witness: b=d; c=b; a=d).",
  *T("C50_full_is_false","C50_partial","C50_allAliases"))
c("C21", "partial", "Proved for ==, !=, null-test calls, !, &&, || over variables, fields and targets, and after if-return and plain loops; false for array elements, other operators, loops left by break and || with an exit (witnesses).",
  *T("C21_sound","C21_partial","C21_full_is_false","C21_elements","C21_operators_full_is_false","C21_other_operators","C21_after_return","C21_loop_full_is_false","C21_loop_partial","C21_or_full_is_false"))
c("C51", "proved", "Exact for every condition of this form.",
  *T("C51_exactly"))
c("C52", "partial", "The reference itself loses its guard and others keep theirs (no array elements); what is inside it stays guarded, elements stay guarded, and facts that something is null are never removed.",
  *T("C52_full_is_false","C52_element","C52_partial","C52_null_stays"))
c("C08", "partial", "Every expression of the C grammar whose tree the parser can read has its C value, under four conditions each shown to be needed; signs after + or *, nested conditionals, shifts of 32 or more, signed by unsigned quotients go wrong (witnesses). Exactly the readable trees are accepted. Literals below 2^64 are exact.",
  *T("CppExp.C08_full_is_false","CppExp.C08_partial","CppExp.C08_sign_not_read","CppExp.C08_middle_not_read","CppExp.C08_shift_wrong","CppExp.C08_quotient_wrong","CppExp.C08_type_wrong","CppExp.C08_overflow_wrong","CppExp.C08_reads","CppExp.C08_accepts","CppExp.C08_parenthesised_partial","CppExp.C08_number","CppExp.C08_long_long_error"))
c("C09", "partial", "Lines that pass a left-to-right check stay in the stack and use only written operands, and never crash without * / % << >>; empty lines, unbalanced parentheses, stray colons and missing operands go wrong (witnesses); there is always room for a push.",
  *T("CppExp.C09_full_is_false","CppExp.C09_not_safe","CppExp.C09_traps","CppExp.C09_partial","CppExp.C09_room"))

c("C11","proved","For every history of definitions, removals, built-in names, conditions, saving, restoring and cleaning up, from the empty tables.",
  *T("CppHash.C11","CppHash.C11_lookup"))
c("C12","partial","The full statement is false. Exactly the macros whose body uses parameters at most once are restored, as far as they are written; two flags are never written.",
  *T("CppHash.C12_exactly","CppHash.C12_partial","CppHash.C12_full_is_false","CppHash.C12_flags_lost"))
c("C10","partial","At the level of lines: full, for any nesting, any conditions and any other lines. At the level of characters: skipping ends at the right line when every quote has its partner; a single apostrophe hides the next directive (witness).",
  *T("CppCond.C10_partial","CppCond.C10_partial_within","CppCond.C10_partial_chars","CppCond.C10_partial_elif","CppCond.C10_skip_exactly","CppCond.C10_apostrophe","CppCond.C10_full_is_false"))
c("C53","partial","Everything out of place is reported, and nothing else; a conditional left open is not reported, and stays open in the file that includes it (witness).",
  *T("CppCond.C53_partial","CppCond.C53_exactly","CppCond.C53_states","CppCond.C53_full_is_false","CppCond.C53_open_in_include"))

c("C54", "partial",
  "True when each file that ends with a guard is all within it but for blank lines, without #elif, or has text before it and no #include in between; false with #elif, "
  "with directives before the guard, and after an included file without text.",
  *T("CppInclude.C54_partial", "CppInclude.C54_guarded", "CppInclude.C54_full_is_false", "CppInclude.C54_elif",
     "CppInclude.C54_directive", "CppInclude.C54_blank_include"))

c("C38", "proved", "For all trees of files, the warnings are exactly those of the inclusions that are too deep; for any sequence of markers the stack has no file twice and no write is outside it.",
  *T("IncludeNest.C38","IncludeNest.C38_any","IncludeNest.C38_return"))

c("C39", "partial",
  "For positions outside libraries, and any history of registrations and passes, what is checked is what is due: each place once, with the text registered last before the pass. For any positions a pass over everything checks every registered place and nothing is written outside the allocated space. Fails for positions in libraries and system headers (checked as often as registered), for texts registered after the place was checked (never checked), and with the flag partial (the last pass checks nothing).",
  *T("MacroCache.C39_full_is_false", "MacroCache.C39_safe", "MacroCache.C39_all", "MacroCache.C39_partial", "MacroCache.C39_once_partial", "MacroCache.C39_text_partial", "MacroCache.C39_simple_partial", "MacroCache.C39_library", "MacroCache.C39_stale", "MacroCache.C39_kind", "MacroCache.C39_partialFlag"))

c("C35","partial","Setting a mode is exactly its table (C35_mode, C35_modeTables).  The full statement about flags is false: the settings listed in Spec.deviates do not do what is documented (C35_full_is_false); C35_flag_exactly says that these are the only ones.",
  *T("C35_mode","C35_modeTables","C35_badMode","C35_full_is_false","C35_flag_partial","C35_flag_exactly","C35_history_partial","C35_headers_full_is_false","C35_headers_partial"))
c("C36","partial","False in full: modes selected by control comments, values and the preprocessor's own control comments leak into later files (witnesses); C36_file_exactly says what is kept, and the partial theorems cover files whose control comments only set flags.",
  *T("C36_file_exactly","C36_file_partial","C36_partial","C36_preprocessor","C36_values_partial","C36_full_is_false","C36_mode_leaks","C36_value_leaks","C36_preprocessor_leaks","C36_restore_full_is_false","C36_restore_partial","C36_restore_exactly"))

c("C37","partial","False in full: punctuation inside a written-out word, and words that come about by abbreviating others, are not recognised (C37_full_is_false, C37_not_idempotent); C37_idempotent_exactly says when canonicalisation is idempotent.",
  *T("C37_full_is_false","C37_not_idempotent","C37_idempotent_exactly","C37_split","C37_bare","C37_abbreviation_partial","C37_punctuation_partial","C37_names","C37_letters","C37_spelled","C37_other_names","C37_distinct","C37_modes","C37_mode_full_is_false","C37_mode_partial"))

c("C25","partial","False in full: a stale operator, named constants, a pointer on the right of + and large literals are simplified wrongly (witnesses); C25_value_partial covers the regular expressions (Spec.Regular).",
  *T("C25_full_is_false","C25_minus_lost","C25_difference_is_sum","C25_pointer_right","C25_truncated","C25_value_partial","C25_constants","C25_form_partial","C25_removeZero"))

c("C26","partial","Exchanging the sides and moving an operand are exact for all constraints; simplification is false in full (named constants), and C26_partial covers the linear constraints (Spec.Linear).",
  *T("C26_full_is_false","C26_swap","C26_solve","C26_partial","C26_comparable_partial"))

c("C27","partial","False in full: the sizeof rule holds only for buffers of bytes and only as an upper bound, and it can read invalid data (witnesses); C27_partial covers constraints without sizeof whose right side is clean (Spec.Clean).",
  *T("C27_full_is_false","C27_sizeof_any","C27_stale_operator","C27_reads_wrong_kind","C27_partial","C27_sizeof_exactly"))

c("C28","partial","False in full: strict requirements from facts that are not strict, and two substitutions of bounds, are unsound (witnesses); partial theorems for one fact, a list of facts, subsumption and substitution of equals.",
  *T("C28_full_is_false","C28_weakened","C28_unsound","C28_satisfies_partial","C28_resolve_partial","C28_subsume_partial","C28_subsume_sub","C28_substitute_partial","C28_inequality","C28_reflect_partial"))

c("C29","partial","For expressions without recorded casts, and given that references taken to be the same have the same value (which the code does not guarantee for a[i] and a[j] with unknown indices).",
  *T("C29_replace","C29_constraint","C29_search","C29_absent","C29_similar","C29_gone"))

c("C30","proved","For every expression and every constraint, with explicit bounds on the recursion.",
  *T("C30_expression","C30_constraint","C30_one_result","C30_too_deep","C30_left_alone"))

c("C55", "partial", "References and lists read back if their numbers are readable (C15) and a value comes with a value of the part it is made from; witnesses for both exceptions.",
  *T("C55_reference_partial","C55_list_partial","C55_pointer_of_address","C55_full_is_false","C55_value_moves"))

c("C56", "partial", "Declarations directly in the body of a switch are lost in the next case (witness); proved for declarations in blocks.",
  *T("C56_full_is_false","C56_outer_found","C56_outer_changed","C56_names_partial"))

c("C57", "partial", "False in full, with a counterexample each for break, loops, && and switch with default; proved for statements without those, for any states with a merge that keeps both possibilities, and for null states. Exactly what is merged is proved for statements without switch and without an else after a branch that returns; for the latter it is false.",
  *T("C57_full_is_false","C57_break_lost","C57_loop_twice","C57_and_defines","C57_switch_all","C57_paths_partial","C57_null_partial","C57_result_full_is_false","C57_result_other","C57_result_partial"))

c("C58", "partial", "A variable declared in a block inside a branch is not found from a nested block, or another one of the name is; proved for the others, with what is found in the exceptional case.",
  *T("C58_full_is_false","C58_other_variable","C58_reference_partial","C58_reference_exactly","C58_scope_for_ever","C58_scope_shadowed","C58_scope_partial"))

c("C59", "partial", "False in full: the type depends on the suffix alone, so 3000000000 is an int, and values from 2^63 overflow. Proved: every constant is taken whole with the right value below 2^63, and exactly which constants get the type of C; floating constants in full.",
  *T("Scan.C59_full_is_false","Scan.C59_value_partial","Scan.C59_integer_partial","Scan.C59_exactly","Scan.C59_float","Scan.C59_hex_float","Scan.C59_not_octal"))

c("C60", "partial", "False in full: hexadecimal and octal escapes and six of the simple ones have the value 0, and wide characters that of the apostrophe. Proved: always taken whole, and exactly which have the right value.",
  *T("Scan.C60_full_is_false","Scan.C60_exactly","Scan.C60_wide"))

c("C61", "partial", "False in full: joined literals read uninitialised memory and count one too many per junction or are cut, octal escapes lose their second digit and take 8 and 9. Proved: length, values and messages for one literal without those, the exact length for joined ones, the length limit.",
  *T("StrLit.C61_full_is_false","StrLit.C61_length_partial","StrLit.C61_eight_nine","StrLit.C61_values_partial","StrLit.C61_wrong_values","StrLit.C61_check_partial","StrLit.C61_octal","StrLit.C61_joined","StrLit.C61_cut","StrLit.C61_empty","StrLit.C61_limit","StrLit.C61_limit_partial","StrLit.C61_limit_escape","StrLit.C61_inner"))

c("C62", "partial", "False in full: a declaration without any word does not stand for int, char unsigned is taken for unsigned int, double long for long int, and signed unsigned, long long long and others are not reported. Proved: the exact condition for the types of C, and exactly which lists of any length are not reported and their types.",
  *T("TypeSpec.C62_full_is_false","TypeSpec.C62_exactly","TypeSpec.C62_types_partial","TypeSpec.C62_implicit_int","TypeSpec.C62_double_long","TypeSpec.C62_silent_exactly","TypeSpec.C62_not_reported","TypeSpec.C62_reported_partial","TypeSpec.C62_ignore","TypeSpec.C62_short_twice"))

c("C63", "partial", "False in full: %lf is compared with long double, hh and lengths of n are wrong, F, a and A are unrecognised, the flag 0 must come last. Proved: all formats of known conversions (exactly which are known is proved too), with asterisks, widths and precisions; with too few arguments the first that is missing is reported; a percent sign at the end reads past the string; the loop ends for every format.",
  *T("Format.C63_full_is_false","Format.C63_printf_partial","Format.C63_too_few_partial","Format.C63_types_exactly","Format.C63_wrong","Format.C63_star_missing","Format.C63_percent_at_end","Format.C63_star_error","Format.C63_ends"))
c("C64", "partial", "False in full: %ln is compared with a pointer to int, %p is reported, sets with a percent sign may be read as conversions. Proved: all formats of known conversions (exactly which are known is proved too) and sets without percent sign, for any number of arguments; the loop ends for every format.",
  *T("Format.C64_full_is_false","Format.C64_scanf_partial","Format.C64_types_exactly","Format.C64_wrong","Format.C64_at_end","Format.C64_ends"))

c("C65", "partial", "False in full: with longint, int takes a long only if relaxquals is on too, but short takes an int; behind pointers integral types of unknown size match too much; with matchanyintegral everything matches a signed integral type. Proved: values are preserved on all machines, the other equivalences in both directions, soundness for types of known size but for the one exception, and exactly when int takes a long.",
  *T("Prim.C65_full_is_false","Prim.C65_values","Prim.C65_deep_partial","Prim.C65_deep_full_is_false","Prim.C65_deep_wrong","Prim.C65_pairs_partial","Prim.C65_longint_exactly","Prim.C65_pairs_full_is_false","Prim.C65_allowed_partial","Prim.C65_short_long","Prim.C65_allowed_full_is_false","Prim.C65_signed_integral","Prim.C65_relaxtypes_integral","Prim.C65_not_monotone","Prim.C65_none"))

c("C66", "partial", "Representations do not matter: proved in full, for all types and flags without forwarddecl. That a hidden type matches only itself is false for booleans: the number of the named type is taken for a type. Proved otherwise. With forwarddecl, pointers to pointers to a structure match pointers to it; an array of abstract values takes a void pointer.",
  *T("TypeMatch.C66_representation","TypeMatch.C66_representation_def","TypeMatch.C66_forward","TypeMatch.C66_forward_wrong","TypeMatch.C66_opaque_partial","TypeMatch.C66_bool_wrong","TypeMatch.C66_void_array","TypeMatch.C66_forward_ends"))
c("C67", "partial", "False in full: an array of pointers to functions takes a pointer to a function. Proved as an equivalence, with termination, for match, matchDef and matchArg and all trees without arrays of functions and pointers to void. Also proved: a name for void is not void, fixed arrays relax more than pointers, structures without fields match, and the rest of the arguments is a fatal error. Exact rules for pointers to void, unknown parameters, structures without a name, booleans and enumerations are in Props/TypeMatchRules.",
  *T("TypeMatch.C67_full_is_false","TypeMatch.C67_match_partial","TypeMatch.C67_arg_partial","TypeMatch.C67_def_partial","TypeMatch.C67_void_name","TypeMatch.C67_fixed_array","TypeMatch.C67_no_fields","TypeMatch.C67_elips","TypeMatch.C67_unknown_params","TypeMatch.C67_number_params","TypeMatch.C67_void_function","TypeMatch.C67_void_data","TypeMatch.C67_no_tag","TypeMatch.C67_nameless","TypeMatch.C67_nameless_same","TypeMatch.C67_struct_union","TypeMatch.C67_bool_int","TypeMatch.C67_enum_int","TypeMatch.C67_bool_enum","TypeMatch.C67_bool_names"))

c("C68", "partial", "False in full: unique parameters, arrays on the stack, shared storage passed as keep or owned, unannotated and static storage passed as owned are missed. Proved as an exact characterisation for calls; for returns, assignments and aliases proved for storage that is lent, kept, shared or counted.",
  *T("Transfer.C68_full_is_false","Transfer.C68_missed","Transfer.C68_exactly","Transfer.C68_lent_partial","Transfer.C68_assign_partial","Transfer.C68_alias","Transfer.C68_told_exactly","Transfer.C68_expose_exactly"))
c("C69", "partial", "False in full: new storage assigned to a global observer is lost silently. Proved for all receivers that are local or neither exposed nor observer, for returns and for calls; parameters with a state clause are not checked at all.",
  *T("Transfer.C69_full_is_false","Transfer.C69_assign_partial","Transfer.C69_return_partial","Transfer.C69_pass_partial","Transfer.C69_pass_special","Transfer.C69_overwritten_exactly","Transfer.C69_shown","Transfer.C69_newref"))
c("C70", "proved", "For all flags; shared storage and constants are excepted by design, which is shown as a theorem.",
  *T("Transfer.C70_given","Transfer.C70_parameter","Transfer.C70_shared","Transfer.C70_only_exactly","Transfer.C70_receiver","Transfer.C70_assign_fresh","Transfer.C70_assign_fresh_owned"))
c("C71", "proved", "For calls and returns, with the answer for types that are null by declaration (NS_ABSNULL) left out.",
  *T("Transfer.C71_pass","Transfer.C71_return"))

c("C72", "partial", "False in full: a variable is forgotten if an inner scope has one of the same name. Proved for all variables that are not hidden, and exactly (also for undefined out parameters and user-defined states).",
  *T("FinalScope.C72_full_is_false","FinalScope.C72_visible_partial","FinalScope.C72_exactly","FinalScope.C72_other","FinalScope.C72_struct"))
c("C73", "partial", "False in full: two variables of the block that are aliases of each other are taken for each other's remaining reference. Exact rule proved; the takeover is proved where no alias is in the block itself.",
  *T("FinalScope.C73_full_is_false","FinalScope.C73_exactly","FinalScope.C73_takeover_partial"))

c("C74", "partial", "False in full: owned and keep parts are not looked at, the search is cut off after ten steps, and partly defined pointers hide all messages below. Exact rules by paths proved for both messages; all only and fresh fields of a structure, or of what a pointer refers to, proved reported.",
  *T("Destroyed.C74_full_is_false","Destroyed.C74_owned_missed","Destroyed.C74_deep_missed","Destroyed.C74_hidden_missed","Destroyed.C74_exactly","Destroyed.C74_maybe_exactly","Destroyed.C74_fields_partial","Destroyed.C74_answer","Destroyed.C74_takes","Destroyed.C74_local","Destroyed.C74_partly","Destroyed.C74_sibling"))

c("C75", "partial", "False in full: a parameter inside a number is replaced, ## before blanks at the end is accepted, # in a macro with an empty parameter list is lost. Proved for all other definitions, for any arguments without the escape character.",
  *T("CppMacro.C75_full_is_false","CppMacro.C75_number_split","CppMacro.C75_blank_missed","CppMacro.C75_hash_missed","CppMacro.C75_expansion_partial","CppMacro.C75_standard_partial"))
c("C76", "partial", "False in full: an @ and the blank after it are changed, and a backslash outside of literals hides the start of the next one. Proved for arguments without these and with printable characters.",
  *T("CppMacro.C76_full_is_false","CppMacro.C76_marker","CppMacro.C76_backslash","CppMacro.C76_string_partial","CppMacro.C76_literal"))
c("C77", "partial", "False in full: f() for a macro with one parameter is reported. Proved for all other calls; the arguments and the end of a call are found exactly.",
  *T("CppArgs.C77_full_is_false","CppArgs.C77_empty_reported","CppArgs.C77_arguments","CppArgs.C77_unterminated","CppArgs.C77_number_partial","CppArgs.C77_empty_exactly"))
c("C78", "partial", "False in full: ->, /*, the digraphs and names ending in $ are missed. Proved for all other pairs.",
  *T("CppMacro.C78_full_is_false","CppMacro.C78_arrow_missed","CppMacro.C78_comment_missed","CppMacro.C78_digraph_missed","CppMacro.C78_dollar_missed","CppMacro.C78_apart_partial"))
c("C79", "partial", "False in full: the test for a marker reads past the end of an argument, and the length copied can become negative. The sizes are right otherwise; exactly when the reading fails is proved.",
  *T("CppMacro.C79_full_is_false","CppMacro.C79_overrun","CppMacro.C79_definition","CppMacro.C79_expansion","CppMacro.C79_no_overrun_partial","CppMacro.C79_lost_exactly"))

c("C80", "partial", "The grounds are exact for all names and declarations. False in full: the functions of <math.h> are missing from the list, and the search misses the last entry of tables of some lengths; exactly which is proved, and the last entry of the table used is the null pointer.",
  *T("C80_search_exactly","C80_search_full_is_false","C80_reserved_exactly","C80_system","C80_full_is_false","C80_library_partial"))
c("C81", "partial", "Exactly the words of the list are reported. False in full: five words of C++ are not in the list.",
  *T("C81_exactly","C81_full_is_false","C81_words_partial"))
c("C82", "partial", "Proved for prefixes without *. False in full: T does not match T^*, and the second character of the repeated part is not compared; that there are no other differences is proved.",
  *T("C82_full_is_false","C82_plain","C82_star_exactly","C82_star_partial"))
c("C83", "partial", "False in full: the exclude flags of constants and iterators do nothing, macros and iterators are not held against the prefix of exported names, and enumerators, constants and iterators with a prefix of their own are taken for names that are not exported. The exact rule is proved.",
  *T("C83_full_is_false","C83_own_partial","C83_other_partial"))

c("C84", "partial", "Which expressions are reported, and which have interfering accesses, is proved exactly. False in full: x op f(..) and x op= f(..) are not reported when the arguments or the function write x.",
  *T("C84_interference_exactly","C84_reports_exactly","C84_full_is_false","C84_opAssign_missed","C84_complete_partial"))
c("C85", "partial", "False in full: x = e is reported when e writes x and is certainly done with it. That there are no other false alarms is proved, and for expressions without calls, comma, logical and conditional operators the messages are exact.",
  *T("C85_full_is_false","C85_parentheses","C85_sound_partial","C85_simple_exactly"))

c("C86", "partial", "False in full: what is modified in the body of a switch is lost, so such loops get the message; and a loop that is left by break or return gets it. Which loops get the message is proved exactly with the bodies of switch statements left out; without switch and exits such a loop is proved not to end. Loops made with for and do never get the message.",
  *T("C86_full_is_false","C86_reported_exactly_partial","C86_reported_sound_partial","C86_endless_full_is_false","C86_endless_partial","C86_switch_ends","C86_only_while"))
c("C87", "proved", "",
  *T("C87_noEffect_exactly","C87_value_exactly","C87_one_message","C87_no_change","C87_otherwise_writes"))

c("C88", "partial", "False in full: labels count by name, so members handled by a number or by another member with the same value are listed. The list is proved exact by names; every unhandled member is listed; with different values and labels that are members outside of inner statements the list is that of the unhandled members.",
  *T("C88_full_is_false","C88_missing_exactly_partial","C88_unhandled_listed","C88_unhandled_exactly_partial","C88_others_exactly","C88_same_value_unnoticed","C88_allpaths_sound", "C88_allpaths_plain"))
c("C89", "partial", "False in full: < and > are accepted for equal values and == for a smaller one. The wrong and the missed answers are proved exactly; != <= >= are sound.",
  *T("C89_full_is_false","C89_wrong_exactly","C89_sound_partial","C89_missed_exactly"))

c("C90", "partial", "False in full: -i with its argument ends the processing of the rest. Proved exactly up to the first such item, for all lists of items; every list of arguments is one of items but for a missing argument at the end.",
  *T("C90_items","C90_full_is_false","C90_exactly","C90_partial","C90_files_partial"))
c("C91", "partial", "Proved for all flags and spellings; -- before -D, -U, -I, -S is not the same as -, and the obsolete flags are used as an index outside the tables.",
  *T("C91_flag","C91_value","C91_string","C91_letters","C91_dashes_full_is_false","C91_dashes_partial","C91_bounds_full_is_false","C91_bounds_exactly"))
c("C92", "partial", "False in full: a file for messages keeps the options file of the home directory from being read, and the flags that control messages are overridden by the options files. Proved for all other flags.",
  *T("C92_defaults_full_is_false","C92_defaults_exactly","C92_defaults_partial","C92_argument_is_option","C92_override_full_is_false","C92_override_partial","C92_control"))
c("C93", "partial", "False in full: a line of more than 1024 characters overflows the buffer, and # within a word does not start a comment. Proved exactly for all other texts.",
  *T("C93_line","C93_noMissing","C93_deterministic","C93_comment_full_is_false","C93_comment_partial","C93_lines","C93_exactly","C93_full_is_false","C93_partial"))
c("C94", "proved", "Induction over the reading of the files.",
  *T("C94_once","C94_startup","C94_read"))

c("C95", "partial", "False in full: the root comes out as the empty name, and a name that leads above the root is a fatal error. Proved exactly which name is computed, for all names.",
  *T("C95_full_is_false", "C95_exactly", "C95_partial", "C95_same", "C95_again"))
c("C96", "partial", "False in full: the name is wrong or missing when the name of the working directory begins with that of the file. Proved exactly when the printed name leads to the file, and that it is never longer than the absolute one.",
  *T("C96_full_is_false", "C96_exactly", "C96_partial", "C96_short"))
c("C97", "partial", "False in full: names are compared as texts, an empty element ends the list of system directories, and an empty element of a search list stands for the root. Proved exactly what happens.",
  *T("C97_full_is_false", "C97_exactly", "C97_partial", "C97_search_full_is_false", "C97_search_exactly", "C97_search_partial", "C97_direct"))
c("C98", "partial", "False in full: the last full stop of the whole name is used. Proved exactly when the extension is right, for all names.",
  *T("C98_full_is_false", "C98_exactly", "C98_root", "C98_partial", "C98_base_wrong", "C98_without", "C98_add", "C98_use_full_is_false", "C98_use_partial"))

c("C99", "partial", "False in full: conditional and comma expressions, initializers and va_arg give no requirement, `p->x` gives none, an update only requires reading, and `&a[i]` and parts of an assigned place give wrong ones. Proved for all expressions without these.",
  *T("Access.C99_full_is_false", "Access.C99_complete_partial", "Access.C99_sound_partial", "Access.C99_unhandled", "Access.C99_arrow", "Access.C99_update", "Access.C99_below_assigned", "Access.C99_address", "Access.C99_sizeof"))
c("C100", "partial", "False in full: the facts of both operands of `||` and of the operand of `!` are assumed. The facts of a node alone are right; the collected ones are proved right for tests that are conjunctions (true) and disjunctions (false).",
  *T("Facts.C100_own", "Facts.C100_full_is_false", "Facts.C100_true_partial", "Facts.C100_false_partial", "Facts.C100_after", "Facts.C100_assumes_both", "Facts.C100_not_wrong", "Facts.C100_or_is_false"))
c("C101", "partial", "False in full: changes made in a branch or in the body of a loop are forgotten, and requirements of the parts of `for` and of the test of `do` are lost. Proved for all statements whose branches and loop bodies change nothing that is tracked, for any right operations on constraints.",
  *T("StmtGen.C101_full_is_false", "StmtGen.C101_partial", "StmtGen.C101_do_test", "StmtGen.C101_for_parts", "StmtGen.C101_for_break", "StmtGen.C101_if_facts", "StmtGen.C101_for_wrong", "StmtGen.C101_branch_wrong"))
c("C102", "partial", "False in full: the requirements of a case that runs into the next are forgotten, and those of the tested expression are never used. Proved if no case is run into.",
  *T("StmtGen.C102_full_is_false", "StmtGen.C102_partial", "StmtGen.C102_tested", "StmtGen.C102_fall_through", "StmtGen.C102_default"))

c("C103", "partial", "False in full: a comma after the last parameter is accepted, and `f(a...,b)` makes it read beyond the end of the line. Exactly the accepted lines are characterised; every proper definition is accepted; no line without `...` is read beyond its end.",
  *T("CppMacro.C103_full_is_false", "CppMacro.C103_exactly", "CppMacro.C103_partial", "CppMacro.C103_inside_full_is_false", "CppMacro.C103_inside_partial", "CppMacro.C103_option", "CppMacro.C103_option_one", "CppMacro.C103_option_bad"))
c("C104", "partial", "False in full: white space in literals, white space at `##` and `#`, and `...` are ignored. Proved for all definitions: if they are the same there is no message. Proved both ways for texts without literals and operators.",
  *T("CppMacro.C104_full_is_false", "CppMacro.C104_same", "CppMacro.C104_missed", "CppMacro.C104_rest", "CppMacro.C104_exactly", "CppMacro.C104_partial", "CppMacro.C104_redefined"))

c("C105", "partial", "False in full: variables declared at the start of the block of a switch are never reported, and their uses count for variables of the same name outside; a switch without a case inside a case loses the marks of that case. Proved for all functions without such a switch.",
  *T("Symtab.Uses.C105_full_is_false", "Symtab.Uses.C105_partial", "Symtab.Uses.C105_one_partial", "Symtab.Uses.C105_switch_block", "Symtab.Uses.C105_switch_shadow", "Symtab.Uses.C105_empty_switch"))

c("C106", "partial", "False in full: a use in the condition of a loop or in a do loop is missed, a return is not taken into account, and a use in a switch is always reported. Proved: what is accepted, for every body; no missed case without loops and return; no false message without switch and return.",
  *T("MacroParam.C106_full_is_false", "MacroParam.C106_sound_partial", "MacroParam.C106_complete_partial", "MacroParam.C106_partial", "MacroParam.C106_exactly", "MacroParam.C106_escapes", "MacroParam.C106_loop", "MacroParam.C106_do", "MacroParam.C106_switch", "MacroParam.C106_return"))

c("C107", "partial", "False in full: the name of a function-like macro at the end of an expansion that no parenthesis follows is an internal error, and after a call on several lines a call is missed. Proved: the scan ends for all macros and texts; on one line its result is that of the algorithm, and if no macro ends with the name of a function-like macro there is no internal error.",
  *T("Rescan.C107_full_is_false", "Rescan.C107_ends", "Rescan.C107_sound_partial", "Rescan.C107_partial", "Rescan.C107_fatal", "Rescan.C107_lines"))

c("C108", "partial", "False in full: a variable nothing is known of is read back as implicitly temporary, and a function type that is only expected is read back as undefined. Proved: every other entry and every complete type is read back as it was, and what follows is not touched.",
  *T("LibEntry.C108_full_is_false", "LibEntry.C108_unknown_becomes_temp", "LibEntry.C108_entry_exactly", "LibEntry.C108_entry_injective_partial", "LibEntry.C108_parameter_partial", "LibEntry.C108_type_partial", "LibEntry.C108_type_injective_partial", "LibEntry.C108_base_partial", "LibEntry.C108_incomplete_types_lost"))

c("C109", "partial", "False in full: an entry next to one that uentry_compare cannot tell from it (constants that give access to different types, variables with different exposure) is read back as that one; members of enumerations are read back as constants; an entry of 16382 or more characters makes the library unreadable. Proved: order, markers, names and kinds are right, each entry is read as written or as an equivalent one before it, exactly as written if equivalent entries differ only in their names; and equivalent entries with the same types differ exactly in access or exposure.",
  *T("SymSection.C109_full_is_false", "SymSection.C109_partial", "SymSection.C109_names_partial", "SymSection.C109_exact_partial", "SymSection.C109_equivalent_differ", "SymSection.C109_second_is_first", "SymSection.C109_members_become_constants", "SymSection.C109_long_entry_unreadable"))

c("C110", "partial", "False in full: an empty statement behind one that leaves gives a message about a case nothing falls into, and a case behind a declaration is not looked at. Proved: in lists of statements no case that is fallen into is missed, and in ordinary code the message is exact.",
  *T("C110_full_is_false", "C110_partial", "C110_exact_partial", "C110_lists", "C110_lists_partial", "C110_not_reported", "C110_empty_statement", "C110_behind_declaration", "C110_declared_case_missed"))
c("C111", "partial", "False in full: a break from a loop in a switch in a loop is reported as one from a loop in a loop, so not at all if only switchloopbreak is set. Proved: the exact rule for all bodies, that a message is given exactly if the construct left stands in another, and that the flag is the documented one in all other cases.",
  *T("C111_full_is_false", "C111_rule_partial", "C111_break_exactly", "C111_continue", "C111_annotations"))

c("C112", "partial", "False in full: a name of exactly the significant length is taken to be distinct from a longer one, in one order of declaration; a limit of 0 for external names ignores case whatever the option says. Proved: the exact rule for the comparison, for internal and for external names, no wrong message about an internal name, and when further names are mentioned.",
  *T("C112_full_is_false", "C112_external_is_false", "C112_compare_exactly", "C112_internal_exactly", "C112_external_exactly", "C112_internal_partial", "C112_external_partial", "C112_some_order", "C112_same", "C112_case", "C112_extras", "C112_order", "C112_missed", "C112_zero_ignores_case", "C112_wrong_reason", "C112_not_transitive", "C112_once", "C112_internal_text", "C112_external_text"))

c("C113", "partial", "False in full: numbers of 20 digits lose the first one, the flag 0 is obeyed together with the flag - and with a precision, a width enlarges the precision of a string, and other differences listed in the theorems. Proved: the contents of the buffer and the number returned for all formats, the string made by vasprintf, and that the output is the prescribed one outside the cases listed. Conversions of floating point numbers are not modelled.",
  *T("C113_full_is_false", "C113_buffer", "C113_vasprintf", "C113_no_string", "C113_partial", "C113_plain", "C113_lost_digit", "C113_differences", "C113_prescribed", "C113_undefined"))

c("C114", "partial", "False in full: the right operand of a bitwise operator is not looked at if the left one is a constant of a signed type; <= and >= of floating point numbers are never reported; 0 > u is not reported for an unsigned u while 0 < u is; for an integer plus a pointer it is the integer that is tested for null; an integer plus an array is reported as incompatible; messages about operands that are not numeric name the other operand. Proved: exactly what is reported for shifts, bitwise operators, comparisons, pointer arithmetic and boolean operators. Abstract types and conjunctions of types are not modelled, and whether types match is a parameter.",
  *T("C114_shift_right", "C114_shift_left", "C114_bitwise_full_is_false", "C114_bitwise_exactly", "C114_bitwise_partial", "C114_bitwise_constant_on_the_left", "C114_real_equality", "C114_real_relation_full_is_false", "C114_real_relation_exactly", "C114_real_relation_partial", "C114_unsigned_letter", "C114_constant_left", "C114_constant_right", "C114_unsigned_full_is_false", "C114_unsigned_partial", "C114_unsigned_zero_left", "C114_pointer_full_is_false", "C114_pointer_partial", "C114_pointer_on_the_right", "C114_array_on_the_right", "C114_int_minus_pointer", "C114_bool_compare", "C114_bool_ops", "C114_pointer_and_number", "C114_remainder", "C114_wrong_operand"))

c("C115", "partial", "False in full: %w is checked to be an unsigned long and read as an int, so that no accepted call with it is defined; a percent sign at the end makes the check read behind the format; and %& is compared with the argument last looked at, so that calls with a string in between are reported. Proved: what the check accepts, exactly; accepted calls without %w and without numbers beyond int print what the specification says; all calls that fit and have no %& are accepted. Matching of types is a parameter; texts of floating point numbers, pointers and locations are given.",
  *T("C115_accepts_exactly", "C115_partial", "C115_unsigned_long", "C115_full_is_false", "C115_check_past_the_end", "C115_message_past_the_end", "C115_complete_partial", "C115_complete_full_is_false"))

c("C116", "partial", "False in full: a value in braces for a number is reported though it is valid C, a string in braces for an array of characters of a given size is reported to have too few elements, a pointer with values in braces is treated as an array; the values for a struct are not looked at if they are not as many as its fields, and after four errors in a list of more than six nothing is. Proved: apart from these, every message is about a fault; all faults are reported in complete initializers with lists of at most six, and something is reported for longer ones; exactly the first four mismatches of a long list are reported. Whether an expression matches a type is a parameter; messages of simulated assignments are not modelled.",
  *T("C116_sound_partial", "C116_complete_partial", "C116_verdict_partial", "C116_struct_hides", "C116_pointer_as_array", "C116_counted", "C116_full_is_false", "C116_complete_full_is_false", "C116_first_four", "C116_elided_braces", "C116_designated"))

c("C117", "partial", "False in full: a name declared in a header of another name than the module is never reported, nor is one used in a macro, unless the flag showuses is set as well. Proved: what is reported is right; exactly what is reported with and without showuses; the order of uses does not matter. Locations are modules; built-in and external files are not modelled.",
  *T("C117_showuses", "C117_exactly", "C117_partial", "C117_full_is_false", "C117_showuses_matters", "C117_order"))

c("C118", "partial", "False in full: for comments that are left out (notparseable, notfunction, commentchar) one blank too many is written, so that later columns are off by one; an assertion fails for a comment for the checker whose end is broken by a backslash, and for an empty comment if the comment character is *; if the comment character is the end of a line, lines are lost. All these are proved to be the only exceptions. Proved: extent of comments; exactly what is done (nestcomment is never set; words are prefixes, so that endpoint ends a region); the end marker is not in the text; nested comments are counted, also in // comments.",
  *T("C118_extent", "C118_shape_partial", "C118_left_out_is_longer", "C118_full_is_false", "C118_fails_exactly", "C118_marked", "C118_newline_marker", "C118_does", "C118_nested_marked", "C118_nestcomment_never", "C118_plain", "C118_lint", "C118_end_full_is_false"))

c("C119", "partial", "False in full: if the comment has only letters (it does not end with the comment character, as in /*@null*/), the source up to the next remainder sign is read as part of it, or an assertion fails, or the rest of the file is read; the character after the word of a clause is lost; clauses and declared annotations are not recognised after a blank, others are; a name of a type followed by a tab or an end of line ends the list silently; text after settings of flags is left out silently; an argument after = is taken with the =, and a flag without name is reported. Proved: comments that end with the comment character are read to their end (with what the preprocessor writes for them, C118); settings are done in order; words are exactly those of the table; six entries of the table with capitals are never found.",
  *T("C119_frame_partial", "C119_closed", "C119_swallows", "C119_swallows_all", "C119_full_is_false", "C119_clause_loses_char", "C119_clause_full_is_false", "C119_blank_no_clause", "C119_blank_clause_unrecognized", "C119_flags", "C119_flags_off", "C119_equals_argument", "C119_token", "C119_dead_entries", "C119_annotation_blank", "C119_access", "C119_types_cut", "C119_access_full_is_false", "C119_noaccess", "C119_access_off", "C119_suppress_line", "C119_suppress_region", "C119_no_argument"))

c("C120", "partial", "False in full: in after out is not reported and not recorded; relnull after null is ignored, null after relnull is silent; the ownership of a parameter is forgotten if a later declaration says nothing about it; after a reported contradiction about ownership no other is reported; types are compared with the last prototype only; returned is not recorded if its message is suppressed, and is dropped by sef; exits, null predicates and formats in later declarations are reported each time but never recorded. Proved: exactly when sequences of declarations are silent, for each kind of annotation, and what is in effect afterwards; which contradictions are missed, exactly; numbers, types and names of parameters.",
  *T("C120_null_silent_exactly","C120_null_result","C120_relnull_ignored","C120_null_after_relnull","C120_def_silent_exactly","C120_def_result","C120_exposure_silent_exactly","C120_exposure_result","C120_alias_silent_exactly","C120_alias_function","C120_alias_after_error","C120_alias_lost","C120_alias_param_partial","C120_full_is_false","C120_contradictions_exactly","C120_repeat","C120_returned","C120_returned_lost","C120_sef_drops_returned","C120_kind_full_is_false","C120_kind_partial","C120_checked","C120_never_recorded","C120_prototype","C120_last_prototype","C120_types_full_is_false","C120_types_partial","C120_param_name"))

c("C121", "partial", "False in full: globals of later declarations are not in effect if their message is suppressed or the first declaration is in a library; out, undef and killed of later declarations never are; if the first declaration has no modifies clause and a later one has, the elements are reported and the function may modify nothing afterwards, so that modifications of what is listed are reported; with mustmod, a repeated clause marks all elements as modified, and unmodified ones are never reported; requires and ensures clauses are reported if they are the same as before or the first. Proved: exactly what is reported and listed for globals and internal state, what is reported for modifies clauses, the last requires clause counts, clauses of .xh files hold together.",
  *T("C121_globals","C121_globals_lost","C121_globals_full_is_false","C121_out","C121_undef_ignored","C121_static_listed","C121_internal","C121_mods_element","C121_mods_static","C121_has_mods","C121_mods_silent","C121_mods_to_nothing","C121_listed_but_reported","C121_mods_full_is_false","C121_mustmod_lost","C121_pre","C121_pre_full_is_false","C121_xh","C121_same_place"))

c("C122", "partial", "False in full: a call of a function with `globals undef g` is neither reported as an access of g nor counted as a use of it; uses of checkedstrict variables need the flag globals besides checkstrictglobs; internalglobsnoglobs has no effect without internalglobs. Proved: exactly what is reported of accesses, of unused elements and of the states of variables at calls, in order.",
  *T("C122_partial","C122_unused","C122_state","C122_documented","C122_globals_off","C122_full_is_false","C122_undef_unused","C122_reported","C122_internalNoGlobs","C122_released","C122_once"))

c("C123", "partial", "False in full: weaker forms are kept as alternatives; a requirement is lost when a list has it, or something else, since only first alternatives are compared. Proved: exactly what is dropped and kept for all requirements and facts, soundness of the rule for alternatives, equivalence where no fact is an upper bound, and of merged lists of lower bounds without alternatives.",
  *T("C123_exactly","C123_no_facts","C123_growth","C123_growth_reached","C123_full_is_false","C123_strong","C123_reflect_partial","C123_doubled","C123_add","C123_add_lost","C123_merge_full_is_false","C123_merge_partial","C123_same","C123_strong_literal"))

c("C124", "partial", "False in full: global variables without an annotation are never reported through a call, even where a modification by the function itself is. Proved: exactly which storage is reported for all clauses, arguments and aliases; what arguments make of the clause; flags, marks, observers, internal state and static variables.",
  *T("SRef.C124_exactly","SRef.C124_permitted","SRef.C124_plain_exactly","SRef.C124_partial","SRef.C124_full_is_false","SRef.C124_unannotated","SRef.C124_observer","SRef.C124_internal","SRef.C124_internal_strict","SRef.C124_static","SRef.C124_static_part","SRef.C124_flag","SRef.C124_marks","SRef.C124_argument","SRef.C124_address","SRef.C124_unknown","SRef.C124_address_of","SRef.C124_merged","SRef.C124_negative","SRef.C124_mods_off"))

c("C125", "partial", "False in full: storage with several alternatives (after a conditional expression) that were all released is reported as used before definition, under usedef. Proved: exactly which uses are reported, about which storage, with which flag and message; what is defined afterwards; the bound on repeated reports.",
  *T("UseCheck.C125_reported","UseCheck.C125_known","UseCheck.C125_inactive","UseCheck.C125_which","UseCheck.C125_verdict","UseCheck.C125_full_is_false","UseCheck.C125_alternatives","UseCheck.C125_partial","UseCheck.C125_after","UseCheck.C125_repeat","UseCheck.C125_address","UseCheck.C125_pointer","UseCheck.C125_union","UseCheck.C125_element","UseCheck.C125_other_element","UseCheck.C125_field"))

c("C126", "partial", "False in full: an allocated structure counts as defined whatever its fields (the test in whatUndefined is inverted), so an out pointer to a structure that the function never touches is not reported. Proved: exactly what is reported, in terms of undefined parts within ten steps; nothing else is reported; the shown part; the role of unmentioned fields.",
  *T("ReallyDefined.C126_exactly","ReallyDefined.C126_reported","ReallyDefined.C126_full_is_false","ReallyDefined.C126_struct","ReallyDefined.C126_out_struct","ReallyDefined.C126_partial","ReallyDefined.C126_no_more","ReallyDefined.C126_unmentioned","ReallyDefined.C126_fields","ReallyDefined.C126_show","ReallyDefined.C126_limit"))

c("C127", "partial", "False in full: inUnion is never true, so a structure in a union with an undefined field is reported even if another field of the union is defined. Proved: exactly what is reported and exactly which storage passes, in terms of the parts that are looked at; complete storage is never reported; undefined parts outside unions always are; what happens to unions, unknown pointers and at the end of a block.",
  *T("CompleteDef.C127_exactly","CompleteDef.C127_result","CompleteDef.C127_complete","CompleteDef.C127_undefined","CompleteDef.C127_full_is_false","CompleteDef.C127_union_struct","CompleteDef.C127_union_fails","CompleteDef.C127_partial","CompleteDef.C127_leave","CompleteDef.C127_unknown_pointer"))

c("C128", "partial", "False in full: an underscore as second or third character of a type is not reported, slovaktypes works only together with slovak, and accessczechoslovak alone gives no access. Proved: exactly which names are reported under each convention, exactly which types are reported, exactly which access is given, and the general negatives.",
  *T("National.C128_czech_exactly","National.C128_slovak_exactly","National.C128_czechoslovak_exactly","National.C128_types_exactly","National.C128_full_is_false","National.C128_short_type","National.C128_slovaktypes_alone","National.C128_access_exactly","National.C128_accessczechoslovak_alone","National.C128_constant_no_access","National.C128_constprefix","National.C128_czechoslovak_weak"))

c("C129", "partial", "False in full: an unused field is lost if the first structure that has it is unnamed (or its message is suppressed), and unused parameters declared sef or returned are reported as variables. Proved: exactly which entries and fields are reported, that nothing is reported twice, what is marked afterwards, and both negatives in general.",
  *T("Unused.C129_entry_exactly","Unused.C129_field_exactly","Unused.C129_once","Unused.C129_marks","Unused.C129_used","Unused.C129_full_is_false","Unused.C129_unnamed","Unused.C129_qualified","Unused.C129_qualified_both","Unused.C129_defined","Unused.C129_suppressed","Unused.C129_unused_type","Unused.C129_sef_returned"))

c("C130", "partial", "False in full: a mere prototype after a definition is reported as another definition, and a second definition is not reported if the first declaration was extern or the function is static. Proved: exactly which declarators are reported as defined again or as shadowing a static declaration in all programs, which are reported as redeclared in programs without static functions, that a declaration gives one redeclaration report at most (the last one), and the negatives in general; the exact rule of redeclarations with static functions is missing.",
  *T("Redeclared.C130_redef_exactly","Redeclared.C130_redecl_exactly","Redeclared.C130_no_shadow","Redeclared.C130_redef_all","Redeclared.C130_shadow_exactly","Redeclared.C130_full_is_false","Redeclared.C130_extern_hides","Redeclared.C130_prototype_after","Redeclared.C130_sound_partial","Redeclared.C130_complete_partial","Redeclared.C130_one_per_declaration","Redeclared.C130_static_hides"))

c("C131", "partial", "False in full: parentheses change the type. Proved: declarators without parentheses are always right; a declarator that ends with a parenthesis is right exactly if it holds just a name; pointers to functions and arrays of them are right exactly if the arrays have no sizes; pointers to arrays with sizes are always taken for arrays of pointers; functions that return pointers to functions are never right; pointers to functions that return pointers to arrays always give an internal error.",
  *T("Declarator.C131_partial","Declarator.C131_arrays","Declarator.C131_function","Declarator.C131_paren_exactly","Declarator.C131_paren_lost","Declarator.C131_function_pointer","Declarator.C131_function_pointer_exactly","Declarator.C131_name_in_parens","Declarator.C131_pointer_to_array","Declarator.C131_pointer_to_array_exactly","Declarator.C131_array_in_parens","Declarator.C131_array_lost","Declarator.C131_function_returned","Declarator.C131_function_returned_wrong","Declarator.C131_internal_error","Declarator.C131_parameter","Declarator.C131_full_is_false"))

c("C132", "partial", "False in full: ambiguities below the outermost operator are never looked for, since assignSorts goes on to the arguments only if there are none. Proved: the sorts found are exactly those of the readings, and a term is accepted exactly if it has a reading, one sort and one outermost operator, for terms without sorts after colons at names and standard operators and where the branches of an if and the left side of a comparison have one sort; and the negatives in general: inner ambiguity, left sides with several sorts, sorts after colons that are not used, literals as predicates.",
  *T("SortCheck.C132_sorts_exactly","SortCheck.C132_sound_partial","SortCheck.C132_undeclared_exactly","SortCheck.C132_accepted_exactly","SortCheck.C132_inner_ambiguity","SortCheck.C132_left_side","SortCheck.C132_right_side","SortCheck.C132_given_ignored","SortCheck.C132_literal_predicate","SortCheck.C132_full_is_false"))

c("C133", "partial", "False in full: the initial value of the counter and the difference of < and <= are ignored. Proved: the constraint that is added means the requirement in the state n iterations later; if it holds, all iterations up to n are safe, and these are all if the counter starts at 0 or above (for requirements with one moving variable and where simplification is exact, C26); nothing else is required; and the negatives in general: a buffer of exactly n elements is reported, starts below -1 are unsound, steps of two and n > i are not recognised; exact rule for the loop that fills a buffer.",
  *T("Bounds.Heur.C133_advance","Bounds.Heur.C133_partial","Bounds.Heur.C133_sound_partial","Bounds.Heur.C133_guess","Bounds.Heur.C133_counter","Bounds.Heur.C133_string","Bounds.Heur.C133_only","Bounds.Heur.C133_increment","Bounds.Heur.C133_nothing","Bounds.Heur.C133_exactly","Bounds.Heur.C133_off_by_one","Bounds.Heur.C133_negative_start","Bounds.Heur.C133_exact_lte","Bounds.Heur.C133_step_two","Bounds.Heur.C133_reversed","Bounds.Heur.C133_full_is_false"))

c("C134", "partial", "False in full: arrays with a size are a new type each time, and ctype_compare tells them apart (for all states and sizes). Proved: what a number stands for never changes; every type has a pointer and an array type with the right base; at most one of each; pointer types, array types and type names made again at any later time are the same number and leave the table as it is.",
  *T("TypeTable.C134_kept","TypeTable.C134_pointer","TypeTable.C134_array","TypeTable.C134_fixed_base","TypeTable.C134_unique","TypeTable.C134_again_partial","TypeTable.C134_fixed","TypeTable.C134_full_is_false"))
c("C135", "partial", "False in full: combining with a type that is not known gives the type that is not known (for all states). Proved: the alternatives of two known types are exactly those of both, in every reachable state of the variables for the common combinations; alternatives in annotations; there is no type for anytype, it is always the unknown type; combined again at once they are the same type, after 16 further types they are not.",
  *T("TypeTable.C135_alts_partial","TypeTable.C135_unknown","TypeTable.C135_anytype","TypeTable.C135_explicit","TypeTable.C135_again","TypeTable.C135_forgotten","TypeTable.C135_full_is_false"))

c("C136", "partial", "False in full: a long name is written past the end of the memory for names, which is doubled only once. Proved: the table refines a list of names without repetitions (chains by hash values included), so all symbols that are returned are right and stay so; exactly which names overrun the memory; none of less than 8192 characters does.",
  *T("Intern.C136_partial","Intern.C136_later","Intern.C136_exactly","Intern.C136_short","Intern.C136_overrun","Intern.C136_full_is_false"))
c("C137", "partial", "False in full for both tables: they are enlarged for the symbol of the old token, and then written at that of the new one. Proved: exactly which pairs of symbols are written outside (in general: every new name outside the table for a token inside it); in all other cases the synonym leads to the token and nothing else changes; tokens are entered correctly for all symbols.",
  *T("Intern.C137_insert","Intern.C137_lsl_exactly","Intern.C137_lcl_exactly","Intern.C137_partial","Intern.C137_outside","Intern.C137_full_is_false"))

c("C138", "partial", "False in full: a wrong transfer does not change the state, so it is reported each time. Proved for all declarations and tables: what transfers, scope exits and lost references do, key by key, and that no memory outside the tables is used; sequences of such operations follow the declared transfers; an unknown state is never reported; at scope exits the report comes once; when an error at a scope exit of a transfer for leaving is an internal bug.",
  *T("MetaState.C138_transfer","MetaState.C138_assign_local","MetaState.C138_no_table","MetaState.C138_left","MetaState.C138_leave_bug","MetaState.C138_lost","MetaState.C138_runs","MetaState.C138_unknown","MetaState.C138_once","MetaState.C138_wrong_transfer_repeats","MetaState.C138_partial","MetaState.C138_full_is_false"))
c("C139", "partial", "False in full, twice: the first operand of an ensures clause gets the merged state as well, and a conflict of branches is reported at the place of an earlier state. Proved: exactly what branches and ensures clauses do to each reference and key, and which reports there are; when they end in an internal bug (names in one branch only, unknown further operands, operands after '...' with a conflict); the order of the branches does not matter for symmetric merges without null pointers, and does matter with them.",
  *T("MetaState.C139_merge","MetaState.C139_merge_nothing","MetaState.C139_merge_bug","MetaState.C139_order_partial","MetaState.C139_order_full_is_false","MetaState.C139_place_full_is_false","MetaState.C139_ensures","MetaState.C139_ensures_nothing","MetaState.C139_ensures_unknown","MetaState.C139_ensures_bug","MetaState.C139_dots_bug","MetaState.C139_partial","MetaState.C139_full_is_false"))

c("C140", "partial", "False in full: a call without arguments of a function whose exit depends on its argument is an internal bug (exactly these calls are). Proved: the reports for the number and for the types of arguments, exactly, for all calls.",
  *T("ArgPass.C140_reports","ArgPass.C140_bug_exactly","ArgPass.C140_void","ArgPass.C140_partial","ArgPass.C140_full_is_false"))
c("C141", "partial", "False in full: the format of a printf-like, scanf-like or message-like function is never checked, arguments without a conversion are not either, and calls through variables check and set nothing. Proved: for each kind of call exactly which arguments are checked against what, and exactly what the call sets; all of them for functions that are not special.",
  *T("ArgPass.C141_function","ArgPass.C141_checked_exactly","ArgPass.C141_format_unchecked","ArgPass.C141_pointer","ArgPass.C141_computed","ArgPass.C141_unknown","ArgPass.C141_missing","ArgPass.C141_partial","ArgPass.C141_full_is_false","ArgPass.C141_full_is_false_format"))

c("C142", "partial", "False in full: if the temporary file has been made by someone else, Splint ends and removes it; the file that holds a trait is never removed. Proved by an invariant over all runs: ending is never an internal bug and removes exactly the files of removable entries; files entered by name are never removed; exactly when foreign files are removed, never if other processes keep away from the names; which of its files are left.",
  *T("TempFiles.C142_end","TempFiles.C142_user_files","TempFiles.C142_foreign_exactly","TempFiles.C142_taken","TempFiles.C142_foreign_partial","TempFiles.C142_left_partial","TempFiles.C142_lsl_left","TempFiles.C142_full_is_false","TempFiles.C142_full_is_false_lsl"))
c("C143", "partial", "False in full: after 26^3 words the terminator of the array is overwritten and the array is read beyond its end. Proved: which name is made, and when none can be, exactly; all names of a run are different and those of no file. The names for the trait checker are replaced by untested ones if they have unusual characters.",
  *T("TempFiles.C143_name","TempFiles.C143_overrun_exactly","TempFiles.C143_partial","TempFiles.C143_count","TempFiles.C143_lsl","TempFiles.C143_lsl_present","TempFiles.C143_full_is_false"))
c("C144", "partial", "False in full: read_name_map reports an internal bug exactly if closing its file succeeds. Proved: the table of open files is exact for all sequences of operations, within its bounds.",
  *T("OpenFiles.C144_table_partial","OpenFiles.C144_closeAll","OpenFiles.C144_map_exactly","OpenFiles.C144_full_is_false"))

c("C145", "partial", "False in full: if a change is located before the one recorded before it (as in a loop), one change is not shown, and the last one is lost from the history. Proved by refinement of the in-place sort on memory to lists, for all histories: it ends and keeps to the cells of the history; what is shown is a part of the recorded changes in the order of recording, never reordered, starting with the last; everything is shown exactly if the changes were recorded in order.",
  *T("StateHist.C145_ends","StateHist.C145_shown_partial","StateHist.C145_last","StateHist.C145_all_exactly","StateHist.C145_replaced","StateHist.C145_full_is_false"))
c("C146", "partial", "False in full: the last change of the new history is put in front of the old history, the rest of the new one is dropped. Proved: exactly when the result is the new history; that recording puts the change in front, at most once.",
  *T("StateHist.C146_record","StateHist.C146_recordRef","StateHist.C146_update_exactly","StateHist.C146_full_is_false"))

c("C147", "partial", "False in full: a line of 799 characters or more is broken, a line that begins with byte 0 reads before the buffer, byte 255 ends the input. Proved for all contents: exactly when the text is read as it is; otherwise (without bytes 0 and 255) only newlines are added; positions; exactly which lines are reported as too long.",
  *T("InputStream.C147_exactly","InputStream.C147_added_partial","InputStream.C147_position","InputStream.C147_reported","InputStream.C147_full_is_false"))
c("C148", "partial", "False in full: the memory behind a string that does not end in a newline is read. Proved: exactly when a string is read as it is and nothing more; when the memory behind it is read; long lines are never reported, though they are broken.",
  *T("InputStream.C148_exactly","InputStream.C148_overrun","InputStream.C148_reported","InputStream.C148_full_is_false"))

c("C149", "partial", "False in full: `()` is one bad token. Proved for all sequences of tokens: they are found exactly if every mark is followed by a blank, a word or the end; a mark followed by another, a comment or a string is a bad token; a slash at the end of a line is an internal bug.",
  *T("MtScan.C149_exactly","MtScan.C149_joined","MtScan.C149_slash","MtScan.C149_full_is_false"))

c("C150", "partial", "False in full: `int /*@alt char, float@*/` and `char /*@alt int, float@*/` are reported as different. Proved for all types: never fails an assertion; types taken for the same have the same alternatives, each as often; types with two sides are the same when these are exchanged; declared types are the same exactly if the alternatives come in the same order but perhaps for the last two, so the relation is symmetric there; on other types it is not.",
  *T("SameAlt.C150_defined","SameAlt.C150_sound_partial","SameAlt.C150_two_partial","SameAlt.C150_declared_exactly","SameAlt.C150_symmetric_partial","SameAlt.C150_not_symmetric","SameAlt.C150_full_is_false"))

c("C151", "partial", "False in full: the clauses are tested and applied one after the other, so with `sets *p` before `uses *p` undefined storage is not reported, and with `releases *p` before `uses *p` every argument that is not shared is. Proved for all clauses and states: exactly what is reported; it is as it should be for storage that no earlier clause but `uses` is about; both wrong cases in general.",
  *T("StateClause.C151_exactly","StateClause.C151_partial","StateClause.C151_hidden","StateClause.C151_spurious","StateClause.C151_full_is_false"))
c("C152", "partial", "Proved for all clauses and states for parameters. False for the returned expression: one that is definitely null is never reported, even for `ensures notnull result`, and after `ensures only result` it counts as released for later clauses. Proved: exactly what is reported, and that it is as it should be otherwise.",
  *T("StateClause.C152_params","StateClause.C152_result_exactly","StateClause.C152_null","StateClause.C152_result_partial","StateClause.C152_full_is_false"))
c("C153", "partial", "False in full: released storage that is shared is not dead after the call, and of several clauses about the same storage only the last one holds. Proved for all clauses and states otherwise: at the entry, after a call for `ensures`, and after a call for the other clauses. For the result only the first part of C154 is proved.",
  *T("StateClause.C153_entry_partial","StateClause.C153_ensures_partial","StateClause.C153_effects_partial","StateClause.C153_full_is_false"))
c("C154", "partial", "False in full: `requires temp *p` is an internal bug. Proved: exactly which clauses are internal bugs at the entry, at a return and at a call; in particular, user-defined states required of arguments or ensured for the result are at every call.",
  *T("StateClause.C154_enter_exactly","StateClause.C154_leave_exactly","StateClause.C154_giveBack_exactly","StateClause.C154_call_exactly","StateClause.C154_user","StateClause.C154_full_is_false"))

c("C155", "partial", "False in full: after `y = x; x = n;` the fact `y == n` is taken as known, for all variables and numbers, which is wrong unless x was n. Proved for all lists: where each fact comes from; facts that hold at the same time give only facts that hold; after an assignment all known facts hold if no earlier one contains the variable, or one gives its value and the others do not contain it. Missing: other facts that contain the variable, and constraints that cannot be rearranged (C26).",
  *T("MergeEnsures.C155_origin","MergeEnsures.C155_unchanged","MergeEnsures.C155_same_time_partial","MergeEnsures.C155_assign_partial","MergeEnsures.C155_update_partial","MergeEnsures.C155_stale","MergeEnsures.C155_stale_wrong","MergeEnsures.C155_full_is_false"))

c("C156", "partial", "False in full: what is behind a name for a pointer is not seen, for all such names, in casts from and to them; and access to a name of the abstract type is taken for access to the type if there are pointers. Proved: no other cast is reported; all are, if no name stands for a pointer to the abstract type and the context has access to no name for it. Missing: those names.",
  *T("CastProps.C156_sound","CastProps.C156_partial","CastProps.C156_hidden_from","CastProps.C156_hidden_to","CastProps.C156_name_access","CastProps.C156_full_is_false"))
c("C157", "partial", "False in full: the two messages are exchanged, for all casts; and a cast to a pointer to a named type of functions is reported even from that type itself. Proved: when exactly each message is given; one of the two is given just for casts between the two kinds of pointers, if the target is no pointer to a named type of functions. Missing: those, and the right message.",
  *T("CastProps.C157_from_exactly","CastProps.C157_to_exactly","CastProps.C157_reversed","CastProps.C157_some_partial","CastProps.C157_named","CastProps.C157_full_is_false"))
c("C158", "partial", "False in full: a cast to a name for an abstract type is never reported to expose it. Proved: casts to void, casts of zero, when exactly exposure is reported, that it is for the abstract type itself, and that a cast of a pointer to the type it has is reported twice. Missing: names.",
  *T("CastProps.C158_void","CastProps.C158_zero","CastProps.C158_expose_exactly","CastProps.C158_expose_partial","CastProps.C158_named","CastProps.C158_full_is_false","CastProps.C158_clears","CastProps.C158_same"))

c("C159", "partial", "False in full: any other character than white space, a parenthesis or a backslash after the name is taken to belong to it, for all such texts. Proved: the name, parameters and emptiness are right otherwise. Missing: those characters.",
  *T("MacroCheckProps.C159_partial","MacroCheckProps.C159_other","MacroCheckProps.C159_full_is_false","MacroCheckProps.C159_empty"))
c("C160", "partial", "False in full: if both notfunction and notparseable are given, notfunction is left over and the next definition is not checked either. Proved: what is left exactly; two definitions after iter, one after constant.",
  *T("MacroCheckProps.C160_once_exactly","MacroCheckProps.C160_left_over","MacroCheckProps.C160_full_is_false","MacroCheckProps.C160_iter","MacroCheckProps.C160_const"))
c("C161", "partial", "The decision is characterised exactly, and the name is known afterwards. False in full: a macro with the name of something only declared is expanded the first time and checked the second. Proved: otherwise the decision is the same when the definition is read again. Missing: names of things not defined in the code.",
  *T("MacroCheckProps.C161_exactly","MacroCheckProps.C161_known","MacroCheckProps.C161_same_partial","MacroCheckProps.C161_again","MacroCheckProps.C161_full_is_false"))

c("C162", "partial", "False in full: all negative literals are accepted for names of unsigned types, and all numbers for signed types of any size (proved for all of them). Proved: what is accepted exactly; no negative number or character for an unsigned type without a name; zero for all; nothing for booleans. Missing: names for unsigned types, and sizes.",
  *T("LitMatchProps.C162_unsigned_partial","LitMatchProps.C162_exactly","LitMatchProps.C162_named","LitMatchProps.C162_size","LitMatchProps.C162_full_is_false","LitMatchProps.C162_zero","LitMatchProps.C162_bool"))
c("C163", "partial", "False in full: no literal is accepted for a name of a floating type, and no character for any name, while they are for the types. Proved for integer literals and signed integer or boolean types. Missing: the other types.",
  *T("LitMatchProps.C163_partial","LitMatchProps.C163_names","LitMatchProps.C163_full_is_false"))

c("C164", "partial", "False in full: a killed global that is certainly null is reported as not released. Proved for all lists of globals without repetition: each global is checked once and by itself, exactly what is reported for those that are not killed and those that are, that null plays no part for killed ones, and that nothing is done without the flag. Missing: null killed globals.",
  *T("GlobReturnProps.C164_each","GlobReturnProps.C164_kept_exactly","GlobReturnProps.C164_which","GlobReturnProps.C164_killed_exactly","GlobReturnProps.C164_null_ignored","GlobReturnProps.C164_full_is_false","GlobReturnProps.C164_off"))

c("C165", "partial", "False in full: a qualifier out, in or partial that is written first cancels all others without a report, and so does the third of undef killed undef. Proved for all lists: what holds is written, the exact state, the exact reports; and the full statement if only undef and killed are written, at most once each. Missing: the other qualifiers and repeated ones.",
  *T("GlobQualProps.C165_once_partial","GlobQualProps.C165_sound","GlobQualProps.C165_exactly","GlobQualProps.C165_lost","GlobQualProps.C165_reports","GlobQualProps.C165_order","GlobQualProps.C165_full_is_false","GlobQualProps.C165_asked"))

c("C166", "partial", "False in full: with the flag specundecl, each absent entry is reported twice, and entries specified in libraries or imports are reported as not declared. Proved for all tables: exactly which entries are reported by which message, when there are two messages, and the full statement without that flag. Missing: that flag.",
  *T("AllDefinedProps.C166_once_partial","AllDefinedProps.C166_declared_exactly","AllDefinedProps.C166_undeclared_exactly","AllDefinedProps.C166_absent_exactly","AllDefinedProps.C166_words","AllDefinedProps.C166_twice_exactly","AllDefinedProps.C166_elsewhere","AllDefinedProps.C166_full_is_false"))

c("C167", "proved", "Induction over the bindings; the mapping is a function that is changed at one point at a time.",
  *T("MappingProps.C167_function","MappingProps.C167_translate","MappingProps.C167_undefined"))

c("C168", "partial", "False in full: each operator is compared with the first one of the term and not with the one before it. Proved for all sequences: the term is what was read, from the left; the exact reports; and that there is a report just if two operators that follow each other differ. Missing: that the report names these.",
  *T("InfixTermProps.C168_reported_partial","InfixTermProps.C168_term","InfixTermProps.C168_exactly","InfixTermProps.C168_first","InfixTermProps.C168_same","InfixTermProps.C168_full_is_false"))

c("C169", "partial", "False in full: after finish for an empty list the position is -1, which the assertion of termNodeList_current lets through, and a cell that was never written is read. Proved for all sequences of calls: content, position, when the assertion fails, and that all writes and all other reads are inside of the array. Missing: reading the current element after finish for an empty list.",
  *T("TermListProps.C169_current_partial","TermListProps.C169_content","TermListProps.C169_position","TermListProps.C169_full_is_false"))

c("C170", "partial", "False in full: for -DX=L\"a\" single quotes are added that are left in the definition, for -DX='a' the single quotes are lost, and for -DX=' what is behind the end of the text is read. Proved for all texts: when an unclosed quote is reported; the definition is as written without quotes, and with one string as the value; what becomes of a string with something before it and of single quotes. Missing: values of more than one string.",
  *T("PassThroughProps.C170_no_quotes_partial","PassThroughProps.C170_string_partial","PassThroughProps.C170_unclosed","PassThroughProps.C170_undefine","PassThroughProps.C170_prefix","PassThroughProps.C170_single","PassThroughProps.C170_full_is_false"))
