{
 "claims": [
  {
   "property": "C01",
   "status": "partial",
   "theorems": [
    "Splint.C01_full_is_false",
    "Splint.C01_compare_number_neg_iff",
    "Splint.C01_compare_number_zero_iff",
    "Splint.C01_compare_neg_partial",
    "Splint.C01_compare_zero_partial",
    "Splint.C01_compare_antisymm",
    "Splint.C01_compare_trans",
    "Splint.C01_lessthan_partial",
    "Splint.C01_notAfter_iff",
    "Splint.C01_notAfter_partial",
    "Splint.C01_notAfter_wrong",
    "Splint.C01_equal_iff",
    "Splint.C01_equal_not_refl",
    "Splint.C01_withinLines_iff",
    "Splint.C01_sameFileAndLine_iff",
    "Splint.C01_advance",
    "Splint.C01_decColumn"
   ],
   "note": "Comparison functions on positions characterised against place/Before, for files that are not derived from others; a file and its preprocessed text have different numbers, so lines before and after the first #include are misordered (witness). The equality test excludes library positions, stated in the iff."
  },
  {
   "property": "C02",
   "status": "partial",
   "theorems": [
    "Splint.C02_dedup_partial",
    "Splint.C02_sorted_partial",
    "Splint.C02_no_false_duplicate",
    "Splint.C02_log_holds_reported",
    "Splint.C02_dedup_fails_in_system_header",
    "Splint.C02_dedup_fails_unknown_position",
    "Splint.C02_dedup_fails_derived",
    "Splint.C02_full_is_false"
   ],
   "note": "Exact for ordinary positions; the full statement is false in system headers/libraries and for unknown positions (witnesses proved)."
  },
  {
   "property": "C06",
   "status": "partial",
   "theorems": [
    "Splint.C06_conservation_partial",
    "Splint.C06_conservation_any_moment",
    "Splint.C06_shown_in_order",
    "Splint.C06_groups",
    "Splint.C06_total_counts_all",
    "Splint.C06_full_is_false"
   ],
   "note": "Exact accounting at every clean-up, exact output per group; false at the end of a run because no clean-up follows the final checks (witness proved)."
  },
  {
   "property": "C34",
   "status": "partial",
   "theorems": [
    "Splint.C34_exit_status_exact",
    "Splint.C34_exit_status_partial",
    "Splint.C34_spec_mismatch_succeeds",
    "Splint.C34_full_is_false",
    "Splint.C34_run_succeeds_iff"
   ],
   "note": "Exact condition proved; the full statement fails when specification warnings differ from a positive expected number (witness proved)."
  },
  {
   "property": "C07",
   "status": "partial",
   "theorems": [
    "Splint.C07_layout",
    "Splint.C07_text_preserved",
    "Splint.C07_terminates_partial",
    "Splint.C07_wrap_can_hang",
    "Splint.C07_terminates_full_is_false",
    "Splint.C07_printError_layout",
    "Splint.C07_printError_text_preserved",
    "Splint.C07_printError_terminates",
    "Splint.C07_printError_width_partial",
    "Splint.C07_printError_too_wide"
   ],
   "note": "Layout, text preservation and width proved for every text; termination proved for indentations up to 4 or leaving 21 columns; hang and overlong line witnesses proved."
  },
  {
   "property": "C22",
   "status": "partial",
   "theorems": [
    "Splint.C22_possiblyNull_iff",
    "Splint.C22_constnull_lost",
    "Splint.C22_full_is_false",
    "Splint.C22_lost_exactly",
    "Splint.C22_merge_partial",
    "Splint.C22_fold_partial",
    "Splint.C22_merge_order_partial",
    "Splint.C22_merge_state"
   ],
   "note": "Exact table of lost nulls (only a constant null merged with a checked non-null); preserved in every other merge, over any number of branches and in any order."
  },
  {
   "property": "C23",
   "status": "partial",
   "theorems": [
    "Splint.C23_gains",
    "Splint.C23_full_is_false",
    "Splint.C23_lost_exactly",
    "Splint.C23_defined",
    "Splint.C23_merge_partial",
    "Splint.C23_fold_partial",
    "Splint.C23_merge_state",
    "Splint.C23_released_partial",
    "Splint.C23_released_reldef",
    "Splint.C23_exposure"
   ],
   "note": "Exact table of pairs where the merge claims more than both branches; elsewhere proved, including the merge function with its adjustments."
  },
  {
   "property": "C24",
   "status": "partial",
   "theorems": [
    "Splint.C24_must_escape_partial",
    "Splint.C24_unreachable_partial",
    "Splint.C24_function_partial",
    "Splint.C24_loop_return_lost",
    "Splint.C24_list_return_lost",
    "Splint.C24_full_is_false",
    "Splint.C24_unreachable_full_is_false",
    "Splint.C24_silenced_unreachable",
    "Splint.C24_goto_into_switch",
    "Splint.C24_no_false_alarm",
    "Splint.C24_conditional_kinds"
   ],
   "note": "must-escape, can-break, unreachable-code and missing-return conclusions proved for all executions of statements without labels in silenced dead code or inside a switch; the kinds forget returns in loops and lists (refutation)."
  },
  {
   "property": "C41",
   "status": "partial",
   "theorems": [
    "Splint.C41_equal_iff",
    "Splint.C41_equal_refl_symm",
    "Splint.C41_equal_trans",
    "Splint.C41_equal_compatible",
    "Splint.C41_compatible_symm_exactly",
    "Splint.C41_fixImplicit_exactly",
    "Splint.C41_full_is_false",
    "Splint.C41_compatible_obliged_partial",
    "Splint.C41_derive_no_gain",
    "Splint.C41_derive_path",
    "Splint.C41_resolve",
    "Splint.C41_resolve_assoc"
   ],
   "note": "Equality is an equivalence; exact tables for compatibility; the full statement is false (witness)."
  },
  {
   "property": "C45",
   "status": "partial",
   "theorems": [
    "Splint.C45_dependent_drops",
    "Splint.C45_full_is_false",
    "Splint.C45_dropped_exactly",
    "Splint.C45_obligation_partial"
   ],
   "note": "Exact list of the merges that drop an obligation without a message."
  },
  {
   "property": "C44",
   "status": "partial",
   "theorems": [
    "Splint.C44_clauses_restored_partial",
    "Splint.C44_function_partial",
    "Splint.C44_case_in_if",
    "Splint.C44_case_in_for",
    "Splint.C44_two_cases_in_while",
    "Splint.C44_full_is_false"
   ],
   "note": "Stack restored and every query answered correctly for statements with well-placed cases; cases inside if/for leave stale clauses or fail an assertion (witnesses)."
  },
  {
   "property": "C46",
   "status": "proved",
   "theorems": [
    "Splint.C46_growable_array",
    "Splint.C46_new",
    "Splint.C46_history"
   ],
   "note": "Clause stack only; the other list templates share the scheme but are not modelled separately."
  },
  {
   "property": "C19",
   "status": "partial",
   "theorems": [
    "Splint.C19_insert_contents",
    "Splint.C19_insert_exactly",
    "Splint.C19_member_exactly",
    "Splint.C19_member_sound",
    "Splint.C19_duplicate",
    "Splint.C19_lost",
    "Splint.C19_full_is_false",
    "Splint.C19_increasing_partial",
    "Splint.C19_unparseText",
    "Splint.C19_mode_message"
   ],
   "note": "Exact effect of every insertion and exact membership answer; the full statement is false (duplicates, lost elements, out-of-bounds reads: witnesses)."
  },
  {
   "property": "C40",
   "status": "partial",
   "theorems": [
    "Splint.C40_table",
    "Splint.C40_transfers",
    "Splint.C40_redeclaration_fails",
    "Splint.C40_lose_without_message",
    "Splint.C40_lose_reported"
   ],
   "note": "The table is exact; a declaration is processed without a failed assertion exactly when no pair with an error message is declared again, and then every answer is the last clause's."
  },
  {
   "property": "C47",
   "status": "partial",
   "theorems": [
    "Splint.C47_merge_table",
    "Splint.C47_merge_closed",
    "Splint.C47_asymmetric",
    "Splint.C47_full_is_false",
    "Splint.C47_symmetric_exactly",
    "Splint.C47_symmetric_partial"
   ],
   "note": "Exact meaning of every list of merge clauses; symmetry fails when several clauses cover the other order (witness), exact criterion proved."
  },
  {
   "property": "C15",
   "status": "partial",
   "theorems": [
    "Splint.C15_text",
    "Splint.C15_int_partial",
    "Splint.C15_int_full_is_false",
    "Splint.C15_ynm",
    "Splint.C15_const_partial",
    "Splint.C15_const_full_is_false"
   ],
   "note": "Exact: a number or constant reads back if and only if it is readable (not a string, not a negative number with two significant digits, within int). Doubles assume that strtod inverts %f."
  },
  {
   "property": "C16",
   "status": "partial",
   "theorems": [
    "Splint.C16_set",
    "Splint.C16_table",
    "Splint.C16_expr_partial",
    "Splint.C16_expr_full_is_false",
    "Splint.C16_numbers",
    "Splint.C16_constraint_partial",
    "Splint.C16_constraint_full_is_false",
    "Splint.C16_list_partial",
    "Splint.C16_list_all",
    "Splint.C16_functions_partial"
   ],
   "note": "Access sets and their table; bounds expressions, constraints, their lists and those of all functions read back if their numbers are readable (C15), their names are not one of three words, and there are no alternatives; each exception has a witness."
  },
  {
   "property": "C17",
   "status": "partial",
   "theorems": [
    "Splint.C17_long_exactly",
    "Splint.C17_char_exactly",
    "Splint.C17_unlike",
    "Splint.C17_fold_partial",
    "Splint.C17_full_is_false",
    "Splint.C17_invert"
   ],
   "note": "Exact result of every operation; the full claim fails exactly when the kind cannot hold the exact result (witness)."
  },
  {
   "property": "C18",
   "status": "partial",
   "theorems": [
    "Splint.C18_ynm_partial",
    "Splint.C18_ynm_zero",
    "Splint.C18_cstring",
    "Splint.C18_cstring_zero",
    "Splint.C18_multiVal_partial",
    "Splint.C18_full_is_false",
    "Splint.C18_multiVal_inconsistent",
    "Splint.C18_cstring_not_transitive",
    "Splint.C18_sets_partial"
   ],
   "note": "Exact list of the inconsistent pairs for answers, constants, strings and access sets."
  },
  {
   "property": "C20",
   "status": "partial",
   "theorems": [
    "Splint.C20_members",
    "Splint.C20_members_loaded",
    "Splint.C20_identifiers_partial",
    "Splint.C20_same_id_same_members",
    "Splint.C20_small",
    "Splint.C20_full_is_false"
   ],
   "note": "Members proved for every history; identifiers equal exactly when the members were added in the same order, so canonicity fails for two or more members (witness)."
  },
  {
   "property": "C13",
   "status": "partial",
   "theorems": [
    "Splint.Tables.C13_generic",
    "Splint.Tables.C13_cstring_partial",
    "Splint.Tables.C13_cstring_full_is_false"
   ],
   "note": "Proved in full for genericTable; for cstringTable an update to the number that means 'not found' is accepted (witness), all other histories proved."
  },
  {
   "property": "C14",
   "status": "partial",
   "theorems": [
    "Splint.Tables.C14_hash_partial",
    "Splint.Tables.C14_full_is_false"
   ],
   "note": "Exact: reads stay inside the random table if and only if no character of the key has its sign bit set."
  },
  {
   "property": "C03",
   "status": "partial",
   "theorems": [
    "Splint.FlagMarkers.C03_C04_answers_partial",
    "Splint.FlagMarkers.C03_region_partial",
    "Splint.FlagMarkers.C03_count_ends_region",
    "Splint.FlagMarkers.C03_full_is_false",
    "Splint.FlagMarkers.C03_library_position",
    "Splint.FlagMarkers.C03_before_first_include"
   ],
   "note": "Proved for every history of well placed comments; a counted line inside a region ends it (refutation), and library positions see the regions of other files."
  },
  {
   "property": "C04",
   "status": "partial",
   "theorems": [
    "Splint.FlagMarkers.C03_C04_answers_partial",
    "Splint.FlagMarkers.C04_last_setting",
    "Splint.FlagMarkers.C04_names",
    "Splint.FlagMarkers.C04_command_line",
    "Splint.FlagMarkers.C04_out_of_order",
    "Splint.FlagMarkers.C04_before_first_include",
    "Splint.FlagMarkers.C04_full_is_false"
   ],
   "note": "Proved for every history of well placed comments; for naming flags the older of two settings governs; comments read out of order are misplaced (refutation)."
  },
  {
   "property": "C05",
   "status": "partial",
   "theorems": [
    "Splint.FlagMarkers.C05_counts_partial",
    "Splint.FlagMarkers.C05_complaint_partial",
    "Splint.FlagMarkers.C05_only_read",
    "Splint.FlagMarkers.C05_message_counts_once"
   ],
   "note": "Proved for every history of well placed comments, up to the order of the complaints."
  },
  {
   "property": "C43",
   "status": "partial",
   "theorems": [
    "Splint.SRef.C43_realSame_exactly",
    "Splint.SRef.C43_realSame_partial",
    "Splint.SRef.C43_realSame_full_is_false",
    "Splint.SRef.C43_realSame_conj",
    "Splint.SRef.C43_same_exactly",
    "Splint.SRef.C43_same_partial",
    "Splint.SRef.C43_same_symm",
    "Splint.SRef.C43_same_full_is_false",
    "Splint.SRef.C43_similar_partial",
    "Splint.SRef.C43_similar_symm",
    "Splint.SRef.C43_similar_full_is_false",
    "Splint.SRef.C43_derived",
    "Splint.SRef.C43_included_full_is_false",
    "Splint.SRef.C43_included_ptr",
    "Splint.SRef.C43_included_partial",
    "Splint.SRef.C43_included_field_exactly",
    "Splint.SRef.C43_included_ptr_exactly",
    "Splint.SRef.C43_similar_exactly"
   ],
   "note": "On comparable references the identity tests are equality of the text; constants, merged references and unknown indices break symmetry or transitivity (witnesses); inclusion exact per kind."
  },
  {
   "property": "C31",
   "status": "partial",
   "theorems": [
    "Splint.C31_set_partial",
    "Splint.C31_set_full_is_false",
    "Splint.C31_table_full_is_false",
    "Splint.C31_table_exactly",
    "Splint.C31_table_partial"
   ],
   "note": "Sets proved up to 25 accesses per reference; alias tables lose one entry in scope under an exact condition (witness)."
  },
  {
   "property": "C32",
   "status": "partial",
   "theorems": [
    "Splint.C32_history_partial",
    "Splint.C32_full_is_false",
    "Splint.C32_deleteBase",
    "Splint.C32_levelCopy",
    "Splint.C32_newUnion",
    "Splint.C32_equal",
    "Splint.C32_intersect_partial",
    "Splint.C32_intersect_full_is_false"
   ],
   "note": "Every history on comparable references is set algebra; constants are members of every nonempty set and intersections are too large (witnesses)."
  },
  {
   "property": "C42",
   "status": "partial",
   "theorems": [
    "Splint.SRef.C42_partial",
    "Splint.SRef.C42_full_is_false",
    "Splint.SRef.C42_internal_reported",
    "Splint.SRef.C42_listed_permitted",
    "Splint.SRef.C42_other_element",
    "Splint.SRef.C42_merged",
    "Splint.SRef.C42_value"
   ],
   "note": "Exact on unmerged references without +mustmod; with +mustmod a change of the internal state is never reported, and a merged reference with one free alternative hides the other (witnesses)."
  },
  {
   "property": "C48",
   "status": "partial",
   "theorems": [
    "Splint.SRef.C48_partial",
    "Splint.SRef.C48_full_is_false",
    "Splint.SRef.C48_exactly"
   ],
   "note": "The documented meaning holds with a modifies clause; without one the two flags are exchanged (exact)."
  },
  {
   "property": "C49",
   "status": "partial",
   "theorems": [
    "Splint.SRef.C49_marks",
    "Splint.SRef.C49_unused"
   ],
   "note": "Every sequence of modifications of unmerged references; special state markers in the list are reported elsewhere and left out."
  },
  {
   "property": "C33",
   "status": "partial",
   "theorems": [
    "Splint.C33_recorded",
    "Splint.C33_kept",
    "Splint.C33_cleared_full_is_false",
    "Splint.C33_cleared_partial",
    "Splint.C33_cleared_killed",
    "Splint.C33_sound_full_is_false",
    "Splint.C33_sound_partial",
    "Splint.C33_merge_partial"
   ],
   "note": "On paths: an alias is recorded and kept through every history that clears neither side; clearing a variable or element is complete, clearing a field or target is not (witness); facts are true unless a variable is assigned a path through itself (witness p = p->next)."
  },
  {
   "property": "C50",
   "status": "partial",
   "theorems": [
    "Splint.C50_full_is_false",
    "Splint.C50_partial",
    "Splint.C50_allAliases"
   ],
   "note": "Direct aliases are recorded in both directions; aliases of aliases can be missed (witness: b=d; c=b; a=d)."
  },
  {
   "property": "C21",
   "status": "partial",
   "theorems": [
    "Splint.C21_sound",
    "Splint.C21_partial",
    "Splint.C21_full_is_false",
    "Splint.C21_elements",
    "Splint.C21_operators_full_is_false",
    "Splint.C21_other_operators",
    "Splint.C21_after_return",
    "Splint.C21_loop_full_is_false",
    "Splint.C21_loop_partial",
    "Splint.C21_or_full_is_false"
   ],
   "note": "Proved for ==, !=, null-test calls, !, &&, || over variables, fields and targets, and after if-return and plain loops; false for array elements, other operators, loops left by break and || with an exit (witnesses)."
  },
  {
   "property": "C51",
   "status": "proved",
   "theorems": [
    "Splint.C51_exactly"
   ],
   "note": "Exact for every condition of this form."
  },
  {
   "property": "C52",
   "status": "partial",
   "theorems": [
    "Splint.C52_full_is_false",
    "Splint.C52_element",
    "Splint.C52_partial",
    "Splint.C52_null_stays"
   ],
   "note": "The reference itself loses its guard and others keep theirs (no array elements); what is inside it stays guarded, elements stay guarded, and facts that something is null are never removed."
  },
  {
   "property": "C08",
   "status": "partial",
   "theorems": [
    "Splint.CppExp.C08_full_is_false",
    "Splint.CppExp.C08_partial",
    "Splint.CppExp.C08_sign_not_read",
    "Splint.CppExp.C08_middle_not_read",
    "Splint.CppExp.C08_shift_wrong",
    "Splint.CppExp.C08_quotient_wrong",
    "Splint.CppExp.C08_type_wrong",
    "Splint.CppExp.C08_overflow_wrong",
    "Splint.CppExp.C08_reads",
    "Splint.CppExp.C08_accepts",
    "Splint.CppExp.C08_parenthesised_partial",
    "Splint.CppExp.C08_number",
    "Splint.CppExp.C08_long_long_error"
   ],
   "note": "Every expression of the C grammar whose tree the parser can read has its C value, under four conditions each shown to be needed; signs after + or *, nested conditionals, shifts of 32 or more, signed by unsigned quotients go wrong (witnesses). Exactly the readable trees are accepted. Literals below 2^64 are exact."
  },
  {
   "property": "C09",
   "status": "partial",
   "theorems": [
    "Splint.CppExp.C09_full_is_false",
    "Splint.CppExp.C09_not_safe",
    "Splint.CppExp.C09_traps",
    "Splint.CppExp.C09_partial",
    "Splint.CppExp.C09_room"
   ],
   "note": "Lines that pass a left-to-right check stay in the stack and use only written operands, and never crash without * / % << >>; empty lines, unbalanced parentheses, stray colons and missing operands go wrong (witnesses); there is always room for a push."
  },
  {
   "property": "C11",
   "status": "proved",
   "theorems": [
    "Splint.CppHash.C11",
    "Splint.CppHash.C11_lookup"
   ],
   "note": "For every history of definitions, removals, built-in names, conditions, saving, restoring and cleaning up, from the empty tables."
  },
  {
   "property": "C12",
   "status": "partial",
   "theorems": [
    "Splint.CppHash.C12_exactly",
    "Splint.CppHash.C12_partial",
    "Splint.CppHash.C12_full_is_false",
    "Splint.CppHash.C12_flags_lost"
   ],
   "note": "The full statement is false. Exactly the macros whose body uses parameters at most once are restored, as far as they are written; two flags are never written."
  },
  {
   "property": "C10",
   "status": "partial",
   "theorems": [
    "Splint.CppCond.C10_partial",
    "Splint.CppCond.C10_partial_within",
    "Splint.CppCond.C10_partial_chars",
    "Splint.CppCond.C10_partial_elif",
    "Splint.CppCond.C10_skip_exactly",
    "Splint.CppCond.C10_apostrophe",
    "Splint.CppCond.C10_full_is_false"
   ],
   "note": "At the level of lines: full, for any nesting, any conditions and any other lines. At the level of characters: skipping ends at the right line when every quote has its partner; a single apostrophe hides the next directive (witness)."
  },
  {
   "property": "C53",
   "status": "partial",
   "theorems": [
    "Splint.CppCond.C53_partial",
    "Splint.CppCond.C53_exactly",
    "Splint.CppCond.C53_states",
    "Splint.CppCond.C53_full_is_false",
    "Splint.CppCond.C53_open_in_include"
   ],
   "note": "Everything out of place is reported, and nothing else; a conditional left open is not reported, and stays open in the file that includes it (witness)."
  },
  {
   "property": "C54",
   "status": "partial",
   "theorems": [
    "Splint.CppInclude.C54_partial",
    "Splint.CppInclude.C54_guarded",
    "Splint.CppInclude.C54_full_is_false",
    "Splint.CppInclude.C54_elif",
    "Splint.CppInclude.C54_directive",
    "Splint.CppInclude.C54_blank_include"
   ],
   "note": "True when each file that ends with a guard is all within it but for blank lines, without #elif, or has text before it and no #include in between; false with #elif, with directives before the guard, and after an included file without text."
  },
  {
   "property": "C38",
   "status": "proved",
   "theorems": [
    "Splint.IncludeNest.C38",
    "Splint.IncludeNest.C38_any",
    "Splint.IncludeNest.C38_return"
   ],
   "note": "For all trees of files, the warnings are exactly those of the inclusions that are too deep; for any sequence of markers the stack has no file twice and no write is outside it."
  },
  {
   "property": "C39",
   "status": "partial",
   "theorems": [
    "Splint.MacroCache.C39_full_is_false",
    "Splint.MacroCache.C39_safe",
    "Splint.MacroCache.C39_all",
    "Splint.MacroCache.C39_partial",
    "Splint.MacroCache.C39_once_partial",
    "Splint.MacroCache.C39_text_partial",
    "Splint.MacroCache.C39_simple_partial",
    "Splint.MacroCache.C39_library",
    "Splint.MacroCache.C39_stale",
    "Splint.MacroCache.C39_kind",
    "Splint.MacroCache.C39_partialFlag"
   ],
   "note": "For positions outside libraries, and any history of registrations and passes, what is checked is what is due: each place once, with the text registered last before the pass. For any positions a pass over everything checks every registered place and nothing is written outside the allocated space. Fails for positions in libraries and system headers (checked as often as registered), for texts registered after the place was checked (never checked), and with the flag partial (the last pass checks nothing)."
  },
  {
   "property": "C35",
   "status": "partial",
   "theorems": [
    "Splint.C35_mode",
    "Splint.C35_modeTables",
    "Splint.C35_badMode",
    "Splint.C35_full_is_false",
    "Splint.C35_flag_partial",
    "Splint.C35_flag_exactly",
    "Splint.C35_history_partial",
    "Splint.C35_headers_full_is_false",
    "Splint.C35_headers_partial"
   ],
   "note": "Setting a mode is exactly its table (C35_mode, C35_modeTables).  The full statement about flags is false: the settings listed in Spec.deviates do not do what is documented (C35_full_is_false); C35_flag_exactly says that these are the only ones."
  },
  {
   "property": "C36",
   "status": "partial",
   "theorems": [
    "Splint.C36_file_exactly",
    "Splint.C36_file_partial",
    "Splint.C36_partial",
    "Splint.C36_preprocessor",
    "Splint.C36_values_partial",
    "Splint.C36_full_is_false",
    "Splint.C36_mode_leaks",
    "Splint.C36_value_leaks",
    "Splint.C36_preprocessor_leaks",
    "Splint.C36_restore_full_is_false",
    "Splint.C36_restore_partial",
    "Splint.C36_restore_exactly"
   ],
   "note": "False in full: modes selected by control comments, values and the preprocessor's own control comments leak into later files (witnesses); C36_file_exactly says what is kept, and the partial theorems cover files whose control comments only set flags."
  },
  {
   "property": "C37",
   "status": "partial",
   "theorems": [
    "Splint.C37_full_is_false",
    "Splint.C37_not_idempotent",
    "Splint.C37_idempotent_exactly",
    "Splint.C37_split",
    "Splint.C37_bare",
    "Splint.C37_abbreviation_partial",
    "Splint.C37_punctuation_partial",
    "Splint.C37_names",
    "Splint.C37_letters",
    "Splint.C37_spelled",
    "Splint.C37_other_names",
    "Splint.C37_distinct",
    "Splint.C37_modes",
    "Splint.C37_mode_full_is_false",
    "Splint.C37_mode_partial"
   ],
   "note": "False in full: punctuation inside a written-out word, and words that come about by abbreviating others, are not recognised (C37_full_is_false, C37_not_idempotent); C37_idempotent_exactly says when canonicalisation is idempotent."
  },
  {
   "property": "C25",
   "status": "partial",
   "theorems": [
    "Splint.C25_full_is_false",
    "Splint.C25_minus_lost",
    "Splint.C25_difference_is_sum",
    "Splint.C25_pointer_right",
    "Splint.C25_truncated",
    "Splint.C25_value_partial",
    "Splint.C25_constants",
    "Splint.C25_form_partial",
    "Splint.C25_removeZero"
   ],
   "note": "False in full: a stale operator, named constants, a pointer on the right of + and large literals are simplified wrongly (witnesses); C25_value_partial covers the regular expressions (Spec.Regular)."
  },
  {
   "property": "C26",
   "status": "partial",
   "theorems": [
    "Splint.C26_full_is_false",
    "Splint.C26_swap",
    "Splint.C26_solve",
    "Splint.C26_partial",
    "Splint.C26_comparable_partial"
   ],
   "note": "Exchanging the sides and moving an operand are exact for all constraints; simplification is false in full (named constants), and C26_partial covers the linear constraints (Spec.Linear)."
  },
  {
   "property": "C27",
   "status": "partial",
   "theorems": [
    "Splint.C27_full_is_false",
    "Splint.C27_sizeof_any",
    "Splint.C27_stale_operator",
    "Splint.C27_reads_wrong_kind",
    "Splint.C27_partial",
    "Splint.C27_sizeof_exactly"
   ],
   "note": "False in full: the sizeof rule holds only for buffers of bytes and only as an upper bound, and it can read invalid data (witnesses); C27_partial covers constraints without sizeof whose right side is clean (Spec.Clean)."
  },
  {
   "property": "C28",
   "status": "partial",
   "theorems": [
    "Splint.C28_full_is_false",
    "Splint.C28_weakened",
    "Splint.C28_unsound",
    "Splint.C28_satisfies_partial",
    "Splint.C28_resolve_partial",
    "Splint.C28_subsume_partial",
    "Splint.C28_subsume_sub",
    "Splint.C28_substitute_partial",
    "Splint.C28_inequality",
    "Splint.C28_reflect_partial"
   ],
   "note": "False in full: strict requirements from facts that are not strict, and two substitutions of bounds, are unsound (witnesses); partial theorems for one fact, a list of facts, subsumption and substitution of equals."
  },
  {
   "property": "C29",
   "status": "partial",
   "theorems": [
    "Splint.C29_replace",
    "Splint.C29_constraint",
    "Splint.C29_search",
    "Splint.C29_absent",
    "Splint.C29_similar",
    "Splint.C29_gone"
   ],
   "note": "For expressions without recorded casts, and given that references taken to be the same have the same value (which the code does not guarantee for a[i] and a[j] with unknown indices)."
  },
  {
   "property": "C30",
   "status": "proved",
   "theorems": [
    "Splint.C30_expression",
    "Splint.C30_constraint",
    "Splint.C30_one_result",
    "Splint.C30_too_deep",
    "Splint.C30_left_alone"
   ],
   "note": "For every expression and every constraint, with explicit bounds on the recursion."
  },
  {
   "property": "C55",
   "status": "partial",
   "theorems": [
    "Splint.C55_reference_partial",
    "Splint.C55_list_partial",
    "Splint.C55_pointer_of_address",
    "Splint.C55_full_is_false",
    "Splint.C55_value_moves"
   ],
   "note": "References and lists read back if their numbers are readable (C15) and a value comes with a value of the part it is made from; witnesses for both exceptions."
  },
  {
   "property": "C56",
   "status": "partial",
   "theorems": [
    "Splint.C56_full_is_false",
    "Splint.C56_outer_found",
    "Splint.C56_outer_changed",
    "Splint.C56_names_partial"
   ],
   "note": "Declarations directly in the body of a switch are lost in the next case (witness); proved for declarations in blocks."
  },
  {
   "property": "C57",
   "status": "partial",
   "theorems": [
    "Splint.C57_full_is_false",
    "Splint.C57_break_lost",
    "Splint.C57_loop_twice",
    "Splint.C57_and_defines",
    "Splint.C57_switch_all",
    "Splint.C57_paths_partial",
    "Splint.C57_null_partial",
    "Splint.C57_result_full_is_false",
    "Splint.C57_result_other",
    "Splint.C57_result_partial"
   ],
   "note": "False in full, with a counterexample each for break, loops, && and switch with default; proved for statements without those, for any states with a merge that keeps both possibilities, and for null states. Exactly what is merged is proved for statements without switch and without an else after a branch that returns; for the latter it is false."
  },
  {
   "property": "C58",
   "status": "partial",
   "theorems": [
    "Splint.C58_full_is_false",
    "Splint.C58_other_variable",
    "Splint.C58_reference_partial",
    "Splint.C58_reference_exactly",
    "Splint.C58_scope_for_ever",
    "Splint.C58_scope_shadowed",
    "Splint.C58_scope_partial"
   ],
   "note": "A variable declared in a block inside a branch is not found from a nested block, or another one of the name is; proved for the others, with what is found in the exceptional case."
  },
  {
   "property": "C59",
   "status": "partial",
   "theorems": [
    "Splint.Scan.C59_full_is_false",
    "Splint.Scan.C59_value_partial",
    "Splint.Scan.C59_integer_partial",
    "Splint.Scan.C59_exactly",
    "Splint.Scan.C59_float",
    "Splint.Scan.C59_hex_float",
    "Splint.Scan.C59_not_octal"
   ],
   "note": "False in full: the type depends on the suffix alone, so 3000000000 is an int, and values from 2^63 overflow. Proved: every constant is taken whole with the right value below 2^63, and exactly which constants get the type of C; floating constants in full."
  },
  {
   "property": "C60",
   "status": "partial",
   "theorems": [
    "Splint.Scan.C60_full_is_false",
    "Splint.Scan.C60_exactly",
    "Splint.Scan.C60_wide"
   ],
   "note": "False in full: hexadecimal and octal escapes and six of the simple ones have the value 0, and wide characters that of the apostrophe. Proved: always taken whole, and exactly which have the right value."
  },
  {
   "property": "C61",
   "status": "partial",
   "theorems": [
    "Splint.StrLit.C61_full_is_false",
    "Splint.StrLit.C61_length_partial",
    "Splint.StrLit.C61_eight_nine",
    "Splint.StrLit.C61_values_partial",
    "Splint.StrLit.C61_wrong_values",
    "Splint.StrLit.C61_check_partial",
    "Splint.StrLit.C61_octal",
    "Splint.StrLit.C61_joined",
    "Splint.StrLit.C61_cut",
    "Splint.StrLit.C61_empty",
    "Splint.StrLit.C61_limit",
    "Splint.StrLit.C61_limit_partial",
    "Splint.StrLit.C61_limit_escape",
    "Splint.StrLit.C61_inner"
   ],
   "note": "False in full: joined literals read uninitialised memory and count one too many per junction or are cut, octal escapes lose their second digit and take 8 and 9. Proved: length, values and messages for one literal without those, the exact length for joined ones, the length limit."
  },
  {
   "property": "C62",
   "status": "partial",
   "theorems": [
    "Splint.TypeSpec.C62_full_is_false",
    "Splint.TypeSpec.C62_exactly",
    "Splint.TypeSpec.C62_types_partial",
    "Splint.TypeSpec.C62_implicit_int",
    "Splint.TypeSpec.C62_double_long",
    "Splint.TypeSpec.C62_silent_exactly",
    "Splint.TypeSpec.C62_not_reported",
    "Splint.TypeSpec.C62_reported_partial",
    "Splint.TypeSpec.C62_ignore",
    "Splint.TypeSpec.C62_short_twice"
   ],
   "note": "False in full: a declaration without any word does not stand for int, char unsigned is taken for unsigned int, double long for long int, and signed unsigned, long long long and others are not reported. Proved: the exact condition for the types of C, and exactly which lists of any length are not reported and their types."
  },
  {
   "property": "C63",
   "status": "partial",
   "theorems": [
    "Splint.Format.C63_full_is_false",
    "Splint.Format.C63_printf_partial",
    "Splint.Format.C63_too_few_partial",
    "Splint.Format.C63_types_exactly",
    "Splint.Format.C63_wrong",
    "Splint.Format.C63_star_missing",
    "Splint.Format.C63_percent_at_end",
    "Splint.Format.C63_star_error",
    "Splint.Format.C63_ends"
   ],
   "note": "False in full: %lf is compared with long double, hh and lengths of n are wrong, F, a and A are unrecognised, the flag 0 must come last. Proved: all formats of known conversions (exactly which are known is proved too), with asterisks, widths and precisions; with too few arguments the first that is missing is reported; a percent sign at the end reads past the string; the loop ends for every format."
  },
  {
   "property": "C64",
   "status": "partial",
   "theorems": [
    "Splint.Format.C64_full_is_false",
    "Splint.Format.C64_scanf_partial",
    "Splint.Format.C64_types_exactly",
    "Splint.Format.C64_wrong",
    "Splint.Format.C64_at_end",
    "Splint.Format.C64_ends"
   ],
   "note": "False in full: %ln is compared with a pointer to int, %p is reported, sets with a percent sign may be read as conversions. Proved: all formats of known conversions (exactly which are known is proved too) and sets without percent sign, for any number of arguments; the loop ends for every format."
  },
  {
   "property": "C65",
   "status": "partial",
   "theorems": [
    "Splint.Prim.C65_full_is_false",
    "Splint.Prim.C65_values",
    "Splint.Prim.C65_deep_partial",
    "Splint.Prim.C65_deep_full_is_false",
    "Splint.Prim.C65_deep_wrong",
    "Splint.Prim.C65_pairs_partial",
    "Splint.Prim.C65_longint_exactly",
    "Splint.Prim.C65_pairs_full_is_false",
    "Splint.Prim.C65_allowed_partial",
    "Splint.Prim.C65_short_long",
    "Splint.Prim.C65_allowed_full_is_false",
    "Splint.Prim.C65_signed_integral",
    "Splint.Prim.C65_relaxtypes_integral",
    "Splint.Prim.C65_not_monotone",
    "Splint.Prim.C65_none"
   ],
   "note": "False in full: with longint, int takes a long only if relaxquals is on too, but short takes an int; behind pointers integral types of unknown size match too much; with matchanyintegral everything matches a signed integral type. Proved: values are preserved on all machines, the other equivalences in both directions, soundness for types of known size but for the one exception, and exactly when int takes a long."
  },
  {
   "property": "C66",
   "status": "partial",
   "theorems": [
    "Splint.TypeMatch.C66_representation",
    "Splint.TypeMatch.C66_representation_def",
    "Splint.TypeMatch.C66_forward",
    "Splint.TypeMatch.C66_forward_wrong",
    "Splint.TypeMatch.C66_opaque_partial",
    "Splint.TypeMatch.C66_bool_wrong",
    "Splint.TypeMatch.C66_void_array",
    "Splint.TypeMatch.C66_forward_ends"
   ],
   "note": "Representations do not matter: proved in full, for all types and flags without forwarddecl. That a hidden type matches only itself is false for booleans: the number of the named type is taken for a type. Proved otherwise. With forwarddecl, pointers to pointers to a structure match pointers to it; an array of abstract values takes a void pointer."
  },
  {
   "property": "C67",
   "status": "partial",
   "theorems": [
    "Splint.TypeMatch.C67_full_is_false",
    "Splint.TypeMatch.C67_match_partial",
    "Splint.TypeMatch.C67_arg_partial",
    "Splint.TypeMatch.C67_def_partial",
    "Splint.TypeMatch.C67_void_name",
    "Splint.TypeMatch.C67_fixed_array",
    "Splint.TypeMatch.C67_no_fields",
    "Splint.TypeMatch.C67_elips",
    "Splint.TypeMatch.C67_unknown_params",
    "Splint.TypeMatch.C67_number_params",
    "Splint.TypeMatch.C67_void_function",
    "Splint.TypeMatch.C67_void_data",
    "Splint.TypeMatch.C67_no_tag",
    "Splint.TypeMatch.C67_nameless",
    "Splint.TypeMatch.C67_nameless_same",
    "Splint.TypeMatch.C67_struct_union",
    "Splint.TypeMatch.C67_bool_int",
    "Splint.TypeMatch.C67_enum_int",
    "Splint.TypeMatch.C67_bool_enum",
    "Splint.TypeMatch.C67_bool_names"
   ],
   "note": "False in full: an array of pointers to functions takes a pointer to a function. Proved as an equivalence, with termination, for match, matchDef and matchArg and all trees without arrays of functions and pointers to void. Also proved: a name for void is not void, fixed arrays relax more than pointers, structures without fields match, and the rest of the arguments is a fatal error. Exact rules for pointers to void, unknown parameters, structures without a name, booleans and enumerations are in Props/TypeMatchRules."
  },
  {
   "property": "C68",
   "status": "partial",
   "theorems": [
    "Splint.Transfer.C68_full_is_false",
    "Splint.Transfer.C68_missed",
    "Splint.Transfer.C68_exactly",
    "Splint.Transfer.C68_lent_partial",
    "Splint.Transfer.C68_assign_partial",
    "Splint.Transfer.C68_alias",
    "Splint.Transfer.C68_told_exactly",
    "Splint.Transfer.C68_expose_exactly"
   ],
   "note": "False in full: unique parameters, arrays on the stack, shared storage passed as keep or owned, unannotated and static storage passed as owned are missed. Proved as an exact characterisation for calls; for returns, assignments and aliases proved for storage that is lent, kept, shared or counted."
  },
  {
   "property": "C69",
   "status": "partial",
   "theorems": [
    "Splint.Transfer.C69_full_is_false",
    "Splint.Transfer.C69_assign_partial",
    "Splint.Transfer.C69_return_partial",
    "Splint.Transfer.C69_pass_partial",
    "Splint.Transfer.C69_pass_special",
    "Splint.Transfer.C69_overwritten_exactly",
    "Splint.Transfer.C69_shown",
    "Splint.Transfer.C69_newref"
   ],
   "note": "False in full: new storage assigned to a global observer is lost silently. Proved for all receivers that are local or neither exposed nor observer, for returns and for calls; parameters with a state clause are not checked at all."
  },
  {
   "property": "C70",
   "status": "proved",
   "theorems": [
    "Splint.Transfer.C70_given",
    "Splint.Transfer.C70_parameter",
    "Splint.Transfer.C70_shared",
    "Splint.Transfer.C70_only_exactly",
    "Splint.Transfer.C70_receiver",
    "Splint.Transfer.C70_assign_fresh",
    "Splint.Transfer.C70_assign_fresh_owned"
   ],
   "note": "For all flags; shared storage and constants are excepted by design, which is shown as a theorem."
  },
  {
   "property": "C71",
   "status": "proved",
   "theorems": [
    "Splint.Transfer.C71_pass",
    "Splint.Transfer.C71_return"
   ],
   "note": "For calls and returns, with the answer for types that are null by declaration (NS_ABSNULL) left out."
  },
  {
   "property": "C72",
   "status": "partial",
   "theorems": [
    "Splint.FinalScope.C72_full_is_false",
    "Splint.FinalScope.C72_visible_partial",
    "Splint.FinalScope.C72_exactly",
    "Splint.FinalScope.C72_other",
    "Splint.FinalScope.C72_struct"
   ],
   "note": "False in full: a variable is forgotten if an inner scope has one of the same name. Proved for all variables that are not hidden, and exactly (also for undefined out parameters and user-defined states)."
  },
  {
   "property": "C73",
   "status": "partial",
   "theorems": [
    "Splint.FinalScope.C73_full_is_false",
    "Splint.FinalScope.C73_exactly",
    "Splint.FinalScope.C73_takeover_partial"
   ],
   "note": "False in full: two variables of the block that are aliases of each other are taken for each other's remaining reference. Exact rule proved; the takeover is proved where no alias is in the block itself."
  },
  {
   "property": "C74",
   "status": "partial",
   "theorems": [
    "Splint.Destroyed.C74_full_is_false",
    "Splint.Destroyed.C74_owned_missed",
    "Splint.Destroyed.C74_deep_missed",
    "Splint.Destroyed.C74_hidden_missed",
    "Splint.Destroyed.C74_exactly",
    "Splint.Destroyed.C74_maybe_exactly",
    "Splint.Destroyed.C74_fields_partial",
    "Splint.Destroyed.C74_answer",
    "Splint.Destroyed.C74_takes",
    "Splint.Destroyed.C74_local",
    "Splint.Destroyed.C74_partly",
    "Splint.Destroyed.C74_sibling"
   ],
   "note": "False in full: owned and keep parts are not looked at, the search is cut off after ten steps, and partly defined pointers hide all messages below. Exact rules by paths proved for both messages; all only and fresh fields of a structure, or of what a pointer refers to, proved reported."
  },
  {
   "property": "C75",
   "status": "partial",
   "theorems": [
    "Splint.CppMacro.C75_full_is_false",
    "Splint.CppMacro.C75_number_split",
    "Splint.CppMacro.C75_blank_missed",
    "Splint.CppMacro.C75_hash_missed",
    "Splint.CppMacro.C75_expansion_partial",
    "Splint.CppMacro.C75_standard_partial"
   ],
   "note": "False in full: a parameter inside a number is replaced, ## before blanks at the end is accepted, # in a macro with an empty parameter list is lost. Proved for all other definitions, for any arguments without the escape character."
  },
  {
   "property": "C76",
   "status": "partial",
   "theorems": [
    "Splint.CppMacro.C76_full_is_false",
    "Splint.CppMacro.C76_marker",
    "Splint.CppMacro.C76_backslash",
    "Splint.CppMacro.C76_string_partial",
    "Splint.CppMacro.C76_literal"
   ],
   "note": "False in full: an @ and the blank after it are changed, and a backslash outside of literals hides the start of the next one. Proved for arguments without these and with printable characters."
  },
  {
   "property": "C77",
   "status": "partial",
   "theorems": [
    "Splint.CppArgs.C77_full_is_false",
    "Splint.CppArgs.C77_empty_reported",
    "Splint.CppArgs.C77_arguments",
    "Splint.CppArgs.C77_unterminated",
    "Splint.CppArgs.C77_number_partial",
    "Splint.CppArgs.C77_empty_exactly"
   ],
   "note": "False in full: f() for a macro with one parameter is reported. Proved for all other calls; the arguments and the end of a call are found exactly."
  },
  {
   "property": "C78",
   "status": "partial",
   "theorems": [
    "Splint.CppMacro.C78_full_is_false",
    "Splint.CppMacro.C78_arrow_missed",
    "Splint.CppMacro.C78_comment_missed",
    "Splint.CppMacro.C78_digraph_missed",
    "Splint.CppMacro.C78_dollar_missed",
    "Splint.CppMacro.C78_apart_partial"
   ],
   "note": "False in full: ->, /*, the digraphs and names ending in $ are missed. Proved for all other pairs."
  },
  {
   "property": "C79",
   "status": "partial",
   "theorems": [
    "Splint.CppMacro.C79_full_is_false",
    "Splint.CppMacro.C79_overrun",
    "Splint.CppMacro.C79_definition",
    "Splint.CppMacro.C79_expansion",
    "Splint.CppMacro.C79_no_overrun_partial",
    "Splint.CppMacro.C79_lost_exactly"
   ],
   "note": "False in full: the test for a marker reads past the end of an argument, and the length copied can become negative. The sizes are right otherwise; exactly when the reading fails is proved."
  },
  {
   "property": "C80",
   "status": "partial",
   "theorems": [
    "Splint.C80_search_exactly",
    "Splint.C80_search_full_is_false",
    "Splint.C80_reserved_exactly",
    "Splint.C80_system",
    "Splint.C80_full_is_false",
    "Splint.C80_library_partial"
   ],
   "note": "The grounds are exact for all names and declarations. False in full: the functions of <math.h> are missing from the list, and the search misses the last entry of tables of some lengths; exactly which is proved, and the last entry of the table used is the null pointer."
  },
  {
   "property": "C81",
   "status": "partial",
   "theorems": [
    "Splint.C81_exactly",
    "Splint.C81_full_is_false",
    "Splint.C81_words_partial"
   ],
   "note": "Exactly the words of the list are reported. False in full: five words of C++ are not in the list."
  },
  {
   "property": "C82",
   "status": "partial",
   "theorems": [
    "Splint.C82_full_is_false",
    "Splint.C82_plain",
    "Splint.C82_star_exactly",
    "Splint.C82_star_partial"
   ],
   "note": "Proved for prefixes without *. False in full: T does not match T^*, and the second character of the repeated part is not compared; that there are no other differences is proved."
  },
  {
   "property": "C83",
   "status": "partial",
   "theorems": [
    "Splint.C83_full_is_false",
    "Splint.C83_own_partial",
    "Splint.C83_other_partial"
   ],
   "note": "False in full: the exclude flags of constants and iterators do nothing, macros and iterators are not held against the prefix of exported names, and enumerators, constants and iterators with a prefix of their own are taken for names that are not exported. The exact rule is proved."
  },
  {
   "property": "C84",
   "status": "partial",
   "theorems": [
    "Splint.C84_interference_exactly",
    "Splint.C84_reports_exactly",
    "Splint.C84_full_is_false",
    "Splint.C84_opAssign_missed",
    "Splint.C84_complete_partial"
   ],
   "note": "Which expressions are reported, and which have interfering accesses, is proved exactly. False in full: x op f(..) and x op= f(..) are not reported when the arguments or the function write x."
  },
  {
   "property": "C85",
   "status": "partial",
   "theorems": [
    "Splint.C85_full_is_false",
    "Splint.C85_parentheses",
    "Splint.C85_sound_partial",
    "Splint.C85_simple_exactly"
   ],
   "note": "False in full: x = e is reported when e writes x and is certainly done with it. That there are no other false alarms is proved, and for expressions without calls, comma, logical and conditional operators the messages are exact."
  },
  {
   "property": "C86",
   "status": "partial",
   "theorems": [
    "Splint.C86_full_is_false",
    "Splint.C86_reported_exactly_partial",
    "Splint.C86_reported_sound_partial",
    "Splint.C86_endless_full_is_false",
    "Splint.C86_endless_partial",
    "Splint.C86_switch_ends",
    "Splint.C86_only_while"
   ],
   "note": "False in full: what is modified in the body of a switch is lost, so such loops get the message; and a loop that is left by break or return gets it. Which loops get the message is proved exactly with the bodies of switch statements left out; without switch and exits such a loop is proved not to end. Loops made with for and do never get the message."
  },
  {
   "property": "C87",
   "status": "proved",
   "theorems": [
    "Splint.C87_noEffect_exactly",
    "Splint.C87_value_exactly",
    "Splint.C87_one_message",
    "Splint.C87_no_change",
    "Splint.C87_otherwise_writes"
   ],
   "note": ""
  },
  {
   "property": "C88",
   "status": "partial",
   "theorems": [
    "Splint.C88_full_is_false",
    "Splint.C88_missing_exactly_partial",
    "Splint.C88_unhandled_listed",
    "Splint.C88_unhandled_exactly_partial",
    "Splint.C88_others_exactly",
    "Splint.C88_same_value_unnoticed",
    "Splint.C88_allpaths_sound",
    "Splint.C88_allpaths_plain"
   ],
   "note": "False in full: labels count by name, so members handled by a number or by another member with the same value are listed. The list is proved exact by names; every unhandled member is listed; with different values and labels that are members outside of inner statements the list is that of the unhandled members."
  },
  {
   "property": "C89",
   "status": "partial",
   "theorems": [
    "Splint.C89_full_is_false",
    "Splint.C89_wrong_exactly",
    "Splint.C89_sound_partial",
    "Splint.C89_missed_exactly"
   ],
   "note": "False in full: < and > are accepted for equal values and == for a smaller one. The wrong and the missed answers are proved exactly; != <= >= are sound."
  },
  {
   "property": "C90",
   "status": "partial",
   "theorems": [
    "Splint.C90_items",
    "Splint.C90_full_is_false",
    "Splint.C90_exactly",
    "Splint.C90_partial",
    "Splint.C90_files_partial"
   ],
   "note": "False in full: -i with its argument ends the processing of the rest. Proved exactly up to the first such item, for all lists of items; every list of arguments is one of items but for a missing argument at the end."
  },
  {
   "property": "C91",
   "status": "partial",
   "theorems": [
    "Splint.C91_flag",
    "Splint.C91_value",
    "Splint.C91_string",
    "Splint.C91_letters",
    "Splint.C91_dashes_full_is_false",
    "Splint.C91_dashes_partial",
    "Splint.C91_bounds_full_is_false",
    "Splint.C91_bounds_exactly"
   ],
   "note": "Proved for all flags and spellings; -- before -D, -U, -I, -S is not the same as -, and the obsolete flags are used as an index outside the tables."
  },
  {
   "property": "C92",
   "status": "partial",
   "theorems": [
    "Splint.C92_defaults_full_is_false",
    "Splint.C92_defaults_exactly",
    "Splint.C92_defaults_partial",
    "Splint.C92_argument_is_option",
    "Splint.C92_override_full_is_false",
    "Splint.C92_override_partial",
    "Splint.C92_control"
   ],
   "note": "False in full: a file for messages keeps the options file of the home directory from being read, and the flags that control messages are overridden by the options files. Proved for all other flags."
  },
  {
   "property": "C93",
   "status": "partial",
   "theorems": [
    "Splint.C93_line",
    "Splint.C93_noMissing",
    "Splint.C93_deterministic",
    "Splint.C93_comment_full_is_false",
    "Splint.C93_comment_partial",
    "Splint.C93_lines",
    "Splint.C93_exactly",
    "Splint.C93_full_is_false",
    "Splint.C93_partial"
   ],
   "note": "False in full: a line of more than 1024 characters overflows the buffer, and # within a word does not start a comment. Proved exactly for all other texts."
  },
  {
   "property": "C94",
   "status": "proved",
   "theorems": [
    "Splint.C94_once",
    "Splint.C94_startup",
    "Splint.C94_read"
   ],
   "note": "Induction over the reading of the files."
  },
  {
   "property": "C95",
   "status": "partial",
   "theorems": [
    "Splint.C95_full_is_false",
    "Splint.C95_exactly",
    "Splint.C95_partial",
    "Splint.C95_same",
    "Splint.C95_again"
   ],
   "note": "False in full: the root comes out as the empty name, and a name that leads above the root is a fatal error. Proved exactly which name is computed, for all names."
  },
  {
   "property": "C96",
   "status": "partial",
   "theorems": [
    "Splint.C96_full_is_false",
    "Splint.C96_exactly",
    "Splint.C96_partial",
    "Splint.C96_short"
   ],
   "note": "False in full: the name is wrong or missing when the name of the working directory begins with that of the file. Proved exactly when the printed name leads to the file, and that it is never longer than the absolute one."
  },
  {
   "property": "C97",
   "status": "partial",
   "theorems": [
    "Splint.C97_full_is_false",
    "Splint.C97_exactly",
    "Splint.C97_partial",
    "Splint.C97_search_full_is_false",
    "Splint.C97_search_exactly",
    "Splint.C97_search_partial",
    "Splint.C97_direct"
   ],
   "note": "False in full: names are compared as texts, an empty element ends the list of system directories, and an empty element of a search list stands for the root. Proved exactly what happens."
  },
  {
   "property": "C98",
   "status": "partial",
   "theorems": [
    "Splint.C98_full_is_false",
    "Splint.C98_exactly",
    "Splint.C98_root",
    "Splint.C98_partial",
    "Splint.C98_base_wrong",
    "Splint.C98_without",
    "Splint.C98_add",
    "Splint.C98_use_full_is_false",
    "Splint.C98_use_partial"
   ],
   "note": "False in full: the last full stop of the whole name is used. Proved exactly when the extension is right, for all names."
  },
  {
   "property": "C99",
   "status": "partial",
   "theorems": [
    "Splint.Access.C99_full_is_false",
    "Splint.Access.C99_complete_partial",
    "Splint.Access.C99_sound_partial",
    "Splint.Access.C99_unhandled",
    "Splint.Access.C99_arrow",
    "Splint.Access.C99_update",
    "Splint.Access.C99_below_assigned",
    "Splint.Access.C99_address",
    "Splint.Access.C99_sizeof"
   ],
   "note": "False in full: conditional and comma expressions, initializers and va_arg give no requirement, `p->x` gives none, an update only requires reading, and `&a[i]` and parts of an assigned place give wrong ones. Proved for all expressions without these."
  },
  {
   "property": "C100",
   "status": "partial",
   "theorems": [
    "Splint.Facts.C100_own",
    "Splint.Facts.C100_full_is_false",
    "Splint.Facts.C100_true_partial",
    "Splint.Facts.C100_false_partial",
    "Splint.Facts.C100_after",
    "Splint.Facts.C100_assumes_both",
    "Splint.Facts.C100_not_wrong",
    "Splint.Facts.C100_or_is_false"
   ],
   "note": "False in full: the facts of both operands of `||` and of the operand of `!` are assumed. The facts of a node alone are right; the collected ones are proved right for tests that are conjunctions (true) and disjunctions (false)."
  },
  {
   "property": "C101",
   "status": "partial",
   "theorems": [
    "Splint.StmtGen.C101_full_is_false",
    "Splint.StmtGen.C101_partial",
    "Splint.StmtGen.C101_do_test",
    "Splint.StmtGen.C101_for_parts",
    "Splint.StmtGen.C101_for_break",
    "Splint.StmtGen.C101_if_facts",
    "Splint.StmtGen.C101_for_wrong",
    "Splint.StmtGen.C101_branch_wrong"
   ],
   "note": "False in full: changes made in a branch or in the body of a loop are forgotten, and requirements of the parts of `for` and of the test of `do` are lost. Proved for all statements whose branches and loop bodies change nothing that is tracked, for any right operations on constraints."
  },
  {
   "property": "C102",
   "status": "partial",
   "theorems": [
    "Splint.StmtGen.C102_full_is_false",
    "Splint.StmtGen.C102_partial",
    "Splint.StmtGen.C102_tested",
    "Splint.StmtGen.C102_fall_through",
    "Splint.StmtGen.C102_default"
   ],
   "note": "False in full: the requirements of a case that runs into the next are forgotten, and those of the tested expression are never used. Proved if no case is run into."
  },
  {
   "property": "C103",
   "status": "partial",
   "theorems": [
    "Splint.CppMacro.C103_full_is_false",
    "Splint.CppMacro.C103_exactly",
    "Splint.CppMacro.C103_partial",
    "Splint.CppMacro.C103_inside_full_is_false",
    "Splint.CppMacro.C103_inside_partial",
    "Splint.CppMacro.C103_option",
    "Splint.CppMacro.C103_option_one",
    "Splint.CppMacro.C103_option_bad"
   ],
   "note": "False in full: a comma after the last parameter is accepted, and `f(a...,b)` makes it read beyond the end of the line. Exactly the accepted lines are characterised; every proper definition is accepted; no line without `...` is read beyond its end."
  },
  {
   "property": "C104",
   "status": "partial",
   "theorems": [
    "Splint.CppMacro.C104_full_is_false",
    "Splint.CppMacro.C104_same",
    "Splint.CppMacro.C104_missed",
    "Splint.CppMacro.C104_rest",
    "Splint.CppMacro.C104_exactly",
    "Splint.CppMacro.C104_partial",
    "Splint.CppMacro.C104_redefined"
   ],
   "note": "False in full: white space in literals, white space at `##` and `#`, and `...` are ignored. Proved for all definitions: if they are the same there is no message. Proved both ways for texts without literals and operators."
  },
  {
   "property": "C105",
   "status": "partial",
   "theorems": [
    "Splint.Symtab.Uses.C105_full_is_false",
    "Splint.Symtab.Uses.C105_partial",
    "Splint.Symtab.Uses.C105_one_partial",
    "Splint.Symtab.Uses.C105_switch_block",
    "Splint.Symtab.Uses.C105_switch_shadow",
    "Splint.Symtab.Uses.C105_empty_switch"
   ],
   "note": "False in full: variables declared at the start of the block of a switch are never reported, and their uses count for variables of the same name outside; a switch without a case inside a case loses the marks of that case. Proved for all functions without such a switch."
  },
  {
   "property": "C106",
   "status": "partial",
   "theorems": [
    "Splint.MacroParam.C106_full_is_false",
    "Splint.MacroParam.C106_sound_partial",
    "Splint.MacroParam.C106_complete_partial",
    "Splint.MacroParam.C106_partial",
    "Splint.MacroParam.C106_exactly",
    "Splint.MacroParam.C106_escapes",
    "Splint.MacroParam.C106_loop",
    "Splint.MacroParam.C106_do",
    "Splint.MacroParam.C106_switch",
    "Splint.MacroParam.C106_return"
   ],
   "note": "False in full: a use in the condition of a loop or in a do loop is missed, a return is not taken into account, and a use in a switch is always reported. Proved: what is accepted, for every body; no missed case without loops and return; no false message without switch and return."
  },
  {
   "property": "C107",
   "status": "partial",
   "theorems": [
    "Splint.Rescan.C107_full_is_false",
    "Splint.Rescan.C107_ends",
    "Splint.Rescan.C107_sound_partial",
    "Splint.Rescan.C107_partial",
    "Splint.Rescan.C107_fatal",
    "Splint.Rescan.C107_lines"
   ],
   "note": "False in full: the name of a function-like macro at the end of an expansion that no parenthesis follows is an internal error, and after a call on several lines a call is missed. Proved: the scan ends for all macros and texts; on one line its result is that of the algorithm, and if no macro ends with the name of a function-like macro there is no internal error."
  },
  {
   "property": "C108",
   "status": "partial",
   "theorems": [
    "Splint.LibEntry.C108_full_is_false",
    "Splint.LibEntry.C108_unknown_becomes_temp",
    "Splint.LibEntry.C108_entry_exactly",
    "Splint.LibEntry.C108_entry_injective_partial",
    "Splint.LibEntry.C108_parameter_partial",
    "Splint.LibEntry.C108_type_partial",
    "Splint.LibEntry.C108_type_injective_partial",
    "Splint.LibEntry.C108_base_partial",
    "Splint.LibEntry.C108_incomplete_types_lost"
   ],
   "note": "False in full: a variable nothing is known of is read back as implicitly temporary, and a function type that is only expected is read back as undefined. Proved: every other entry and every complete type is read back as it was, and what follows is not touched."
  },
  {
   "property": "C109",
   "status": "partial",
   "theorems": [
    "Splint.SymSection.C109_full_is_false",
    "Splint.SymSection.C109_partial",
    "Splint.SymSection.C109_names_partial",
    "Splint.SymSection.C109_exact_partial",
    "Splint.SymSection.C109_equivalent_differ",
    "Splint.SymSection.C109_second_is_first",
    "Splint.SymSection.C109_members_become_constants",
    "Splint.SymSection.C109_long_entry_unreadable"
   ],
   "note": "False in full: an entry next to one that uentry_compare cannot tell from it (constants that give access to different types, variables with different exposure) is read back as that one; members of enumerations are read back as constants; an entry of 16382 or more characters makes the library unreadable. Proved: order, markers, names and kinds are right, each entry is read as written or as an equivalent one before it, exactly as written if equivalent entries differ only in their names; and equivalent entries with the same types differ exactly in access or exposure."
  },
  {
   "property": "C110",
   "status": "partial",
   "theorems": [
    "Splint.C110_full_is_false",
    "Splint.C110_partial",
    "Splint.C110_exact_partial",
    "Splint.C110_lists",
    "Splint.C110_lists_partial",
    "Splint.C110_not_reported",
    "Splint.C110_empty_statement",
    "Splint.C110_behind_declaration",
    "Splint.C110_declared_case_missed"
   ],
   "note": "False in full: an empty statement behind one that leaves gives a message about a case nothing falls into, and a case behind a declaration is not looked at. Proved: in lists of statements no case that is fallen into is missed, and in ordinary code the message is exact."
  },
  {
   "property": "C111",
   "status": "partial",
   "theorems": [
    "Splint.C111_full_is_false",
    "Splint.C111_rule_partial",
    "Splint.C111_break_exactly",
    "Splint.C111_continue",
    "Splint.C111_annotations"
   ],
   "note": "False in full: a break from a loop in a switch in a loop is reported as one from a loop in a loop, so not at all if only switchloopbreak is set. Proved: the exact rule for all bodies, that a message is given exactly if the construct left stands in another, and that the flag is the documented one in all other cases."
  },
  {
   "property": "C112",
   "status": "partial",
   "theorems": [
    "Splint.C112_full_is_false",
    "Splint.C112_external_is_false",
    "Splint.C112_compare_exactly",
    "Splint.C112_internal_exactly",
    "Splint.C112_external_exactly",
    "Splint.C112_internal_partial",
    "Splint.C112_external_partial",
    "Splint.C112_some_order",
    "Splint.C112_same",
    "Splint.C112_case",
    "Splint.C112_extras",
    "Splint.C112_order",
    "Splint.C112_missed",
    "Splint.C112_zero_ignores_case",
    "Splint.C112_wrong_reason",
    "Splint.C112_not_transitive",
    "Splint.C112_once",
    "Splint.C112_internal_text",
    "Splint.C112_external_text"
   ],
   "note": "False in full: a name of exactly the significant length is taken to be distinct from a longer one, in one order of declaration; a limit of 0 for external names ignores case whatever the option says. Proved: the exact rule for the comparison, for internal and for external names, no wrong message about an internal name, and when further names are mentioned."
  },
  {
   "property": "C113",
   "status": "partial",
   "theorems": [
    "Splint.C113_full_is_false",
    "Splint.C113_buffer",
    "Splint.C113_vasprintf",
    "Splint.C113_no_string",
    "Splint.C113_partial",
    "Splint.C113_plain",
    "Splint.C113_lost_digit",
    "Splint.C113_differences",
    "Splint.C113_prescribed",
    "Splint.C113_undefined"
   ],
   "note": "False in full: numbers of 20 digits lose the first one, the flag 0 is obeyed together with the flag - and with a precision, a width enlarges the precision of a string, and other differences listed in the theorems. Proved: the contents of the buffer and the number returned for all formats, the string made by vasprintf, and that the output is the prescribed one outside the cases listed. Conversions of floating point numbers are not modelled."
  },
  {
   "property": "C114",
   "status": "partial",
   "theorems": [
    "Splint.C114_shift_right",
    "Splint.C114_shift_left",
    "Splint.C114_bitwise_full_is_false",
    "Splint.C114_bitwise_exactly",
    "Splint.C114_bitwise_partial",
    "Splint.C114_bitwise_constant_on_the_left",
    "Splint.C114_real_equality",
    "Splint.C114_real_relation_full_is_false",
    "Splint.C114_real_relation_exactly",
    "Splint.C114_real_relation_partial",
    "Splint.C114_unsigned_letter",
    "Splint.C114_constant_left",
    "Splint.C114_constant_right",
    "Splint.C114_unsigned_full_is_false",
    "Splint.C114_unsigned_partial",
    "Splint.C114_unsigned_zero_left",
    "Splint.C114_pointer_full_is_false",
    "Splint.C114_pointer_partial",
    "Splint.C114_pointer_on_the_right",
    "Splint.C114_array_on_the_right",
    "Splint.C114_int_minus_pointer",
    "Splint.C114_bool_compare",
    "Splint.C114_bool_ops",
    "Splint.C114_pointer_and_number",
    "Splint.C114_remainder",
    "Splint.C114_wrong_operand"
   ],
   "note": "False in full: the right operand of a bitwise operator is not looked at if the left one is a constant of a signed type; <= and >= of floating point numbers are never reported; 0 > u is not reported for an unsigned u while 0 < u is; for an integer plus a pointer it is the integer that is tested for null; an integer plus an array is reported as incompatible; messages about operands that are not numeric name the other operand. Proved: exactly what is reported for shifts, bitwise operators, comparisons, pointer arithmetic and boolean operators. Abstract types and conjunctions of types are not modelled, and whether types match is a parameter."
  },
  {
   "property": "C115",
   "status": "partial",
   "theorems": [
    "Splint.C115_accepts_exactly",
    "Splint.C115_partial",
    "Splint.C115_unsigned_long",
    "Splint.C115_full_is_false",
    "Splint.C115_check_past_the_end",
    "Splint.C115_message_past_the_end",
    "Splint.C115_complete_partial",
    "Splint.C115_complete_full_is_false"
   ],
   "note": "False in full: %w is checked to be an unsigned long and read as an int, so that no accepted call with it is defined; a percent sign at the end makes the check read behind the format; and %& is compared with the argument last looked at, so that calls with a string in between are reported. Proved: what the check accepts, exactly; accepted calls without %w and without numbers beyond int print what the specification says; all calls that fit and have no %& are accepted. Matching of types is a parameter; texts of floating point numbers, pointers and locations are given."
  },
  {
   "property": "C116",
   "status": "partial",
   "theorems": [
    "Splint.C116_sound_partial",
    "Splint.C116_complete_partial",
    "Splint.C116_verdict_partial",
    "Splint.C116_struct_hides",
    "Splint.C116_pointer_as_array",
    "Splint.C116_counted",
    "Splint.C116_full_is_false",
    "Splint.C116_complete_full_is_false",
    "Splint.C116_first_four",
    "Splint.C116_elided_braces",
    "Splint.C116_designated"
   ],
   "note": "False in full: a value in braces for a number is reported though it is valid C, a string in braces for an array of characters of a given size is reported to have too few elements, a pointer with values in braces is treated as an array; the values for a struct are not looked at if they are not as many as its fields, and after four errors in a list of more than six nothing is. Proved: apart from these, every message is about a fault; all faults are reported in complete initializers with lists of at most six, and something is reported for longer ones; exactly the first four mismatches of a long list are reported. Whether an expression matches a type is a parameter; messages of simulated assignments are not modelled."
  },
  {
   "property": "C117",
   "status": "partial",
   "theorems": [
    "Splint.C117_showuses",
    "Splint.C117_exactly",
    "Splint.C117_partial",
    "Splint.C117_full_is_false",
    "Splint.C117_showuses_matters",
    "Splint.C117_order"
   ],
   "note": "False in full: a name declared in a header of another name than the module is never reported, nor is one used in a macro, unless the flag showuses is set as well. Proved: what is reported is right; exactly what is reported with and without showuses; the order of uses does not matter. Locations are modules; built-in and external files are not modelled."
  },
  {
   "property": "C118",
   "status": "partial",
   "theorems": [
    "Splint.C118_extent",
    "Splint.C118_shape_partial",
    "Splint.C118_left_out_is_longer",
    "Splint.C118_full_is_false",
    "Splint.C118_fails_exactly",
    "Splint.C118_marked",
    "Splint.C118_newline_marker",
    "Splint.C118_does",
    "Splint.C118_nested_marked",
    "Splint.C118_nestcomment_never",
    "Splint.C118_plain",
    "Splint.C118_lint",
    "Splint.C118_end_full_is_false"
   ],
   "note": "False in full: for comments that are left out (notparseable, notfunction, commentchar) one blank too many is written, so that later columns are off by one; an assertion fails for a comment for the checker whose end is broken by a backslash, and for an empty comment if the comment character is *; if the comment character is the end of a line, lines are lost. All these are proved to be the only exceptions. Proved: extent of comments; exactly what is done (nestcomment is never set; words are prefixes, so that endpoint ends a region); the end marker is not in the text; nested comments are counted, also in // comments."
  },
  {
   "property": "C119",
   "status": "partial",
   "theorems": [
    "Splint.C119_frame_partial",
    "Splint.C119_closed",
    "Splint.C119_swallows",
    "Splint.C119_swallows_all",
    "Splint.C119_full_is_false",
    "Splint.C119_clause_loses_char",
    "Splint.C119_clause_full_is_false",
    "Splint.C119_blank_no_clause",
    "Splint.C119_blank_clause_unrecognized",
    "Splint.C119_flags",
    "Splint.C119_flags_off",
    "Splint.C119_equals_argument",
    "Splint.C119_token",
    "Splint.C119_dead_entries",
    "Splint.C119_annotation_blank",
    "Splint.C119_access",
    "Splint.C119_types_cut",
    "Splint.C119_access_full_is_false",
    "Splint.C119_noaccess",
    "Splint.C119_access_off",
    "Splint.C119_suppress_line",
    "Splint.C119_suppress_region",
    "Splint.C119_no_argument"
   ],
   "note": "False in full: if the comment has only letters (it does not end with the comment character, as in /*@null*/), the source up to the next remainder sign is read as part of it, or an assertion fails, or the rest of the file is read; the character after the word of a clause is lost; clauses and declared annotations are not recognised after a blank, others are; a name of a type followed by a tab or an end of line ends the list silently; text after settings of flags is left out silently; an argument after = is taken with the =, and a flag without name is reported. Proved: comments that end with the comment character are read to their end (with what the preprocessor writes for them, C118); settings are done in order; words are exactly those of the table; six entries of the table with capitals are never found."
  },
  {
   "property": "C120",
   "status": "partial",
   "theorems": [
    "Splint.C120_null_silent_exactly",
    "Splint.C120_null_result",
    "Splint.C120_relnull_ignored",
    "Splint.C120_null_after_relnull",
    "Splint.C120_def_silent_exactly",
    "Splint.C120_def_result",
    "Splint.C120_exposure_silent_exactly",
    "Splint.C120_exposure_result",
    "Splint.C120_alias_silent_exactly",
    "Splint.C120_alias_function",
    "Splint.C120_alias_after_error",
    "Splint.C120_alias_lost",
    "Splint.C120_alias_param_partial",
    "Splint.C120_full_is_false",
    "Splint.C120_contradictions_exactly",
    "Splint.C120_repeat",
    "Splint.C120_returned",
    "Splint.C120_returned_lost",
    "Splint.C120_sef_drops_returned",
    "Splint.C120_kind_full_is_false",
    "Splint.C120_kind_partial",
    "Splint.C120_checked",
    "Splint.C120_never_recorded",
    "Splint.C120_prototype",
    "Splint.C120_last_prototype",
    "Splint.C120_types_full_is_false",
    "Splint.C120_types_partial",
    "Splint.C120_param_name"
   ],
   "note": "False in full: in after out is not reported and not recorded; relnull after null is ignored, null after relnull is silent; the ownership of a parameter is forgotten if a later declaration says nothing about it; after a reported contradiction about ownership no other is reported; types are compared with the last prototype only; returned is not recorded if its message is suppressed, and is dropped by sef; exits, null predicates and formats in later declarations are reported each time but never recorded. Proved: exactly when sequences of declarations are silent, for each kind of annotation, and what is in effect afterwards; which contradictions are missed, exactly; numbers, types and names of parameters."
  },
  {
   "property": "C121",
   "status": "partial",
   "theorems": [
    "Splint.C121_globals",
    "Splint.C121_globals_lost",
    "Splint.C121_globals_full_is_false",
    "Splint.C121_out",
    "Splint.C121_undef_ignored",
    "Splint.C121_static_listed",
    "Splint.C121_internal",
    "Splint.C121_mods_element",
    "Splint.C121_mods_static",
    "Splint.C121_has_mods",
    "Splint.C121_mods_silent",
    "Splint.C121_mods_to_nothing",
    "Splint.C121_listed_but_reported",
    "Splint.C121_mods_full_is_false",
    "Splint.C121_mustmod_lost",
    "Splint.C121_pre",
    "Splint.C121_pre_full_is_false",
    "Splint.C121_xh",
    "Splint.C121_same_place"
   ],
   "note": "False in full: globals of later declarations are not in effect if their message is suppressed or the first declaration is in a library; out, undef and killed of later declarations never are; if the first declaration has no modifies clause and a later one has, the elements are reported and the function may modify nothing afterwards, so that modifications of what is listed are reported; with mustmod, a repeated clause marks all elements as modified, and unmodified ones are never reported; requires and ensures clauses are reported if they are the same as before or the first. Proved: exactly what is reported and listed for globals and internal state, what is reported for modifies clauses, the last requires clause counts, clauses of .xh files hold together."
  },
  {
   "property": "C122",
   "status": "partial",
   "theorems": [
    "Splint.C122_partial",
    "Splint.C122_unused",
    "Splint.C122_state",
    "Splint.C122_documented",
    "Splint.C122_globals_off",
    "Splint.C122_full_is_false",
    "Splint.C122_undef_unused",
    "Splint.C122_reported",
    "Splint.C122_internalNoGlobs",
    "Splint.C122_released",
    "Splint.C122_once"
   ],
   "note": "False in full: a call of a function with `globals undef g` is neither reported as an access of g nor counted as a use of it; uses of checkedstrict variables need the flag globals besides checkstrictglobs; internalglobsnoglobs has no effect without internalglobs. Proved: exactly what is reported of accesses, of unused elements and of the states of variables at calls, in order."
  },
  {
   "property": "C123",
   "status": "partial",
   "theorems": [
    "Splint.C123_exactly",
    "Splint.C123_no_facts",
    "Splint.C123_growth",
    "Splint.C123_growth_reached",
    "Splint.C123_full_is_false",
    "Splint.C123_strong",
    "Splint.C123_reflect_partial",
    "Splint.C123_doubled",
    "Splint.C123_add",
    "Splint.C123_add_lost",
    "Splint.C123_merge_full_is_false",
    "Splint.C123_merge_partial",
    "Splint.C123_same",
    "Splint.C123_strong_literal"
   ],
   "note": "False in full: weaker forms are kept as alternatives; a requirement is lost when a list has it, or something else, since only first alternatives are compared. Proved: exactly what is dropped and kept for all requirements and facts, soundness of the rule for alternatives, equivalence where no fact is an upper bound, and of merged lists of lower bounds without alternatives."
  },
  {
   "property": "C124",
   "status": "partial",
   "theorems": [
    "Splint.SRef.C124_exactly",
    "Splint.SRef.C124_permitted",
    "Splint.SRef.C124_plain_exactly",
    "Splint.SRef.C124_partial",
    "Splint.SRef.C124_full_is_false",
    "Splint.SRef.C124_unannotated",
    "Splint.SRef.C124_observer",
    "Splint.SRef.C124_internal",
    "Splint.SRef.C124_internal_strict",
    "Splint.SRef.C124_static",
    "Splint.SRef.C124_static_part",
    "Splint.SRef.C124_flag",
    "Splint.SRef.C124_marks",
    "Splint.SRef.C124_argument",
    "Splint.SRef.C124_address",
    "Splint.SRef.C124_unknown",
    "Splint.SRef.C124_address_of",
    "Splint.SRef.C124_merged",
    "Splint.SRef.C124_negative",
    "Splint.SRef.C124_mods_off"
   ],
   "note": "False in full: global variables without an annotation are never reported through a call, even where a modification by the function itself is. Proved: exactly which storage is reported for all clauses, arguments and aliases; what arguments make of the clause; flags, marks, observers, internal state and static variables."
  },
  {
   "property": "C125",
   "status": "partial",
   "theorems": [
    "Splint.UseCheck.C125_reported",
    "Splint.UseCheck.C125_known",
    "Splint.UseCheck.C125_inactive",
    "Splint.UseCheck.C125_which",
    "Splint.UseCheck.C125_verdict",
    "Splint.UseCheck.C125_full_is_false",
    "Splint.UseCheck.C125_alternatives",
    "Splint.UseCheck.C125_partial",
    "Splint.UseCheck.C125_after",
    "Splint.UseCheck.C125_repeat",
    "Splint.UseCheck.C125_address",
    "Splint.UseCheck.C125_pointer",
    "Splint.UseCheck.C125_union",
    "Splint.UseCheck.C125_element",
    "Splint.UseCheck.C125_other_element",
    "Splint.UseCheck.C125_field"
   ],
   "note": "False in full: storage with several alternatives (after a conditional expression) that were all released is reported as used before definition, under usedef. Proved: exactly which uses are reported, about which storage, with which flag and message; what is defined afterwards; the bound on repeated reports."
  },
  {
   "property": "C126",
   "status": "partial",
   "theorems": [
    "Splint.ReallyDefined.C126_exactly",
    "Splint.ReallyDefined.C126_reported",
    "Splint.ReallyDefined.C126_full_is_false",
    "Splint.ReallyDefined.C126_struct",
    "Splint.ReallyDefined.C126_out_struct",
    "Splint.ReallyDefined.C126_partial",
    "Splint.ReallyDefined.C126_no_more",
    "Splint.ReallyDefined.C126_unmentioned",
    "Splint.ReallyDefined.C126_fields",
    "Splint.ReallyDefined.C126_show",
    "Splint.ReallyDefined.C126_limit"
   ],
   "note": "False in full: an allocated structure counts as defined whatever its fields (the test in whatUndefined is inverted), so an out pointer to a structure that the function never touches is not reported. Proved: exactly what is reported, in terms of undefined parts within ten steps; nothing else is reported; the shown part; the role of unmentioned fields."
  },
  {
   "property": "C127",
   "status": "partial",
   "theorems": [
    "Splint.CompleteDef.C127_exactly",
    "Splint.CompleteDef.C127_result",
    "Splint.CompleteDef.C127_complete",
    "Splint.CompleteDef.C127_undefined",
    "Splint.CompleteDef.C127_full_is_false",
    "Splint.CompleteDef.C127_union_struct",
    "Splint.CompleteDef.C127_union_fails",
    "Splint.CompleteDef.C127_partial",
    "Splint.CompleteDef.C127_leave",
    "Splint.CompleteDef.C127_unknown_pointer"
   ],
   "note": "False in full: inUnion is never true, so a structure in a union with an undefined field is reported even if another field of the union is defined. Proved: exactly what is reported and exactly which storage passes, in terms of the parts that are looked at; complete storage is never reported; undefined parts outside unions always are; what happens to unions, unknown pointers and at the end of a block."
  },
  {
   "property": "C128",
   "status": "partial",
   "theorems": [
    "Splint.National.C128_czech_exactly",
    "Splint.National.C128_slovak_exactly",
    "Splint.National.C128_czechoslovak_exactly",
    "Splint.National.C128_types_exactly",
    "Splint.National.C128_full_is_false",
    "Splint.National.C128_short_type",
    "Splint.National.C128_slovaktypes_alone",
    "Splint.National.C128_access_exactly",
    "Splint.National.C128_accessczechoslovak_alone",
    "Splint.National.C128_constant_no_access",
    "Splint.National.C128_constprefix",
    "Splint.National.C128_czechoslovak_weak"
   ],
   "note": "False in full: an underscore as second or third character of a type is not reported, slovaktypes works only together with slovak, and accessczechoslovak alone gives no access. Proved: exactly which names are reported under each convention, exactly which types are reported, exactly which access is given, and the general negatives."
  },
  {
   "property": "C129",
   "status": "partial",
   "theorems": [
    "Splint.Unused.C129_entry_exactly",
    "Splint.Unused.C129_field_exactly",
    "Splint.Unused.C129_once",
    "Splint.Unused.C129_marks",
    "Splint.Unused.C129_used",
    "Splint.Unused.C129_full_is_false",
    "Splint.Unused.C129_unnamed",
    "Splint.Unused.C129_qualified",
    "Splint.Unused.C129_qualified_both",
    "Splint.Unused.C129_defined",
    "Splint.Unused.C129_suppressed",
    "Splint.Unused.C129_unused_type",
    "Splint.Unused.C129_sef_returned"
   ],
   "note": "False in full: an unused field is lost if the first structure that has it is unnamed (or its message is suppressed), and unused parameters declared sef or returned are reported as variables. Proved: exactly which entries and fields are reported, that nothing is reported twice, what is marked afterwards, and both negatives in general."
  },
  {
   "property": "C130",
   "status": "partial",
   "theorems": [
    "Splint.Redeclared.C130_redef_exactly",
    "Splint.Redeclared.C130_redecl_exactly",
    "Splint.Redeclared.C130_no_shadow",
    "Splint.Redeclared.C130_redef_all",
    "Splint.Redeclared.C130_shadow_exactly",
    "Splint.Redeclared.C130_full_is_false",
    "Splint.Redeclared.C130_extern_hides",
    "Splint.Redeclared.C130_prototype_after",
    "Splint.Redeclared.C130_sound_partial",
    "Splint.Redeclared.C130_complete_partial",
    "Splint.Redeclared.C130_one_per_declaration",
    "Splint.Redeclared.C130_static_hides"
   ],
   "note": "False in full: a mere prototype after a definition is reported as another definition, and a second definition is not reported if the first declaration was extern or the function is static. Proved: exactly which declarators are reported as defined again or as shadowing a static declaration in all programs, which are reported as redeclared in programs without static functions, that a declaration gives one redeclaration report at most (the last one), and the negatives in general; the exact rule of redeclarations with static functions is missing."
  },
  {
   "property": "C131",
   "status": "partial",
   "theorems": [
    "Splint.Declarator.C131_partial",
    "Splint.Declarator.C131_arrays",
    "Splint.Declarator.C131_function",
    "Splint.Declarator.C131_paren_exactly",
    "Splint.Declarator.C131_paren_lost",
    "Splint.Declarator.C131_function_pointer",
    "Splint.Declarator.C131_function_pointer_exactly",
    "Splint.Declarator.C131_name_in_parens",
    "Splint.Declarator.C131_pointer_to_array",
    "Splint.Declarator.C131_pointer_to_array_exactly",
    "Splint.Declarator.C131_array_in_parens",
    "Splint.Declarator.C131_array_lost",
    "Splint.Declarator.C131_function_returned",
    "Splint.Declarator.C131_function_returned_wrong",
    "Splint.Declarator.C131_internal_error",
    "Splint.Declarator.C131_parameter",
    "Splint.Declarator.C131_full_is_false"
   ],
   "note": "False in full: parentheses change the type. Proved: declarators without parentheses are always right; a declarator that ends with a parenthesis is right exactly if it holds just a name; pointers to functions and arrays of them are right exactly if the arrays have no sizes; pointers to arrays with sizes are always taken for arrays of pointers; functions that return pointers to functions are never right; pointers to functions that return pointers to arrays always give an internal error."
  },
  {
   "property": "C132",
   "status": "partial",
   "theorems": [
    "Splint.SortCheck.C132_sorts_exactly",
    "Splint.SortCheck.C132_sound_partial",
    "Splint.SortCheck.C132_undeclared_exactly",
    "Splint.SortCheck.C132_accepted_exactly",
    "Splint.SortCheck.C132_inner_ambiguity",
    "Splint.SortCheck.C132_left_side",
    "Splint.SortCheck.C132_right_side",
    "Splint.SortCheck.C132_given_ignored",
    "Splint.SortCheck.C132_literal_predicate",
    "Splint.SortCheck.C132_full_is_false"
   ],
   "note": "False in full: ambiguities below the outermost operator are never looked for, since assignSorts goes on to the arguments only if there are none. Proved: the sorts found are exactly those of the readings, and a term is accepted exactly if it has a reading, one sort and one outermost operator, for terms without sorts after colons at names and standard operators and where the branches of an if and the left side of a comparison have one sort; and the negatives in general: inner ambiguity, left sides with several sorts, sorts after colons that are not used, literals as predicates."
  },
  {
   "property": "C133",
   "status": "partial",
   "theorems": [
    "Splint.Bounds.Heur.C133_advance",
    "Splint.Bounds.Heur.C133_partial",
    "Splint.Bounds.Heur.C133_sound_partial",
    "Splint.Bounds.Heur.C133_guess",
    "Splint.Bounds.Heur.C133_counter",
    "Splint.Bounds.Heur.C133_string",
    "Splint.Bounds.Heur.C133_only",
    "Splint.Bounds.Heur.C133_increment",
    "Splint.Bounds.Heur.C133_nothing",
    "Splint.Bounds.Heur.C133_exactly",
    "Splint.Bounds.Heur.C133_off_by_one",
    "Splint.Bounds.Heur.C133_negative_start",
    "Splint.Bounds.Heur.C133_exact_lte",
    "Splint.Bounds.Heur.C133_step_two",
    "Splint.Bounds.Heur.C133_reversed",
    "Splint.Bounds.Heur.C133_full_is_false"
   ],
   "note": "False in full: the initial value of the counter and the difference of < and <= are ignored. Proved: the constraint that is added means the requirement in the state n iterations later; if it holds, all iterations up to n are safe, and these are all if the counter starts at 0 or above (for requirements with one moving variable and where simplification is exact, C26); nothing else is required; and the negatives in general: a buffer of exactly n elements is reported, starts below -1 are unsound, steps of two and n > i are not recognised; exact rule for the loop that fills a buffer."
  },
  {
   "property": "C134",
   "status": "partial",
   "theorems": [
    "Splint.TypeTable.C134_kept",
    "Splint.TypeTable.C134_pointer",
    "Splint.TypeTable.C134_array",
    "Splint.TypeTable.C134_fixed_base",
    "Splint.TypeTable.C134_unique",
    "Splint.TypeTable.C134_again_partial",
    "Splint.TypeTable.C134_fixed",
    "Splint.TypeTable.C134_full_is_false"
   ],
   "note": "False in full: arrays with a size are a new type each time, and ctype_compare tells them apart (for all states and sizes). Proved: what a number stands for never changes; every type has a pointer and an array type with the right base; at most one of each; pointer types, array types and type names made again at any later time are the same number and leave the table as it is."
  },
  {
   "property": "C135",
   "status": "partial",
   "theorems": [
    "Splint.TypeTable.C135_alts_partial",
    "Splint.TypeTable.C135_unknown",
    "Splint.TypeTable.C135_anytype",
    "Splint.TypeTable.C135_explicit",
    "Splint.TypeTable.C135_again",
    "Splint.TypeTable.C135_forgotten",
    "Splint.TypeTable.C135_full_is_false"
   ],
   "note": "False in full: combining with a type that is not known gives the type that is not known (for all states). Proved: the alternatives of two known types are exactly those of both, in every reachable state of the variables for the common combinations; alternatives in annotations; there is no type for anytype, it is always the unknown type; combined again at once they are the same type, after 16 further types they are not."
  },
  {
   "property": "C136",
   "status": "partial",
   "theorems": [
    "Splint.Intern.C136_partial",
    "Splint.Intern.C136_later",
    "Splint.Intern.C136_exactly",
    "Splint.Intern.C136_short",
    "Splint.Intern.C136_overrun",
    "Splint.Intern.C136_full_is_false"
   ],
   "note": "False in full: a long name is written past the end of the memory for names, which is doubled only once. Proved: the table refines a list of names without repetitions (chains by hash values included), so all symbols that are returned are right and stay so; exactly which names overrun the memory; none of less than 8192 characters does."
  },
  {
   "property": "C137",
   "status": "partial",
   "theorems": [
    "Splint.Intern.C137_insert",
    "Splint.Intern.C137_lsl_exactly",
    "Splint.Intern.C137_lcl_exactly",
    "Splint.Intern.C137_partial",
    "Splint.Intern.C137_outside",
    "Splint.Intern.C137_full_is_false"
   ],
   "note": "False in full for both tables: they are enlarged for the symbol of the old token, and then written at that of the new one. Proved: exactly which pairs of symbols are written outside (in general: every new name outside the table for a token inside it); in all other cases the synonym leads to the token and nothing else changes; tokens are entered correctly for all symbols."
  },
  {
   "property": "C138",
   "status": "partial",
   "theorems": [
    "Splint.MetaState.C138_transfer",
    "Splint.MetaState.C138_assign_local",
    "Splint.MetaState.C138_no_table",
    "Splint.MetaState.C138_left",
    "Splint.MetaState.C138_leave_bug",
    "Splint.MetaState.C138_lost",
    "Splint.MetaState.C138_runs",
    "Splint.MetaState.C138_unknown",
    "Splint.MetaState.C138_once",
    "Splint.MetaState.C138_wrong_transfer_repeats",
    "Splint.MetaState.C138_partial",
    "Splint.MetaState.C138_full_is_false"
   ],
   "note": "False in full: a wrong transfer does not change the state, so it is reported each time. Proved for all declarations and tables: what transfers, scope exits and lost references do, key by key, and that no memory outside the tables is used; sequences of such operations follow the declared transfers; an unknown state is never reported; at scope exits the report comes once; when an error at a scope exit of a transfer for leaving is an internal bug."
  },
  {
   "property": "C139",
   "status": "partial",
   "theorems": [
    "Splint.MetaState.C139_merge",
    "Splint.MetaState.C139_merge_nothing",
    "Splint.MetaState.C139_merge_bug",
    "Splint.MetaState.C139_order_partial",
    "Splint.MetaState.C139_order_full_is_false",
    "Splint.MetaState.C139_place_full_is_false",
    "Splint.MetaState.C139_ensures",
    "Splint.MetaState.C139_ensures_nothing",
    "Splint.MetaState.C139_ensures_unknown",
    "Splint.MetaState.C139_ensures_bug",
    "Splint.MetaState.C139_dots_bug",
    "Splint.MetaState.C139_partial",
    "Splint.MetaState.C139_full_is_false"
   ],
   "note": "False in full, twice: the first operand of an ensures clause gets the merged state as well, and a conflict of branches is reported at the place of an earlier state. Proved: exactly what branches and ensures clauses do to each reference and key, and which reports there are; when they end in an internal bug (names in one branch only, unknown further operands, operands after '...' with a conflict); the order of the branches does not matter for symmetric merges without null pointers, and does matter with them."
  },
  {
   "property": "C140",
   "status": "partial",
   "theorems": [
    "Splint.ArgPass.C140_reports",
    "Splint.ArgPass.C140_bug_exactly",
    "Splint.ArgPass.C140_void",
    "Splint.ArgPass.C140_partial",
    "Splint.ArgPass.C140_full_is_false"
   ],
   "note": "False in full: a call without arguments of a function whose exit depends on its argument is an internal bug (exactly these calls are). Proved: the reports for the number and for the types of arguments, exactly, for all calls."
  },
  {
   "property": "C141",
   "status": "partial",
   "theorems": [
    "Splint.ArgPass.C141_function",
    "Splint.ArgPass.C141_checked_exactly",
    "Splint.ArgPass.C141_format_unchecked",
    "Splint.ArgPass.C141_pointer",
    "Splint.ArgPass.C141_computed",
    "Splint.ArgPass.C141_unknown",
    "Splint.ArgPass.C141_missing",
    "Splint.ArgPass.C141_partial",
    "Splint.ArgPass.C141_full_is_false",
    "Splint.ArgPass.C141_full_is_false_format"
   ],
   "note": "False in full: the format of a printf-like, scanf-like or message-like function is never checked, arguments without a conversion are not either, and calls through variables check and set nothing. Proved: for each kind of call exactly which arguments are checked against what, and exactly what the call sets; all of them for functions that are not special."
  },
  {
   "property": "C142",
   "status": "partial",
   "theorems": [
    "Splint.TempFiles.C142_end",
    "Splint.TempFiles.C142_user_files",
    "Splint.TempFiles.C142_foreign_exactly",
    "Splint.TempFiles.C142_taken",
    "Splint.TempFiles.C142_foreign_partial",
    "Splint.TempFiles.C142_left_partial",
    "Splint.TempFiles.C142_lsl_left",
    "Splint.TempFiles.C142_full_is_false",
    "Splint.TempFiles.C142_full_is_false_lsl"
   ],
   "note": "False in full: if the temporary file has been made by someone else, Splint ends and removes it; the file that holds a trait is never removed. Proved by an invariant over all runs: ending is never an internal bug and removes exactly the files of removable entries; files entered by name are never removed; exactly when foreign files are removed, never if other processes keep away from the names; which of its files are left."
  },
  {
   "property": "C143",
   "status": "partial",
   "theorems": [
    "Splint.TempFiles.C143_name",
    "Splint.TempFiles.C143_overrun_exactly",
    "Splint.TempFiles.C143_partial",
    "Splint.TempFiles.C143_count",
    "Splint.TempFiles.C143_lsl",
    "Splint.TempFiles.C143_lsl_present",
    "Splint.TempFiles.C143_full_is_false"
   ],
   "note": "False in full: after 26^3 words the terminator of the array is overwritten and the array is read beyond its end. Proved: which name is made, and when none can be, exactly; all names of a run are different and those of no file. The names for the trait checker are replaced by untested ones if they have unusual characters."
  },
  {
   "property": "C144",
   "status": "partial",
   "theorems": [
    "Splint.OpenFiles.C144_table_partial",
    "Splint.OpenFiles.C144_closeAll",
    "Splint.OpenFiles.C144_map_exactly",
    "Splint.OpenFiles.C144_full_is_false"
   ],
   "note": "False in full: read_name_map reports an internal bug exactly if closing its file succeeds. Proved: the table of open files is exact for all sequences of operations, within its bounds."
  },
  {
   "property": "C145",
   "status": "partial",
   "theorems": [
    "Splint.StateHist.C145_ends",
    "Splint.StateHist.C145_shown_partial",
    "Splint.StateHist.C145_last",
    "Splint.StateHist.C145_all_exactly",
    "Splint.StateHist.C145_replaced",
    "Splint.StateHist.C145_full_is_false"
   ],
   "note": "False in full: if a change is located before the one recorded before it (as in a loop), one change is not shown, and the last one is lost from the history. Proved by refinement of the in-place sort on memory to lists, for all histories: it ends and keeps to the cells of the history; what is shown is a part of the recorded changes in the order of recording, never reordered, starting with the last; everything is shown exactly if the changes were recorded in order."
  },
  {
   "property": "C146",
   "status": "partial",
   "theorems": [
    "Splint.StateHist.C146_record",
    "Splint.StateHist.C146_recordRef",
    "Splint.StateHist.C146_update_exactly",
    "Splint.StateHist.C146_full_is_false"
   ],
   "note": "False in full: the last change of the new history is put in front of the old history, the rest of the new one is dropped. Proved: exactly when the result is the new history; that recording puts the change in front, at most once."
  },
  {
   "property": "C147",
   "status": "partial",
   "theorems": [
    "Splint.InputStream.C147_exactly",
    "Splint.InputStream.C147_added_partial",
    "Splint.InputStream.C147_position",
    "Splint.InputStream.C147_reported",
    "Splint.InputStream.C147_full_is_false"
   ],
   "note": "False in full: a line of 799 characters or more is broken, a line that begins with byte 0 reads before the buffer, byte 255 ends the input. Proved for all contents: exactly when the text is read as it is; otherwise (without bytes 0 and 255) only newlines are added; positions; exactly which lines are reported as too long."
  },
  {
   "property": "C148",
   "status": "partial",
   "theorems": [
    "Splint.InputStream.C148_exactly",
    "Splint.InputStream.C148_overrun",
    "Splint.InputStream.C148_reported",
    "Splint.InputStream.C148_full_is_false"
   ],
   "note": "False in full: the memory behind a string that does not end in a newline is read. Proved: exactly when a string is read as it is and nothing more; when the memory behind it is read; long lines are never reported, though they are broken."
  },
  {
   "property": "C149",
   "status": "partial",
   "theorems": [
    "Splint.MtScan.C149_exactly",
    "Splint.MtScan.C149_joined",
    "Splint.MtScan.C149_slash",
    "Splint.MtScan.C149_full_is_false"
   ],
   "note": "False in full: `()` is one bad token. Proved for all sequences of tokens: they are found exactly if every mark is followed by a blank, a word or the end; a mark followed by another, a comment or a string is a bad token; a slash at the end of a line is an internal bug."
  },
  {
   "property": "C150",
   "status": "partial",
   "theorems": [
    "Splint.SameAlt.C150_defined",
    "Splint.SameAlt.C150_sound_partial",
    "Splint.SameAlt.C150_two_partial",
    "Splint.SameAlt.C150_declared_exactly",
    "Splint.SameAlt.C150_symmetric_partial",
    "Splint.SameAlt.C150_not_symmetric",
    "Splint.SameAlt.C150_full_is_false"
   ],
   "note": "False in full: `int /*@alt char, float@*/` and `char /*@alt int, float@*/` are reported as different. Proved for all types: never fails an assertion; types taken for the same have the same alternatives, each as often; types with two sides are the same when these are exchanged; declared types are the same exactly if the alternatives come in the same order but perhaps for the last two, so the relation is symmetric there; on other types it is not."
  },
  {
   "property": "C151",
   "status": "partial",
   "theorems": [
    "Splint.StateClause.C151_exactly",
    "Splint.StateClause.C151_partial",
    "Splint.StateClause.C151_hidden",
    "Splint.StateClause.C151_spurious",
    "Splint.StateClause.C151_full_is_false"
   ],
   "note": "False in full: the clauses are tested and applied one after the other, so with `sets *p` before `uses *p` undefined storage is not reported, and with `releases *p` before `uses *p` every argument that is not shared is. Proved for all clauses and states: exactly what is reported; it is as it should be for storage that no earlier clause but `uses` is about; both wrong cases in general."
  },
  {
   "property": "C152",
   "status": "partial",
   "theorems": [
    "Splint.StateClause.C152_params",
    "Splint.StateClause.C152_result_exactly",
    "Splint.StateClause.C152_null",
    "Splint.StateClause.C152_result_partial",
    "Splint.StateClause.C152_full_is_false"
   ],
   "note": "Proved for all clauses and states for parameters. False for the returned expression: one that is definitely null is never reported, even for `ensures notnull result`, and after `ensures only result` it counts as released for later clauses. Proved: exactly what is reported, and that it is as it should be otherwise."
  },
  {
   "property": "C153",
   "status": "partial",
   "theorems": [
    "Splint.StateClause.C153_entry_partial",
    "Splint.StateClause.C153_ensures_partial",
    "Splint.StateClause.C153_effects_partial",
    "Splint.StateClause.C153_full_is_false"
   ],
   "note": "False in full: released storage that is shared is not dead after the call, and of several clauses about the same storage only the last one holds. Proved for all clauses and states otherwise: at the entry, after a call for `ensures`, and after a call for the other clauses. For the result only the first part of C154 is proved."
  },
  {
   "property": "C154",
   "status": "partial",
   "theorems": [
    "Splint.StateClause.C154_enter_exactly",
    "Splint.StateClause.C154_leave_exactly",
    "Splint.StateClause.C154_giveBack_exactly",
    "Splint.StateClause.C154_call_exactly",
    "Splint.StateClause.C154_user",
    "Splint.StateClause.C154_full_is_false"
   ],
   "note": "False in full: `requires temp *p` is an internal bug. Proved: exactly which clauses are internal bugs at the entry, at a return and at a call; in particular, user-defined states required of arguments or ensured for the result are at every call."
  },
  {
   "property": "C155",
   "status": "partial",
   "theorems": [
    "Splint.MergeEnsures.C155_origin",
    "Splint.MergeEnsures.C155_unchanged",
    "Splint.MergeEnsures.C155_same_time_partial",
    "Splint.MergeEnsures.C155_assign_partial",
    "Splint.MergeEnsures.C155_update_partial",
    "Splint.MergeEnsures.C155_stale",
    "Splint.MergeEnsures.C155_stale_wrong",
    "Splint.MergeEnsures.C155_full_is_false"
   ],
   "note": "False in full: after `y = x; x = n;` the fact `y == n` is taken as known, for all variables and numbers, which is wrong unless x was n. Proved for all lists: where each fact comes from; facts that hold at the same time give only facts that hold; after an assignment all known facts hold if no earlier one contains the variable, or one gives its value and the others do not contain it. Missing: other facts that contain the variable, and constraints that cannot be rearranged (C26)."
  },
  {
   "property": "C156",
   "status": "partial",
   "theorems": [
    "Splint.CastProps.C156_sound",
    "Splint.CastProps.C156_partial",
    "Splint.CastProps.C156_hidden_from",
    "Splint.CastProps.C156_hidden_to",
    "Splint.CastProps.C156_name_access",
    "Splint.CastProps.C156_full_is_false"
   ],
   "note": "False in full: what is behind a name for a pointer is not seen, for all such names, in casts from and to them; and access to a name of the abstract type is taken for access to the type if there are pointers. Proved: no other cast is reported; all are, if no name stands for a pointer to the abstract type and the context has access to no name for it. Missing: those names."
  },
  {
   "property": "C157",
   "status": "partial",
   "theorems": [
    "Splint.CastProps.C157_from_exactly",
    "Splint.CastProps.C157_to_exactly",
    "Splint.CastProps.C157_reversed",
    "Splint.CastProps.C157_some_partial",
    "Splint.CastProps.C157_named",
    "Splint.CastProps.C157_full_is_false"
   ],
   "note": "False in full: the two messages are exchanged, for all casts; and a cast to a pointer to a named type of functions is reported even from that type itself. Proved: when exactly each message is given; one of the two is given just for casts between the two kinds of pointers, if the target is no pointer to a named type of functions. Missing: those, and the right message."
  },
  {
   "property": "C158",
   "status": "partial",
   "theorems": [
    "Splint.CastProps.C158_void",
    "Splint.CastProps.C158_zero",
    "Splint.CastProps.C158_expose_exactly",
    "Splint.CastProps.C158_expose_partial",
    "Splint.CastProps.C158_named",
    "Splint.CastProps.C158_full_is_false",
    "Splint.CastProps.C158_clears",
    "Splint.CastProps.C158_same"
   ],
   "note": "False in full: a cast to a name for an abstract type is never reported to expose it. Proved: casts to void, casts of zero, when exactly exposure is reported, that it is for the abstract type itself, and that a cast of a pointer to the type it has is reported twice. Missing: names."
  },
  {
   "property": "C159",
   "status": "partial",
   "theorems": [
    "Splint.MacroCheckProps.C159_partial",
    "Splint.MacroCheckProps.C159_other",
    "Splint.MacroCheckProps.C159_full_is_false",
    "Splint.MacroCheckProps.C159_empty"
   ],
   "note": "False in full: any other character than white space, a parenthesis or a backslash after the name is taken to belong to it, for all such texts. Proved: the name, parameters and emptiness are right otherwise. Missing: those characters."
  },
  {
   "property": "C160",
   "status": "partial",
   "theorems": [
    "Splint.MacroCheckProps.C160_once_exactly",
    "Splint.MacroCheckProps.C160_left_over",
    "Splint.MacroCheckProps.C160_full_is_false",
    "Splint.MacroCheckProps.C160_iter",
    "Splint.MacroCheckProps.C160_const"
   ],
   "note": "False in full: if both notfunction and notparseable are given, notfunction is left over and the next definition is not checked either. Proved: what is left exactly; two definitions after iter, one after constant."
  },
  {
   "property": "C161",
   "status": "partial",
   "theorems": [
    "Splint.MacroCheckProps.C161_exactly",
    "Splint.MacroCheckProps.C161_known",
    "Splint.MacroCheckProps.C161_same_partial",
    "Splint.MacroCheckProps.C161_again",
    "Splint.MacroCheckProps.C161_full_is_false"
   ],
   "note": "The decision is characterised exactly, and the name is known afterwards. False in full: a macro with the name of something only declared is expanded the first time and checked the second. Proved: otherwise the decision is the same when the definition is read again. Missing: names of things not defined in the code."
  },
  {
   "property": "C162",
   "status": "partial",
   "theorems": [
    "Splint.LitMatchProps.C162_unsigned_partial",
    "Splint.LitMatchProps.C162_exactly",
    "Splint.LitMatchProps.C162_named",
    "Splint.LitMatchProps.C162_size",
    "Splint.LitMatchProps.C162_full_is_false",
    "Splint.LitMatchProps.C162_zero",
    "Splint.LitMatchProps.C162_bool"
   ],
   "note": "False in full: all negative literals are accepted for names of unsigned types, and all numbers for signed types of any size (proved for all of them). Proved: what is accepted exactly; no negative number or character for an unsigned type without a name; zero for all; nothing for booleans. Missing: names for unsigned types, and sizes."
  },
  {
   "property": "C163",
   "status": "partial",
   "theorems": [
    "Splint.LitMatchProps.C163_partial",
    "Splint.LitMatchProps.C163_names",
    "Splint.LitMatchProps.C163_full_is_false"
   ],
   "note": "False in full: no literal is accepted for a name of a floating type, and no character for any name, while they are for the types. Proved for integer literals and signed integer or boolean types. Missing: the other types."
  },
  {
   "property": "C164",
   "status": "partial",
   "theorems": [
    "Splint.GlobReturnProps.C164_each",
    "Splint.GlobReturnProps.C164_kept_exactly",
    "Splint.GlobReturnProps.C164_which",
    "Splint.GlobReturnProps.C164_killed_exactly",
    "Splint.GlobReturnProps.C164_null_ignored",
    "Splint.GlobReturnProps.C164_full_is_false",
    "Splint.GlobReturnProps.C164_off"
   ],
   "note": "False in full: a killed global that is certainly null is reported as not released. Proved for all lists of globals without repetition: each global is checked once and by itself, exactly what is reported for those that are not killed and those that are, that null plays no part for killed ones, and that nothing is done without the flag. Missing: null killed globals."
  },
  {
   "property": "C165",
   "status": "partial",
   "theorems": [
    "Splint.GlobQualProps.C165_once_partial",
    "Splint.GlobQualProps.C165_sound",
    "Splint.GlobQualProps.C165_exactly",
    "Splint.GlobQualProps.C165_lost",
    "Splint.GlobQualProps.C165_reports",
    "Splint.GlobQualProps.C165_order",
    "Splint.GlobQualProps.C165_full_is_false",
    "Splint.GlobQualProps.C165_asked"
   ],
   "note": "False in full: a qualifier out, in or partial that is written first cancels all others without a report, and so does the third of undef killed undef. Proved for all lists: what holds is written, the exact state, the exact reports; and the full statement if only undef and killed are written, at most once each. Missing: the other qualifiers and repeated ones."
  },
  {
   "property": "C166",
   "status": "partial",
   "theorems": [
    "Splint.AllDefinedProps.C166_once_partial",
    "Splint.AllDefinedProps.C166_declared_exactly",
    "Splint.AllDefinedProps.C166_undeclared_exactly",
    "Splint.AllDefinedProps.C166_absent_exactly",
    "Splint.AllDefinedProps.C166_words",
    "Splint.AllDefinedProps.C166_twice_exactly",
    "Splint.AllDefinedProps.C166_elsewhere",
    "Splint.AllDefinedProps.C166_full_is_false"
   ],
   "note": "False in full: with the flag specundecl, each absent entry is reported twice, and entries specified in libraries or imports are reported as not declared. Proved for all tables: exactly which entries are reported by which message, when there are two messages, and the full statement without that flag. Missing: that flag."
  },
  {
   "property": "C167",
   "status": "proved",
   "theorems": [
    "Splint.MappingProps.C167_function",
    "Splint.MappingProps.C167_translate",
    "Splint.MappingProps.C167_undefined"
   ],
   "note": "Induction over the bindings; the mapping is a function that is changed at one point at a time."
  },
  {
   "property": "C168",
   "status": "partial",
   "theorems": [
    "Splint.InfixTermProps.C168_reported_partial",
    "Splint.InfixTermProps.C168_term",
    "Splint.InfixTermProps.C168_exactly",
    "Splint.InfixTermProps.C168_first",
    "Splint.InfixTermProps.C168_same",
    "Splint.InfixTermProps.C168_full_is_false"
   ],
   "note": "False in full: each operator is compared with the first one of the term and not with the one before it. Proved for all sequences: the term is what was read, from the left; the exact reports; and that there is a report just if two operators that follow each other differ. Missing: that the report names these."
  },
  {
   "property": "C169",
   "status": "partial",
   "theorems": [
    "Splint.TermListProps.C169_current_partial",
    "Splint.TermListProps.C169_content",
    "Splint.TermListProps.C169_position",
    "Splint.TermListProps.C169_full_is_false"
   ],
   "note": "False in full: after finish for an empty list the position is -1, which the assertion of termNodeList_current lets through, and a cell that was never written is read. Proved for all sequences of calls: content, position, when the assertion fails, and that all writes and all other reads are inside of the array. Missing: reading the current element after finish for an empty list."
  },
  {
   "property": "C170",
   "status": "partial",
   "theorems": [
    "Splint.PassThroughProps.C170_no_quotes_partial",
    "Splint.PassThroughProps.C170_string_partial",
    "Splint.PassThroughProps.C170_unclosed",
    "Splint.PassThroughProps.C170_undefine",
    "Splint.PassThroughProps.C170_prefix",
    "Splint.PassThroughProps.C170_single",
    "Splint.PassThroughProps.C170_full_is_false"
   ],
   "note": "False in full: for -DX=L\"a\" single quotes are added that are left in the definition, for -DX='a' the single quotes are lost, and for -DX=' what is behind the end of the text is read. Proved for all texts: when an unclosed quote is reported; the definition is as written without quotes, and with one string as the value; what becomes of a string with something before it and of single quotes. Missing: values of more than one string."
  }
 ]
}
