{"id": "C01", "title": "Source positions are totally ordered and the 'not after' test agrees with the order", "statement": "Comparing two source positions orders them by file, then line, then column, with the undefined position first; the comparison is a total preorder, it answers 0 exactly for positions with the same file, line and column, and the strict and 'not after' tests used to decide whether a control comment precedes a warning agree with it within one file.", "quantifier": "all pairs and triples of source positions (any file id, line and column, defined or undefined, library or not)", "why_tests_cant": "order laws range over all triples of unbounded integers; a test can only sample triples", "anchors": ["src/fileloc.c: fileloc_compare, fileloc_equal, fileloc_lessthan, fileloc_notAfter, fileloc_sameFile, fileloc_almostSameFile, fileloc_withinLines"]}
{"id": "C02", "title": "A warning is never reported twice and two different warnings are never confused", "statement": "For any sequence of warnings, a warning is reported as new exactly when no earlier warning of the run had the same text at the same source position; the log stays sorted by position and text.", "quantifier": "all finite sequences of (position, text) pairs logged from the empty log", "why_tests_cant": "the log is a sorted array searched from one insertion index: a missed or false duplicate depends on the whole history of previously logged messages", "anchors": ["src/messageLog.c: messageLog_add, messageLog_getIndex, messageLogEl_messageLess, messageLogEl_messageEqual"]}
{"id": "C03", "title": "Warnings inside an ignore region are not reported, warnings outside every region are", "statement": "After any sequence of ignore-region, line-count and local-flag comments accepted by the tool, a warning is suppressed by a region exactly when the closest region marker that is not after the warning opens a region that has not been closed.", "quantifier": "all histories of control comments in any files, all warning positions and flags", "why_tests_cant": "depends on the relative order of an unbounded list of markers and the warning position", "anchors": ["src/flagMarkerList.c: flagMarkerList_add, flagMarkerList_suppressError, flagMarkerList_inIgnore, flagMarkerList_lastBeforeMarker", "src/flagMarker.c: flagMarker_beforeMarker, flagMarker_suppresses", "src/context.c: context_inSuppressZone, context_inSuppressFlagZone"]}
{"id": "C04", "title": "A local flag comment governs exactly the text after it until the next comment for that flag", "statement": "For a warning controlled by a flag, the setting used is the one of the last local comment for this flag at or before the warning in the same file, and the command-line setting if there is none.", "quantifier": "all marker lists built by the tool, all flags, all positions", "why_tests_cant": "quantifies over all interleavings of local flag comments", "anchors": ["src/flagMarkerList.c: flagMarkerList_suppressError", "src/context.c: context_inSuppressFlagZone, context_suppressFlagMsg, context_suppressSpecFlag"]}
{"id": "C05", "title": "Counted suppressions report exactly the regions whose count is wrong", "statement": "At the end of a run a complaint is issued for a counted ignore comment exactly when it expected a positive number n of suppressed warnings and the number of warnings it actually suppressed differs from n, whatever the order of warnings.", "quantifier": "all marker lists and all sequences of warnings tested against them", "why_tests_cant": "the counters are mutated by every suppressed warning in the run; the claim is about all histories", "anchors": ["src/flagMarkerList.c: flagMarkerList_checkSuppressCounts, flagMarkerList_suppressError", "src/flagMarker.c: flagMarker_incSuppressed, flagMarker_getSuppressed"]}
{"id": "C06", "title": "The message limit loses no warning from the accounting", "statement": "For every sequence of warnings and every limit, the warnings shown plus those announced as 'more similar errors unprinted' equal the warnings generated; of each consecutive same-text group the first limit+1 messages are printed, then either the single remaining one or the number remaining; and the total used for the exit status counts all of them.", "quantifier": "all sequences of warnings (kind, text) interleaved with end-of-file flushes, all limits", "why_tests_cant": "stateful counter across an arbitrary history", "anchors": ["src/llerror.c: llgenerrorreal, limitmessage, cleanupMessages", "src/context.c: context_hasError, context_unlimitedMessages, context_getLimit"]}
{"id": "C07", "title": "Line wrapping loses no text and terminates", "statement": "Splitting a message for any line length outputs pieces whose concatenation is the original text up to the removed blanks and newlines at the split points, each call makes progress, and no piece exceeds the line length.", "quantifier": "all strings without indentation codes, all line lengths", "why_tests_cant": "unbounded strings; boundary arithmetic on pointers", "anchors": ["src/llerror.c: mstring_split, printMessage, printIndentMessage, printError"]}
{"id": "C08", "title": "The value of a #if expression is its C value", "statement": "For every integer constant expression built from literals, parentheses and the C unary, binary and conditional operators, the tool's preprocessor computes the value (and signedness) C prescribes, whatever parentheses are omitted in accordance with the C grammar.", "quantifier": "all expressions of any depth, all literal values", "why_tests_cant": "operator-precedence parser with an explicit stack; all expression trees", "anchors": ["src/cppexp.c: cppReader_parseExpression, cppexp_lex, LOGICAL, left_shift, right_shift"]}
{"id": "C09", "title": "The #if evaluator never leaves its operand stack", "statement": "For every token sequence the evaluator ends with a value or a reported error and never reads or writes outside the operand stack or reads an operand that was never written.", "quantifier": "all finite token sequences", "why_tests_cant": "memory safety over all inputs, including malformed ones", "anchors": ["src/cppexp.c: cppReader_parseExpression"]}
{"id": "C10", "title": "Conditional compilation keeps exactly the selected groups", "statement": "For every properly nested sequence of #if/#ifdef/#ifndef/#elif/#else/#endif groups, the text lines passed on are exactly those of the first group whose condition is true (or the #else group if none is), conditions of skipped groups are never evaluated, and macro definitions in skipped groups have no effect.", "quantifier": "all nested conditional structures, all line contents, all initial macro sets", "why_tests_cant": "unbounded nesting; skipping and processing use different code paths that must agree", "anchors": ["src/cpplib.c: do_if, do_xifdef, do_elif, do_else, do_endif, conditional_skip, skip_if_group"]}
{"id": "C11", "title": "A macro name means its most recent live definition", "statement": "For every sequence of #define, #undef and temporary definitions, looking a name up yields the definition most recently installed and not removed, for that name only.", "quantifier": "all histories of install and delete operations, all names, any hash collisions", "why_tests_cant": "hash chains are doubly linked lists mutated in place; correctness under collisions depends on history", "anchors": ["src/cpphash.c: cpphash_install, cpphash_lookup, cppReader_deleteMacro, cpphash_hashCode"]}
{"id": "C12", "title": "Command-line macros are the same for every file", "statement": "Restoring the saved macro table before each file gives every command-line macro the same definition (parameters, replacement pattern and expansion flags) it had when it was defined.", "quantifier": "all macro tables and all definitions with any number of parameter uses", "why_tests_cant": "structural copy of linked structures of any length", "anchors": ["src/cpphash.c: cppReader_saveHashtab, cppReader_restoreHashtab, hashNode_copy"]}
{"id": "C13", "title": "Keyed tables return the last value stored", "statement": "For every history of insert, update, rename and remove, looking a key up returns the value last associated with it, or 'not found' if there is none, across any number of rehashes.", "quantifier": "all operation histories, all keys, any hash function values", "why_tests_cant": "rehashing and bucket collisions depend on history and sizes", "anchors": ["src/cstringTable.c: cstringTable_insert, cstringTable_lookup, cstringTable_update, cstringTable_replaceKey, cstringTable_remove, cstringTable_rehash, cstringTable_addEntry", "src/genericTable.c: genericTable_insert, genericTable_lookup, genericTable_update, genericTable_remove"]}
{"id": "C14", "title": "Table hashing only reads inside the random-number table", "statement": "Hashing a key reads the random table within its 256 entries and yields a bucket inside the table, for every key string.", "quantifier": "all strings, including characters with the sign bit set", "why_tests_cant": "all byte strings", "anchors": ["src/cstringTable.c: cstringTable_hashValue", "src/genericTable.c: genericTable_hashValue", "src/randomNumbers.c: g_randomNumbers"]}
{"id": "C15", "title": "Library files read back what was written: numbers and constants", "statement": "Reading back a dumped integer, constant value or nullability code yields the value that was dumped and consumes exactly its text.", "quantifier": "all integers and all constant values, any text following", "why_tests_cant": "infinite value domain", "anchors": ["src/reader.c: reader_getInt, reader_loadChar, reader_checkChar", "src/multiVal.c: multiVal_dump, multiVal_undump", "src/ynm.c: ynm_unparseCode, ynm_fromCodeChar"]}
{"id": "C16", "title": "Library files read back what was written: access sets and bounds constraints", "statement": "Reading back a dumped set of type identifiers, or a dumped bounds expression, yields the value that was dumped and consumes exactly its text.", "quantifier": "all sets and all expression trees", "why_tests_cant": "recursive format; unbounded trees", "anchors": ["src/usymIdSet.c: usymIdSet_dump, usymIdSet_undump", "src/constraintExpr.c: constraintExpr_dump, constraintExpr_undump", "src/constraintTerm.c: constraintTerm_dump, constraintTerm_undump", "src/constraint.c: constraint_dump, constraint_undump"]}
{"id": "C17", "title": "Constant folding is exact or gives up", "statement": "Adding, subtracting, multiplying or dividing two known constants gives the mathematically correct value of the matching kind or 'unknown'; dividing by zero gives 'unknown'.", "quantifier": "all pairs of constant values", "why_tests_cant": "infinite domain; partiality", "anchors": ["src/multiVal.c: multiVal_add, multiVal_subtract, multiVal_multiply, multiVal_divide, multiVal_invert"]}
{"id": "C18", "title": "Orderings used for sorting and deduplication are consistent", "statement": "The comparison functions of nullability values and constants, used to sort and deduplicate declarations, are consistent: comparing in the opposite order gives the opposite answer.", "quantifier": "all pairs of values", "why_tests_cant": "law over all pairs; violated only by particular mixed pairs", "anchors": ["src/ynm.c: ynm_compare", "src/multiVal.c: multiVal_compare", "src/usymIdSet.c: usymIdSet_compare"]}
{"id": "C19", "title": "Integer sets behave as sets", "statement": "After any sequence of insertions into an integer set, an integer is reported as a member exactly when it was inserted, and the size is the number of distinct insertions.", "quantifier": "all sequences of insertions and all query integers", "why_tests_cant": "depends on order of elements", "anchors": ["src/intSet.c: intSet_insert, intSet_member, intSet_size"]}
{"id": "C20", "title": "Access sets are canonical", "statement": "A type-access set obtained through any sequence of insert, union, subtract and remove operations has exactly the expected members, and two sets with the same members always receive the same identifier.", "quantifier": "all operation histories on the interning table", "why_tests_cant": "interning depends on the global history of all sets ever created", "anchors": ["src/typeIdSet.c: typeIdSet_insert, typeIdSet_union, typeIdSet_subtract, typeIdSet_removeFresh, typeIdSet_member, typeIdSet_addEntry", "src/usymIdSet.c: usymIdSet_add, usymIdSet_newUnion, usymIdSet_subtract, usymIdSet_removeFresh, usymIdSet_member, usymIdSet_compare"]}
{"id": "C21", "title": "Null guards are sound for every compound condition", "statement": "For every condition built from null tests with !, && and ||, a reference the tool treats as guarded in the true (false) branch is non-null in every execution in which the condition evaluates to true (false).", "quantifier": "all condition trees and all valuations of the references", "why_tests_cant": "all condition trees of any depth and all program states", "anchors": ["src/guardSet.c: guardSet_or, guardSet_and, guardSet_flip, guardSet_invert, guardSet_addTrueGuard, guardSet_addFalseGuard, guardSet_isGuarded", "src/exprNode.c: exprNode_combineGuards use in exprNode_op, exprNode_preOp"]}
{"id": "C22", "title": "Merging branches never turns a possibly-null reference into a non-null one", "statement": "When the null states of a reference at the end of two branches are merged, the result is reported as possibly null whenever either branch allows null.", "quantifier": "all pairs of null states", "why_tests_cant": "a law over the whole state table that must hold for each pair", "anchors": ["src/sRef.c: sRef_combineNullState", "src/varKinds.c: nstate_possiblyNull, nstate_perhapsNull"]}
{"id": "C23", "title": "Merging branches never turns possibly-undefined storage into defined storage", "statement": "When definition states of a reference at the end of two branches are merged, the result is at most as defined as each branch.", "quantifier": "all pairs of definition states and all sequences of merges", "why_tests_cant": "law over the whole table and arbitrary folds of it", "anchors": ["src/sRef.c: sRef_combineDefState, sRef_combineExKinds"]}
{"id": "C24", "title": "Escape kinds over-approximate control flow", "statement": "For every structured statement, if some execution leaves it by exit, return or goto (or falls through), the kind computed for the statement allows this outcome; in particular code is called unreachable only if no execution reaches it.", "quantifier": "all statement trees and all executions", "why_tests_cant": "all statement nestings and all executions", "anchors": ["src/varKinds.c: exitkind_combine, exitkind_makeConditional, exitkind_couldExit, exitkind_couldEscape", "src/Headers/varKinds.h: exitkind_mustEscape"]}
{"id": "C25", "title": "Simplifying a bounds expression preserves its value", "statement": "For every bounds expression and every program state, simplification yields an expression with the same value.", "quantifier": "all expression trees and all valuations", "why_tests_cant": "algebraic rewriting over all trees and states", "anchors": ["src/constraintExpr.c: constraintExpr_simplify, constraintExpr_propagateConstants, constraintExpr_combineConstants, constraintExpr_simplifybinaryExpr, constraintExpr_simplifyunaryExpr, constraintExpr_simplifyChildren"]}
{"id": "C26", "title": "Rearranging a bounds constraint preserves its truth", "statement": "Simplifying, solving and swapping the two sides of a bounds constraint yields a constraint true in exactly the same program states.", "quantifier": "all constraints and all valuations", "why_tests_cant": "all expression trees and all program states", "anchors": ["src/constraintResolve.c: constraint_simplify, constraint_solve, constraint_swapLeftRight, flipAr", "src/constraintExpr.c: constraintExpr_solveBinaryExpr"]}
{"id": "C27", "title": "A bounds constraint dropped as always true is always true", "statement": "A constraint the checker discards as a tautology holds in every program state.", "quantifier": "all constraints and all valuations", "why_tests_cant": "soundness over all states", "anchors": ["src/constraintResolve.c: constraint_isAlwaysTrue, rangeCheck, sizeofBufComp, sizeOfMaxSet"]}
{"id": "C28", "title": "A bounds requirement dropped as implied really is implied", "statement": "A required constraint is dropped because of a known fact only if every program state satisfying the fact satisfies the requirement.", "quantifier": "all pairs of constraints, all lists of facts and all valuations", "why_tests_cant": "soundness over all states", "anchors": ["src/constraintResolve.c: satisfies, rangeCheck, arithType_canResolve, constraintList_resolve, reflectChangesNoOr, constraint_substitute, constraintList_subsumeEnsures"]}
{"id": "C29", "title": "Substitution of equals in bounds constraints is exact", "statement": "Replacing one expression by another in a bounds expression does not change its value in any state in which the two are equal, and the occurs-check reports occurrences correctly.", "quantifier": "all expression trees, all replaced terms, all valuations", "why_tests_cant": "structural recursion over unbounded trees", "anchors": ["src/constraintExpr.c: constraintExpr_searchandreplace, constraintExpr_search, constraintExpr_similar"]}
{"id": "C30", "title": "Bounds-constraint simplification terminates", "statement": "Simplification of every bounds constraint terminates, including the case where the two sides are exchanged and simplification restarts.", "quantifier": "all constraints", "why_tests_cant": "termination for all inputs; the source comment only hopes for it", "anchors": ["src/constraintResolve.c: constraint_simplify", "src/constraintExpr.c: constraintExpr_solveBinaryExpr, constraintExpr_simplify"]}
{"id": "C31", "title": "Leaving a scope forgets exactly the references of that scope", "statement": "When a block ends, every alias fact about references still in scope is kept and every fact about references that went out of scope is removed.", "quantifier": "all reference sets and alias tables, all scope levels", "why_tests_cant": "in-place compaction loop over unbounded arrays", "anchors": ["src/sRefSet.c: sRefSet_levelPrune", "src/aliasTable.c: aliasTable_levelPrune"]}
{"id": "C32", "title": "Reference sets behave as sets", "statement": "After any sequence of insertions, deletions, unions and intersections a reference is a member exactly when set algebra says so, and no reference is stored twice.", "quantifier": "all operation histories", "why_tests_cant": "in-place array updates over arbitrary histories", "anchors": ["src/sRefSet.c: sRefSet_insert, sRefSet_delete, sRefSet_deleteBase, sRefSet_union, sRefSet_intersect, sRefSet_member, sRefSet_copyInto, sRefSet_levelCopy"]}
{"id": "C33", "title": "Alias facts are kept until killed and never invented", "statement": "For any sequence of assignments, the recorded may-alias relation contains the alias created by each assignment until one side is assigned again, and clearing a reference removes every fact about storage reached through it.", "quantifier": "all sequences of alias-table operations", "why_tests_cant": "history dependent relation", "anchors": ["src/aliasTable.c: aliasTable_addMustAlias, aliasTable_addSet, aliasTable_clearAliases, aliasTable_canAlias, aliasTable_levelUnion"]}
{"id": "C34", "title": "The exit status tells whether the run matched expectations", "statement": "The process exits successfully exactly when the number of code warnings equals the expected number, the number of specification warnings equals the expected number, and no internal bug was reported.", "quantifier": "all counts of warnings, expected warnings and bugs", "why_tests_cant": "unbounded counts; boundary cases of nested conditionals", "anchors": ["src/llmain.c: main (lines 966-1100), llexit", "src/context.c: context_anyErrors, context_numErrors, context_getExpect, context_getLCLExpect"]}
{"id": "C35", "title": "Selecting a mode or a flag group sets exactly the documented flags", "statement": "Setting a mode sets every mode-controlled flag to its table value and leaves every other flag unchanged; setting a flag that is a group sets exactly the flags of its group; later settings win.", "quantifier": "all flag states, all sequences of flag settings", "why_tests_cant": "state space of several hundred flags and unbounded sequences of settings", "anchors": ["src/context.c: context_setMode, context_setFlagAux, context_resetAllFlags, context_fileSetFlag, context_saveFlagSettings, context_restoreFlagSettings"]}
{"id": "C36", "title": "Local flag changes end with the file", "statement": "Flag changes made by control comments inside a file are undone when the file ends: the next file starts with the command-line settings, and '=flag' restores the command-line setting of that flag.", "quantifier": "all sequences of local flag changes", "why_tests_cant": "history dependent state", "anchors": ["src/context.c: context_saveFlagSettings, context_restoreFlagSettings, context_fileSetFlag"]}
{"id": "C37", "title": "Flag names are recognised up to spelling", "statement": "Flag names differing only in ignored punctuation and abbreviations listed by the manual select the same flag, and canonicalisation is idempotent.", "quantifier": "all strings", "why_tests_cant": "unbounded strings", "anchors": ["src/flags.c: canonicalizeFlag, identifyFlagAux"]}
{"id": "C38", "title": "Include nesting is tracked exactly", "statement": "When no file is open twice at a time, a warning about include nesting is given exactly for the inclusions whose depth (files below the main file, special files not counted) exceeds the limit, each once, at the #include, with the chain of include sites that leads there; re-entering an open file returns to it instead of nesting.", "quantifier": "all trees of include files, all limits, and all sequences of files", "why_tests_cant": "history dependent stack", "anchors": ["src/filelocStack.c: filelocStack_popPushFile, filelocStack_includeDepth, filelocStack_nextTop, filelocStack_printIncludes, filelocStack_clear", "src/context.c: context_setFilename"]}
{"id": "C39", "title": "Every cached macro is checked exactly once", "statement": "For every sequence of macro registrations and checking passes, each registered macro position is processed at most once, with its latest registered text, and after the final pass every registered macro has been processed.", "quantifier": "all histories of registrations and passes", "why_tests_cant": "history dependent flags", "anchors": ["src/macrocache.c: macrocache_addGenEntry, macrocache_exists, macrocache_processUndefinedElements, macrocache_processFileElements"]}
{"id": "C40", "title": "State-machine tables answer what was declared", "statement": "Looking a pair of states up in a user-defined state-combination table returns the most recently declared entry for that pair, the first state unchanged if none was declared, and declarations for other pairs do not interfere.", "quantifier": "all table sizes and all sequences of declarations", "why_tests_cant": "unbounded sizes and histories; flattened indexing", "anchors": ["src/stateCombinationTable.c: stateCombinationTable_create, stateCombinationTable_set, stateCombinationTable_update, stateCombinationTable_lookup, stateCombinationTable_lookupLoseReference"]}
{"id": "C41", "title": "Ownership annotations combine consistently", "statement": "Deriving the ownership of a component from its container, comparing ownership kinds and resolving implicit kinds obey the documented rules for all kinds: equality is reflexive and symmetric, compatibility admits exactly the documented pairs, and derived kinds never gain ownership.", "quantifier": "all pairs of ownership kinds and all nestings", "why_tests_cant": "laws over the whole table and unbounded nesting", "anchors": ["src/varKinds.c: alkind_derive, alkind_compatible, alkind_equal, alkind_fixImplicit, alkind_resolve"]}
{"id": "C42", "title": "A modifies clause permits exactly what it lists", "statement": "With a modifies clause, a modification of storage is reported exactly when neither the storage nor any storage containing it is listed, regardless of whether unused-modification checking is enabled.", "quantifier": "all storage expressions and all modifies lists", "why_tests_cant": "recursive storage paths of unbounded depth", "anchors": ["src/sRef.c: sRef_checkModifyVal, sRef_checkModify, sRef_doModifyVal, sRef_doModify, sRef_canModify, sRef_canModifyVal"]}
{"id": "C43", "title": "Storage identity is an equivalence", "statement": "The test whether two storage expressions denote the same storage is reflexive, symmetric and transitive.", "quantifier": "all pairs and triples of storage expressions of any depth", "why_tests_cant": "laws over all triples of recursive structures", "anchors": ["src/sRef.c: sRef_realSame, sRef_same, sRef_similar, sRef_includedBy"]}
{"id": "C44", "title": "Nested clauses are tracked as a stack", "statement": "For any properly nested sequence of entering and leaving control clauses, leaving a clause restores the clause context in force before it was entered.", "quantifier": "all well-nested sequences of clause entries and exits", "why_tests_cant": "unbounded nesting", "anchors": ["src/clauseStack.c: clauseStack_push, clauseStack_pop, clauseStack_removeFirst, clauseStack_switchTop, clauseStack_controlDepth"]}
{"id": "C45", "title": "Merging branches never silently loses a release obligation", "statement": "For every pair of states of a storage location at the end of two branches, if in one of them the program must still release the storage then it must do so in the merged state, or the merge is reported as inconsistent.", "quantifier": "all pairs of storage states and all settings of the reference", "why_tests_cant": "all combinations of alias kinds, definition states and null states", "anchors": ["src/sRef.c: sRef_combineAliasKinds, sRef_combineAliasKindsError, sRef_mergeStateAux"]}
{"id": "C46", "title": "Growable arrays stay inside their allocation", "statement": "Every history of operations on a growable array (push, pop, replace, remove, clear) writes only inside the allocated space and leaves exactly the elements the corresponding list operations would leave.", "quantifier": "all histories of operations of any length", "why_tests_cant": "unbounded histories; a write past the allocation need not be observable in a run", "anchors": ["src/clauseStack.c: clauseStack_grow, clauseStack_push, clauseStack_pop, clauseStack_removeFirst, clauseStack_clear"]}
{"id": "C47", "title": "Merge clauses of user-defined states are symmetric unless stated otherwise", "statement": "The merge of two user-defined states is what the last matching merge clause says; if no clause is written for the pair in this order, merging gives the same result as in the opposite order, and an error if neither order is mentioned.", "quantifier": "all lists of values and all lists of merge clauses, including wildcards and unknown names", "why_tests_cant": "clauses interact through their order; there are unboundedly many clause lists", "anchors": ["src/mtDeclarationNode.c: mtDeclarationNode_process", "src/stateCombinationTable.c: stateCombinationTable_update, stateCombinationTable_lookup"]}
{"id": "C48", "title": "Global-modification flags govern what their documentation says", "statement": "A modification of a global variable of a given checking level is looked at exactly when the flag documented for that level, with or without a modifies clause, is on.", "quantifier": "all flag settings, checking levels and both kinds of functions", "why_tests_cant": "a documented meaning for every combination of flags; a test exercises one setting", "anchors": ["src/context.c: context_checkGlobMod", "src/flags.def: modglobsnomods, modstrictglobsnomods, modglobsunchecked"]}
{"id": "C49", "title": "Unused modifies-clause elements are exactly those no modification touches", "statement": "After any sequence of modifications in a function body, the listed objects reported as never modified are exactly the ones similar to no part of any modified storage.", "quantifier": "all modifies lists and all sequences of modifications of any length", "why_tests_cant": "unbounded sequences over recursive storage expressions", "anchors": ["src/sRef.c: sRef_doModifyVal, sRef_doModify", "src/sRefSet.c: sRefSet_modifyMember", "src/exprChecks.c: checkModifyAuxAux, exprNode_checkAllMods"]}
{"id": "C50", "title": "Variables holding the same pointer are recorded as aliases", "statement": "After any sequence of assignments between local pointer variables, any two variables whose values are copies of the same pointer are recorded as aliases of each other.", "quantifier": "all sequences of assignments and all pairs of local variables", "why_tests_cant": "needs a chain of copies in a particular order; there are unboundedly many", "anchors": ["src/aliasTable.c: aliasTable_addMustAlias, aliasTable_canAlias, aliasTable_aliasedBy", "src/usymtab.c: usymtab_addForceMustAlias, usymtab_allAliases", "src/exprNode.c: updateAliases"]}
{"id": "C51", "title": "References shown non-null by a condition are guarded, and no others", "statement": "For every condition built from null tests of variables, fields and pointer targets with !, && and ||, the references treated as guarded in a branch are exactly those shown non-null by reading the condition structurally: a test in the true branch, both sides of an && that holds, and what both sides of an || show.", "quantifier": "all condition trees over field and pointer paths, both branches", "why_tests_cant": "all condition trees of any depth; a missed guard is a false report for some shape only", "anchors": ["src/guardSet.c: guardSet_or, guardSet_and, guardSet_flip, guardSet_invert", "src/exprNode.c: exprNode_makeOp, exprNode_preOp, exprNode_produceGuards, reflectNullTest"]}
{"id": "C52", "title": "An assignment removes the null guards it invalidates", "statement": "After an assignment to a reference, neither the reference nor anything reached through it is treated as known to be non-null, and other references are as before.", "quantifier": "all scopes with any guards, all references", "why_tests_cant": "depends on which guards are in which enclosing scope and on how references contain each other", "anchors": ["src/usymtab.c: usymtab_unguard, usymtab_isGuardedAux", "src/guardSet.c: guardSet_delete", "src/exprNode.c: updateAliases"]}
{"id": "C53", "title": "Conditionals that are not properly nested are reported", "statement": "The preprocessor reports a file exactly when its #if/#elif/#else/#endif directives are not properly nested, whatever is defined, and a file that is not reported leaves no conditional open.", "quantifier": "all sequences of lines, all meanings of conditions and of the other lines", "why_tests_cant": "the complaints come from two code paths, depending on which groups are skipped", "anchors": ["src/cpplib.c: do_elif, do_else, do_endif, skip_if_group, cpplib_getTokenAux (end of file)"]}
{"id": "C54", "title": "Passing over a repeated #include changes nothing", "statement": "When a file has been recorded as guarded by a macro and the macro is defined, not reading the file again gives the same text and the same macros as reading it.", "quantifier": "for all sets of files with properly nested conditionals, all conditions, all initial macros and all depths of inclusion", "why_tests_cant": "The shortcut shows only with a particular arrangement of guard, #elif, earlier directives and empty headers, on the second inclusion.", "anchors": ["src/cpplib.c: do_include", "src/cpplib.c: redundant_include_p", "src/cpplib.c: do_xifdef", "src/cpplib.c: do_elif", "src/cpplib.c: do_else", "src/cpplib.c: do_endif"]}
{"id": "C55", "title": "Library files read back what was written: storage references", "statement": "Reading back a dumped storage reference, or a dumped list of them (what a function modifies, for instance), yields the references that were dumped and consumes exactly their text.", "quantifier": "all references, nested to any depth, and all lists of them", "why_tests_cant": "recursive format in which parts are told apart by single characters; unbounded nesting", "anchors": ["src/sRef.c: sRef_dump, sRef_undump", "src/sRefSet.c: sRefSet_dump, sRefSet_undump"]}
{"id": "C56", "title": "A name refers to its innermost declaration", "statement": "Whatever blocks, branches, loops and switches surround it, a use of a name is resolved to the innermost declaration that is in scope, and after each statement exactly the scopes are open that should be.", "quantifier": "all statements nested to any depth and all enclosing scopes", "why_tests_cant": "branches are kept as partial copies of the tables outside, which are searched, filled and merged on the way; unboundedly many nestings", "anchors": ["src/usymtab.c: usymtab_lookupAux, usymtab_addRefEntry, usymtab_dropEnv, usymtab_exitScope, usymtab_popBranches, usymtab_newCase, usymtab_exitSwitch"]}
{"id": "C57", "title": "What is known after branches allows for every path", "statement": "If a variable may have a problematic state (null, dead, undefined) at the end of some path through a statement, its recorded state after the statement allows for that.", "quantifier": "all statements, all paths through them, all initial states, all ways to merge states that keep both possibilities", "why_tests_cant": "unboundedly many paths; the merge of a path that is lost shows only for particular nestings", "anchors": ["src/usymtab.c: usymtab_popBranches, usymtab_popTrueBranch, usymtab_popOrBranch, usymtab_popAndBranch, usymtab_newCase, usymtab_exitSwitch", "src/uentry.c: uentry_mergeState"]}
{"id": "C58", "title": "The reference of a variable leads back to it", "statement": "The reference (scope and index) stored for a local variable finds, at every point of the program, the same entry as looking the name up.", "quantifier": "all points that can be reached in any program, all variables in scope", "why_tests_cant": "depends on how blocks and branches alternate between the declaration and the use", "anchors": ["src/usymtab.c: usymtab_getRefNoisy, usymtab_lookupSafeScope, refTable_lookup, usymtab_lookupAux"]}
{"id": "C59", "title": "Numbers are read as C reads them", "statement": "An integer or decimal floating constant in the text, with any of the suffixes of C, is scanned whole, with the value and type that C gives it.", "quantifier": "all constants of any length, all bases, all suffixes, all texts after them", "why_tests_cant": "28 rules for integers and 9 for floating constants compete for every text; values are unbounded", "anchors": ["src/cscanner.l:228-308", "src/cscannerHelp.c: processSuffix, cscannerHelp_processHex, cscannerHelp_processOctal, cscannerHelp_processBinary, cscannerHelp_processDec"]}
{"id": "C60", "title": "Character constants are read as C reads them", "statement": "A character constant in the text (a plain character or an escape) is scanned whole, with its value.", "quantifier": "all characters, all simple, octal and hexadecimal escapes, all texts after them", "why_tests_cant": "escapes of any length; only some of them have a value in the code", "anchors": ["src/cscanner.l:285-288", "src/cscannerHelp.c: cscannerHelp_processChar"]}
{"id": "C61", "title": "String literals are compared with their arrays correctly", "statement": "When a string literal (or several, one after the other) is put in an array of known size, splint reports exactly if it does not fit with its final null, or leaves room; and a literal over the length limit is always reported.", "quantifier": "all literals of any length with any escapes, any number of literals joined, all array sizes, any content of allocated memory", "why_tests_cant": "escapes and junctions of any number; the result depends on uninitialised memory", "anchors": ["src/cstring.c: doMergeString, doExpandEscapes, cstring_lengthExpandEscapes", "src/exprNode.c: exprNode_checkStringLiteralLength, exprNode_rawStringLiteral"]}
{"id": "C62", "title": "Type specifiers are combined as in C", "statement": "The words of a type, in any order that C allows, give the type that C gives them without a message; words that do not belong together are reported.", "quantifier": "all lists of words of any length", "why_tests_cant": "words are combined pairwise from the right; unboundedly many lists, and the result depends on the order", "anchors": ["src/ctype.c: ctype_combine, ctype_fromQual, ctype_resolve", "src/qtype.c: qtype_combine", "src/cgrammar.y: completeTypeSpecifierAux"]}
{"id": "C63", "title": "Arguments of printf are compared with the types of their conversions", "statement": "For every format that C allows and any number of arguments, each argument is compared with the type that C gives for its conversion or asterisk, and too few or too many arguments are reported.", "quantifier": "all formats of any length, and any number of arguments", "why_tests_cant": "unboundedly many formats; a single conversion that is read wrongly shifts all later arguments", "anchors": ["src/exprNode.c: checkPrintfArgs, isFlagKey"]}
{"id": "C64", "title": "Arguments of scanf are compared with the types of their conversions", "statement": "For every format that C allows and any number of arguments, each argument is compared with the type that C gives for its conversion, suppressed conversions take no argument, and too few or too many arguments are reported.", "quantifier": "all formats of any length, and any number of arguments", "why_tests_cant": "unboundedly many formats and sets of characters; a conversion that is read wrongly shifts all later arguments", "anchors": ["src/exprNode.c: checkScanfArgs"]}
{"id": "C65", "title": "Numeric types match only if the flags allow it", "statement": "Without flags that make types equivalent, a numeric type that matches another holds all its values, and behind pointers only the same types match; types that a flag makes equivalent match in both directions, and types of known size match only if some flag allows it.", "quantifier": "all settings of the flags, all pairs of primitive types, all machines (sizes of types), all values", "why_tests_cant": "8192 settings of the flags times 361 pairs of types, and the meaning depends on sizes of types that no single test machine covers", "anchors": ["src/cprim.c: cprim_closeEnough, cprim_closeEnoughDeep, cprim_closeEnoughAux"]}
{"id": "C66", "title": "Outside its module, the representation of an abstract type does not matter", "statement": "If two programs differ only in the representations of abstract types to which the code being checked has no access, all comparisons of types give the same result; such a type matches no type but itself.", "quantifier": "all tables of types, symbol tables, flags (without forwarddecl), pairs of types, in definitions or not", "why_tests_cant": "two runs of the checker would have to be compared for every pair of representations and types; the types form unbounded trees", "anchors": ["src/ctbase.i: ctbase_genMatch, ctbase_realType", "src/ctype.c: ctype_match, ctype_matchDef, ctype_matchArg, ctype_realType", "src/uentry.c: uentry_getRealType"]}
{"id": "C67", "title": "Without flags, types match exactly if they are the same", "statement": "With all flags that make types equivalent off, two types match if and only if they are the same tree once names are replaced by what they stand for, arrays are taken for pointers (not in definitions) and functions for pointers to them; the comparison ends.", "quantifier": "all tables of types and symbol tables, all types of any depth without unknown parts", "why_tests_cant": "types are unbounded trees behind chains of names; a test covers one pair", "anchors": ["src/ctbase.i: ctbase_genMatch", "src/ctype.c: ctype_genMatch, ctype_match, ctype_matchDef, ctype_matchArg", "src/uentryList.c: uentryList_matchParams"]}
{"id": "C68", "title": "Storage is given away only by its owner", "statement": "Passing storage to a parameter that takes over the duty to release it (only, keep, owned) is reported when the argument does not hold that duty; likewise for returns and assignments, and for local variables that are aliases of such storage.", "quantifier": "all references, states and facts about them with all messages turned on; all lists of aliases", "why_tests_cant": "22 kinds of storage on each side, five ways of transfer and some thirty other facts decide; no test suite enumerates the combinations", "anchors": ["src/transferChecks.c: checkTransferAux, checkTransfer, checkTransferExposure", "src/sRef.c: sRef_setKept, sRef_kill"]}
{"id": "C69", "title": "New storage is not lost", "statement": "When new storage is assigned, returned or passed, a message is shown or it ends up in a reference by way of which it will be released.", "quantifier": "all references, states and facts about them with all messages turned on", "why_tests_cant": "the result depends on the declared and the current kind of the receiver, its scope, type and exposure together", "anchors": ["src/transferChecks.c: checkOnlyTransferAux, checkFreshTransferAux, checkTransferAssignAux, transferChecks_passParam"]}
{"id": "C70", "title": "Storage that was given away is not the argument's any more", "statement": "After a call with a parameter that takes over the storage, the argument is dead (only), kept (keep) or dependent (owned), unless it is shared storage or a constant; the parameter is unchanged.", "quantifier": "all references, states, facts and settings of the flags; also for the passes over aliases", "why_tests_cant": "the changes are made in several functions one after the other, each depending on what the others left", "anchors": ["src/transferChecks.c: checkTransferAux, checkFreshTransferAux", "src/sRef.c: sRef_kill, sRef_killComplete, sRef_setKeptComplete, sRef_setDependentComplete"]}
{"id": "C71", "title": "Possibly null pointers are reported exactly where null is not allowed", "statement": "Passing or returning a pointer that may be null and was not tested shows the message for null pointers if and only if the receiver is not declared as possibly null; no other check shows this message. (Abstract types whose null state is fixed by the type, and receivers that are local or fresh, are left out.)", "quantifier": "all references, states and facts about them with all messages turned on", "why_tests_cant": "an equivalence over all states of both references and all other checks of the transfer", "anchors": ["src/transferChecks.c: checkTransferNullAux, checkTransferAux", "src/varKinds.c: nstate_possiblyNull, nstate_perhapsNull"]}
{"id": "C72", "title": "A return reports each variable whose storage is not released", "statement": "When a function returns, each variable or parameter through which storage has to be released (only, owned, fresh, keep, new reference) and that is neither dead nor null is reported, in all scopes up to the parameters.", "quantifier": "all stacks of scopes, all states of references, all tables of aliases", "why_tests_cant": "scopes can be nested to any depth with any names; what a name hides is decided by a look-up that differs from the traversal", "anchors": ["src/usymtab.c: usymtab_checkFinalScope, usymtab_lookupQuietNoAlt", "src/transferChecks.c: transferChecks_localDestroyed"]}
{"id": "C73", "title": "Leaving a block loses no storage", "statement": "When a block is left, storage that has to be released and is referred to only by variables of the block is reported; if a reference outside of the block refers to it, that reference has the duty to release it afterwards.", "quantifier": "all blocks, all states of references, all tables of aliases", "why_tests_cant": "the duty moves between references while the variables are examined one after the other; any number of aliases may be involved", "anchors": ["src/usymtab.c: usymtab_checkFinalScope", "src/transferChecks.c: transferChecks_canLoseReference", "src/sRef.c: sRef_setLastReference"]}
{"id": "C74", "title": "Releasing storage reports each part that is not released", "statement": "When storage is released (passed to a function that frees it, or its last variable goes out of scope), each part of it - field, element, what a pointer refers to, to any depth - that must be released on its own and was not is reported; a part with another reference to it is taken over by that reference.", "quantifier": "all graphs of references with any types and states, also infinite ones of recursive types; both settings of strictdestroy", "why_tests_cant": "the parts form trees of any depth and width; whether a message is shown depends on all states along the path", "anchors": ["src/transferChecks.c: checkCompletelyDestroyed, dependentReference, transferChecks_globalDestroyed, transferChecks_localDestroyed, transferChecks_structDestroyed"]}
{"id": "C75", "title": "A macro expands to its replacement list with the arguments in it", "statement": "A definition is reported exactly if a # in a function-like macro is not followed by a parameter, or ## is first or last. The expansion of any other macro is its replacement list with each parameter replaced: after # by a string made of the argument, next to ## by the argument as written, elsewhere by the expanded argument; ## and # are left out, and parameters inside of literals, numbers and longer names stay.", "quantifier": "all texts of definitions, lists of parameters and arguments without the escape character @", "why_tests_cant": "the scanner joins words, literals, operators and white space by separate rules; a test would need all neighbours of every token", "anchors": ["src/cpplib.c: collect_expansion, collect_expansionLoc, cpplib_macroExpand"]}
{"id": "C76", "title": "# makes one string literal of an argument", "statement": "The text that # makes of an argument is one string literal, and its value is the argument as written, with single blanks for white space between tokens and none at the ends.", "quantifier": "all arguments", "why_tests_cant": "quotes and backslashes inside and outside of literals nest; a missing backslash changes where the literal ends only for some arguments", "anchors": ["src/cpplib.c: cpplib_macroExpand (making of strings)"]}
{"id": "C77", "title": "The arguments of a macro call are found and counted", "statement": "A call ends at the parenthesis that closes it, or is reported as not ended if there is none; its arguments are what is between the commas outside of inner parentheses, the last parameter of a variadic macro taking all that remain; a wrong number of arguments is reported.", "quantifier": "all sequences of tokens, numbers of parameters, variadic or not", "why_tests_cant": "parentheses and commas nest to any depth", "anchors": ["src/cpplib.c: macarg, cpplib_macroExpand (arguments)"]}
{"id": "C78", "title": "Tokens from different places are not joined", "statement": "If unsafe_chars says that no marker is needed between the last character of a token and the first of the next text, the token is read again as it was.", "quantifier": "all tokens and all texts after them", "why_tests_cant": "there are many pairs of tokens, and the rule looks at two characters only", "anchors": ["src/cpplib.c: unsafe_chars, cpplib_macroExpand"]}
{"id": "C79", "title": "The buffers for definitions and expansions are large enough", "statement": "The text of a definition fits in the room reserved for it before it is scanned, and the expansion of a macro fits in the room computed from its arguments.", "quantifier": "all definitions and arguments, also with @", "why_tests_cant": "an overflow by one character does not show unless the heap is checked", "anchors": ["src/cpplib.c: collect_expansion, cpplib_macroExpand"]}
{"id": "C80", "title": "Names reserved by the language are reported", "statement": "A declared name is reported exactly on the grounds the C standard gives: it is in the list of library names, it is in the space of the implementation, or it begins as the names kept for future libraries; names without external linkage are held to the last rules only on request. Every function of the standard library is reported when it is declared with external linkage. The search in the table of names finds every entry and fails no assertion.", "quantifier": "all names, kinds of declaration and flag settings; all sorted tables", "why_tests_cant": "the search looks at a few entries out of 201 and its end conditions depend on the length of the table; a test would need every name of the library", "anchors": ["src/nameChecks.c: checkAnsiName", "src/cstring.c: cstring_bsearch", "src/Headers/reservedNames.nf"]}
{"id": "C81", "title": "Words of C++ are reported", "statement": "With +cppnames, an identifier that is a keyword or alternative token of C++ and not of C is reported, and no other.", "quantifier": "all names", "why_tests_cant": "the list has to be complete, and a test only sees the words its author thought of", "anchors": ["src/nameChecks.c: checkCppName", "src/cstring.c: cstring_bsearch"]}
{"id": "C82", "title": "A namespace prefix matches the names the manual says", "statement": "A name matches a prefix exactly if each character is in the class the character of the prefix stands for, and after c* all remaining characters, possibly none, are in the class of c.", "quantifier": "all names and all prefixes with at most one *, at the end", "why_tests_cant": "which character is compared with which class depends on the lengths of name and prefix; the errors are in one position only", "anchors": ["src/nameChecks.c: matchPrefix, matchPrefixChar"]}
{"id": "C83", "title": "A name is held against the right namespace prefixes", "statement": "A name is reported if it does not match the most specific prefix defined for its kind, or if it matches the prefix of a namespace it is not in and the exclude flag of this namespace is set; and not otherwise.", "quantifier": "all kinds of declarations, settings of the prefixes and exclude flags, and names", "why_tests_cant": "there are eleven namespaces with three settings each; tests cover few combinations", "anchors": ["src/nameChecks.c: checkPrefix, namespaceExcluded"]}
{"id": "C84", "title": "An expression that depends on the order of evaluation is reported", "statement": "If some evaluation of an expression that the language allows has two accesses to a variable, at least one of them a write, that no sequence point and no operator orders, there is a message about the order of evaluation.", "quantifier": "all expressions over arithmetic variables with unary, binary, logical, comma, conditional, assignment and increment operators and calls of functions with a modifies clause; all evaluations", "why_tests_cant": "which parts are compared depends on how the sets of used and modified variables are passed up through every kind of node, so a test of one nesting says nothing of another", "anchors": ["src/exprNode.c: checkExpressionDefined, checkExpressionDefinedAux, checkSequencing, checkSequencingOne, exprNode_op, exprNode_makeOp, exprNode_assign, exprNode_cond, exprNode_comma, functionCallSafe, checkAnyCall"]}
{"id": "C85", "title": "A message about the order of evaluation is right", "statement": "If there is a message about the order of evaluation of a variable, some evaluation of the expression has interfering accesses to this variable.", "quantifier": "all expressions over arithmetic variables as in C84", "why_tests_cant": "false alarms are seen only on the expressions somebody thought of", "anchors": ["src/exprNode.c: checkExpressionDefined, checkExpressionDefinedAux, checkSequencing, checkSequencingOne"]}
{"id": "C86", "title": "The message about an infinite loop is given for the loops that do not modify their test", "statement": "A while loop gets the message about an infinite loop exactly when its test uses a variable and neither the test nor the body modifies any variable the test uses; such a loop, entered with a true test, does not end unless a break or return leaves it.", "quantifier": "all statements built from expressions, sequences, conditionals, the three loops, switch, break, continue and return; all stores; all numbers of steps", "why_tests_cant": "the modified variables are passed up through every kind of statement node, so one forgotten kind shows only in bodies with that kind; that a loop never ends cannot be observed", "anchors": ["src/exprNode.c: checkInfiniteLoop, exprNode_while, exprNode_doWhile, exprNode_for, exprNode_forPred, exprNode_whilePred, exprNode_switch, exprNode_if, exprNode_ifelse, exprNode_concat"]}
{"id": "C87", "title": "The message about a statement without effect is given exactly for the statements that write nothing", "statement": "An expression statement gets the message exactly when it is outside statement expressions, is not a call whose ignored value is reported, does not leave, and no evaluation of it writes a variable; a statement with the message leaves every store as it is.", "quantifier": "all expressions over arithmetic variables with calls of functions with a modifies clause; all flags; all stores", "why_tests_cant": "the expressions are unbounded and the message depends on sets collected through all of their parts", "anchors": ["src/exprChecks.c: exprChecks_checkStatementEffect", "src/exprNode.c: exprNode_statement, exprNode_statementError"]}
{"id": "C88", "title": "The message about missing cases of a switch lists the members that are not handled", "statement": "For a switch over an enumeration the message about missing cases lists exactly the members whose value no label handles; duplicate and foreign labels are reported; when the switch is taken to cover all ways, every member is handled.", "quantifier": "all enumerations and all bodies of switch statements with nested blocks and inner statements", "why_tests_cant": "labels may be spread over any nesting and come in any order and number", "anchors": ["src/exprNode.c: checkSwitchExpr, exprNode_flatten", "src/enumNameList.c: enumNameList_member, enumNameList_subtract"]}
{"id": "C89", "title": "A for loop taken to be executed at least once is", "statement": "If exprNode_loopMustExec says that a for loop is certain to be executed, the test holds for the value the variable is given.", "quantifier": "all operators and all pairs of constants", "why_tests_cant": "the error is at the boundary of each comparison, and is seen only as a missing message about definition", "anchors": ["src/exprNode.c: exprNode_loopMustExec", "src/context.c: context_exitForClause"]}
{"id": "C90", "title": "Options are processed one after the other", "statement": "What an option does is the same whatever is before and after it on the command line or in an options file; none is left out, and the files that are checked are exactly the arguments that are neither options nor arguments of options.", "quantifier": "all lists of arguments", "why_tests_cant": "the number and order of the arguments is not bounded, and any argument may be taken for that of the option before", "anchors": ["src/flags.c: flags_processFlags, flags_isModeName", "src/llmain.c: main"]}
{"id": "C91", "title": "Every option has the effect of its flag", "statement": "A flag written with either sign, with one or two dashes and with any punctuation of its name is set or cleared, and given the next argument if it takes one; -D, -U, -I and -S take what is written together with them; no option leads to an access outside the tables.", "quantifier": "all flags of the table, all spellings, all arguments", "why_tests_cant": "the table has hundreds of flags with many spellings each", "anchors": ["src/flags.c: flags_processFlags, flags_identifyFlag, flags_table"]}
{"id": "C92", "title": "The command line overrides the options files", "statement": "The default options files are read unless -nof or -f is given; the last setting of a flag on the command line holds when all options have been processed, whatever the options files contain.", "quantifier": "all command lines, all contents of all options files", "why_tests_cant": "options files may name others to any depth", "anchors": ["src/llmain.c: main", "src/flags.c: flags_preProcessFlags, flags_processFlags", "src/rcfiles.c: rcfiles_read"]}
{"id": "C93", "title": "The flags of an options file", "statement": "The flags found in an options file are the words of its lines, in order: separated by blanks outside quotes, without what follows a comment sign.", "quantifier": "all texts", "why_tests_cant": "quotes, escapes, blanks, comment signs and ends of line combine in any way", "anchors": ["src/rcfiles.c: rcfiles_loadFile", "src/reader.c: reader_readLine"]}
{"id": "C94", "title": "Every options file is read at most once", "statement": "Options files that name each other, in any way, are each read at most once, and reading ends; a file that is asked for is read unless it was read before or cannot be opened.", "quantifier": "all sets of options files with any contents, all command lines", "why_tests_cant": "cycles may be of any length", "anchors": ["src/rcfiles.c: rcfiles_read, rcfiles_loadFile", "src/flags.c: flags_processFlags"]}
{"id": "C95", "title": "The absolute name of a file", "statement": "The absolute name that is computed for a file of a directory is the shortest name of the file that is reached from the directory, whatever parts `.`, `..` and empty parts it has.", "quantifier": "all names of files and directories", "why_tests_cant": "any number of `.`, `..` and slashes may stand anywhere in the name", "anchors": ["src/osd.c: osd_absolutePath"]}
{"id": "C96", "title": "The relative name that is printed leads to the file", "statement": "The name that is printed for a file leads from the working directory to the file itself, and is no longer than its absolute name.", "quantifier": "all normal names of files and working directories", "why_tests_cant": "the two names may have any common part, that may end within a part of either", "anchors": ["src/osd.c: osd_outputPath"]}
{"id": "C97", "title": "System directories and search lists", "statement": "A file is a system file exactly if it is in one of the directories of sysdirs; the file found in a search list is the one in the first directory of the list that has it, and no name overflows the buffer.", "quantifier": "all lists of directories, all names, all contents of the file system", "why_tests_cant": "the list may have any number of directories, of any length, empty ones too", "anchors": ["src/context.c: context_isSystemDir", "src/osd.c: osd_getPath, nextdir, osd_equalCanonicalPrefix"]}
{"id": "C98", "title": "The extension and the base name of a file", "statement": "The extension of a file is that of the last part of its name, and decides what becomes of a file of the command line; the base name is the last part without the extension.", "quantifier": "all names of files", "why_tests_cant": "full stops may stand in any part of the name", "anchors": ["src/fileLib.c: fileLib_getExtension, fileLib_removeAnyExtension, fileLib_removePath, fileLib_isCExtension", "src/fileTable.c: fileTable_addFile", "src/osd.c: LSLRootName", "src/flags.c: flags_processFlags"]}
{"id": "C99", "title": "Every access of an expression is required to be within bounds", "statement": "For every element that an expression reads or writes through an array or a pointer a requirement on the bounds is generated, of reading or of writing as it is; and no requirement is generated for an element that is not accessed.", "quantifier": "all expressions", "why_tests_cant": "accesses may be nested in any way, within operands, indices and arguments", "anchors": ["src/constraintGeneration.c: exprNode_exprTraverse, exprNode_isUnhandled, exprNode_traverseRequiresConstraints, checkArgumentList, checkCall"]}
{"id": "C100", "title": "The facts taken from a test hold", "statement": "What is assumed in the branch for a true test is true whenever the test is true, and what is assumed in the branch for a false test is true whenever it is false.", "quantifier": "all tests, all values of their parts", "why_tests_cant": "tests may be combined by `&&`, `||` and `!` to any depth", "anchors": ["src/constraintGeneration.c: exprNode_booleanTraverse, exprNode_exprTraverse, exprNode_traverseTrueEnsuresConstraints, exprNode_traverseFalseEnsuresConstraints", "src/constraintList.c: constraintList_add, constraintList_addList, constraintList_logicalOr"]}
{"id": "C101", "title": "The requirements of a statement prevent accesses out of bounds", "statement": "If the requirements that are computed for a statement hold before it, no execution of the statement accesses an element out of bounds, and after a normal end what is recorded as its effect is true.", "quantifier": "all statements, all their executions, all operations on constraints that are right", "why_tests_cant": "statements may be nested to any depth and loops may be executed any number of times", "anchors": ["src/constraintGeneration.c: exprNode_stmt, exprNode_stmtList, doIf, doIfElse, doWhile, doFor, exprNode_multiStatement", "src/constraintResolve.c: exprNode_mergeResolve"]}
{"id": "C102", "title": "The requirements of a switch statement prevent accesses out of bounds", "statement": "If the requirements that are computed for a switch statement hold before it, no access is out of bounds, whichever case is entered.", "quantifier": "all sequences of cases and statements, all executions", "why_tests_cant": "any number of cases, each of which may run into the next one", "anchors": ["src/constraintGeneration.c: exprNode_generateConstraintSwitch, exprNode_doGenerateConstraintSwitch"]}
{"id": "C103", "title": "A #define line defines what it says", "statement": "A line that has the form of a definition gives the macro with its name, its parameters and its text without a message, and only such lines do; the line is not read beyond its end; and the option -D with a value gives the same line with the `=` replaced by a space.", "quantifier": "all texts of #define lines and of -D options", "why_tests_cant": "lists of parameters and white space of any length", "anchors": ["src/cpplib.c: create_definition, cpplib_createDefinition, cppReader_checkMacroName, cppReader_define"]}
{"id": "C104", "title": "A redefinition is reported exactly if the definitions differ", "statement": "If a macro is defined again, there is a message exactly if the two definitions are not the same: if the parameters differ, or the tokens of the text, or where there is white space between them.", "quantifier": "all pairs of definitions", "why_tests_cant": "texts of any length, with any amount of white space", "anchors": ["src/cpplib.c: compare_defs, comp_def_part, do_defineAux, collect_expansion"]}
{"id": "C105", "title": "A local variable is reported as unused exactly if it has no use", "statement": "At the end of each block exactly those of its variables are reported as unused, in order, that no use in the block belongs to: a use belongs to the innermost variable of that name, in whatever branches, loops, cases and operands of && and || it is.", "quantifier": "all functions made of declarations, uses, blocks, if, loops, &&, ||, ?: and switch", "why_tests_cant": "blocks and branches nested to any depth, any number of variables and cases", "anchors": ["src/usymtab.c: usymtab_allUsed, usymtab_exitScope, usymtab_popBranches, usymtab_popTrueBranch, usymtab_popOrBranch, usymtab_popAndBranch, usymtab_newCase, usymtab_exitSwitch", "src/uentry.c: uentry_setUsed, uentry_mergeUses, uentry_mergeSetStates, uentry_setState"]}
{"id": "C106", "title": "A macro parameter is reported unless it is evaluated exactly once", "statement": "For a parameter of a macro that is checked as a function, and that has no annotation, a message is given exactly if some execution of the body does not evaluate the parameter exactly once.", "quantifier": "all bodies made of uses, sequences, if, &&, ||, ?:, loops, switch and return, nested to any depth", "why_tests_cant": "bodies nest to any depth and have unboundedly many executions", "anchors": ["src/uentry.c: uentry_setUsed, uentry_mergeSetStates, uentry_setState, uentry_mergeUses", "src/context.c: context_inConditional", "src/usymtab.c: usymtab_popBranches, usymtab_popTrueBranch, usymtab_popOrBranch, usymtab_exitSwitch, usymtab_allUsed"]}
{"id": "C107", "title": "Macros are expanded as by the algorithm with hide sets, and the expansion ends", "statement": "Scanning a text with macros, and rescanning what they expand to, always ends, and its result is that of Prosser's algorithm: a name is expanded exactly if it is a macro that it does not itself come from, and if, for a function-like macro, an opening parenthesis follows.", "quantifier": "all sets of object-like macros and function-like macros without parameters, with any bodies, and all texts", "why_tests_cant": "macros refer to each other in unboundedly many ways, and calls cross the ends of expansions", "anchors": ["src/cpplib.c: cpplib_getToken, cpplib_macroExpand, macarg, push_macro_expansion, cppReader_popBuffer, cppReader_macroCleanup, parseGotoMark"]}
{"id": "C108", "title": "Entries and types in a library are read back as they were written", "statement": "The text that is written to a library for an entry of the symbol table (variable, constant, data type, function with its globals, modifies list, warn and state clauses, iterator, tag) or for a type is read back as the same entry or type, and reading ends exactly where the text ends.", "quantifier": "all entries and types whose enumerations are in range and whose names have no separators, and all texts that follow", "why_tests_cant": "the formats have many abbreviations and nested lists; a wrong reading loses an annotation without any message", "anchors": ["src/uentry.c: uentry_dumpAux, uentry_undump", "src/uentryList.c", "src/ctbase.i: ctbase_dump, ctbase_undump", "src/cttable.i: ctentry_dump, ctentry_undump", "src/warnClause.c", "src/flagSpec.c", "src/stateClauseList.c", "src/globSet.c", "src/enumNameList.c"]}
{"id": "C109", "title": "The table of symbols in a library is read back entry by entry", "statement": "The section of a library with the symbols, which is written with headings for the kinds and with equivalent entries grouped on one line, is read back to its end and no further: the same entries in the same order, with the same kinds and names, every one with what was written of it.", "quantifier": "all tables of valid entries that fit on a line, all type comparisons, all comments before and behind", "why_tests_cant": "grouping depends on which entries happen to be next to each other and on the length of the line", "anchors": ["src/usymtab.c: usymtab_dump, usymtab_load", "src/uentry.c: uentry_equiv, uentry_compare, uentry_nameCopy", "src/reader.c: reader_readLine"]}
{"id": "C110", "title": "A case that execution falls into is reported", "statement": "A case or default that is not annotated with fallthrough is reported exactly if the statement before it, which is no case or label itself, can complete, so that execution goes on with the case.", "quantifier": "all function bodies, all places of cases in them, all executions", "why_tests_cant": "whether the statement before a case completes depends on everything nested in it", "anchors": ["src/exprNode.c: exprNode_concat, exprNode_lastStatement", "src/cgrammar.y: stmtList, compoundStmtListNext, compoundInitListNext"]}
{"id": "C111", "title": "A break or continue in nested loops and switches is reported under the right flag", "statement": "A break is reported exactly if the loop or switch it leaves stands in another one, under the flag for that combination; a continue exactly if its loop stands in another loop; a right annotation silences the message and a wrong one is reported.", "quantifier": "all function bodies and all breaks and continues in them", "why_tests_cant": "the answer depends on the whole stack of loops, switches, blocks and conditionals around the statement", "anchors": ["src/exprNode.c: exprNode_break, exprNode_continue", "src/context.c: context_breakClause, context_nextBreakClause, context_inDeepLoop, context_inDeepSwitch, context_inDeepLoopSwitch", "src/flags.def"]}
{"id": "C112", "title": "A name that is not distinguishable from another one is reported", "statement": "The declaration of a name is reported exactly if another name known at that point agrees with it in the significant characters, up to case if case is ignored and up to characters that look alike if these match.", "quantifier": "all names, all symbol tables, all values of the options", "why_tests_cant": "the answer depends on the lengths of both names, on their order of declaration and on three options at once", "anchors": ["src/cstring.c: cstring_genericEqual, lookLike", "src/usymtab.c: checkDistinctExternalName, checkDistinctInternalName, usymtab_checkDistinctName", "src/flags.def"]}
{"id": "C113", "title": "The replacement for snprintf prints what C prescribes and stays in the buffer", "statement": "Whatever the format, nothing is written outside the buffer, the buffer holds as much of the output as fits with a NUL behind it, and the number returned is the length of the whole output; and for the conversions of integers, characters and strings the output is the one C prescribes.", "quantifier": "all formats, all arguments of the right types, all sizes of the buffer", "why_tests_cant": "flags, width, precision and length of a directive combine freely, and the cases that go wrong depend on the values of arguments", "anchors": ["src/snprintf.c: dopr, fmtstr, fmtint, dopr_outch, vsnprintf, snprintf, vasprintf"]}
{"id": "C114", "title": "Operands of operators are reported according to the values they may have", "statement": "An operand of a shift or of a bitwise operator is reported exactly if it may be negative; comparisons of floating point numbers, comparisons of unsigned values with zero whose result is always the same, arithmetic on pointers that may be null, and comparisons of booleans are reported whichever operand is on the left.", "quantifier": "all operators, all types and known values of operands, all settings of flags", "why_tests_cant": "what matters is the combination of the types, signs and known values of both operands with the operator; the missed ones come with the operands exchanged or with one more relational operator", "anchors": ["src/exprNode.c: exprNode_makeOp, checkIntegral, checkNumerics, exprNode_isNonNegative, exprNode_isZero, exprNode_isNullValue"]}
{"id": "C115", "title": "A call of message that the check of its arguments accepts prints what the format says", "statement": "If the check of arguments of functions marked messagelike accepts a call, then the function message prints what the codes of the format stand for, in order, each with its own argument; and every call whose arguments are those the format asks for is accepted.", "quantifier": "all formats, all numbers and values of arguments, all ways of matching types that only accept what is passed alike", "why_tests_cant": "the check and the function parse the format with separate code; they differ for single codes, for formats ending with a percent sign, and for the plural code after certain arguments", "anchors": ["src/message.c: message, identify_control, cstring_fill", "src/exprNode.c: checkMessageArgs"]}
{"id": "C116", "title": "Every wrong part of an initializer is reported, and no other", "statement": "For an initializer in braces, a message is given for a part of it exactly if this part does not fit what it initializes: a value of a type that does not match, too many or too few elements for an array or fields for a struct, more or less than one value for a union, a list for a single value.", "quantifier": "all types built of arrays, pointers, structs and unions, all nested initializers, all settings of flags", "why_tests_cant": "initializers and types are trees of any depth; messages vanish depending on the number of errors before, on the number of elements and on other faults at the same level", "anchors": ["src/exprNode.c: exprNode_checkOneInit, exprNode_makeInitBlock", "src/cgrammar.y: init, initList"]}
{"id": "C117", "title": "A name is reported as exported without need exactly if all its uses are in the module that defines it", "statement": "With the flag exportlocal, an exported function or variable is reported exactly if it is used and every use is in the module in which it is defined; the order of uses and the flag showuses do not matter.", "quantifier": "all sequences of uses in any modules and in macros, all places of declaration and definition, all settings of flags", "why_tests_cant": "what is kept of the uses is a list that depends on their order and on where the name was declared; whether a use is lost only shows for certain sequences", "anchors": ["src/usymtab.c: usymtab_exportLocal", "src/uentry.c: uentry_setUsed", "src/filelocList.c: filelocList_add, filelocList_addUndefined, filelocList_addDifferentFile"]}
{"id": "C118", "title": "Comments keep their place in the preprocessed text and do what they say", "statement": "A comment reaches from its slash to the first end of comment in the joined lines; what the preprocessor writes for it has the same length and the same ends of lines; comments for the checker are written between markers with the end marker nowhere inside, and what the preprocessor does because of them is exactly what their first word says.", "quantifier": "all texts, with and without lines joined by backslashes, all comment characters, all settings of nocomments and lintcomments", "why_tests_cant": "what is written and done depends on the characters at both ends of the comment, on the comment character set by earlier comments and on backslashes at the ends of lines", "anchors": ["src/cpplib.c: skip_comment, cppGetToken, cpp_handleComment", "src/general.c: mstring_equalPrefix, mstring_containsString"]}
{"id": "C119", "title": "Comments for the checker are read to their end and understood", "statement": "The scanner reads the text of a comment for the checker up to its end marker and no further; settings of flags in it are done in order, with their arguments; words are recognised exactly if they are in the table, in any case; the types in access comments are those listed.", "quantifier": "all texts of comments and of the source after them, all flags, all lists of declared annotations", "why_tests_cant": "how far the scanner reads depends on the text after the comment; the loops over flags and names depend on every blank between them", "anchors": ["src/cscannerHelp.c: cscannerHelp_handleLlSpecial, commentMarkerToken, tokenMacroCode, s_parsetable, s_keytable"]}
{"id": "C120", "title": "Declarations that contradict each other are reported", "statement": "If a name is declared several times, nothing is reported exactly if no declaration contradicts what earlier ones say about null, definition, ownership, exposure, number and types of parameters; afterwards what they say together is in effect.", "quantifier": "all sequences of declarations of variables, parameters and functions, all annotations, all relations between types", "why_tests_cant": "what is known after a declaration depends on all the earlier ones and on which messages were suppressed", "anchors": ["src/uentry.c: checkNullState, uentry_checkDefState, checkAliasState, checkExpState, checkVarConformance, checkFunctionConformance"]}
{"id": "C121", "title": "Clauses of later declarations are reported if they say more, and are in effect", "statement": "Each global variable that a later declaration of a function lists and earlier ones do not is reported once and listed afterwards; each element of a later modifies clause that earlier ones do not permit is reported; what the clauses say together, with requires and ensures, is in effect afterwards.", "quantifier": "all sequences of declarations with all globals lists and modifies clauses, all storage, all flags", "why_tests_cant": "what is in effect depends on all earlier declarations and on which messages are suppressed", "anchors": ["src/uentry.c: checkGlobalsConformance, checkModifiesConformance, uentry_mergeConstraints", "src/sRef.c: sRef_canModifyVal"]}
{"id": "C122", "title": "Uses of global variables are reported unless documented, and unused documentation is", "statement": "In a function, each occurrence of a global variable and each global variable that a called function lists is reported if its annotation and the flags ask for it and the globals list of the function does not have it; each listed variable that is not used is reported at the end of the function; uses by calls of undefined or released variables are reported.", "quantifier": "all functions and globals lists, all sequences of uses, calls and state changes, all annotations and flags", "why_tests_cant": "what is reported at the end depends on all events of the function and, at calls, on the history of each variable", "anchors": ["src/exprNode.c: checkGlobUse, checkGlobMods, exprNode_fromIdentifierAux", "src/context.c: context_checkGlobUse, context_usedGlobal, context_checkInternalUse", "src/exprChecks.c: exprChecks_checkUsedGlobs"]}
{"id": "C123", "title": "Bounds requirements with alternatives are dropped only if they hold", "statement": "A bounds requirement with alternatives is dropped exactly if one alternative is found among the facts in one of five forms; otherwise each alternative is replaced by one to three forms. Putting the requirements of two parts of a program together gives a list that holds exactly if both lists hold.", "quantifier": "all requirements with any number of alternatives, all lists of facts, all states in which the facts hold", "why_tests_cant": "a lost requirement shows up as a missing warning only, in programs where an alternative that is not looked at makes the difference", "anchors": ["src/constraintResolve.c: doResolve, doResolveOr, resolveOr, constraint_addOr, inequalitySubstituteStrong, constraintList_reflectChangesOr, constraintList_mergeRequires", "src/constraintList.c: constraintList_add, constraintList_addList", "src/constraint.c: constraint_same"]}
{"id": "C124", "title": "A call that modifies forbidden storage is reported like a modification", "statement": "A call is reported exactly if the called function's modifies clause, with the arguments in place of the parameters, names storage (or storage with an alias) that the calling function may not modify. A call is not reported if all that storage and its aliases may be modified.", "quantifier": "all modifies clauses of caller and called function, all arguments, all alias tables, all annotations of global variables and all flags", "why_tests_cant": "the report depends on the clause, the arguments, the aliases and the annotations together; a missing report is silent", "anchors": ["src/exprNode.c: checkGlobMods", "src/exprChecks.c: exprNode_checkCallModifyVal, checkCallModifyAux", "src/sRef.c: sRef_fixBaseParam, sRef_aliasCheckPred, sRef_canModifyVal", "src/uentry.c: uentry_isCheckedModify"]}
{"id": "C125", "title": "Uses of undefined, inconsistent or released storage are reported", "statement": "A use of storage is reported exactly if the storage, or storage that contains it, is in a state in which it may not be read. There is one report, about the outermost such storage (or about the field of its target). The report says that the storage was released exactly if all its alternatives were released. After a report, the reported storage may be read, and repeated uses give at most one report per level.", "quantifier": "all references, all definition states of their parts and alternatives, all settings of strictusereleased, any number of uses", "why_tests_cant": "the report depends on the states of all levels of a reference and on how alternatives are merged; a wrong kind of report is turned off by the wrong flag", "anchors": ["src/exprNode.c: exprNode_checkUse", "src/sRef.c: sRef_isValidLvalue, sRef_getBaseSafe, sRef_setDefinedAux, sRef_isThroughArrayFetch"]}
{"id": "C126", "title": "Out storage must be completely defined at the end of a function", "statement": "An out variable is reported at the end of a function or block exactly if some part of its storage that must be defined is not: what pointers point to, and all fields of structures. The part shown with a report is an undefined part, and showing it does not fail.", "quantifier": "all references, types, definition states and sets of mentioned fields", "why_tests_cant": "a missing report is silent, and depends on the states of all parts of the storage", "anchors": ["src/sRef.c: whatUndefined, sRef_isReallyDefined, sRef_showNotReallyDefined, sRef_constructPointerAux", "src/usymtab.c: usymtab_checkFinalScope"]}
{"id": "C127", "title": "Transferred storage must be completely defined", "statement": "When storage is passed, returned, assigned or left at the end of a function, it is reported exactly if a part that must be defined is not: the storage itself, what its pointers lead to, the fields of its structures, and one field of each union. Storage all of whose parts are defined is not reported and passes.", "quantifier": "all references, types, states and sets of mentioned fields, and all kinds of transfer", "why_tests_cant": "the check recurses over all parts of two references at once with five flags; missing and wrong reports depend on combinations of states", "anchors": ["src/transferChecks.c: checkCompletelyDefined, checkLeaveTrans, checkGlobTrans"]}
{"id": "C128", "title": "National naming conventions", "statement": "With the Czech (Slovak) convention on, a function, iterator, variable, macro or constant is reported exactly if the part of its name in front of the first underscore (uppercase letter) names no accessible type, built-in type or the module, or is missing while types are accessible; with the Czechoslovak convention exactly if both are violated. Types are reported for underscores or uppercase letters. A declaration gets access to an abstract type by its name exactly if the access flag of the convention is set.", "quantifier": "all declarations, names, tables of types, access states and flag settings", "why_tests_cant": "the space is the product of kinds of declaration, arbitrary names, and over twenty flags that act on each other", "anchors": ["src/nameChecks.c: checkNationalName, checkCzechName, checkSlovakName, checkExternalName"]}
{"id": "C129", "title": "Unused declarations", "statement": "At the end of a scope or of the run, a declaration of the program is reported exactly if it was never used, with the message for its kind, and at most once; a field of a structure is reported exactly if it was never used, at most once even if several types share it. What is used or in a library is never reported.", "quantifier": "all tables of entries with all kinds, locations and shared fields, and all ways in which messages may be suppressed", "why_tests_cant": "which entry reports a shared field depends on the order of the table, on names and on suppressed messages", "anchors": ["src/usymtab.c: usymtab_allUsed", "src/uentry.c: uentry_isParam, uentry_isRefParam"]}
{"id": "C130", "title": "Repeated definitions and declarations of functions", "statement": "A function is reported to be defined more than once exactly at its second and later definitions, and to be redeclared exactly at declarations that follow another one at a different place; declaring it extern before or making it static does not hide a second definition.", "quantifier": "all programs of declarations with any number of declarators, definitions and files, with all storage classes and locations", "why_tests_cant": "the messages depend on the storage class of the first declaration, on the order of declarations and definitions, and on a pending redeclaration that later declarators overwrite", "anchors": ["src/uentry.c: uentry_mergeDefinition, uentry_checkDecl, uentry_clearDecl, uentry_setFunctionDefined", "src/usymtab.c: usymtab_supEntryAux", "src/cgrammar.y: externalDef, fcnDef"]}
{"id": "C131", "title": "The type of a declarator is the one C gives it", "statement": "What a declaration declares has the type that C gives to its declarator: for any nesting of pointers, arrays, functions and parentheses that C allows, the type that is recorded is the base type wrapped from the outside of the declarator to the name.", "quantifier": "all declarators of any depth, named and abstract, with any number of stars, brackets, parameter lists and parentheses, and all base types", "why_tests_cant": "declarators nest without bound, and the types are built by a protocol of placeholder types in which parts are dropped or reordered only for particular nestings", "anchors": ["src/cgrammar.y: namedDeclBase, plainNamedDeclBase, abstractDeclBase", "src/ctbase.i: ctbase_newBase, ctbase_newBaseExpFcn, ctbase_makeFunction", "src/ctype.c: ctype_adjustPointers, ctype_makeInnerArray, ctype_makeInnerFixedArray, ctype_expectFunction", "src/idDecl.c: idDecl_fixBase, idDecl_fixParamBase, idDecl_notExpectingFunction"]}
{"id": "C132", "title": "A term of a specification is accepted exactly if it has one reading", "statement": "The sorts found for a term of an LCL specification are exactly those of its readings, that is of the choices of a declared or standard operator for every application and of a sort for every name and literal that fit together; a term is accepted exactly if there is one reading.", "quantifier": "all terms of any depth, all tables of overloaded operators and all sorts with synonyms", "why_tests_cant": "the number of readings is exponential in the depth of a term, and the faults need an overloaded operator below another one or on one side of a comparison", "anchors": ["src/checking.c: computePossibleSorts, checkSort, assignSorts, standardOperators, checkLclPredicate", "src/symtable.c: symtable_opsWithLegalDomain, domainMatches", "src/sortSet.c: sortSet_insert, sortSet_member"]}
{"id": "C133", "title": "What is required of a loop makes every iteration safe", "statement": "What the checker requires before a for loop whose body increments pointers holds exactly if the body's requirements hold in every iteration that takes place.", "quantifier": "all loops, all requirements of the body, all bounds and starting values of the counter, all program states and any number of iterations", "why_tests_cant": "one iteration must be compared with all others; the guess is wrong only by one, or only if the counter does not start at 0", "anchors": ["src/loopHeuristics.c: getForTimes, canGetForTimes, constraintExpr_searchAndAdd, constraintList_searchAndAdd, doAdjust, incVar", "src/constraintList.c: constraintList_add"]}
{"id": "C134", "title": "A type made from another leads back to it and is made only once", "statement": "The pointer type and the array type made from a type, and the type of a type name, have the base and the description asked for, keep it whatever types are made later, and are the same type each time they are asked for.", "quantifier": "all sequences of operations on the table of types, and all types in it", "why_tests_cant": "the cached numbers in an entry can go wrong only after some particular order of operations on the same type", "anchors": ["src/cttable.i: cttable_init, cttable_addDerived, cttable_addFull, cttable_addFullSafe", "src/ctype.c: ctype_makePointer, ctype_makeArray, ctype_makeFixedArray, ctype_createUser, ctype_baseArrayPtr, ctype_compare"]}
{"id": "C135", "title": "The alternatives of a combined type are those of both types", "statement": "The type that results from combining two types has exactly the alternatives of the first and of the second, where type names for the boolean type and for void * count as these types, and a type that is not known adds nothing.", "quantifier": "all sequences of operations on the table of types, and all pairs of types in it", "why_tests_cant": "the common combinations are kept in variables that depend on what was combined before, in any order", "anchors": ["src/ctype.c: ctype_makeConj, ctype_makeExplicitConj, ctype_makeAnytype, ctype_isAnytype, ctype_compare", "src/cttable.i: cttable_addComplex", "src/ctbase.i: ctbase_equivStrict, ctbase_compare, ctbase_makeConj"]}
{"id": "C136", "title": "The same name has the same symbol, and different names have different ones", "statement": "Looking up a name in the symbol table of specifications gives a symbol that stands for exactly this name from then on, the same each time the name is looked up and different from those of all other names, without accessing memory that is not allocated.", "quantifier": "all sequences of names of any length, with any hash values", "why_tests_cant": "collisions in chains and memory that is enlarged at the wrong moment depend on all names looked up before", "anchors": ["src/lsymbol.c: lsymbol_fromChars, lsymbol_toChars, AllocEntry, AllocEntrySpace, AllocChar, AllocCharSpace, lsymbol_initMod"]}
{"id": "C137", "title": "A synonym leads to the token it was declared for", "statement": "After a name has been declared as a synonym of a token, the name leads to this token, and all other names and tokens are as before.", "quantifier": "all tables, and all symbols for the name and the token", "why_tests_cant": "the tables are enlarged only when the symbols have large numbers, and by the wrong one of the two", "anchors": ["src/syntable.c: LSLAddSyn, SynTable_grow, LSLGetTokenForSyn, LSLIsSyn, lsynTableInit", "src/lclsyntable.c: LCLAddSyn, AllocSynTable, LCLGetTokenForSyn, LCLIsSyn", "src/tokentable.c: LSLInsertToken, LSLGetToken, LSLSetTokenHasSyn, AllocTokenTable", "src/lcltokentable.c: LCLInsertToken, LCLGetToken, LCLSetTokenHasSyn, AllocTokenTable"]}
{"id": "C138", "title": "User-defined states are changed and reported by transfers as declared", "statement": "When a value is passed, returned or assigned, each of its states becomes what the declared transfer says, and a report is issued exactly if the declaration makes the transfer an error; the same mistake with the same reference is reported once.", "quantifier": "all declarations of states, all tables of values, and all sequences of transfers, scope exits and lost references", "why_tests_cant": "states are declared by users, and which cell of which table is used depends on both references and on all earlier transfers", "anchors": ["src/transferChecks.c: checkMetaStateTransfer, checkMetaStateConsistent", "src/usymtab.c: usymtab_checkFinalScope (lost references)", "src/sRef.c: sRef_getMetaStateValue, sRef_setMetaStateValue"]}
{"id": "C139", "title": "Merging user-defined states follows the declared merges and changes nothing else", "statement": "Where branches meet, each state of a reference is merged as declared, and a conflict is reported at this place. An ensures clause gives its left side and the aliases of it the merged states of the operands, and changes no other state.", "quantifier": "all declarations, tables, null contexts, aliases and operand lists, with and without the arguments of '...'", "why_tests_cant": "the values are pointers into the tables of the operands, so that a wrong update is seen only in a later use of an argument", "anchors": ["src/uentry.c: uentry_mergeValueStates", "src/exprNode.c: reflectEnsuresClause", "src/sRef.c: sRef_setMetaStateValueComplete"]}
{"id": "C140", "title": "A call with wrong arguments is reported", "statement": "A call of a function is reported exactly if the number of its arguments is not the declared one (less than it, with '...'), and exactly those arguments are reported whose types do not match their parameters; no call is an internal error.", "quantifier": "all parameter lists (missing, void, fixed, with '...'), all argument lists including error nodes, special functions and formats", "why_tests_cant": "the loop ends at '...' or at the last argument, and the count is patched in between; errors need particular lengths of both lists", "anchors": ["src/exprNode.c: checkArgsReal, checkArgs, functionCallSafe"]}
{"id": "C141", "title": "Every argument of a call is checked, and its side effects are those of the call", "statement": "Each argument of a call is checked against its parameter or conversion, or at least as a use, and everything that evaluating it sets is set by the call.", "quantifier": "all calls: by name, through variables and other expressions, of undeclared functions, with any parameters, arguments, formats and flags", "why_tests_cant": "which of several nested conditions skips an argument depends on its position relative to the format, and a lost side effect is seen only in the surrounding expression", "anchors": ["src/exprNode.c: checkAnyCall, checkOneArg, checkGlobMods, checkUnspecCall, functionCallSafe, exprNode_functionCall, exprNode_mergeUSs"]}
{"id": "C142", "title": "Splint removes its temporary files, and no others", "statement": "When Splint ends, every file it has made for its own use is gone unless files are to be kept, and at no time does it remove a file that it did not make.", "quantifier": "all runs: any sequence of files entered, temporary names made, files created or failing to be, calls of the trait checker and ends, interleaved with any files made and removed by other processes", "why_tests_cant": "needs another process to make a file between the test for its existence and its creation, or a specification with traits and a look into the temporary directory afterwards", "anchors": ["src/fileTable.c: fileTable_addFilePrim, fileTable_addCTempFile, fileTable_addMacrosFile, fileTable_addltemp, fileTable_createFile, fileTable_createMacrosFile, fileTable_noDelete, fileTable_cleanup", "src/llmain.c: cleanupFiles", "src/lslparse.c: callLSL, invokeLSL", "src/cppmain.c: cppProcess"]}
{"id": "C143", "title": "Names of temporary files are new", "statement": "A name for a temporary file can always be made; it is the name of no file, and different from all the names made before.", "quantifier": "all sequences of requests of all kinds, with any finite set of files present at each", "why_tests_cant": "there are 26 * 26 * 26 words, and the end shows only after all of them are used up", "anchors": ["src/fileTable.c: nextMsg, makeTempName, fileTable_addltemp"]}
{"id": "C144", "title": "The table of open files has the files that are open", "statement": "Whatever is opened and closed in which order, the table has exactly the open streams, stays in its bounds, and each stream is closed exactly once; closing is reported only if it fails.", "quantifier": "all sequences of opening, closing and closing all, of any length", "why_tests_cant": "the table grows in steps of 64 and moves entries when one is closed", "anchors": ["src/fileTable.c: fileTable_addOpen, fileTable_growOpen, fileTable_closeFile, fileTable_closeAll", "src/cpplib.c: read_name_map"]}
{"id": "C145", "title": "The history of a state is shown completely and in order, and showing it does not change it", "statement": "When the changes that led to a state are shown, all of them are shown once in reverse order of their locations (with showdeephistory; otherwise the last), and they are the same after that.", "quantifier": "all histories stored in any cells of memory, and all contents of memory", "why_tests_cant": "sorting works in place, exchanges contents of cells and relinks them; which changes get lost depends on the order of all of them", "anchors": ["src/stateInfo.c: stateInfo_sort, stateInfo_display", "src/fileloc.c: fileloc_lessthan"]}
{"id": "C146", "title": "Updating the history of a state gives the new history", "statement": "stateInfo_update returns a history with the same value as the new one; recording a change puts it in front, once.", "quantifier": "all pairs of histories of any length, all changes", "why_tests_cant": "differs only if both histories have more than their last change, which is seen only with showdeephistory", "anchors": ["src/stateInfo.c: stateInfo_update, stateInfo_updateLoc, stateInfo_updateRefLoc"]}
{"id": "C147", "title": "The characters of an input file are read as they are, with their positions", "statement": "Reading a file character by character gives exactly its characters (with a newline at the end), and the current position counts its lines and columns.", "quantifier": "all contents of files, of any length, with any bytes", "why_tests_cant": "depends on the lengths of lines and on single bytes: a line of 799 characters, a byte 0 at the start of a line, a byte 255", "anchors": ["src/inputStream.c: inputStream_nextChar, inputStream_peekChar, inputStream_nextLine, inputStream_open"]}
{"id": "C148", "title": "The characters of a string are read as they are, and nothing behind them", "statement": "Reading a string as input gives exactly its characters (with a newline at the end), and then the end of the input; nothing behind the string is read.", "quantifier": "all strings", "why_tests_cant": "reading behind the end of a string is seen only if there is something there that looks like a line", "anchors": ["src/inputStream.c: inputStream_fromString, inputStream_nextLine"]}
{"id": "C149", "title": "The tokens of a state definition are found wherever it is clear where they end", "statement": "Scanning a definition of a state that is made of words, names, marks and strings, with blanks and comments in between (needed only between two words), gives these tokens.", "quantifier": "all sequences of tokens, and all blanks and comments between them", "why_tests_cant": "depends on every pair of neighbouring tokens; the manual's examples put blanks around marks", "anchors": ["src/mtscanner.c: mtscanner_initMod, skipComments, mtscanner_getNextToken", "src/inputStream.c: inputStream_peekNChar"]}
{"id": "C150", "title": "Alternate types with the same alternatives are the same, in whatever order they are given", "statement": "Two declarations with alternate types are taken for the same exactly if they have the same alternatives.", "quantifier": "all pairs of alternate types, of any number of alternatives in any order and nesting", "why_tests_cant": "needs three or more alternatives in every order; the test suite only has declarations with two", "anchors": ["src/ctype.c: ctype_sameAltTypes, ctype_makeExplicitConj", "src/cgrammar.y: altType", "src/uentry.c: uentry_checkMatchParam"]}
{"id": "C151", "title": "A call reports exactly the arguments that are not as the state clauses of the function demand", "statement": "At a call of a function with clauses (uses, sets, defines, allocates, releases, requires q), storage that is reached from an argument is reported for a clause exactly if, when the call is made, it is not in the state that the clause demands before the call.", "quantifier": "all lists of clauses over any number of parameters and paths, all states of storage", "why_tests_cant": "the verdict depends on the order of clauses about the same storage, and on every combination of sixteen definition states with allocation, null and user-defined states", "anchors": ["src/transferChecks.c: checkPassstateClauseList", "src/exprNode.c: checkRequiresClause", "src/stateClause.c: stateClause_getPreTestFunction, stateClause_getEffectFunction"]}
{"id": "C152", "title": "A return reports exactly what is not as the state clauses of the function promise", "statement": "At a return, storage that is reached from a parameter or from the returned expression is reported for a clause exactly if it is not in the state that the clause promises after the call.", "quantifier": "all lists of clauses, all states of parameters and of the returned expression", "why_tests_cant": "needs every kind of clause together with every null state of the returned expression, and clauses before it that also speak of the result", "anchors": ["src/transferChecks.c: transferChecks_return", "src/usymtab.c: usymtab_checkFinalScope", "src/stateClause.c: stateClause_getPostTestFunction, stateClause_getReturnEffectFunction"]}
{"id": "C153", "title": "What is assumed because of state clauses is what is checked on the other side", "statement": "In the function body, parameters are assumed to be as every clause demands of a call; after a call, arguments are assumed to be as every clause promises at a return.", "quantifier": "all lists of clauses, all states of storage", "why_tests_cant": "relates four different tables of functions in the checker, for all clauses and all earlier states", "anchors": ["src/stateClause.c: stateClause_getEntryFunction, stateClause_getEffectFunction, stateClause_getStateFunction", "src/usymtab.c: usymtab_handleParams", "src/exprNode.c: reflectEnsuresClause"]}
{"id": "C154", "title": "Functions with accepted state clauses can be checked and called without an internal bug", "statement": "For clauses with any qualifier that the grammar accepts, entering, returning from and calling the function never reach an impossible branch.", "quantifier": "all lists of clauses with all accepted qualifiers, all states", "why_tests_cant": "every qualifier must be combined with every kind of reference and both sides of the function; the test suite uses eight of the qualifiers", "anchors": ["src/stateClause.c: stateClause_getPreTestFunction, stateClause_getPostTestFunction, stateClause_getStateFunction", "src/cgrammar.y: stateQualifier"]}
{"id": "C155", "title": "Bounds facts that are known after an assignment hold after it", "statement": "When an assignment follows statements after which some bounds facts hold, every fact that is known after both holds in the state after the assignment.", "quantifier": "all lists of facts, all variables and assigned expressions, all states", "why_tests_cant": "the facts kept depend on which of them contain the variable, and a wrong fact only shows in a program where it hides an access out of bounds", "anchors": ["src/constraintResolve.c: constraintList_mergeEnsures, constraintList_fixConflicts, reflectChangesEnsures, constraintList_subsumeEnsures, exprNode_mergeResolve", "src/constraintList.c: constraintList_add"]}
{"id": "C156", "title": "A cast from or to an abstract type is reported", "statement": "If the type of an expression or the type it is cast to is, below pointers, arrays and names, an abstract type that the context has no access to, the cast is reported, unless it is to void, of zero or between types that match; and nothing else is reported as such a cast.", "quantifier": "all types, all contexts, all expressions", "why_tests_cant": "a cast that is not reported is only missed for a type with the right mix of names and pointers", "anchors": ["src/exprNode.c: exprNode_cast", "src/ctype.c: ctype_getBaseType, ctype_realType, ctype_isRealAbstract"]}
{"id": "C157", "title": "A cast between a function pointer and another pointer is reported as what it is", "statement": "The message that a function pointer is cast to another pointer, or another pointer to a function pointer, is given for just these casts, with the types in their order.", "quantifier": "all types, all contexts, all expressions", "why_tests_cant": "tests look for the number of messages; which of the two it is, and names for types of functions, are easily left out", "anchors": ["src/exprNode.c: exprNode_cast", "src/ctype.c: ctype_baseArrayPtr, ctype_isFunction"]}
{"id": "C158", "title": "Casts to void and of zero are allowed, and a cast to an abstract type that exposes its representation is reported", "statement": "A cast to void is reported only for fresh storage; a cast of zero to a pointer is not reported as a use of an abstract type; storage that is visible outside and neither exposed nor only is reported when it is cast to an abstract type by any name, unless it already is one.", "quantifier": "all types, all contexts, all expressions", "why_tests_cant": "the conditions are on seven attributes of the storage and both types", "anchors": ["src/exprNode.c: exprNode_cast"]}
{"id": "C159", "title": "The name of a macro is read as C has it", "statement": "For every macro definition, the name that is looked up is the identifier after define, parameters are seen just if a parenthesis directly follows it, and it is taken to be empty just if only white space does.", "quantifier": "all texts of macro definitions", "why_tests_cant": "tests define macros with a space or a parenthesis after the name", "anchors": ["src/cpplib.c: cpp_shouldCheckMacro"]}
{"id": "C160", "title": "Comments before a macro definition are for that definition only", "statement": "After notfunction or notparseable, the next definition is not checked and the comment is then used up; after iter the next two are checked, after constant the next one.", "quantifier": "all combinations of comments, all definitions, flags and symbol tables", "why_tests_cant": "what is left over depends on combinations of comments and shows only at the next definition", "anchors": ["src/cpplib.c: cpp_shouldCheckMacro"]}
{"id": "C161", "title": "Whether a macro is checked follows from the flags and from what its name is", "statement": "A macro without comments is checked just if the flags say so for what its name is; its name is known afterwards and no other is changed; and the same definition is decided the same when it is read again.", "quantifier": "all definitions, flags, places and symbol tables", "why_tests_cant": "reading a definition twice, after a declaration of the same name, is rare in tests", "anchors": ["src/cpplib.c: cpp_shouldCheckMacro", "src/uentry.c: uentry_whereLast, uentry_setDefined", "src/usymtab.c: usymtab_exists, usymtab_existsReal, usymtab_existsType"]}
{"id": "C162", "title": "An integer literal that is accepted for an integer type is a value of that type", "statement": "If an integer literal is accepted where an integer type is expected, by whatever name, its value is one that the type has; zero is always accepted.", "quantifier": "all types, names for them, flags, values, and sizes of types", "why_tests_cant": "tests use small numbers and types without names", "anchors": ["src/exprNode.c: exprNode_matchLiteral", "src/ctype.c: ctype_isUnsigned, ctype_isRealInt, ctype_isRegularInt"]}
{"id": "C163", "title": "A name for a type makes no difference to the literals accepted for it", "statement": "The same literals are accepted for a type and for a name defined as that type.", "quantifier": "all types, flags and literals", "why_tests_cant": "whether the name or the type is looked at differs between the tests in the code", "anchors": ["src/exprNode.c: exprNode_matchLiteral", "src/ctype.c: ctype_isUnsigned, ctype_isChar, ctype_isAnyFloat"]}
{"id": "C164", "title": "Globals are checked for the state they should be in when a function returns", "statement": "With the flag for the state of globals set, every global variable that a function lists or uses is checked once. One that is not listed as killed is reported just if it is undefined, holds released or kept storage, or may be null and is not declared so. One that is killed is not reported if it is released, or certainly null.", "quantifier": "all lists of globals, all sets of used globals, and all states of them", "why_tests_cant": "tests check one global at a time; whether the checks of one change those of another needs all combinations", "anchors": ["src/usymtab.c: checkGlobalReturn, usymtab_checkFinalScope"]}
{"id": "C165", "title": "The qualifiers undef and killed of a listed global hold if they are written", "statement": "A global in the list of a function is taken to be undefined before the call just if undef is among its qualifiers, and to be released by the function just if killed is, in whatever order the qualifiers are written.", "quantifier": "all lists of qualifiers that the grammar has for a listed global, and all types of the global", "why_tests_cant": "tests have one or two qualifiers, in the usual order", "anchors": ["src/clabstract.c: reflectGlobalQualifiers, clabstract_createGlobal", "src/cgrammar.y: optGlobQuals", "src/varKinds.c: sstate_fromQual"]}
{"id": "C166", "title": "What is specified or declared and not defined is reported once", "statement": "When all files are read, each entry that is declared in a file of the program and defined nowhere, and each that is specified for it and neither declared nor defined, is reported by one message; there is none about entries that are specified only in libraries or imported specifications.", "quantifier": "all tables of entries, all places where these are specified, declared and defined, and all flags", "why_tests_cant": "there are ten kinds of places for each of three roles, and tests have few of them", "anchors": ["src/usymtab.c: usymtab_allDefined", "src/fileloc.c: fileloc_isLib, fileloc_isXHFile, fileloc_isUser"]}
{"id": "C167", "title": "A mapping from types to sorts gives the sort bound last", "statement": "After any bindings, a mapping gives for each symbol the one it was bound to last, and the undefined one if it was never bound; symbols in the same bucket do not disturb each other, no access is outside of the array, and translating a sort that is not bound leaves it as it is.", "quantifier": "all sequences of bindings and all symbols", "why_tests_cant": "the code assumes that a binding is a new one, and tests have few symbols in one bucket", "anchors": ["src/mapping.c: mapping_create, mapping_find, mapping_bind", "src/symtable.c: lsymbol_translateSort"]}
{"id": "C168", "title": "Different infix operators without parentheses are reported in specifications", "statement": "A term of operands and infix operators without parentheses is read from the left and nothing in it is lost; the pairs of operators reported as needing parentheses are those of different operators that follow each other.", "quantifier": "all sequences of operators and operands", "why_tests_cant": "tests have two operators, where the first one is also the last one before", "anchors": ["src/abstract.c: pushInfixOpPartNode, checkAssociativity, CollapseInfixTermNode", "src/llgrammar.y: simpleOpTerm, infixOpPart", "src/termNodeList.c: termNodeList_reset, termNodeList_current"]}
{"id": "C169", "title": "Lists of terms that grow at both ends hold what was put there", "statement": "After any calls that add at either end or move the current position, a list holds the elements in their order, the position is where it should be, no call has accessed anything outside of the array, and reading the current element gives an element or fails the assertion.", "quantifier": "all sequences of calls, of any length, and all elements", "why_tests_cant": "growth at one end resets the space at the other, so all interleavings matter", "anchors": ["src/termNodeList.c: termNodeList_new, termNodeList_grow, termNodeList_addh, termNodeList_addl, termNodeList_finish, termNodeList_advance, termNodeList_current, termNodeList_getN, termNodeList_head"]}
{"id": "C170", "title": "Macros are defined on the command line as they are written", "statement": "For a flag -D in which each double quote that is not behind a backslash is closed, the text that is given to the preprocessor is the text of the flag; otherwise, an unclosed quote is reported.", "quantifier": "all texts of flags, of any length", "why_tests_cant": "quotes are added in one function and taken away in another; whether they fit depends on what is around the string", "anchors": ["src/llmain.c: handlePassThroughFlag", "src/osd.c: osd_fixDefine"]}
