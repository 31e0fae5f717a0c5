#!/usr/bin/env python3
"""Writes /verif/properties.jsonl (one JSON object per line)."""
import json, os
P = []
def p(id, title, statement, quantifier, why, anchors):
    P.append(dict(id=id, title=title, statement=statement, quantifier=quantifier,
                  why_tests_cant=why, anchors=anchors))

p("C01", "Source positions are totally ordered and the 'not after' test agrees with the order",
  "Comparing two source positions orders them by file, then line, then column, with the undefined position first; the comparison is a total preorder, it answers 0 exactly for positions with the same file, line and column, and the strict and 'not after' tests used to decide whether a control comment precedes a warning agree with it within one file.",
  "all pairs and triples of source positions (any file id, line and column, defined or undefined, library or not)",
  "order laws range over all triples of unbounded integers; a test can only sample triples",
  ["src/fileloc.c: fileloc_compare, fileloc_equal, fileloc_lessthan, fileloc_notAfter, fileloc_sameFile, fileloc_almostSameFile, fileloc_withinLines"])

p("C02", "A warning is never reported twice and two different warnings are never confused",
  "For any sequence of warnings, a warning is reported as new exactly when no earlier warning of the run had the same text at the same source position; the log stays sorted by position and text.",
  "all finite sequences of (position, text) pairs logged from the empty log",
  "the log is a sorted array searched from one insertion index: a missed or false duplicate depends on the whole history of previously logged messages",
  ["src/messageLog.c: messageLog_add, messageLog_getIndex, messageLogEl_messageLess, messageLogEl_messageEqual"])

p("C03", "Warnings inside an ignore region are not reported, warnings outside every region are",
  "After any sequence of ignore-region, line-count and local-flag comments accepted by the tool, a warning is suppressed by a region exactly when the closest region marker that is not after the warning opens a region that has not been closed.",
  "all histories of control comments in any files, all warning positions and flags",
  "depends on the relative order of an unbounded list of markers and the warning position",
  ["src/flagMarkerList.c: flagMarkerList_add, flagMarkerList_suppressError, flagMarkerList_inIgnore, flagMarkerList_lastBeforeMarker", "src/flagMarker.c: flagMarker_beforeMarker, flagMarker_suppresses", "src/context.c: context_inSuppressZone, context_inSuppressFlagZone"])

p("C04", "A local flag comment governs exactly the text after it until the next comment for that flag",
  "For a warning controlled by a flag, the setting used is the one of the last local comment for this flag at or before the warning in the same file, and the command-line setting if there is none.",
  "all marker lists built by the tool, all flags, all positions",
  "quantifies over all interleavings of local flag comments",
  ["src/flagMarkerList.c: flagMarkerList_suppressError", "src/context.c: context_inSuppressFlagZone, context_suppressFlagMsg, context_suppressSpecFlag"])

p("C05", "Counted suppressions report exactly the regions whose count is wrong",
  "At the end of a run a complaint is issued for a counted ignore comment exactly when it expected a positive number n of suppressed warnings and the number of warnings it actually suppressed differs from n, whatever the order of warnings.",
  "all marker lists and all sequences of warnings tested against them",
  "the counters are mutated by every suppressed warning in the run; the claim is about all histories",
  ["src/flagMarkerList.c: flagMarkerList_checkSuppressCounts, flagMarkerList_suppressError", "src/flagMarker.c: flagMarker_incSuppressed, flagMarker_getSuppressed"])

p("C06", "The message limit loses no warning from the accounting",
  "For every sequence of warnings and every limit, the warnings shown plus those announced as 'more similar errors unprinted' equal the warnings generated; of each consecutive same-text group the first limit+1 messages are printed, then either the single remaining one or the number remaining; and the total used for the exit status counts all of them.",
  "all sequences of warnings (kind, text) interleaved with end-of-file flushes, all limits",
  "stateful counter across an arbitrary history",
  ["src/llerror.c: llgenerrorreal, limitmessage, cleanupMessages", "src/context.c: context_hasError, context_unlimitedMessages, context_getLimit"])

p("C07", "Line wrapping loses no text and terminates",
  "Splitting a message for any line length outputs pieces whose concatenation is the original text up to the removed blanks and newlines at the split points, each call makes progress, and no piece exceeds the line length.",
  "all strings without indentation codes, all line lengths",
  "unbounded strings; boundary arithmetic on pointers",
  ["src/llerror.c: mstring_split, printMessage, printIndentMessage, printError"])

p("C08", "The value of a #if expression is its C value",
  "For every integer constant expression built from literals, parentheses and the C unary, binary and conditional operators, the tool's preprocessor computes the value (and signedness) C prescribes, whatever parentheses are omitted in accordance with the C grammar.",
  "all expressions of any depth, all literal values",
  "operator-precedence parser with an explicit stack; all expression trees",
  ["src/cppexp.c: cppReader_parseExpression, cppexp_lex, LOGICAL, left_shift, right_shift"])

p("C09", "The #if evaluator never leaves its operand stack",
  "For every token sequence the evaluator ends with a value or a reported error and never reads or writes outside the operand stack or reads an operand that was never written.",
  "all finite token sequences",
  "memory safety over all inputs, including malformed ones",
  ["src/cppexp.c: cppReader_parseExpression"])

p("C10", "Conditional compilation keeps exactly the selected groups",
  "For every properly nested sequence of #if/#ifdef/#ifndef/#elif/#else/#endif groups, the text lines passed on are exactly those of the first group whose condition is true (or the #else group if none is), conditions of skipped groups are never evaluated, and macro definitions in skipped groups have no effect.",
  "all nested conditional structures, all line contents, all initial macro sets",
  "unbounded nesting; skipping and processing use different code paths that must agree",
  ["src/cpplib.c: do_if, do_xifdef, do_elif, do_else, do_endif, conditional_skip, skip_if_group"])

p("C11", "A macro name means its most recent live definition",
  "For every sequence of #define, #undef and temporary definitions, looking a name up yields the definition most recently installed and not removed, for that name only.",
  "all histories of install and delete operations, all names, any hash collisions",
  "hash chains are doubly linked lists mutated in place; correctness under collisions depends on history",
  ["src/cpphash.c: cpphash_install, cpphash_lookup, cppReader_deleteMacro, cpphash_hashCode"])

p("C12", "Command-line macros are the same for every file",
  "Restoring the saved macro table before each file gives every command-line macro the same definition (parameters, replacement pattern and expansion flags) it had when it was defined.",
  "all macro tables and all definitions with any number of parameter uses",
  "structural copy of linked structures of any length",
  ["src/cpphash.c: cppReader_saveHashtab, cppReader_restoreHashtab, hashNode_copy"])

p("C13", "Keyed tables return the last value stored",
  "For every history of insert, update, rename and remove, looking a key up returns the value last associated with it, or 'not found' if there is none, across any number of rehashes.",
  "all operation histories, all keys, any hash function values",
  "rehashing and bucket collisions depend on history and sizes",
  ["src/cstringTable.c: cstringTable_insert, cstringTable_lookup, cstringTable_update, cstringTable_replaceKey, cstringTable_remove, cstringTable_rehash, cstringTable_addEntry", "src/genericTable.c: genericTable_insert, genericTable_lookup, genericTable_update, genericTable_remove"])

p("C14", "Table hashing only reads inside the random-number table",
  "Hashing a key reads the random table within its 256 entries and yields a bucket inside the table, for every key string.",
  "all strings, including characters with the sign bit set",
  "all byte strings",
  ["src/cstringTable.c: cstringTable_hashValue", "src/genericTable.c: genericTable_hashValue", "src/randomNumbers.c: g_randomNumbers"])

p("C15", "Library files read back what was written: numbers and constants",
  "Reading back a dumped integer, constant value or nullability code yields the value that was dumped and consumes exactly its text.",
  "all integers and all constant values, any text following",
  "infinite value domain",
  ["src/reader.c: reader_getInt, reader_loadChar, reader_checkChar", "src/multiVal.c: multiVal_dump, multiVal_undump", "src/ynm.c: ynm_unparseCode, ynm_fromCodeChar"])

p("C16", "Library files read back what was written: access sets and bounds constraints",
  "Reading back a dumped set of type identifiers, or a dumped bounds expression, yields the value that was dumped and consumes exactly its text.",
  "all sets and all expression trees",
  "recursive format; unbounded trees",
  ["src/usymIdSet.c: usymIdSet_dump, usymIdSet_undump", "src/constraintExpr.c: constraintExpr_dump, constraintExpr_undump", "src/constraintTerm.c: constraintTerm_dump, constraintTerm_undump", "src/constraint.c: constraint_dump, constraint_undump"])

p("C17", "Constant folding is exact or gives up",
  "Adding, subtracting, multiplying or dividing two known constants gives the mathematically correct value of the matching kind or 'unknown'; dividing by zero gives 'unknown'.",
  "all pairs of constant values",
  "infinite domain; partiality",
  ["src/multiVal.c: multiVal_add, multiVal_subtract, multiVal_multiply, multiVal_divide, multiVal_invert"])

p("C18", "Orderings used for sorting and deduplication are consistent",
  "The comparison functions of nullability values and constants, used to sort and deduplicate declarations, are consistent: comparing in the opposite order gives the opposite answer.",
  "all pairs of values",
  "law over all pairs; violated only by particular mixed pairs",
  ["src/ynm.c: ynm_compare", "src/multiVal.c: multiVal_compare", "src/usymIdSet.c: usymIdSet_compare"])

p("C19", "Integer sets behave as sets",
  "After any sequence of insertions into an integer set, an integer is reported as a member exactly when it was inserted, and the size is the number of distinct insertions.",
  "all sequences of insertions and all query integers",
  "depends on order of elements",
  ["src/intSet.c: intSet_insert, intSet_member, intSet_size"])

p("C20", "Access sets are canonical",
  "A type-access set obtained through any sequence of insert, union, subtract and remove operations has exactly the expected members, and two sets with the same members always receive the same identifier.",
  "all operation histories on the interning table",
  "interning depends on the global history of all sets ever created",
  ["src/typeIdSet.c: typeIdSet_insert, typeIdSet_union, typeIdSet_subtract, typeIdSet_removeFresh, typeIdSet_member, typeIdSet_addEntry", "src/usymIdSet.c: usymIdSet_add, usymIdSet_newUnion, usymIdSet_subtract, usymIdSet_removeFresh, usymIdSet_member, usymIdSet_compare"])

p("C21", "Null guards are sound for every compound condition",
  "For every condition built from null tests with !, && and ||, a reference the tool treats as guarded in the true (false) branch is non-null in every execution in which the condition evaluates to true (false).",
  "all condition trees and all valuations of the references",
  "all condition trees of any depth and all program states",
  ["src/guardSet.c: guardSet_or, guardSet_and, guardSet_flip, guardSet_invert, guardSet_addTrueGuard, guardSet_addFalseGuard, guardSet_isGuarded", "src/exprNode.c: exprNode_combineGuards use in exprNode_op, exprNode_preOp"])

p("C22", "Merging branches never turns a possibly-null reference into a non-null one",
  "When the null states of a reference at the end of two branches are merged, the result is reported as possibly null whenever either branch allows null.",
  "all pairs of null states",
  "a law over the whole state table that must hold for each pair",
  ["src/sRef.c: sRef_combineNullState", "src/varKinds.c: nstate_possiblyNull, nstate_perhapsNull"])

p("C23", "Merging branches never turns possibly-undefined storage into defined storage",
  "When definition states of a reference at the end of two branches are merged, the result is at most as defined as each branch.",
  "all pairs of definition states and all sequences of merges",
  "law over the whole table and arbitrary folds of it",
  ["src/sRef.c: sRef_combineDefState, sRef_combineExKinds"])

p("C24", "Escape kinds over-approximate control flow",
  "For every structured statement, if some execution leaves it by exit, return or goto (or falls through), the kind computed for the statement allows this outcome; in particular code is called unreachable only if no execution reaches it.",
  "all statement trees and all executions",
  "all statement nestings and all executions",
  ["src/varKinds.c: exitkind_combine, exitkind_makeConditional, exitkind_couldExit, exitkind_couldEscape", "src/Headers/varKinds.h: exitkind_mustEscape"])

p("C25", "Simplifying a bounds expression preserves its value",
  "For every bounds expression and every program state, simplification yields an expression with the same value.",
  "all expression trees and all valuations",
  "algebraic rewriting over all trees and states",
  ["src/constraintExpr.c: constraintExpr_simplify, constraintExpr_propagateConstants, constraintExpr_combineConstants, constraintExpr_simplifybinaryExpr, constraintExpr_simplifyunaryExpr, constraintExpr_simplifyChildren"])

p("C26", "Rearranging a bounds constraint preserves its truth",
  "Simplifying, solving and swapping the two sides of a bounds constraint yields a constraint true in exactly the same program states.",
  "all constraints and all valuations",
  "all expression trees and all program states",
  ["src/constraintResolve.c: constraint_simplify, constraint_solve, constraint_swapLeftRight, flipAr", "src/constraintExpr.c: constraintExpr_solveBinaryExpr"])

p("C27", "A bounds constraint dropped as always true is always true",
  "A constraint the checker discards as a tautology holds in every program state.",
  "all constraints and all valuations",
  "soundness over all states",
  ["src/constraintResolve.c: constraint_isAlwaysTrue, rangeCheck, sizeofBufComp, sizeOfMaxSet"])

p("C28", "A bounds requirement dropped as implied really is implied",
  "A required constraint is dropped because of a known fact only if every program state satisfying the fact satisfies the requirement.",
  "all pairs of constraints, all lists of facts and all valuations",
  "soundness over all states",
  ["src/constraintResolve.c: satisfies, rangeCheck, arithType_canResolve, constraintList_resolve, reflectChangesNoOr, constraint_substitute, constraintList_subsumeEnsures"])

p("C29", "Substitution of equals in bounds constraints is exact",
  "Replacing one expression by another in a bounds expression does not change its value in any state in which the two are equal, and the occurs-check reports occurrences correctly.",
  "all expression trees, all replaced terms, all valuations",
  "structural recursion over unbounded trees",
  ["src/constraintExpr.c: constraintExpr_searchandreplace, constraintExpr_search, constraintExpr_similar"])

p("C30", "Bounds-constraint simplification terminates",
  "Simplification of every bounds constraint terminates, including the case where the two sides are exchanged and simplification restarts.",
  "all constraints",
  "termination for all inputs; the source comment only hopes for it",
  ["src/constraintResolve.c: constraint_simplify", "src/constraintExpr.c: constraintExpr_solveBinaryExpr, constraintExpr_simplify"])

p("C31", "Leaving a scope forgets exactly the references of that scope",
  "When a block ends, every alias fact about references still in scope is kept and every fact about references that went out of scope is removed.",
  "all reference sets and alias tables, all scope levels",
  "in-place compaction loop over unbounded arrays",
  ["src/sRefSet.c: sRefSet_levelPrune", "src/aliasTable.c: aliasTable_levelPrune"])

p("C32", "Reference sets behave as sets",
  "After any sequence of insertions, deletions, unions and intersections a reference is a member exactly when set algebra says so, and no reference is stored twice.",
  "all operation histories",
  "in-place array updates over arbitrary histories",
  ["src/sRefSet.c: sRefSet_insert, sRefSet_delete, sRefSet_deleteBase, sRefSet_union, sRefSet_intersect, sRefSet_member, sRefSet_copyInto, sRefSet_levelCopy"])

p("C33", "Alias facts are kept until killed and never invented",
  "For any sequence of assignments, the recorded may-alias relation contains the alias created by each assignment until one side is assigned again, and clearing a reference removes every fact about storage reached through it.",
  "all sequences of alias-table operations",
  "history dependent relation",
  ["src/aliasTable.c: aliasTable_addMustAlias, aliasTable_addSet, aliasTable_clearAliases, aliasTable_canAlias, aliasTable_levelUnion"])

p("C34", "The exit status tells whether the run matched expectations",
  "The process exits successfully exactly when the number of code warnings equals the expected number, the number of specification warnings equals the expected number, and no internal bug was reported.",
  "all counts of warnings, expected warnings and bugs",
  "unbounded counts; boundary cases of nested conditionals",
  ["src/llmain.c: main (lines 966-1100), llexit", "src/context.c: context_anyErrors, context_numErrors, context_getExpect, context_getLCLExpect"])

p("C35", "Selecting a mode or a flag group sets exactly the documented flags",
  "Setting a mode sets every mode-controlled flag to its table value and leaves every other flag unchanged; setting a flag that is a group sets exactly the flags of its group; later settings win.",
  "all flag states, all sequences of flag settings",
  "state space of several hundred flags and unbounded sequences of settings",
  ["src/context.c: context_setMode, context_setFlagAux, context_resetAllFlags, context_fileSetFlag, context_saveFlagSettings, context_restoreFlagSettings"])

p("C36", "Local flag changes end with the file",
  "Flag changes made by control comments inside a file are undone when the file ends: the next file starts with the command-line settings, and '=flag' restores the command-line setting of that flag.",
  "all sequences of local flag changes",
  "history dependent state",
  ["src/context.c: context_saveFlagSettings, context_restoreFlagSettings, context_fileSetFlag"])

p("C37", "Flag names are recognised up to spelling",
  "Flag names differing only in ignored punctuation and abbreviations listed by the manual select the same flag, and canonicalisation is idempotent.",
  "all strings",
  "unbounded strings",
  ["src/flags.c: canonicalizeFlag, identifyFlagAux"])

p("C38", "Include nesting is tracked exactly",
  "When no file is open twice at a time, a warning about include nesting is given exactly for the inclusions whose depth (files below the main file, special files not counted) exceeds the limit, each once, at the #include, with the chain of include sites that leads there; re-entering an open file returns to it instead of nesting.",
  "all trees of include files, all limits, and all sequences of files",
  "history dependent stack",
  ["src/filelocStack.c: filelocStack_popPushFile, filelocStack_includeDepth, filelocStack_nextTop, filelocStack_printIncludes, filelocStack_clear", "src/context.c: context_setFilename"])

p("C39", "Every cached macro is checked exactly once",
  "For every sequence of macro registrations and checking passes, each registered macro position is processed at most once, with its latest registered text, and after the final pass every registered macro has been processed.",
  "all histories of registrations and passes",
  "history dependent flags",
  ["src/macrocache.c: macrocache_addGenEntry, macrocache_exists, macrocache_processUndefinedElements, macrocache_processFileElements"])

p("C40", "State-machine tables answer what was declared",
  "Looking a pair of states up in a user-defined state-combination table returns the most recently declared entry for that pair, the first state unchanged if none was declared, and declarations for other pairs do not interfere.",
  "all table sizes and all sequences of declarations",
  "unbounded sizes and histories; flattened indexing",
  ["src/stateCombinationTable.c: stateCombinationTable_create, stateCombinationTable_set, stateCombinationTable_update, stateCombinationTable_lookup, stateCombinationTable_lookupLoseReference"])

p("C41", "Ownership annotations combine consistently",
  "Deriving the ownership of a component from its container, comparing ownership kinds and resolving implicit kinds obey the documented rules for all kinds: equality is reflexive and symmetric, compatibility admits exactly the documented pairs, and derived kinds never gain ownership.",
  "all pairs of ownership kinds and all nestings",
  "laws over the whole table and unbounded nesting",
  ["src/varKinds.c: alkind_derive, alkind_compatible, alkind_equal, alkind_fixImplicit, alkind_resolve"])

p("C42", "A modifies clause permits exactly what it lists",
  "With a modifies clause, a modification of storage is reported exactly when neither the storage nor any storage containing it is listed, regardless of whether unused-modification checking is enabled.",
  "all storage expressions and all modifies lists",
  "recursive storage paths of unbounded depth",
  ["src/sRef.c: sRef_checkModifyVal, sRef_checkModify, sRef_doModifyVal, sRef_doModify, sRef_canModify, sRef_canModifyVal"])

p("C43", "Storage identity is an equivalence",
  "The test whether two storage expressions denote the same storage is reflexive, symmetric and transitive.",
  "all pairs and triples of storage expressions of any depth",
  "laws over all triples of recursive structures",
  ["src/sRef.c: sRef_realSame, sRef_same, sRef_similar, sRef_includedBy"])

p("C44", "Nested clauses are tracked as a stack",
  "For any properly nested sequence of entering and leaving control clauses, leaving a clause restores the clause context in force before it was entered.",
  "all well-nested sequences of clause entries and exits",
  "unbounded nesting",
  ["src/clauseStack.c: clauseStack_push, clauseStack_pop, clauseStack_removeFirst, clauseStack_switchTop, clauseStack_controlDepth"])

p("C45", "Merging branches never silently loses a release obligation",
  "For every pair of states of a storage location at the end of two branches, if in one of them the program must still release the storage then it must do so in the merged state, or the merge is reported as inconsistent.",
  "all pairs of storage states and all settings of the reference",
  "all combinations of alias kinds, definition states and null states",
  ["src/sRef.c: sRef_combineAliasKinds, sRef_combineAliasKindsError, sRef_mergeStateAux"])

p("C46", "Growable arrays stay inside their allocation",
  "Every history of operations on a growable array (push, pop, replace, remove, clear) writes only inside the allocated space and leaves exactly the elements the corresponding list operations would leave.",
  "all histories of operations of any length",
  "unbounded histories; a write past the allocation need not be observable in a run",
  ["src/clauseStack.c: clauseStack_grow, clauseStack_push, clauseStack_pop, clauseStack_removeFirst, clauseStack_clear"])

p("C47", "Merge clauses of user-defined states are symmetric unless stated otherwise",
  "The merge of two user-defined states is what the last matching merge clause says; if no clause is written for the pair in this order, merging gives the same result as in the opposite order, and an error if neither order is mentioned.",
  "all lists of values and all lists of merge clauses, including wildcards and unknown names",
  "clauses interact through their order; there are unboundedly many clause lists",
  ["src/mtDeclarationNode.c: mtDeclarationNode_process", "src/stateCombinationTable.c: stateCombinationTable_update, stateCombinationTable_lookup"])

p("C48", "Global-modification flags govern what their documentation says",
  "A modification of a global variable of a given checking level is looked at exactly when the flag documented for that level, with or without a modifies clause, is on.",
  "all flag settings, checking levels and both kinds of functions",
  "a documented meaning for every combination of flags; a test exercises one setting",
  ["src/context.c: context_checkGlobMod", "src/flags.def: modglobsnomods, modstrictglobsnomods, modglobsunchecked"])

p("C49", "Unused modifies-clause elements are exactly those no modification touches",
  "After any sequence of modifications in a function body, the listed objects reported as never modified are exactly the ones similar to no part of any modified storage.",
  "all modifies lists and all sequences of modifications of any length",
  "unbounded sequences over recursive storage expressions",
  ["src/sRef.c: sRef_doModifyVal, sRef_doModify", "src/sRefSet.c: sRefSet_modifyMember", "src/exprChecks.c: checkModifyAuxAux, exprNode_checkAllMods"])

p("C50", "Variables holding the same pointer are recorded as aliases",
  "After any sequence of assignments between local pointer variables, any two variables whose values are copies of the same pointer are recorded as aliases of each other.",
  "all sequences of assignments and all pairs of local variables",
  "needs a chain of copies in a particular order; there are unboundedly many",
  ["src/aliasTable.c: aliasTable_addMustAlias, aliasTable_canAlias, aliasTable_aliasedBy", "src/usymtab.c: usymtab_addForceMustAlias, usymtab_allAliases", "src/exprNode.c: updateAliases"])

p("C51", "References shown non-null by a condition are guarded, and no others",
  "For every condition built from null tests of variables, fields and pointer targets with !, && and ||, the references treated as guarded in a branch are exactly those shown non-null by reading the condition structurally: a test in the true branch, both sides of an && that holds, and what both sides of an || show.",
  "all condition trees over field and pointer paths, both branches",
  "all condition trees of any depth; a missed guard is a false report for some shape only",
  ["src/guardSet.c: guardSet_or, guardSet_and, guardSet_flip, guardSet_invert", "src/exprNode.c: exprNode_makeOp, exprNode_preOp, exprNode_produceGuards, reflectNullTest"])

p("C52", "An assignment removes the null guards it invalidates",
  "After an assignment to a reference, neither the reference nor anything reached through it is treated as known to be non-null, and other references are as before.",
  "all scopes with any guards, all references",
  "depends on which guards are in which enclosing scope and on how references contain each other",
  ["src/usymtab.c: usymtab_unguard, usymtab_isGuardedAux", "src/guardSet.c: guardSet_delete", "src/exprNode.c: updateAliases"])

p("C53", "Conditionals that are not properly nested are reported",
  "The preprocessor reports a file exactly when its #if/#elif/#else/#endif directives are not properly nested, whatever is defined, and a file that is not reported leaves no conditional open.",
  "all sequences of lines, all meanings of conditions and of the other lines",
  "the complaints come from two code paths, depending on which groups are skipped",
  ["src/cpplib.c: do_elif, do_else, do_endif, skip_if_group, cpplib_getTokenAux (end of file)"])


p("C54", "Passing over a repeated #include changes nothing",
  "When a file has been recorded as guarded by a macro and the macro is defined, not reading the file again "
  "gives the same text and the same macros as reading it.",
  "for all sets of files with properly nested conditionals, all conditions, all initial macros and all depths of inclusion",
  "The shortcut shows only with a particular arrangement of guard, #elif, earlier directives and empty headers, on the second inclusion.",
  ["src/cpplib.c: do_include", "src/cpplib.c: redundant_include_p", "src/cpplib.c: do_xifdef", "src/cpplib.c: do_elif",
   "src/cpplib.c: do_else", "src/cpplib.c: do_endif"])


p("C55", "Library files read back what was written: storage references",
  "Reading back a dumped storage reference, or a dumped list of them (what a function modifies, for instance), yields the references that were dumped and consumes exactly their text.",
  "all references, nested to any depth, and all lists of them",
  "recursive format in which parts are told apart by single characters; unbounded nesting",
  ["src/sRef.c: sRef_dump, sRef_undump", "src/sRefSet.c: sRefSet_dump, sRefSet_undump"])


p("C56", "A name refers to its innermost declaration",
  "Whatever blocks, branches, loops and switches surround it, a use of a name is resolved to the innermost declaration that is in scope, and after each statement exactly the scopes are open that should be.",
  "all statements nested to any depth and all enclosing scopes",
  "branches are kept as partial copies of the tables outside, which are searched, filled and merged on the way; unboundedly many nestings",
  ["src/usymtab.c: usymtab_lookupAux, usymtab_addRefEntry, usymtab_dropEnv, usymtab_exitScope, usymtab_popBranches, usymtab_newCase, usymtab_exitSwitch"])

p("C57", "What is known after branches allows for every path",
  "If a variable may have a problematic state (null, dead, undefined) at the end of some path through a statement, its recorded state after the statement allows for that.",
  "all statements, all paths through them, all initial states, all ways to merge states that keep both possibilities",
  "unboundedly many paths; the merge of a path that is lost shows only for particular nestings",
  ["src/usymtab.c: usymtab_popBranches, usymtab_popTrueBranch, usymtab_popOrBranch, usymtab_popAndBranch, usymtab_newCase, usymtab_exitSwitch", "src/uentry.c: uentry_mergeState"])

p("C58", "The reference of a variable leads back to it",
  "The reference (scope and index) stored for a local variable finds, at every point of the program, the same entry as looking the name up.",
  "all points that can be reached in any program, all variables in scope",
  "depends on how blocks and branches alternate between the declaration and the use",
  ["src/usymtab.c: usymtab_getRefNoisy, usymtab_lookupSafeScope, refTable_lookup, usymtab_lookupAux"])


p("C59", "Numbers are read as C reads them",
  "An integer or decimal floating constant in the text, with any of the suffixes of C, is scanned whole, with the value and type that C gives it.",
  "all constants of any length, all bases, all suffixes, all texts after them",
  "28 rules for integers and 9 for floating constants compete for every text; values are unbounded",
  ["src/cscanner.l:228-308", "src/cscannerHelp.c: processSuffix, cscannerHelp_processHex, cscannerHelp_processOctal, cscannerHelp_processBinary, cscannerHelp_processDec"])

p("C60", "Character constants are read as C reads them",
  "A character constant in the text (a plain character or an escape) is scanned whole, with its value.",
  "all characters, all simple, octal and hexadecimal escapes, all texts after them",
  "escapes of any length; only some of them have a value in the code",
  ["src/cscanner.l:285-288", "src/cscannerHelp.c: cscannerHelp_processChar"])


p("C61", "String literals are compared with their arrays correctly",
  "When a string literal (or several, one after the other) is put in an array of known size, splint reports exactly if it does not fit with its final null, or leaves room; and a literal over the length limit is always reported.",
  "all literals of any length with any escapes, any number of literals joined, all array sizes, any content of allocated memory",
  "escapes and junctions of any number; the result depends on uninitialised memory",
  ["src/cstring.c: doMergeString, doExpandEscapes, cstring_lengthExpandEscapes", "src/exprNode.c: exprNode_checkStringLiteralLength, exprNode_rawStringLiteral"])


p("C62", "Type specifiers are combined as in C",
  "The words of a type, in any order that C allows, give the type that C gives them without a message; words that do not belong together are reported.",
  "all lists of words of any length",
  "words are combined pairwise from the right; unboundedly many lists, and the result depends on the order",
  ["src/ctype.c: ctype_combine, ctype_fromQual, ctype_resolve", "src/qtype.c: qtype_combine", "src/cgrammar.y: completeTypeSpecifierAux"])


p("C63", "Arguments of printf are compared with the types of their conversions",
  "For every format that C allows and any number of arguments, each argument is compared with the type that C gives for its conversion or asterisk, and too few or too many arguments are reported.",
  "all formats of any length, and any number of arguments",
  "unboundedly many formats; a single conversion that is read wrongly shifts all later arguments",
  ["src/exprNode.c: checkPrintfArgs, isFlagKey"])
p("C64", "Arguments of scanf are compared with the types of their conversions",
  "For every format that C allows and any number of arguments, each argument is compared with the type that C gives for its conversion, suppressed conversions take no argument, and too few or too many arguments are reported.",
  "all formats of any length, and any number of arguments",
  "unboundedly many formats and sets of characters; a conversion that is read wrongly shifts all later arguments",
  ["src/exprNode.c: checkScanfArgs"])


p("C65", "Numeric types match only if the flags allow it",
  "Without flags that make types equivalent, a numeric type that matches another holds all its values, and behind pointers only the same types match; types that a flag makes equivalent match in both directions, and types of known size match only if some flag allows it.",
  "all settings of the flags, all pairs of primitive types, all machines (sizes of types), all values",
  "8192 settings of the flags times 361 pairs of types, and the meaning depends on sizes of types that no single test machine covers",
  ["src/cprim.c: cprim_closeEnough, cprim_closeEnoughDeep, cprim_closeEnoughAux"])


p("C66", "Outside its module, the representation of an abstract type does not matter",
  "If two programs differ only in the representations of abstract types to which the code being checked has no access, all comparisons of types give the same result; such a type matches no type but itself.",
  "all tables of types, symbol tables, flags (without forwarddecl), pairs of types, in definitions or not",
  "two runs of the checker would have to be compared for every pair of representations and types; the types form unbounded trees",
  ["src/ctbase.i: ctbase_genMatch, ctbase_realType", "src/ctype.c: ctype_match, ctype_matchDef, ctype_matchArg, ctype_realType", "src/uentry.c: uentry_getRealType"])
p("C67", "Without flags, types match exactly if they are the same",
  "With all flags that make types equivalent off, two types match if and only if they are the same tree once names are replaced by what they stand for, arrays are taken for pointers (not in definitions) and functions for pointers to them; the comparison ends.",
  "all tables of types and symbol tables, all types of any depth without unknown parts",
  "types are unbounded trees behind chains of names; a test covers one pair",
  ["src/ctbase.i: ctbase_genMatch", "src/ctype.c: ctype_genMatch, ctype_match, ctype_matchDef, ctype_matchArg", "src/uentryList.c: uentryList_matchParams"])


p("C68", "Storage is given away only by its owner",
  "Passing storage to a parameter that takes over the duty to release it (only, keep, owned) is reported when the argument does not hold that duty; likewise for returns and assignments, and for local variables that are aliases of such storage.",
  "all references, states and facts about them with all messages turned on; all lists of aliases",
  "22 kinds of storage on each side, five ways of transfer and some thirty other facts decide; no test suite enumerates the combinations",
  ["src/transferChecks.c: checkTransferAux, checkTransfer, checkTransferExposure", "src/sRef.c: sRef_setKept, sRef_kill"])
p("C69", "New storage is not lost",
  "When new storage is assigned, returned or passed, a message is shown or it ends up in a reference by way of which it will be released.",
  "all references, states and facts about them with all messages turned on",
  "the result depends on the declared and the current kind of the receiver, its scope, type and exposure together",
  ["src/transferChecks.c: checkOnlyTransferAux, checkFreshTransferAux, checkTransferAssignAux, transferChecks_passParam"])
p("C70", "Storage that was given away is not the argument's any more",
  "After a call with a parameter that takes over the storage, the argument is dead (only), kept (keep) or dependent (owned), unless it is shared storage or a constant; the parameter is unchanged.",
  "all references, states, facts and settings of the flags; also for the passes over aliases",
  "the changes are made in several functions one after the other, each depending on what the others left",
  ["src/transferChecks.c: checkTransferAux, checkFreshTransferAux", "src/sRef.c: sRef_kill, sRef_killComplete, sRef_setKeptComplete, sRef_setDependentComplete"])
p("C71", "Possibly null pointers are reported exactly where null is not allowed",
  "Passing or returning a pointer that may be null and was not tested shows the message for null pointers if and only if the receiver is not declared as possibly null; no other check shows this message. (Abstract types whose null state is fixed by the type, and receivers that are local or fresh, are left out.)",
  "all references, states and facts about them with all messages turned on",
  "an equivalence over all states of both references and all other checks of the transfer",
  ["src/transferChecks.c: checkTransferNullAux, checkTransferAux", "src/varKinds.c: nstate_possiblyNull, nstate_perhapsNull"])


p("C72", "A return reports each variable whose storage is not released",
  "When a function returns, each variable or parameter through which storage has to be released (only, owned, fresh, keep, new reference) and that is neither dead nor null is reported, in all scopes up to the parameters.",
  "all stacks of scopes, all states of references, all tables of aliases",
  "scopes can be nested to any depth with any names; what a name hides is decided by a look-up that differs from the traversal",
  ["src/usymtab.c: usymtab_checkFinalScope, usymtab_lookupQuietNoAlt", "src/transferChecks.c: transferChecks_localDestroyed"])
p("C73", "Leaving a block loses no storage",
  "When a block is left, storage that has to be released and is referred to only by variables of the block is reported; if a reference outside of the block refers to it, that reference has the duty to release it afterwards.",
  "all blocks, all states of references, all tables of aliases",
  "the duty moves between references while the variables are examined one after the other; any number of aliases may be involved",
  ["src/usymtab.c: usymtab_checkFinalScope", "src/transferChecks.c: transferChecks_canLoseReference", "src/sRef.c: sRef_setLastReference"])


p("C74", "Releasing storage reports each part that is not released",
  "When storage is released (passed to a function that frees it, or its last variable goes out of scope), each part of it - field, element, what a pointer refers to, to any depth - that must be released on its own and was not is reported; a part with another reference to it is taken over by that reference.",
  "all graphs of references with any types and states, also infinite ones of recursive types; both settings of strictdestroy",
  "the parts form trees of any depth and width; whether a message is shown depends on all states along the path",
  ["src/transferChecks.c: checkCompletelyDestroyed, dependentReference, transferChecks_globalDestroyed, transferChecks_localDestroyed, transferChecks_structDestroyed"])


p("C75", "A macro expands to its replacement list with the arguments in it",
  "A definition is reported exactly if a # in a function-like macro is not followed by a parameter, or ## is first or last. The expansion of any other macro is its replacement list with each parameter replaced: after # by a string made of the argument, next to ## by the argument as written, elsewhere by the expanded argument; ## and # are left out, and parameters inside of literals, numbers and longer names stay.",
  "all texts of definitions, lists of parameters and arguments without the escape character @",
  "the scanner joins words, literals, operators and white space by separate rules; a test would need all neighbours of every token",
  ["src/cpplib.c: collect_expansion, collect_expansionLoc, cpplib_macroExpand"])
p("C76", "# makes one string literal of an argument",
  "The text that # makes of an argument is one string literal, and its value is the argument as written, with single blanks for white space between tokens and none at the ends.",
  "all arguments",
  "quotes and backslashes inside and outside of literals nest; a missing backslash changes where the literal ends only for some arguments",
  ["src/cpplib.c: cpplib_macroExpand (making of strings)"])
p("C77", "The arguments of a macro call are found and counted",
  "A call ends at the parenthesis that closes it, or is reported as not ended if there is none; its arguments are what is between the commas outside of inner parentheses, the last parameter of a variadic macro taking all that remain; a wrong number of arguments is reported.",
  "all sequences of tokens, numbers of parameters, variadic or not",
  "parentheses and commas nest to any depth",
  ["src/cpplib.c: macarg, cpplib_macroExpand (arguments)"])
p("C78", "Tokens from different places are not joined",
  "If unsafe_chars says that no marker is needed between the last character of a token and the first of the next text, the token is read again as it was.",
  "all tokens and all texts after them",
  "there are many pairs of tokens, and the rule looks at two characters only",
  ["src/cpplib.c: unsafe_chars, cpplib_macroExpand"])
p("C79", "The buffers for definitions and expansions are large enough",
  "The text of a definition fits in the room reserved for it before it is scanned, and the expansion of a macro fits in the room computed from its arguments.",
  "all definitions and arguments, also with @",
  "an overflow by one character does not show unless the heap is checked",
  ["src/cpplib.c: collect_expansion, cpplib_macroExpand"])


p("C80", "Names reserved by the language are reported",
  "A declared name is reported exactly on the grounds the C standard gives: it is in the list of library names, it is in the space of the implementation, or it begins as the names kept for future libraries; names without external linkage are held to the last rules only on request. Every function of the standard library is reported when it is declared with external linkage. The search in the table of names finds every entry and fails no assertion.",
  "all names, kinds of declaration and flag settings; all sorted tables",
  "the search looks at a few entries out of 201 and its end conditions depend on the length of the table; a test would need every name of the library",
  ["src/nameChecks.c: checkAnsiName", "src/cstring.c: cstring_bsearch", "src/Headers/reservedNames.nf"])
p("C81", "Words of C++ are reported",
  "With +cppnames, an identifier that is a keyword or alternative token of C++ and not of C is reported, and no other.",
  "all names",
  "the list has to be complete, and a test only sees the words its author thought of",
  ["src/nameChecks.c: checkCppName", "src/cstring.c: cstring_bsearch"])
p("C82", "A namespace prefix matches the names the manual says",
  "A name matches a prefix exactly if each character is in the class the character of the prefix stands for, and after c* all remaining characters, possibly none, are in the class of c.",
  "all names and all prefixes with at most one *, at the end",
  "which character is compared with which class depends on the lengths of name and prefix; the errors are in one position only",
  ["src/nameChecks.c: matchPrefix, matchPrefixChar"])
p("C83", "A name is held against the right namespace prefixes",
  "A name is reported if it does not match the most specific prefix defined for its kind, or if it matches the prefix of a namespace it is not in and the exclude flag of this namespace is set; and not otherwise.",
  "all kinds of declarations, settings of the prefixes and exclude flags, and names",
  "there are eleven namespaces with three settings each; tests cover few combinations",
  ["src/nameChecks.c: checkPrefix, namespaceExcluded"])


p("C84", "An expression that depends on the order of evaluation is reported",
  "If some evaluation of an expression that the language allows has two accesses to a variable, at least one of them a write, that no sequence point and no operator orders, there is a message about the order of evaluation.",
  "all expressions over arithmetic variables with unary, binary, logical, comma, conditional, assignment and increment operators and calls of functions with a modifies clause; all evaluations",
  "which parts are compared depends on how the sets of used and modified variables are passed up through every kind of node, so a test of one nesting says nothing of another",
  ["src/exprNode.c: checkExpressionDefined, checkExpressionDefinedAux, checkSequencing, checkSequencingOne, exprNode_op, exprNode_makeOp, exprNode_assign, exprNode_cond, exprNode_comma, functionCallSafe, checkAnyCall"])
p("C85", "A message about the order of evaluation is right",
  "If there is a message about the order of evaluation of a variable, some evaluation of the expression has interfering accesses to this variable.",
  "all expressions over arithmetic variables as in C84",
  "false alarms are seen only on the expressions somebody thought of",
  ["src/exprNode.c: checkExpressionDefined, checkExpressionDefinedAux, checkSequencing, checkSequencingOne"])


p("C86", "The message about an infinite loop is given for the loops that do not modify their test",
  "A while loop gets the message about an infinite loop exactly when its test uses a variable and neither the test nor the body modifies any variable the test uses; such a loop, entered with a true test, does not end unless a break or return leaves it.",
  "all statements built from expressions, sequences, conditionals, the three loops, switch, break, continue and return; all stores; all numbers of steps",
  "the modified variables are passed up through every kind of statement node, so one forgotten kind shows only in bodies with that kind; that a loop never ends cannot be observed",
  ["src/exprNode.c: checkInfiniteLoop, exprNode_while, exprNode_doWhile, exprNode_for, exprNode_forPred, exprNode_whilePred, exprNode_switch, exprNode_if, exprNode_ifelse, exprNode_concat"])
p("C87", "The message about a statement without effect is given exactly for the statements that write nothing",
  "An expression statement gets the message exactly when it is outside statement expressions, is not a call whose ignored value is reported, does not leave, and no evaluation of it writes a variable; a statement with the message leaves every store as it is.",
  "all expressions over arithmetic variables with calls of functions with a modifies clause; all flags; all stores",
  "the expressions are unbounded and the message depends on sets collected through all of their parts",
  ["src/exprChecks.c: exprChecks_checkStatementEffect", "src/exprNode.c: exprNode_statement, exprNode_statementError"])


p("C88", "The message about missing cases of a switch lists the members that are not handled",
  "For a switch over an enumeration the message about missing cases lists exactly the members whose value no label handles; duplicate and foreign labels are reported; when the switch is taken to cover all ways, every member is handled.",
  "all enumerations and all bodies of switch statements with nested blocks and inner statements",
  "labels may be spread over any nesting and come in any order and number",
  ["src/exprNode.c: checkSwitchExpr, exprNode_flatten", "src/enumNameList.c: enumNameList_member, enumNameList_subtract"])
p("C89", "A for loop taken to be executed at least once is",
  "If exprNode_loopMustExec says that a for loop is certain to be executed, the test holds for the value the variable is given.",
  "all operators and all pairs of constants",
  "the error is at the boundary of each comparison, and is seen only as a missing message about definition",
  ["src/exprNode.c: exprNode_loopMustExec", "src/context.c: context_exitForClause"])


p("C90", "Options are processed one after the other",
  "What an option does is the same whatever is before and after it on the command line or in an options file; none is left out, and the files that are checked are exactly the arguments that are neither options nor arguments of options.",
  "all lists of arguments",
  "the number and order of the arguments is not bounded, and any argument may be taken for that of the option before",
  ["src/flags.c: flags_processFlags, flags_isModeName", "src/llmain.c: main"])
p("C91", "Every option has the effect of its flag",
  "A flag written with either sign, with one or two dashes and with any punctuation of its name is set or cleared, and given the next argument if it takes one; -D, -U, -I and -S take what is written together with them; no option leads to an access outside the tables.",
  "all flags of the table, all spellings, all arguments",
  "the table has hundreds of flags with many spellings each",
  ["src/flags.c: flags_processFlags, flags_identifyFlag, flags_table"])
p("C92", "The command line overrides the options files",
  "The default options files are read unless -nof or -f is given; the last setting of a flag on the command line holds when all options have been processed, whatever the options files contain.",
  "all command lines, all contents of all options files",
  "options files may name others to any depth",
  ["src/llmain.c: main", "src/flags.c: flags_preProcessFlags, flags_processFlags", "src/rcfiles.c: rcfiles_read"])
p("C93", "The flags of an options file",
  "The flags found in an options file are the words of its lines, in order: separated by blanks outside quotes, without what follows a comment sign.",
  "all texts",
  "quotes, escapes, blanks, comment signs and ends of line combine in any way",
  ["src/rcfiles.c: rcfiles_loadFile", "src/reader.c: reader_readLine"])
p("C94", "Every options file is read at most once",
  "Options files that name each other, in any way, are each read at most once, and reading ends; a file that is asked for is read unless it was read before or cannot be opened.",
  "all sets of options files with any contents, all command lines",
  "cycles may be of any length",
  ["src/rcfiles.c: rcfiles_read, rcfiles_loadFile", "src/flags.c: flags_processFlags"])


p("C95", "The absolute name of a file",
  "The absolute name that is computed for a file of a directory is the shortest name of the file that is reached from the directory, whatever parts `.`, `..` and empty parts it has.",
  "all names of files and directories",
  "any number of `.`, `..` and slashes may stand anywhere in the name",
  ["src/osd.c: osd_absolutePath"])
p("C96", "The relative name that is printed leads to the file",
  "The name that is printed for a file leads from the working directory to the file itself, and is no longer than its absolute name.",
  "all normal names of files and working directories",
  "the two names may have any common part, that may end within a part of either",
  ["src/osd.c: osd_outputPath"])
p("C97", "System directories and search lists",
  "A file is a system file exactly if it is in one of the directories of sysdirs; the file found in a search list is the one in the first directory of the list that has it, and no name overflows the buffer.",
  "all lists of directories, all names, all contents of the file system",
  "the list may have any number of directories, of any length, empty ones too",
  ["src/context.c: context_isSystemDir", "src/osd.c: osd_getPath, nextdir, osd_equalCanonicalPrefix"])
p("C98", "The extension and the base name of a file",
  "The extension of a file is that of the last part of its name, and decides what becomes of a file of the command line; the base name is the last part without the extension.",
  "all names of files",
  "full stops may stand in any part of the name",
  ["src/fileLib.c: fileLib_getExtension, fileLib_removeAnyExtension, fileLib_removePath, fileLib_isCExtension", "src/fileTable.c: fileTable_addFile", "src/osd.c: LSLRootName", "src/flags.c: flags_processFlags"])


p("C99", "Every access of an expression is required to be within bounds",
  "For every element that an expression reads or writes through an array or a pointer a requirement on the bounds is generated, of reading or of writing as it is; and no requirement is generated for an element that is not accessed.",
  "all expressions",
  "accesses may be nested in any way, within operands, indices and arguments",
  ["src/constraintGeneration.c: exprNode_exprTraverse, exprNode_isUnhandled, exprNode_traverseRequiresConstraints, checkArgumentList, checkCall"])
p("C100", "The facts taken from a test hold",
  "What is assumed in the branch for a true test is true whenever the test is true, and what is assumed in the branch for a false test is true whenever it is false.",
  "all tests, all values of their parts",
  "tests may be combined by `&&`, `||` and `!` to any depth",
  ["src/constraintGeneration.c: exprNode_booleanTraverse, exprNode_exprTraverse, exprNode_traverseTrueEnsuresConstraints, exprNode_traverseFalseEnsuresConstraints", "src/constraintList.c: constraintList_add, constraintList_addList, constraintList_logicalOr"])
p("C101", "The requirements of a statement prevent accesses out of bounds",
  "If the requirements that are computed for a statement hold before it, no execution of the statement accesses an element out of bounds, and after a normal end what is recorded as its effect is true.",
  "all statements, all their executions, all operations on constraints that are right",
  "statements may be nested to any depth and loops may be executed any number of times",
  ["src/constraintGeneration.c: exprNode_stmt, exprNode_stmtList, doIf, doIfElse, doWhile, doFor, exprNode_multiStatement", "src/constraintResolve.c: exprNode_mergeResolve"])
p("C102", "The requirements of a switch statement prevent accesses out of bounds",
  "If the requirements that are computed for a switch statement hold before it, no access is out of bounds, whichever case is entered.",
  "all sequences of cases and statements, all executions",
  "any number of cases, each of which may run into the next one",
  ["src/constraintGeneration.c: exprNode_generateConstraintSwitch, exprNode_doGenerateConstraintSwitch"])


p("C103", "A #define line defines what it says",
  "A line that has the form of a definition gives the macro with its name, its parameters and its text without a message, and only such lines do; the line is not read beyond its end; and the option -D with a value gives the same line with the `=` replaced by a space.",
  "all texts of #define lines and of -D options",
  "lists of parameters and white space of any length",
  ["src/cpplib.c: create_definition, cpplib_createDefinition, cppReader_checkMacroName, cppReader_define"])
p("C104", "A redefinition is reported exactly if the definitions differ",
  "If a macro is defined again, there is a message exactly if the two definitions are not the same: if the parameters differ, or the tokens of the text, or where there is white space between them.",
  "all pairs of definitions",
  "texts of any length, with any amount of white space",
  ["src/cpplib.c: compare_defs, comp_def_part, do_defineAux, collect_expansion"])


p("C105", "A local variable is reported as unused exactly if it has no use",
  "At the end of each block exactly those of its variables are reported as unused, in order, that no use in the block belongs to: a use belongs to the innermost variable of that name, in whatever branches, loops, cases and operands of && and || it is.",
  "all functions made of declarations, uses, blocks, if, loops, &&, ||, ?: and switch",
  "blocks and branches nested to any depth, any number of variables and cases",
  ["src/usymtab.c: usymtab_allUsed, usymtab_exitScope, usymtab_popBranches, usymtab_popTrueBranch, usymtab_popOrBranch, usymtab_popAndBranch, usymtab_newCase, usymtab_exitSwitch", "src/uentry.c: uentry_setUsed, uentry_mergeUses, uentry_mergeSetStates, uentry_setState"])


p("C106", "A macro parameter is reported unless it is evaluated exactly once",
  "For a parameter of a macro that is checked as a function, and that has no annotation, a message is given exactly if some execution of the body does not evaluate the parameter exactly once.",
  "all bodies made of uses, sequences, if, &&, ||, ?:, loops, switch and return, nested to any depth",
  "bodies nest to any depth and have unboundedly many executions",
  ["src/uentry.c: uentry_setUsed, uentry_mergeSetStates, uentry_setState, uentry_mergeUses", "src/context.c: context_inConditional", "src/usymtab.c: usymtab_popBranches, usymtab_popTrueBranch, usymtab_popOrBranch, usymtab_exitSwitch, usymtab_allUsed"])


p("C107", "Macros are expanded as by the algorithm with hide sets, and the expansion ends",
  "Scanning a text with macros, and rescanning what they expand to, always ends, and its result is that of Prosser's algorithm: a name is expanded exactly if it is a macro that it does not itself come from, and if, for a function-like macro, an opening parenthesis follows.",
  "all sets of object-like macros and function-like macros without parameters, with any bodies, and all texts",
  "macros refer to each other in unboundedly many ways, and calls cross the ends of expansions",
  ["src/cpplib.c: cpplib_getToken, cpplib_macroExpand, macarg, push_macro_expansion, cppReader_popBuffer, cppReader_macroCleanup, parseGotoMark"])


p("C108", "Entries and types in a library are read back as they were written",
  "The text that is written to a library for an entry of the symbol table (variable, constant, data type, function with its globals, modifies list, warn and state clauses, iterator, tag) or for a type is read back as the same entry or type, and reading ends exactly where the text ends.",
  "all entries and types whose enumerations are in range and whose names have no separators, and all texts that follow",
  "the formats have many abbreviations and nested lists; a wrong reading loses an annotation without any message",
  ["src/uentry.c: uentry_dumpAux, uentry_undump", "src/uentryList.c", "src/ctbase.i: ctbase_dump, ctbase_undump", "src/cttable.i: ctentry_dump, ctentry_undump", "src/warnClause.c", "src/flagSpec.c", "src/stateClauseList.c", "src/globSet.c", "src/enumNameList.c"])


p("C109", "The table of symbols in a library is read back entry by entry",
  "The section of a library with the symbols, which is written with headings for the kinds and with equivalent entries grouped on one line, is read back to its end and no further: the same entries in the same order, with the same kinds and names, every one with what was written of it.",
  "all tables of valid entries that fit on a line, all type comparisons, all comments before and behind",
  "grouping depends on which entries happen to be next to each other and on the length of the line",
  ["src/usymtab.c: usymtab_dump, usymtab_load", "src/uentry.c: uentry_equiv, uentry_compare, uentry_nameCopy", "src/reader.c: reader_readLine"])


p("C110", "A case that execution falls into is reported",
  "A case or default that is not annotated with fallthrough is reported exactly if the statement before it, which is no case or label itself, can complete, so that execution goes on with the case.",
  "all function bodies, all places of cases in them, all executions",
  "whether the statement before a case completes depends on everything nested in it",
  ["src/exprNode.c: exprNode_concat, exprNode_lastStatement", "src/cgrammar.y: stmtList, compoundStmtListNext, compoundInitListNext"])
p("C111", "A break or continue in nested loops and switches is reported under the right flag",
  "A break is reported exactly if the loop or switch it leaves stands in another one, under the flag for that combination; a continue exactly if its loop stands in another loop; a right annotation silences the message and a wrong one is reported.",
  "all function bodies and all breaks and continues in them",
  "the answer depends on the whole stack of loops, switches, blocks and conditionals around the statement",
  ["src/exprNode.c: exprNode_break, exprNode_continue", "src/context.c: context_breakClause, context_nextBreakClause, context_inDeepLoop, context_inDeepSwitch, context_inDeepLoopSwitch", "src/flags.def"])


p("C112", "A name that is not distinguishable from another one is reported",
  "The declaration of a name is reported exactly if another name known at that point agrees with it in the significant characters, up to case if case is ignored and up to characters that look alike if these match.",
  "all names, all symbol tables, all values of the options",
  "the answer depends on the lengths of both names, on their order of declaration and on three options at once",
  ["src/cstring.c: cstring_genericEqual, lookLike", "src/usymtab.c: checkDistinctExternalName, checkDistinctInternalName, usymtab_checkDistinctName", "src/flags.def"])


p("C113", "The replacement for snprintf prints what C prescribes and stays in the buffer",
  "Whatever the format, nothing is written outside the buffer, the buffer holds as much of the output as fits with a NUL behind it, and the number returned is the length of the whole output; and for the conversions of integers, characters and strings the output is the one C prescribes.",
  "all formats, all arguments of the right types, all sizes of the buffer",
  "flags, width, precision and length of a directive combine freely, and the cases that go wrong depend on the values of arguments",
  ["src/snprintf.c: dopr, fmtstr, fmtint, dopr_outch, vsnprintf, snprintf, vasprintf"])


p("C114", "Operands of operators are reported according to the values they may have",
  "An operand of a shift or of a bitwise operator is reported exactly if it may be negative; comparisons of floating point numbers, comparisons of unsigned values with zero whose result is always the same, arithmetic on pointers that may be null, and comparisons of booleans are reported whichever operand is on the left.",
  "all operators, all types and known values of operands, all settings of flags",
  "what matters is the combination of the types, signs and known values of both operands with the operator; the missed ones come with the operands exchanged or with one more relational operator",
  ["src/exprNode.c: exprNode_makeOp, checkIntegral, checkNumerics, exprNode_isNonNegative, exprNode_isZero, exprNode_isNullValue"])


p("C115", "A call of message that the check of its arguments accepts prints what the format says",
  "If the check of arguments of functions marked messagelike accepts a call, then the function message prints what the codes of the format stand for, in order, each with its own argument; and every call whose arguments are those the format asks for is accepted.",
  "all formats, all numbers and values of arguments, all ways of matching types that only accept what is passed alike",
  "the check and the function parse the format with separate code; they differ for single codes, for formats ending with a percent sign, and for the plural code after certain arguments",
  ["src/message.c: message, identify_control, cstring_fill", "src/exprNode.c: checkMessageArgs"])


p("C116", "Every wrong part of an initializer is reported, and no other",
  "For an initializer in braces, a message is given for a part of it exactly if this part does not fit what it initializes: a value of a type that does not match, too many or too few elements for an array or fields for a struct, more or less than one value for a union, a list for a single value.",
  "all types built of arrays, pointers, structs and unions, all nested initializers, all settings of flags",
  "initializers and types are trees of any depth; messages vanish depending on the number of errors before, on the number of elements and on other faults at the same level",
  ["src/exprNode.c: exprNode_checkOneInit, exprNode_makeInitBlock", "src/cgrammar.y: init, initList"])


p("C117", "A name is reported as exported without need exactly if all its uses are in the module that defines it",
  "With the flag exportlocal, an exported function or variable is reported exactly if it is used and every use is in the module in which it is defined; the order of uses and the flag showuses do not matter.",
  "all sequences of uses in any modules and in macros, all places of declaration and definition, all settings of flags",
  "what is kept of the uses is a list that depends on their order and on where the name was declared; whether a use is lost only shows for certain sequences",
  ["src/usymtab.c: usymtab_exportLocal", "src/uentry.c: uentry_setUsed", "src/filelocList.c: filelocList_add, filelocList_addUndefined, filelocList_addDifferentFile"])


p("C118", "Comments keep their place in the preprocessed text and do what they say",
  "A comment reaches from its slash to the first end of comment in the joined lines; what the preprocessor writes for it has the same length and the same ends of lines; comments for the checker are written between markers with the end marker nowhere inside, and what the preprocessor does because of them is exactly what their first word says.",
  "all texts, with and without lines joined by backslashes, all comment characters, all settings of nocomments and lintcomments",
  "what is written and done depends on the characters at both ends of the comment, on the comment character set by earlier comments and on backslashes at the ends of lines",
  ["src/cpplib.c: skip_comment, cppGetToken, cpp_handleComment", "src/general.c: mstring_equalPrefix, mstring_containsString"])


p("C119", "Comments for the checker are read to their end and understood",
  "The scanner reads the text of a comment for the checker up to its end marker and no further; settings of flags in it are done in order, with their arguments; words are recognised exactly if they are in the table, in any case; the types in access comments are those listed.",
  "all texts of comments and of the source after them, all flags, all lists of declared annotations",
  "how far the scanner reads depends on the text after the comment; the loops over flags and names depend on every blank between them",
  ["src/cscannerHelp.c: cscannerHelp_handleLlSpecial, commentMarkerToken, tokenMacroCode, s_parsetable, s_keytable"])


p("C120", "Declarations that contradict each other are reported",
  "If a name is declared several times, nothing is reported exactly if no declaration contradicts what earlier ones say about null, definition, ownership, exposure, number and types of parameters; afterwards what they say together is in effect.",
  "all sequences of declarations of variables, parameters and functions, all annotations, all relations between types",
  "what is known after a declaration depends on all the earlier ones and on which messages were suppressed",
  ["src/uentry.c: checkNullState, uentry_checkDefState, checkAliasState, checkExpState, checkVarConformance, checkFunctionConformance"])


p("C121", "Clauses of later declarations are reported if they say more, and are in effect",
  "Each global variable that a later declaration of a function lists and earlier ones do not is reported once and listed afterwards; each element of a later modifies clause that earlier ones do not permit is reported; what the clauses say together, with requires and ensures, is in effect afterwards.",
  "all sequences of declarations with all globals lists and modifies clauses, all storage, all flags",
  "what is in effect depends on all earlier declarations and on which messages are suppressed",
  ["src/uentry.c: checkGlobalsConformance, checkModifiesConformance, uentry_mergeConstraints", "src/sRef.c: sRef_canModifyVal"])


p("C122", "Uses of global variables are reported unless documented, and unused documentation is",
  "In a function, each occurrence of a global variable and each global variable that a called function lists is reported if its annotation and the flags ask for it and the globals list of the function does not have it; each listed variable that is not used is reported at the end of the function; uses by calls of undefined or released variables are reported.",
  "all functions and globals lists, all sequences of uses, calls and state changes, all annotations and flags",
  "what is reported at the end depends on all events of the function and, at calls, on the history of each variable",
  ["src/exprNode.c: checkGlobUse, checkGlobMods, exprNode_fromIdentifierAux", "src/context.c: context_checkGlobUse, context_usedGlobal, context_checkInternalUse", "src/exprChecks.c: exprChecks_checkUsedGlobs"])


p("C123", "Bounds requirements with alternatives are dropped only if they hold",
  "A bounds requirement with alternatives is dropped exactly if one alternative is found among the facts in one of five forms; otherwise each alternative is replaced by one to three forms. Putting the requirements of two parts of a program together gives a list that holds exactly if both lists hold.",
  "all requirements with any number of alternatives, all lists of facts, all states in which the facts hold",
  "a lost requirement shows up as a missing warning only, in programs where an alternative that is not looked at makes the difference",
  ["src/constraintResolve.c: doResolve, doResolveOr, resolveOr, constraint_addOr, inequalitySubstituteStrong, constraintList_reflectChangesOr, constraintList_mergeRequires", "src/constraintList.c: constraintList_add, constraintList_addList", "src/constraint.c: constraint_same"])


p("C124", "A call that modifies forbidden storage is reported like a modification",
  "A call is reported exactly if the called function's modifies clause, with the arguments in place of the parameters, names storage (or storage with an alias) that the calling function may not modify. A call is not reported if all that storage and its aliases may be modified.",
  "all modifies clauses of caller and called function, all arguments, all alias tables, all annotations of global variables and all flags",
  "the report depends on the clause, the arguments, the aliases and the annotations together; a missing report is silent",
  ["src/exprNode.c: checkGlobMods", "src/exprChecks.c: exprNode_checkCallModifyVal, checkCallModifyAux", "src/sRef.c: sRef_fixBaseParam, sRef_aliasCheckPred, sRef_canModifyVal", "src/uentry.c: uentry_isCheckedModify"])


p("C125", "Uses of undefined, inconsistent or released storage are reported",
  "A use of storage is reported exactly if the storage, or storage that contains it, is in a state in which it may not be read. There is one report, about the outermost such storage (or about the field of its target). The report says that the storage was released exactly if all its alternatives were released. After a report, the reported storage may be read, and repeated uses give at most one report per level.",
  "all references, all definition states of their parts and alternatives, all settings of strictusereleased, any number of uses",
  "the report depends on the states of all levels of a reference and on how alternatives are merged; a wrong kind of report is turned off by the wrong flag",
  ["src/exprNode.c: exprNode_checkUse", "src/sRef.c: sRef_isValidLvalue, sRef_getBaseSafe, sRef_setDefinedAux, sRef_isThroughArrayFetch"])


p("C126", "Out storage must be completely defined at the end of a function",
  "An out variable is reported at the end of a function or block exactly if some part of its storage that must be defined is not: what pointers point to, and all fields of structures. The part shown with a report is an undefined part, and showing it does not fail.",
  "all references, types, definition states and sets of mentioned fields",
  "a missing report is silent, and depends on the states of all parts of the storage",
  ["src/sRef.c: whatUndefined, sRef_isReallyDefined, sRef_showNotReallyDefined, sRef_constructPointerAux", "src/usymtab.c: usymtab_checkFinalScope"])


p("C127", "Transferred storage must be completely defined",
  "When storage is passed, returned, assigned or left at the end of a function, it is reported exactly if a part that must be defined is not: the storage itself, what its pointers lead to, the fields of its structures, and one field of each union. Storage all of whose parts are defined is not reported and passes.",
  "all references, types, states and sets of mentioned fields, and all kinds of transfer",
  "the check recurses over all parts of two references at once with five flags; missing and wrong reports depend on combinations of states",
  ["src/transferChecks.c: checkCompletelyDefined, checkLeaveTrans, checkGlobTrans"])


p("C128", "National naming conventions",
  "With the Czech (Slovak) convention on, a function, iterator, variable, macro or constant is reported exactly if the part of its name in front of the first underscore (uppercase letter) names no accessible type, built-in type or the module, or is missing while types are accessible; with the Czechoslovak convention exactly if both are violated. Types are reported for underscores or uppercase letters. A declaration gets access to an abstract type by its name exactly if the access flag of the convention is set.",
  "all declarations, names, tables of types, access states and flag settings",
  "the space is the product of kinds of declaration, arbitrary names, and over twenty flags that act on each other",
  ["src/nameChecks.c: checkNationalName, checkCzechName, checkSlovakName, checkExternalName"])


p("C129", "Unused declarations",
  "At the end of a scope or of the run, a declaration of the program is reported exactly if it was never used, with the message for its kind, and at most once; a field of a structure is reported exactly if it was never used, at most once even if several types share it. What is used or in a library is never reported.",
  "all tables of entries with all kinds, locations and shared fields, and all ways in which messages may be suppressed",
  "which entry reports a shared field depends on the order of the table, on names and on suppressed messages",
  ["src/usymtab.c: usymtab_allUsed", "src/uentry.c: uentry_isParam, uentry_isRefParam"])


p("C130", "Repeated definitions and declarations of functions",
  "A function is reported to be defined more than once exactly at its second and later definitions, and to be redeclared exactly at declarations that follow another one at a different place; declaring it extern before or making it static does not hide a second definition.",
  "all programs of declarations with any number of declarators, definitions and files, with all storage classes and locations",
  "the messages depend on the storage class of the first declaration, on the order of declarations and definitions, and on a pending redeclaration that later declarators overwrite",
  ["src/uentry.c: uentry_mergeDefinition, uentry_checkDecl, uentry_clearDecl, uentry_setFunctionDefined", "src/usymtab.c: usymtab_supEntryAux", "src/cgrammar.y: externalDef, fcnDef"])


p("C131", "The type of a declarator is the one C gives it",
  "What a declaration declares has the type that C gives to its declarator: for any nesting of pointers, arrays, functions and parentheses that C allows, the type that is recorded is the base type wrapped from the outside of the declarator to the name.",
  "all declarators of any depth, named and abstract, with any number of stars, brackets, parameter lists and parentheses, and all base types",
  "declarators nest without bound, and the types are built by a protocol of placeholder types in which parts are dropped or reordered only for particular nestings",
  ["src/cgrammar.y: namedDeclBase, plainNamedDeclBase, abstractDeclBase", "src/ctbase.i: ctbase_newBase, ctbase_newBaseExpFcn, ctbase_makeFunction", "src/ctype.c: ctype_adjustPointers, ctype_makeInnerArray, ctype_makeInnerFixedArray, ctype_expectFunction", "src/idDecl.c: idDecl_fixBase, idDecl_fixParamBase, idDecl_notExpectingFunction"])


p("C132", "A term of a specification is accepted exactly if it has one reading",
  "The sorts found for a term of an LCL specification are exactly those of its readings, that is of the choices of a declared or standard operator for every application and of a sort for every name and literal that fit together; a term is accepted exactly if there is one reading.",
  "all terms of any depth, all tables of overloaded operators and all sorts with synonyms",
  "the number of readings is exponential in the depth of a term, and the faults need an overloaded operator below another one or on one side of a comparison",
  ["src/checking.c: computePossibleSorts, checkSort, assignSorts, standardOperators, checkLclPredicate", "src/symtable.c: symtable_opsWithLegalDomain, domainMatches", "src/sortSet.c: sortSet_insert, sortSet_member"])


p("C133", "What is required of a loop makes every iteration safe",
  "What the checker requires before a for loop whose body increments pointers holds exactly if the body's requirements hold in every iteration that takes place.",
  "all loops, all requirements of the body, all bounds and starting values of the counter, all program states and any number of iterations",
  "one iteration must be compared with all others; the guess is wrong only by one, or only if the counter does not start at 0",
  ["src/loopHeuristics.c: getForTimes, canGetForTimes, constraintExpr_searchAndAdd, constraintList_searchAndAdd, doAdjust, incVar", "src/constraintList.c: constraintList_add"])


p("C134", "A type made from another leads back to it and is made only once",
  "The pointer type and the array type made from a type, and the type of a type name, have the base and the description asked for, keep it whatever types are made later, and are the same type each time they are asked for.",
  "all sequences of operations on the table of types, and all types in it",
  "the cached numbers in an entry can go wrong only after some particular order of operations on the same type",
  ["src/cttable.i: cttable_init, cttable_addDerived, cttable_addFull, cttable_addFullSafe", "src/ctype.c: ctype_makePointer, ctype_makeArray, ctype_makeFixedArray, ctype_createUser, ctype_baseArrayPtr, ctype_compare"])
p("C135", "The alternatives of a combined type are those of both types",
  "The type that results from combining two types has exactly the alternatives of the first and of the second, where type names for the boolean type and for void * count as these types, and a type that is not known adds nothing.",
  "all sequences of operations on the table of types, and all pairs of types in it",
  "the common combinations are kept in variables that depend on what was combined before, in any order",
  ["src/ctype.c: ctype_makeConj, ctype_makeExplicitConj, ctype_makeAnytype, ctype_isAnytype, ctype_compare", "src/cttable.i: cttable_addComplex", "src/ctbase.i: ctbase_equivStrict, ctbase_compare, ctbase_makeConj"])


p("C136", "The same name has the same symbol, and different names have different ones",
  "Looking up a name in the symbol table of specifications gives a symbol that stands for exactly this name from then on, the same each time the name is looked up and different from those of all other names, without accessing memory that is not allocated.",
  "all sequences of names of any length, with any hash values",
  "collisions in chains and memory that is enlarged at the wrong moment depend on all names looked up before",
  ["src/lsymbol.c: lsymbol_fromChars, lsymbol_toChars, AllocEntry, AllocEntrySpace, AllocChar, AllocCharSpace, lsymbol_initMod"])
p("C137", "A synonym leads to the token it was declared for",
  "After a name has been declared as a synonym of a token, the name leads to this token, and all other names and tokens are as before.",
  "all tables, and all symbols for the name and the token",
  "the tables are enlarged only when the symbols have large numbers, and by the wrong one of the two",
  ["src/syntable.c: LSLAddSyn, SynTable_grow, LSLGetTokenForSyn, LSLIsSyn, lsynTableInit", "src/lclsyntable.c: LCLAddSyn, AllocSynTable, LCLGetTokenForSyn, LCLIsSyn", "src/tokentable.c: LSLInsertToken, LSLGetToken, LSLSetTokenHasSyn, AllocTokenTable", "src/lcltokentable.c: LCLInsertToken, LCLGetToken, LCLSetTokenHasSyn, AllocTokenTable"])


p("C138", "User-defined states are changed and reported by transfers as declared",
  "When a value is passed, returned or assigned, each of its states becomes what the declared transfer says, and a report is issued exactly if the declaration makes the transfer an error; the same mistake with the same reference is reported once.",
  "all declarations of states, all tables of values, and all sequences of transfers, scope exits and lost references",
  "states are declared by users, and which cell of which table is used depends on both references and on all earlier transfers",
  ["src/transferChecks.c: checkMetaStateTransfer, checkMetaStateConsistent", "src/usymtab.c: usymtab_checkFinalScope (lost references)", "src/sRef.c: sRef_getMetaStateValue, sRef_setMetaStateValue"])
p("C139", "Merging user-defined states follows the declared merges and changes nothing else",
  "Where branches meet, each state of a reference is merged as declared, and a conflict is reported at this place. An ensures clause gives its left side and the aliases of it the merged states of the operands, and changes no other state.",
  "all declarations, tables, null contexts, aliases and operand lists, with and without the arguments of '...'",
  "the values are pointers into the tables of the operands, so that a wrong update is seen only in a later use of an argument",
  ["src/uentry.c: uentry_mergeValueStates", "src/exprNode.c: reflectEnsuresClause", "src/sRef.c: sRef_setMetaStateValueComplete"])


p("C140", "A call with wrong arguments is reported",
  "A call of a function is reported exactly if the number of its arguments is not the declared one (less than it, with '...'), and exactly those arguments are reported whose types do not match their parameters; no call is an internal error.",
  "all parameter lists (missing, void, fixed, with '...'), all argument lists including error nodes, special functions and formats",
  "the loop ends at '...' or at the last argument, and the count is patched in between; errors need particular lengths of both lists",
  ["src/exprNode.c: checkArgsReal, checkArgs, functionCallSafe"])
p("C141", "Every argument of a call is checked, and its side effects are those of the call",
  "Each argument of a call is checked against its parameter or conversion, or at least as a use, and everything that evaluating it sets is set by the call.",
  "all calls: by name, through variables and other expressions, of undeclared functions, with any parameters, arguments, formats and flags",
  "which of several nested conditions skips an argument depends on its position relative to the format, and a lost side effect is seen only in the surrounding expression",
  ["src/exprNode.c: checkAnyCall, checkOneArg, checkGlobMods, checkUnspecCall, functionCallSafe, exprNode_functionCall, exprNode_mergeUSs"])


p("C142", "Splint removes its temporary files, and no others",
  "When Splint ends, every file it has made for its own use is gone unless files are to be kept, and at no time does it remove a file that it did not make.",
  "all runs: any sequence of files entered, temporary names made, files created or failing to be, calls of the trait checker and ends, interleaved with any files made and removed by other processes",
  "needs another process to make a file between the test for its existence and its creation, or a specification with traits and a look into the temporary directory afterwards",
  ["src/fileTable.c: fileTable_addFilePrim, fileTable_addCTempFile, fileTable_addMacrosFile, fileTable_addltemp, fileTable_createFile, fileTable_createMacrosFile, fileTable_noDelete, fileTable_cleanup", "src/llmain.c: cleanupFiles", "src/lslparse.c: callLSL, invokeLSL", "src/cppmain.c: cppProcess"])
p("C143", "Names of temporary files are new",
  "A name for a temporary file can always be made; it is the name of no file, and different from all the names made before.",
  "all sequences of requests of all kinds, with any finite set of files present at each",
  "there are 26 * 26 * 26 words, and the end shows only after all of them are used up",
  ["src/fileTable.c: nextMsg, makeTempName, fileTable_addltemp"])
p("C144", "The table of open files has the files that are open",
  "Whatever is opened and closed in which order, the table has exactly the open streams, stays in its bounds, and each stream is closed exactly once; closing is reported only if it fails.",
  "all sequences of opening, closing and closing all, of any length",
  "the table grows in steps of 64 and moves entries when one is closed",
  ["src/fileTable.c: fileTable_addOpen, fileTable_growOpen, fileTable_closeFile, fileTable_closeAll", "src/cpplib.c: read_name_map"])


p("C145", "The history of a state is shown completely and in order, and showing it does not change it",
  "When the changes that led to a state are shown, all of them are shown once in reverse order of their locations (with showdeephistory; otherwise the last), and they are the same after that.",
  "all histories stored in any cells of memory, and all contents of memory",
  "sorting works in place, exchanges contents of cells and relinks them; which changes get lost depends on the order of all of them",
  ["src/stateInfo.c: stateInfo_sort, stateInfo_display", "src/fileloc.c: fileloc_lessthan"])
p("C146", "Updating the history of a state gives the new history",
  "stateInfo_update returns a history with the same value as the new one; recording a change puts it in front, once.",
  "all pairs of histories of any length, all changes",
  "differs only if both histories have more than their last change, which is seen only with showdeephistory",
  ["src/stateInfo.c: stateInfo_update, stateInfo_updateLoc, stateInfo_updateRefLoc"])


p("C147", "The characters of an input file are read as they are, with their positions",
  "Reading a file character by character gives exactly its characters (with a newline at the end), and the current position counts its lines and columns.",
  "all contents of files, of any length, with any bytes",
  "depends on the lengths of lines and on single bytes: a line of 799 characters, a byte 0 at the start of a line, a byte 255",
  ["src/inputStream.c: inputStream_nextChar, inputStream_peekChar, inputStream_nextLine, inputStream_open"])
p("C148", "The characters of a string are read as they are, and nothing behind them",
  "Reading a string as input gives exactly its characters (with a newline at the end), and then the end of the input; nothing behind the string is read.",
  "all strings",
  "reading behind the end of a string is seen only if there is something there that looks like a line",
  ["src/inputStream.c: inputStream_fromString, inputStream_nextLine"])


p("C149", "The tokens of a state definition are found wherever it is clear where they end",
  "Scanning a definition of a state that is made of words, names, marks and strings, with blanks and comments in between (needed only between two words), gives these tokens.",
  "all sequences of tokens, and all blanks and comments between them",
  "depends on every pair of neighbouring tokens; the manual's examples put blanks around marks",
  ["src/mtscanner.c: mtscanner_initMod, skipComments, mtscanner_getNextToken", "src/inputStream.c: inputStream_peekNChar"])


p("C150", "Alternate types with the same alternatives are the same, in whatever order they are given",
  "Two declarations with alternate types are taken for the same exactly if they have the same alternatives.",
  "all pairs of alternate types, of any number of alternatives in any order and nesting",
  "needs three or more alternatives in every order; the test suite only has declarations with two",
  ["src/ctype.c: ctype_sameAltTypes, ctype_makeExplicitConj", "src/cgrammar.y: altType", "src/uentry.c: uentry_checkMatchParam"])


p("C151", "A call reports exactly the arguments that are not as the state clauses of the function demand",
  "At a call of a function with clauses (uses, sets, defines, allocates, releases, requires q), storage that is reached from an argument is reported for a clause exactly if, when the call is made, it is not in the state that the clause demands before the call.",
  "all lists of clauses over any number of parameters and paths, all states of storage",
  "the verdict depends on the order of clauses about the same storage, and on every combination of sixteen definition states with allocation, null and user-defined states",
  ["src/transferChecks.c: checkPassstateClauseList", "src/exprNode.c: checkRequiresClause", "src/stateClause.c: stateClause_getPreTestFunction, stateClause_getEffectFunction"])
p("C152", "A return reports exactly what is not as the state clauses of the function promise",
  "At a return, storage that is reached from a parameter or from the returned expression is reported for a clause exactly if it is not in the state that the clause promises after the call.",
  "all lists of clauses, all states of parameters and of the returned expression",
  "needs every kind of clause together with every null state of the returned expression, and clauses before it that also speak of the result",
  ["src/transferChecks.c: transferChecks_return", "src/usymtab.c: usymtab_checkFinalScope", "src/stateClause.c: stateClause_getPostTestFunction, stateClause_getReturnEffectFunction"])
p("C153", "What is assumed because of state clauses is what is checked on the other side",
  "In the function body, parameters are assumed to be as every clause demands of a call; after a call, arguments are assumed to be as every clause promises at a return.",
  "all lists of clauses, all states of storage",
  "relates four different tables of functions in the checker, for all clauses and all earlier states",
  ["src/stateClause.c: stateClause_getEntryFunction, stateClause_getEffectFunction, stateClause_getStateFunction", "src/usymtab.c: usymtab_handleParams", "src/exprNode.c: reflectEnsuresClause"])
p("C154", "Functions with accepted state clauses can be checked and called without an internal bug",
  "For clauses with any qualifier that the grammar accepts, entering, returning from and calling the function never reach an impossible branch.",
  "all lists of clauses with all accepted qualifiers, all states",
  "every qualifier must be combined with every kind of reference and both sides of the function; the test suite uses eight of the qualifiers",
  ["src/stateClause.c: stateClause_getPreTestFunction, stateClause_getPostTestFunction, stateClause_getStateFunction", "src/cgrammar.y: stateQualifier"])


p("C155", "Bounds facts that are known after an assignment hold after it",
  "When an assignment follows statements after which some bounds facts hold, every fact that is known after both holds in the state after the assignment.",
  "all lists of facts, all variables and assigned expressions, all states",
  "the facts kept depend on which of them contain the variable, and a wrong fact only shows in a program where it hides an access out of bounds",
  ["src/constraintResolve.c: constraintList_mergeEnsures, constraintList_fixConflicts, reflectChangesEnsures, constraintList_subsumeEnsures, exprNode_mergeResolve", "src/constraintList.c: constraintList_add"])


p("C156", "A cast from or to an abstract type is reported",
  "If the type of an expression or the type it is cast to is, below pointers, arrays and names, an abstract type that the context has no access to, the cast is reported, unless it is to void, of zero or between types that match; and nothing else is reported as such a cast.",
  "all types, all contexts, all expressions",
  "a cast that is not reported is only missed for a type with the right mix of names and pointers",
  ["src/exprNode.c: exprNode_cast", "src/ctype.c: ctype_getBaseType, ctype_realType, ctype_isRealAbstract"])
p("C157", "A cast between a function pointer and another pointer is reported as what it is",
  "The message that a function pointer is cast to another pointer, or another pointer to a function pointer, is given for just these casts, with the types in their order.",
  "all types, all contexts, all expressions",
  "tests look for the number of messages; which of the two it is, and names for types of functions, are easily left out",
  ["src/exprNode.c: exprNode_cast", "src/ctype.c: ctype_baseArrayPtr, ctype_isFunction"])
p("C158", "Casts to void and of zero are allowed, and a cast to an abstract type that exposes its representation is reported",
  "A cast to void is reported only for fresh storage; a cast of zero to a pointer is not reported as a use of an abstract type; storage that is visible outside and neither exposed nor only is reported when it is cast to an abstract type by any name, unless it already is one.",
  "all types, all contexts, all expressions",
  "the conditions are on seven attributes of the storage and both types",
  ["src/exprNode.c: exprNode_cast"])


p("C159", "The name of a macro is read as C has it",
  "For every macro definition, the name that is looked up is the identifier after define, parameters are seen just if a parenthesis directly follows it, and it is taken to be empty just if only white space does.",
  "all texts of macro definitions",
  "tests define macros with a space or a parenthesis after the name",
  ["src/cpplib.c: cpp_shouldCheckMacro"])
p("C160", "Comments before a macro definition are for that definition only",
  "After notfunction or notparseable, the next definition is not checked and the comment is then used up; after iter the next two are checked, after constant the next one.",
  "all combinations of comments, all definitions, flags and symbol tables",
  "what is left over depends on combinations of comments and shows only at the next definition",
  ["src/cpplib.c: cpp_shouldCheckMacro"])
p("C161", "Whether a macro is checked follows from the flags and from what its name is",
  "A macro without comments is checked just if the flags say so for what its name is; its name is known afterwards and no other is changed; and the same definition is decided the same when it is read again.",
  "all definitions, flags, places and symbol tables",
  "reading a definition twice, after a declaration of the same name, is rare in tests",
  ["src/cpplib.c: cpp_shouldCheckMacro", "src/uentry.c: uentry_whereLast, uentry_setDefined", "src/usymtab.c: usymtab_exists, usymtab_existsReal, usymtab_existsType"])


p("C162", "An integer literal that is accepted for an integer type is a value of that type",
  "If an integer literal is accepted where an integer type is expected, by whatever name, its value is one that the type has; zero is always accepted.",
  "all types, names for them, flags, values, and sizes of types",
  "tests use small numbers and types without names",
  ["src/exprNode.c: exprNode_matchLiteral", "src/ctype.c: ctype_isUnsigned, ctype_isRealInt, ctype_isRegularInt"])
p("C163", "A name for a type makes no difference to the literals accepted for it",
  "The same literals are accepted for a type and for a name defined as that type.",
  "all types, flags and literals",
  "whether the name or the type is looked at differs between the tests in the code",
  ["src/exprNode.c: exprNode_matchLiteral", "src/ctype.c: ctype_isUnsigned, ctype_isChar, ctype_isAnyFloat"])


p("C164", "Globals are checked for the state they should be in when a function returns",
  "With the flag for the state of globals set, every global variable that a function lists or uses is checked once. One that is not listed as killed is reported just if it is undefined, holds released or kept storage, or may be null and is not declared so. One that is killed is not reported if it is released, or certainly null.",
  "all lists of globals, all sets of used globals, and all states of them",
  "tests check one global at a time; whether the checks of one change those of another needs all combinations",
  ["src/usymtab.c: checkGlobalReturn, usymtab_checkFinalScope"])


p("C165", "The qualifiers undef and killed of a listed global hold if they are written",
  "A global in the list of a function is taken to be undefined before the call just if undef is among its qualifiers, and to be released by the function just if killed is, in whatever order the qualifiers are written.",
  "all lists of qualifiers that the grammar has for a listed global, and all types of the global",
  "tests have one or two qualifiers, in the usual order",
  ["src/clabstract.c: reflectGlobalQualifiers, clabstract_createGlobal", "src/cgrammar.y: optGlobQuals", "src/varKinds.c: sstate_fromQual"])


p("C166", "What is specified or declared and not defined is reported once",
  "When all files are read, each entry that is declared in a file of the program and defined nowhere, and each that is specified for it and neither declared nor defined, is reported by one message; there is none about entries that are specified only in libraries or imported specifications.",
  "all tables of entries, all places where these are specified, declared and defined, and all flags",
  "there are ten kinds of places for each of three roles, and tests have few of them",
  ["src/usymtab.c: usymtab_allDefined", "src/fileloc.c: fileloc_isLib, fileloc_isXHFile, fileloc_isUser"])


p("C167", "A mapping from types to sorts gives the sort bound last",
  "After any bindings, a mapping gives for each symbol the one it was bound to last, and the undefined one if it was never bound; symbols in the same bucket do not disturb each other, no access is outside of the array, and translating a sort that is not bound leaves it as it is.",
  "all sequences of bindings and all symbols",
  "the code assumes that a binding is a new one, and tests have few symbols in one bucket",
  ["src/mapping.c: mapping_create, mapping_find, mapping_bind", "src/symtable.c: lsymbol_translateSort"])


p("C168", "Different infix operators without parentheses are reported in specifications",
  "A term of operands and infix operators without parentheses is read from the left and nothing in it is lost; the pairs of operators reported as needing parentheses are those of different operators that follow each other.",
  "all sequences of operators and operands",
  "tests have two operators, where the first one is also the last one before",
  ["src/abstract.c: pushInfixOpPartNode, checkAssociativity, CollapseInfixTermNode", "src/llgrammar.y: simpleOpTerm, infixOpPart", "src/termNodeList.c: termNodeList_reset, termNodeList_current"])


p("C169", "Lists of terms that grow at both ends hold what was put there",
  "After any calls that add at either end or move the current position, a list holds the elements in their order, the position is where it should be, no call has accessed anything outside of the array, and reading the current element gives an element or fails the assertion.",
  "all sequences of calls, of any length, and all elements",
  "growth at one end resets the space at the other, so all interleavings matter",
  ["src/termNodeList.c: termNodeList_new, termNodeList_grow, termNodeList_addh, termNodeList_addl, termNodeList_finish, termNodeList_advance, termNodeList_current, termNodeList_getN, termNodeList_head"])


p("C170", "Macros are defined on the command line as they are written",
  "For a flag -D in which each double quote that is not behind a backslash is closed, the text that is given to the preprocessor is the text of the flag; otherwise, an unclosed quote is reported.",
  "all texts of flags, of any length",
  "quotes are added in one function and taken away in another; whether they fit depends on what is around the string",
  ["src/llmain.c: handlePassThroughFlag", "src/osd.c: osd_fixDefine"])

if __name__ == "__main__":
    path = os.path.join(os.path.dirname(os.path.abspath(__file__)), "..", "properties.jsonl")
    with open(path, "w") as f:
        for x in P:
            f.write(json.dumps(x) + "\n")
    print(len(P))
