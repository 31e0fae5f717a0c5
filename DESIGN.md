# Formal model of splint: design

The subject is the C source in `/repo/src` (splint, pinned commit).  The model is
written in Lean 4 (`/verif/lean`), function by function, as total computable
functions; the theorems are kernel checked.  `properties.jsonl` lists the
properties, `MANIFEST.json` maps each one to theorem names.

## Layout

For an area `X` of the source:

* `Verif/Model/X.lean`  – definitions transcribing C functions, each citing file and lines;
* `Verif/Spec/X.lean`   – the independent specification (only when it is more than a line);
* `Verif/Proofs/X.lean` – helper lemmas;
* `Verif/Props/X.lean`  – the property theorems, each followed by an `example`
  showing that its hypotheses are met by a non-trivial case.

## Trusted base

* Lean 4.33.0's kernel (and the elaborator for turning source into terms).
* Axioms: at most `propext`, `Classical.choice`, `Quot.sound` (`#print axioms NAME` for any
  theorem named in `MANIFEST.json`).  No `sorry`, no added axioms, no
  `native_decide`/`bv_decide`.
* The transcription from C to Lean, which is manual.  Every definition cites the C
  lines it transcribes and says where it simplifies.

### General simplifications

* Heap objects are values: aliasing between C objects is modelled only where it
  matters (linked lists of the macro table, shared counters).  `malloc` succeeds.
* `DPRINTF` calls are dropped, `llassert` is a distinct failure outcome when it can fire.
* C `int`/`size_t` are `Int`/`Nat` unless the property is about their width
  (`#if` evaluation reduces to 64-bit `long`).  Where a definition idealises an `int`,
  overflow is outside the model.
* C strings are `List Char` or `List UInt8` without NUL; an undefined `cstring` is `none`
  where the difference is observable.
* Arrays with separate `nelements`/`nspace` are lists; growing does not change the
  contents and is not modelled, except where indices past the end are read.

## Plan per property

| id | what is modelled | how proved |
|----|------------------|------------|
| C01 | `fileloc` records and all comparison functions | order laws by case analysis and `omega` |
| C02 | message log as sorted list with the C search loop | invariant `sorted`, refinement to a set of seen (position, text); negation for library/undefined positions |
| C03 | marker list operations including the insertion index | scan = last region marker not after the warning; invariant over add |
| C04 | same model | characterisation of the backward scan |
| C05 | same model with counters | induction over warning sequences |
| C06 | `llgenerrorreal` + `cleanupMessages` state machine | conservation invariant by induction over events |
| C07 | `mstring_split` on character lists | text preservation, progress, width bound by case analysis; wrapping loop by well-founded induction |
| C08 | operator-precedence evaluator over tokens with 64-bit values (integers reduced to `long`) | refinement of printed expression trees to the C evaluation; negations with witnesses for unary minus and nested conditionals |
| C09 | same with explicit stack and out-of-range outcome | invariant on stack height; negations for `1 : 2`, `1 )`, empty input |
| C10 | line-level machine for conditional directives | simulation of a recursive reference semantics by induction on nesting |
| C11 | heap of doubly linked nodes, two tables, histories of operations | refinement to `name → stack of definitions`, list segments |
| C12 | `hashNode_copy` | negation by witness; exactly which macros are restored |
| C13 | bucket array tables | refinement to finite maps, invariant over histories |
| C14 | hash functions on signed bytes | range lemma; negation for negative bytes |
| C15 | character-level reader/dumper | round trip by induction on digits; negation for negative integers |
| C16 | recursive dumper/undumper | round trip by structural induction |
| C17 | multiVal arithmetic | direct |
| C18 | comparison functions | negations with witness, partial antisymmetry |
| C19 | intSet array with the C loop | insertion invariant; negation of membership, partial theorem |
| C20 | interning table | invariant: entries pairwise different as sets; refinement to finite sets |
| C21 | guard sets and the combination rules | soundness by induction on condition trees |
| C22 | null state merge table | decision over the complete table; negation for constant null |
| C23 | definition state merge table | decision over the complete table + fold |
| C24 | exit kinds and a statement language | soundness by induction on statements; negation for goto |
| C25 | constraint expressions and the simplifier | evaluation preservation by induction; negations for stale operator, constant difference |
| C26 | constraint simplify/solve/swap | truth preservation |
| C27 | `constraint_isAlwaysTrue` | soundness; negation for sizeof rule |
| C28 | `satisfies`, `rangeCheck`, resolve loops | soundness; negation for strict kinds |
| C29 | search/replace | evaluation lemma by induction |
| C30 | constraint_simplify as a well-founded recursion | measure |
| C31 | compaction loops with array reads/writes | equals filter; negation for alias table |
| C32 | sRefSet operations | refinement to sets modulo identity |
| C33 | alias table operations | invariants over histories |
| C34 | final accounting of `main` | decision logic; negation for specification warnings |
| C35 | flag array, mode tables, group tables | frame theorems |
| C36 | save/restore | frame theorems |
| C37 | canonicalisation on strings | idempotence, congruence |
| C38 | include stack | induction on the tree of files; invariant on the stack for any sequence |
| C39 | macro cache | invariant: processed at most once |
| C40 | state combination table | refinement to a function on pairs |
| C41 | ownership kinds | decision over complete tables |
| C42 | storage paths and modify check | refinement to prefix relation; negation for internal state |
| C43 | storage identity | equivalence laws by induction; negations where they fail |
| C44 | clause stack | list laws |
| C48 | flags for modified globals | case analysis; exact description of the exchange |
| C49 | unused modifies elements | induction on the sequence of modifications |
| C50 | alias table of local variables | refutation by a history; invariant for direct aliases |
| C51 | guards of null tests | induction on the condition, both branches at once |
| C52 | guards of the enclosing scopes | refutation; pointwise change of the scopes |
| C53 | stack of conditionals | agreement of the run with a one-pass check; grammar of nesting |
| C54 | include guards | simulation of the run with the shortcut by the run without it |
| C55 | recursive dumper/undumper over trees | round trip by structural induction |
| C56 | Props/Usymtab | induction over statements: the stack of tables is a view of an environment, which every table function preserves; the names of the environment are those of the scoping rules |
| C57 | Props/Usymtab | the same induction with an order on states; counterexamples by evaluation |
| C58 | Props/Usymtab | invariant of reachable stacks (`Leveled`), exact result of `getRef` |
| C59 | Props/Number | every competing rule matches less, or as much and comes later; the digits by induction |
| C60 | Props/Number | no other rule matches at an apostrophe; cases of the escapes |
| C61 | Props/StringLit | induction over the characters of a literal, for the merge and for the expansion; uninitialised memory is a parameter |
| C62 | Props/TypeSpec | for the types of C all orders of the finite table; for all lists induction with the counts of the words |
| C63 | Props/Format | induction on the parts of the format, with rules for one turn of the loop |
| C64 | Props/Format | the same |
| C65 | Props/Prim | values of types on an arbitrary machine; case analysis on types with the flags left open |
| C66 | Props/TypeMatch, TypeMatchRules | equality of all functions under a change of the symbol table; induction on nested calls |
| C67 | Props/TypeMatch, TypeMatchRules | trees of types as a relation; induction on the size of the tree, with real types found by induction on its derivation |
| C68 | Props/Transfer | messages are only added; case analysis over both kinds after the exposure check; induction over the aliases |
| C69 | Props/Transfer | the state of the receiver followed through reset, exposure and kind checks |
| C70 | Props/Transfer | what each check leaves of the source; nothing revives it |
| C71 | Props/Transfer | all later checks add no message about null |
| C72 | Props/FinalScope | each variable has one turn; states only grow towards owning kinds before it; what is examined on a return is what look-up finds |
| C73 | Props/FinalScope | same, with the alias that takes over |
| C74 | Props/Destroyed | induction on the remaining depth against paths defined by rules |
| C75 | Props/CppMacro | the scanner of the code against a lexer: invariant of the loop by induction on the text |
| C76 | Props/CppMacro | induction on the text, per token |
| C77 | Props/CppArgs | induction on the tokens with the depth of parentheses |
| C78 | Props/CppMacro | cases of tokens; longest match |
| C79 | Props/CppMacro | lengths by induction |
| C80 | Props/NameCheck | invariant of the binary search by strong induction on the width; the lengths that miss the last entry as an inductive set; order of the tables by kernel evaluation; the tests on characters by cases of the first five characters |
| C81 | Props/NameCheck | the search theorem and the order of the table |
| C82 | Props/NameCheck | induction on the prefix with the position in the name |
| C83 | Props/NameCheck | cases of kinds and flags |
| C84 | Props/EvalOrder | all allowed evaluations as runs with settled and pending accesses; induction over expressions relates the sets of a node to the accesses of the runs; both the messages and the interference are reduced to a condition on one operator |
| C85 | Props/EvalOrder | as C84; in expressions without sequence points every write is pending |
| C86 | Props/LoopEffect | the sets of a statement node by induction over statements; frame and agreement lemmas for a left-to-right evaluator; induction on the number of steps for non-termination |
| C87 | Props/LoopEffect | the sets of an expression node from C84; case analysis of the check; frame lemma |
| C88 | Props/SwitchEnum | invariant of the scan over the flattened body; equal numbers of used and declared names mean equal sets for lists without repetition |
| C89 | Props/SwitchEnum | case analysis |
| C90 | Props/Options | one item at a time, induction over the items |
| C91 | Props/Options | the names of the table (C37) and case analysis of the option |
| C92 | Props/OptionsFiles | both passes item by item; what is done last is done with nothing after it |
| C93 | Props/OptionsFiles | the scanner finds exactly the words of the relation `Spec.Line` |
| C94 | Props/OptionsFiles | functional induction of the reading, the measure is the number of files not yet read |
| C95 | Props/Paths | the loop keeps a prefix that resolves to the parts done so far; induction over the parts |
| C96 | Props/Paths | the common prefix ends in or between parts; `..` once per remaining part |
| C97 | Props/PathSearch | the loop is a search of the list of elements, by induction over the text |
| C98 | Props/PathSearch | uniqueness of the last slash and the last full stop |
| C99 | Props/Access | mutual induction over expressions and argument lists |
| C170 | Props/PassThrough | induction over the text, with the parity of the backslashes before |
| C169 | Props/TermList | invariant: free cells, elements, free cells; induction over the calls |
| C168 | Props/InfixTerm | induction on the operators; what differs from the first differs from a neighbour |
| C167 | Props/Mapping | induction over the bindings; refinement to functions |
| C166 | Props/AllDefined | cases on the places and flags for one entry, lifted to tables |
| C165 | Props/GlobQual | induction on the qualifiers as written; parity of the turns at the front |
| C164 | Props/GlobReturn | induction on both lists; what is said of a global depends on its own state only |
| C162-C163 | Props/LitMatch | the real type is the primitive type stood for; cases on the tests |
| C159-C161 | Props/MacroCheck | what is dropped and taken of the text; the entry of the name after the definition, by cases |
| C156-C158 | Props/Cast | what the real type and the base of a type are made of, by induction on types; reports by cases |
| C155 | Props/MergeEnsures | membership in each list that is made; values do not change for expressions without the variable |
| C151 | Props/StateClause | induction on clauses and arguments; the state of each reference is a fold over earlier clauses |
| C152 | Props/StateClause | induction on clauses; the null state of the result does not change |
| C153 | Props/StateClause | induction on clauses, from the last one about the reference |
| C154 | Props/StateClause | induction on clauses |
| C150 | Props/SameAlt | induction on the first type; lists of alternatives for declared types |
| C149 | Props/MtScan | text of a list of tokens with gaps; induction on it, with a separate lemma for gaps and for each kind of token |
| C147, C148 | Props/InputStream | the stream refined to a function on the unread bytes (one counter for the room in the buffer), which is compared with the text by length |
| C145, C146 | Props/StateHist | chains of cells; the loop and the recursion of stateInfo_sort refined to functions on lists, then induction on these |
| C142, C143 | Props/TempFiles | an invariant over all runs (names unique, every own file has an entry, words used so far); the loop over the words by induction |
| C144 | Props/OpenFiles | the array represents a list of streams up to order |
| C140, C141 | Props/ArgPass | induction over the parameters and the arguments: events and sets are those of each argument by itself |
| C138 | Props/MetaState | a loop over the keys of a table changes each column by itself (one lemma for all loops), with the tables of C40 as rows of declarations; induction over the operations |
| C139 | Props/MetaMerge | the same lemma for branches; for ensures clauses induction over the operands with the first of them as the accumulator |
| C136, C137 | Props/Intern | refinement of a list of names: each chain is the list of earlier names with the same hash value; strings in memory are not changed by what is written behind them |
| C134, C135 | Props/TypeTable, Proofs/TypeTable | invariant of the table (cached numbers and descriptions agree both ways) and of the variables (their alternatives), preserved by every operation |
| C133 | Props/LoopHeuristics | values are linear in the number of iterations; what holds at both ends holds between them |
| C132 | Props/SortCheck | readings as derivations; mutual induction over terms and argument lists in both directions |
| C131 | Props/Declarator | induction over the dimensions and stars of a declarator; size of types for the negatives |
| C130 | Props/Redeclared, Props/RedeclaredStatic | invariant: the tables hold the first declaration and whether there is a definition; induction over the program |
| C129 | Props/Unused | induction over the table and over the fields, with the marks of fields as the state |
| C128 | Props/NationalName | case analysis against splits of the name; induction over names of types |
| C127 | Props/CompleteDef | induction over the depth of the check, against the parts that are visited and what is wrong with each |
| C126 | Props/ReallyDefined | induction over the depth of the search against reachability of an undefined part |
| C125 | Props/UseCheck | the loop is a fold over the storage around a reference; states only become better; a measure for repeated uses |
| C124 | Props/CallModify | induction over the clause of the called function and over the aliases, with C42 for what the caller may modify |
| C123 | Props/ConstraintOr | induction over the alternatives and over the lists, with C28 for what a fact gives |
| C122 | Props/GlobUse | induction over the events of a function, with a projection of the state to each variable |
| C121 | Props/RedeclClauses | induction over the elements of the lists; for modifies, with the characterisation of permitted storage of C42 and of marks of C49 |
| C120 | Props/Redecl | induction over declarations with an invariant for what is known; case analysis for pairs of annotations |
| C119 | Props/Special | splitting texts at the first character of a class; induction over the grammar of settings and of lists of names |
| C118 | Props/Comment | induction over the text with the previous character as state; case analysis over the words with incompatibility of prefixes |
| C117 | Props/ExportLocal | invariant of the recorded uses, by induction over the sequence of uses from its end |
| C116 | Props/Init | parts of an initializer as an inductive relation; induction over the initializer for soundness, over the relation for completeness |
| C115 | Props/Message | formats as lists of pieces; induction over the pieces for the check and for the function |
| C114 | Props/OpCheck | values an operand may have against the tests of its type and known value; case analysis over operators |
| C113 | Props/Snprintf | output without a buffer, induction over its characters; reading of directives against their text; digits against Nat.toDigits |
| C112 | Props/DistinctName | induction over both names with the position; loops as searches for the first entry |
| C110 | Props/FallThrough | what completes a list completes its last statement; C24 for that statement |
| C111 | Props/BreakMsg | C44 gives the answers at every place; cases over the constructs around |
| C109 | Props/SymSection | the text is split into headings and groups; strong induction over the table, one line at a time; each line is read back by C108 and C15 |
| C108 | Props/LibEntry | each part of a text is read up to its separator, by cases over the abbreviations; inductions over the lists of globals, flags, clauses, parameters, fields, members |
| C107 | Props/Rescan | a weight for tokens by the number of macros still enabled, which every step decreases; a simulation of the stack of buffers by tokens with hide sets: the disabled macros are the owners of the buffers; an invariant on the ends of buffers for the internal error |
| C106 | Props/MacroParam | mutual induction over bodies and cases: a body without the parameter changes nothing, an accepted body marks it once, any other gives a message; induction over executions for the count |
| C105 | Props/UseMarks | an abstraction of the stack of tables to the scopes with their marks, under which every table operation is the identity, a mark or a declaration; mutual induction over statements and cases |
| C103 | Props/CppDefine | induction over the list of parameters, both ways against a grammar of definitions |
| C104 | Props/CppRedef | a relation between the states of the loop over two texts that differ in white space; the text is recovered from the pieces |
| C100 | Props/TestFacts | induction over the test; the operations on lists only keep or drop constraints |
| C101 | Props/StmtGen | induction over the statement and, for loops, over the execution; the operations on constraints are given by what they have to mean |
| C102 | Props/StmtSwitch | invariants of the saved and the current requirements over the items of the body |

## Code modelled so far

| module | C code |
|--------|--------|
| Model/FileLoc, CString | fileloc.c comparison and advance functions; cstring.c equality and comparison |
| Model/MessageLog, Report | messageLog.c; llerror.c reporting and clean-up; llmain.c final accounting |
| Model/Split | mstring/cstring line splitting and message wrapping |
| Model/FlagMarkers | flagMarker.c, flagMarkerList.c, the suppression questions of context.c |
| Model/Kinds | null, definition, exposure and ownership kinds and their merges |
| Model/Control | exit kinds of statements |
| Model/Clauses | clauseStack.c and its use by context.c |
| Model/IntSet, StateTable | intSet.c; stateCombinationTable.c and its use by metastate declarations |
| Model/Reader, MultiVal | reader.c numbers, characters, words; multiVal.c; ynm.c; the constant record of uentry.c |
| Model/IdSet | usymIdSet.c, typeIdSet.c |
| Model/Tables | cstringTable.c, genericTable.c |
| Model/SRef, SRefSet | sRef.c comparisons, inclusion, root and level; sRefSet.c; aliasTable_levelPrune |
| Model/Modify | sRef.c modify checks; sRefSet_modifyMember; context_checkGlobMod; checkModifyAuxAux and the report of unused elements |
| Model/AliasTable | aliasTable.c lookups, additions, clearing, unions; usymtab.c alias entry points; updateAliases |
| Model/Guards | guardSet.c; guards of expressions in exprNode.c (preOp, makeOp, null tests, cond, comma); guards after branches, loops and ||; usymtab_isGuardedAux, usymtab_unguard |
| Model/CppExp | cppexp.c parser with its stack and all operators, and numbers; the lexer is a list of tokens, character constants are not modelled |
| Model/CppHash | src/cpphash.c: whole file without `lookupExpand`; cpplib.c: end of `do_defineAux`, loop of `do_undef`, `eval_if_expression` | definitions as values; messages dropped; addresses not reused |
| Model/CppSkip | src/cpplib.c: `skip_if_group`, `skip_comment`, `cppSkipHspace`, `parse_name`, string case of `cpplib_getTokenAux` | not traditional, not pedantic, `output_conditionals` off; CPP buffers other than the file left out; line numbers dropped |
| Model/CppCond | src/cpplib.c: `do_if`, `do_xifdef`, `do_elif`, `do_else`, `do_endif`, `conditional_skip`, `skip_if_group` | by lines; conditions and other directives are parameters; #line output dropped |
| Model/CppInclude | cpplib.c do_include 4850-5012, redundant_include_p 5024-5038, do_xifdef 5552-5635, do_elif 5470-5515, do_else 5869-5913, do_endif 5919-5988 | macros are defined or not; files by name, after the search; a definition passes on no text; buffers for macros are not counted in the depth |
| Model/IncludeNest | filelocStack.c; context_setFilename, context.c:4290-4337; the loop over files, llmain.c:845-888 | files up to `fileTable_sameBase`; the message is not suppressed; the limit is not negative |
| Model/MacroCache | macrocache.c:37-194, 272-406 | checking itself is not modelled: it yields the text handed to the parser; the base name of a position is a parameter; what checking registers is any function of what is checked |
| Model/FlagTable | flags.def (generated by tools/gen_flagtable.py), the mode tables of context.c:984-1385, flags.c:flagcodes | help texts are left out |
| Model/Flags | context.c: context_setFlagAux, context_setFlagTemp, context_userSetFlag, context_setModeAux, context_resetModeFlags, context_saveFlagSettings, context_restoreFlagSettings, context_restoreFlag, context_fileSetFlag, context_setValueAndFlag, context_enterFile/exitFile as far as flags go | strings of string-valued flags and warnings about redundant settings are left out |
| Model/FlagName | flags.c: canonicalizeFlag, flags_identifyFlagAux; cstring.c: cstring_replaceLit, cstring_stripChars | warnings about obsolete flags are left out |
| Model/CExpr | constraintExpr.c, constraintTerm.c: similarity, search, replacement, simplification | casts, storage and source locations left out; references are numbers with a similarity relation as parameter; an expression node is a record of what is asked about it |
| Model/Constraint | constraintResolve.c: simplify, isAlwaysTrue, rangeCheck, satisfies, substitution, reflectChangesNoOr, subsumeEnsures; constraint.c: depth | alternatives (or), original constraint and marks left out; source locations are a parameter |
| Model/LibRef | sRef.c (dump, undump), sRefSet.c (dump, undump), ctype.c (dump, undump) | states left out; values are integers; `sRef_equivalent` a parameter |
| Model/ConstraintDump | constraintTerm.c, constraintExpr.c, constraint.c, constraintList.c (dump, undump), usymtab.c (constraints of functions) | names stand for their entries; `constraintList_resolve` a parameter |
| Model/Usymtab | usymtab.c: scopes, branches, cases, lookup by name and by reference | states are abstract with a merge function; no guards, aliases or marks; see the header of the file |
| Model/Number | cscanner.l: the rules for constants; cscannerHelp.c: their values | longest match, first rule; no values of floating constants; see the header of the file |
| Model/StringLit | cstring.c: merging and expanding string literals; exprNode.c: comparison with array sizes | unwritten bytes of new memory are any function; see the header of the file |
| Model/TypeSpec | ctype.c: ctype_combine and the grammar of type specifiers | no enumerations or qualifiers; see the header of the file |
| Model/Format | exprNode.c: checkPrintfArgs, checkScanfArgs | which argument is compared with which type; the comparison itself is left out; see the header of the file |
| Model/Prim | cprim.c: cprim_isAnyReal ... cprim_closeEnough | all; see the header of the file |
| Model/TypeMatch | ctbase.i: ctbase_genMatch, ctbase_realType, ctbase_isFunction, ctbase_almostEqual; ctype.c: ctype_match..., ctype_realType and tests of real types; uentry.c: uentry_getRealType; uentryList.c: matchParams, matchFields; usymtab.c: usymtab_matchForwardStruct | tables are parameters; see the header of the file |
| Model/Transfer | transferChecks.c: checkTransferAux and the checks it calls, checkTransfer, end of transferChecks_passParam; sRef.c: sRef_setAliasKind, setKept, setDependent, setOwned, setFresh, kill, killComplete, resetState | aliases by a list; definedness (checkCompletelyDefined), bases and derived references left out; see the header of the file |
| Model/FinalScope | usymtab.c: loop of usymtab_checkFinalScope, usymtab_lookupQuietNoAlt; transferChecks.c: transferChecks_canLoseReference, conditions of transferChecks_localDestroyed and transferChecks_structDestroyed; sRef.c: sRef_setLastReference | answers of the table of aliases given; parts of structures are one message; checks after the loop left out |
| Model/Destroyed | transferChecks.c: checkCompletelyDestroyed, dependentReference, transferChecks_globalDestroyed, transferChecks_localDestroyed, transferChecks_structDestroyed | all derived references exist from the start and form a tree; changes to references are listed but do not act on parts examined later |
| Model/CppMacro | cpplib.c: collect_expansion, unsafe_chars, cpplib_macroExpand (strings, substitution, sizes), the character tables | characters below 128; the expansion of arguments is given; not traditional |
| Model/CppArgs | cpplib.c: macarg, cpplib_macroExpand (reading and counting of arguments) | tokens are given as a list; not traditional |
| Model/NameCheck | cstring.c: cstring_bsearch; nameChecks.c: checkAnsiName, checkCppName, matchPrefix, matchPrefixChar, checkPrefix; reservedNames.nf | the answers of the uentry predicates are given; C locale; suppression of messages not modelled |
| Model/EvalOrder | exprNode.c: checkExpressionDefined(Aux), checkSequencing(One), evaluationOrderUndefined, exprNode_mergeUSs, exprNode_mergeCondUSs, and the uses, sets and reference of the nodes made by exprNode_createId, _addParens, _postOp, _preOp, _makeOp, _op, _assign, _cond, _comma, functionCallSafe, checkAnyCall | arithmetic variables only; functions have a modifies clause of variables and plain parameters; flag evalorder on |
| Model/LoopEffect | exprNode.c: checkInfiniteLoop and the sets of the nodes made by exprNode_concat, _statement, _makeBlock, _if, _ifelse, _switch, _while, _doWhile, _for, _whilePred, _forPred; exprChecks.c: exprChecks_checkStatementEffect | expressions as in Model/EvalOrder; a switch has one case; nothing unconstrained; whether a statement leaves is a parameter |
| Model/SwitchEnum | exprNode.c: checkSwitchExpr (messages, allpaths), exprNode_flatten, exprNode_loopMustExec; enumNameList.c: enumNameList_member, enumNameList_subtract | which identifier a label is, and the constant values, are given |
| Model/Options | flags.c: flags_processFlags, flags_preProcessFlags; llmain.c: main (default options files); rcfiles.c: rcfiles_read, rcfiles_loadFile; reader.c: reader_readLine | file names are absolute; warnings about files with both names left out; strings stored but their effects not modelled |
| Model/Paths | osd_absolutePath, osd_outputPath, context_isSystemDir, osd_getPath, nextdir, fileLib_getExtension and the like, LSLRootName, the distribution of the files in flags_processFlags | the Unix version (slash and colon as separators); whether a file exists is a parameter; allocation is not modelled |
| Model/Access | exprNode_exprTraverse (requirements), exprNode_traverseRequiresConstraints, checkCall | a requirement names the expressions, not their constraint terms; preconditions of called functions are one symbol |
| Model/FactLogic, Model/TestFacts | constraintList_add, addList, logicalOr; the facts of tests in exprNode_exprTraverse, exprNode_booleanTraverse and their collection | constraintList_resolve and constraint_substitute are parameters |
| Model/StmtGen | exprNode_stmt, doIf, doIfElse, doWhile, doFor, exprNode_multiStatement, exprNode_mergeResolve, exprNode_generateConstraintSwitch | the operations on lists of constraints are parameters; loopHeuristics is not modelled here |
| Model/CppDefine | create_definition, cppReader_checkMacroName, cppReader_define, compare_defs, comp_def_part, do_defineAux (when it warns) | characters below 128; +gnuextensions; of messages only whether there is one |
| Model/UseMarks | the marks of uentry_setUsed, uentry_mergeUses; usymtab_popBranches, popTrueBranch, popOrBranch, popAndBranch, exitSwitch as far as they concern marks; usymtab_allUsed, usymtab_exitScope | all entries are local variables of user files; see Model/Usymtab |
| Model/MacroParam | the part of uentry_setUsed, uentry_mergeSetStates, uentry_setState for macro parameters, context_inConditional, the ends of branches and cases as far as they concern one parameter, the message of usymtab_allUsed | one parameter without annotation; for loops, labels and sizeof left out; every case ends with break or leaves the macro |
| Model/Rescan | the case of a name and the end of a buffer in cpplib_getToken, cpplib_macroExpand for macros without parameters, macarg, push_macro_expansion, cppReader_macroCleanup, parseGotoMark | text is a list of tokens; no directives, strings, comments, special symbols |
| Model/LibEntry | uentry_dumpAux, uentry_undump, uentryList_dumpParams/dumpFields/undump/undumpFields, ctbase_dump/undump, ctentry_dump/undump, warnClause, flagSpec, stateClause(List), qual, globSet, enumNameList | enumerations are integers; the conversions fail out of range; metastate of entries and constraints are not written here |
| Model/SymSection | usymtab_dump, usymtab_load (up to the constraints), uentry_equiv/compare, uentry_nameCopy, ekind_capName, reader_readLine, constants in uentry_dumpAux/undump | what is compared and not written, and ctype_compare, are parameters |
| Model/FallThrough | exprNode_concat (message about cases), exprNode_lastStatement, lists of the grammar | declarations are statements |
| Model/BreakMsg | exprNode_break, exprNode_continue | on top of Model/Clauses |
| Model/DistinctName | cstring_genericEqual, lookLike, checkDistinctExternalName, checkDistinctInternalName, usymtab_checkDistinctName | whether a message is shown is a function of the other entry |
| Model/Snprintf | dopr, fmtstr, fmtint, dopr_outch, vsnprintf, vasprintf | fmtfp is a parameter; loops that only print are lists of characters |
| Model/OpCheck | exprNode_makeOp, checkIntegral, checkNumerics and their predicates on types | no abstract types or conjunctions; matching of types is a parameter; only the messages |
| Model/Message | message, identify_control, checkMessageArgs | texts of numbers with a fraction, pointers and locations are given with the arguments; types are matched by a parameter; reading an argument as another type is undefined |
| Model/Init | exprNode_checkOneInit | types are trees; matching of types, strings and characters are parameters; only messages of this function |
| Model/ExportLocal | uentry_setUsed (uses), filelocList_add*, fileloc_sameModule, usymtab_exportLocal | locations are modules; places of declaration and definition fixed |
| Model/Comment | skip_comment, cpp_handleComment | text as list of characters; actions as a list; messages not filtered |
| Model/Special | cscannerHelp_handleLlSpecial | results as values; flags given by their class; whether types exist is not modelled; overflow of numbers is not modelled |
| Model/Redecl | uentry.c 7540-8175, 8346-8710 | types with given relations; no specifications, user-defined states, globals and modifies lists |
| Model/RedeclClauses | uentry.c 1726-2036, 9389-9465 | globals as numbers; marks belong to list elements; removal of file static elements not modelled |
| Model/GlobUse | exprNode.c 1131-1145, 2951-3112, 3219-3260; context.c 1867-2157, 2535-2538; exprChecks.c 513-553 | variables by level and index, with three states; what the modifies clauses of called functions permit is not in this model |
| Model/ConstraintOr | constraintResolve.c 111-139, 324-595, 1300-1351; constraintList.c 89-160; constraint.c 51-72 | alternatives as lists; freeing and copying left out; an invalid read and a failing assertion are outcomes |
| Model/CallModify | exprNode.c 3046-3131; exprChecks.c 1333-1480; sRef.c 2323-2392, 8321-8360 | aliases, names and exposure of references are parameters; context_usedGlobal left out |
| Model/UseCheck | exprNode.c 10175-10334; sRef.c 3407-3464, 4719-4769, 5150-5259, 5914-5952 | states by address; other references derived from the same storage left out; type of storage a parameter |
| Model/ReallyDefined | sRef.c 4771-4968, 6944-6958; usymtab.c 4086-4099 | references abstract; building references while searching left out |
| Model/CompleteDef | transferChecks.c 301-1288, 2285-2335 | references abstract; only definition and release; reports do not change states within a check |
| Model/NationalName | nameChecks.c 38-58, 446-1107 | declarations as answers of predicates; table of types as a function; texts and locations left out |
| Model/Unused | usymtab.c 3470-3715; uentry.c 2548-2573, 2831-2836, 5558-5589 | optgenerror an oracle; shared fields are numbers; texts left out |
| Model/Redeclared | uentry.c 6067-6097, 6140-6162, 9554-9905; usymtab.c 713-1044; cgrammar.y 338-347, 826-835 | functions of the program only; no libraries, specifications, types or annotations |
| Model/Declarator | cgrammar.y 382-530, 1585-1589, 1647-1699; idDecl.c 183-245; ctype.c 372-428, 730-754, 2011-2096; ctbase.i 1801-1840, 2084-2380 | types as terms; no qualifiers, clauses or types with alternatives |
| Model/SortCheck | checking.c 48-191, 222-416, 538-820; symtable.c 2070-2135; sortSet.c 98-141; sort.c 3036-3050 | sorts and operators as numbers; the table of sorts is a parameter; no brackets |
| Model/LoopHeuristics | loopHeuristics.c 55-481; constraintList.c 89-111, 147-162 | resolution by the list is a parameter |
| Model/TypeTable | cttable.i 419-613; ctype.c 140-147, 322-355, 432-449, 645-702, 1196-1251, 1366-1575; ctbase.i 2505-2526 | contents of structures, names of types, function types as operands not modelled |
| Model/Intern | lsymbol.c 77-338; tokentable.c 38-165; syntable.c 93-195; lclsyntable.c 52-172; lcltokentable.c 43-175 | integers do not overflow |
| Model/MetaState | transferChecks.c 4005-4312; usymtab.c 3891-3960; uentry.c 10425-10597; exprNode.c 3383-3605; sRef.c 9894-9998 | references are numbers; what is known about null, definition and aliases is given; no texts of messages |
| Model/ArgPass | exprNode.c 2506-2717, 2882-3212, 3749-3933, 3978-4061, 10494-10717 | matching of types and conversions are given; sets of references only; iterators, yield and sef are left out |
| Model/TempFiles | fileTable.c 101-117, 219-233, 279-613, 798-1093; llmain.c 1240-1276; lslparse.c 371-500 | names absolute and folded by given functions; other processes act between steps; lookup by search |
| Model/OpenFiles | fileTable.c 258-276, 1001-1013, 1140-1202 | streams are numbers |
| Model/StateHist | stateInfo.c 48-203, 464-488; fileloc.c 285-296 | locations defined; actions and references are numbers; recording on lists |
| Model/InputStream | inputStream.c 78-284; Headers/inputStream.h 13 | char signed; fgets does not fail; strings have no byte 0 |
| Model/MtScan | mtscanner.c 45-106, 132-286 | on the characters that C147 says are read; ASCII; locations left out |
| Model/SameAlt | ctype.c 586-643, 1196-1219; cgrammar.y 1448-1458 | other types are comparable values; no function types, `anytype` or `impconj` |
| Model/StateClause | stateClause.c 66-114, 155-402, 681-833; usymtab.c 2284-2355, 4176-4297; transferChecks.c 1654-1762, 1786-1857; exprNode.c 3262-3369, 3610-3745, 3797-3927; uentry.c 10806-10847; tests and effects of sRef.c | references do not influence each other; no constants, globals, or global state |
| Model/MergeEnsures | constraintResolve.c 68-97, 224-245, 597-621, 689-741; constraintList.c 89-145 | facts have no alternatives; otherwise as Model/Constraint |
| Model/Cast | exprNode.c 5003-5244; ctype.c 181-204, 261-293, 456-495, 776-798, 1085-1091, 1798-1815, 1878-1881, 2012-2067; ctbase.i 1921-1940 | types are trees, without alternate types; ctype_match and ctype_equal are parameters |
| Model/MacroCheck | cpplib.c 7838-7844, 7896-8157; usymtab.c 5255-5271, 5301-5307; uentry.c 5981-6006, 6175-6216 | one symbol table; locations are their kinds; line numbers and redefinition reports left out |
| Model/LitMatch | exprNode.c 9845-9973; ctype.c 223-244, 270-278, 826-861, 946-949, 1003-1015, 2687-2703 | types are trees without alternate types; match of pointers is given |
| Model/GlobReturn | usymtab.c 3727-3843, 4317-4344 | a global is a number; the transfer checks are given as calls; reports are shown |
| Model/GlobQual | cgrammar.y 761-782; clabstract.c 187-284; varKinds.c 323-339 | the state of the variable only; questions about its type are one value |
| Model/AllDefined | usymtab.c 3246-3335; fileloc.c 407-418, 885-889, 910-914; uentry.c 6218-6224 | a location is its kind; flags are values for the whole run |
| Model/Mapping | mapping.c 36-124; symtable.c 585-593, 825-832 | symbols and the count have no bound; memory is not reused |
| Model/InfixTerm | llgrammar.y 1236-1260; abstract.c 3808-3888; termNodeList.c 70-81, 105-109, 144-149 | operands are numbers; sorts are left out |
| Model/TermList | termNodeList.c 35-157 | numbers have no bound; memory is not reused |
| Model/PassThrough | llmain.c 254-341; osd.c 525-564 | text before the place is kept in reverse; UNIX only |

Each file's header gives the exact line ranges.  Machine floating point (`double`,
`float`, `%f`, `strtod`) is a parameter of Model/MultiVal and nothing is assumed about
it, except where a theorem has the assumption as a hypothesis.

## Reading seeded/LOG.jsonl

Each line is one edit of the model in a scratch copy, followed by `lake build`. `evidence` says how much it shows:

* `property`: a theorem or example in Props failed.
* `helper-lemma-only`: a lemma in Proofs failed, and Props was then not built. This shows that a proof
  script broke. It does not by itself show that the property is false of the mutant.
* `none`: the build succeeded, so the theorems were too weak; a later line has the tightened version.
* `invalid`: the mutant did not elaborate and counts for nothing.

## Defects found (each proved with a witness in the Props file)

* C02: messages in system headers, libraries or without position are not deduplicated.
* C03: a counted line inside an ignore region ends the region; a region in any file suppresses at library positions.
* C04: a comment read after later ones, with none before it, governs the end of the file; a `+flag` for a naming flag does not override an older `-namechecks`.
* C06: messages counted after the last clean-up are lost from the accounting.
* C07: the wrapping loop hangs for narrow lines with deep indentation; overlong words overflow.
* C13, C14: a cstringTable accepts the value that means 'not found'; a name with a byte ≥ 128 reads outside the random table.
* C15: -12 is read back as -8; string constants break their record; 2^32+5 is written as 5.
* C17: `'a' + 'b'` folds to a negative character.
* C18: YES > MAYBE and MAYBE > YES; unknown < known and known < unknown.
* C19: integer sets hold duplicates, lose elements and read out of bounds.
* C20: {1,2} and {2,1} are different access sets.
* C22, C23, C41, C45: particular merges lose nulls, claim definedness or drop an obligation.
* C24: a return inside a loop or list is forgotten; silenced unreachable code.
* C31: leaving a scope can drop an alias fact about an outer variable; references with more than 25 accesses never leave scope.
* C32: every constant is a member of every nonempty reference set; `{a[1]} ∩ {*a} = {a[1]}`.
* C34: mismatching specification warnings with a positive expectation exit successfully.
* C40, C47: a transfer declared again with a message fails an assertion; merges may be asymmetric.
* C43: a constant is "the same" as everything; `x.f.g` is not included in `x.f`, nor `**p` in `*p`.
* C42: with `+mustmod` a change of the internal state is not reported; a merged reference whose first
  alternative is unchecked hides the other; `modifies *a` permits `a[5]`.
* C48: `modglobsnomods` and `modstrictglobsnomods` have each other's effect.
* C44: a case label inside `if`/`for` leaves a stale clause or fails an assertion.
* C33: `p = p->next` records that `p` is an alias of the new `p->next`; assigning `x.f` keeps facts about `x.f.g`.
* C50: after `b = d; c = b; a = d` the alias of `a` and `c` is not recorded.
* C21: `if (*a != NULL)` guards `a[1]`; `if ((p != NULL) == 0)` guards `p` where it is null, likewise for other operators, `,` and `?:`; after `while (p == NULL) break;` and after `p == NULL || fatal()` the reference `p` is taken to be not null.
* C52: after `if (p->next != NULL) { p = q; ...` the reference `p->next` stays guarded; a reference known to be null stays so after an assignment to it.
* C08: in `#if`, `2 * -3`, `1 + -2`, `- -1`, `!-1`, `1 ? 1 ? 2 : 3 : 4` and `1 ? 2, 3 : 4` are syntax errors; `1 << 40` is 0; `-1 / 2u` is `-(1 / 2u)`; a skipped quotient does not make a conditional unsigned; `1LL` is an error.
* C09: `#if` alone, `#if (`, `#if 1 )`, `#if && 1` use values never written; `#if 1 : 2` reads below the stack; `(-9223372036854775807 - 1) / (-1)` and `(-1) * (-9223372036854775807 - 1)` trap, `(-1) >> 32` fails an assertion.
* C12: `hashNode_copy` (cpphash.c:168-199) links only the first element of the copied pattern, so a command-line macro such as `-D"sq(x)=x*x"` loses every use of a parameter but the first; `noExpand` and `rest_args` of the copy are never written.
* C10: in a skipped group a line with one apostrophe (`don't`) swallows the end of its line (cpplib.c:5830-5836, 6218-6221), so a directive on the next line is not seen; a quotation mark without partner swallows lines up to the next one. `#elif` after a processed group is skipped from the middle of its line (5498-5501), so `#elif # endif` counts as two directives.
* C53: a conditional that is open at the end of a file is not reported (cpplib.c:6037-6070 has no such test), and in an included file it stays on the stack, where the including file's #else and #endif are taken for it.
* C54: do_elif (cpplib.c:5495) does not clear `control_macro` as do_else does (5890): a file whose #elif part matters is passed over the second time.
* C54: directives before #ifndef leave `only_seen_white` at 2 (5571 with 6137-6145), so `#undef A` / `#ifndef G` counts as guarded and the #undef is not done the second time.
* C54: after an included file without text `only_seen_white` is 2 in the file that includes it (5007), so text before is forgotten.
* C01, C03, C04: a file and its preprocessed text have different numbers (`context_setFilename` keeps the number of the text until the first #include returns, context.c:4294, 4330). fileloc_compare, fileloc_lessthan and fileloc_notAfter compare the numbers (fileloc.c:261, 290, 308), so a control comment anywhere after the first #include governs messages about lines before it that are given late.
* C39: `macrocache_exists` compares with `fileloc_equal`, which is false for positions in libraries and system headers, so that a macro there is checked as often as it is read; a text that replaces one already checked is never checked; a control comment at the position of a macro replaces its text and is then checked as a macro.
* C35: settings that do not do what flags.def documents (`Spec.deviates`, proved to be all of them): `memtrans` misses staticinittrans, unknowninittrans, readonlytrans and onlyunqglobaltrans; `bounds`, `boundsread`, `boundswrite` also set the likely-bounds flags; `czech` sets czechtypes but not czechmacros and `-czech` leaves accessczech; `macrodecl` sets none of its group; `+partial` also clears topunused and `-partial` turns partial on; `+internalnamelookalike` sets distinctinternalnames; `-externalnamelen` and `-internalnamelen` turn the flag on.
* C35: `+neverinclude +strict` leaves both neverinclude and exportheader on.
* C36: a mode selected by a control comment before any flag of the file is set stays for later files; values set by control comments are never restored; control comments about namechecks, macroredef, usevarargs, nextlinemacros, allmacros, fcnmacros and constmacros act on the preprocessing of all later files and on the check of the first; an old-style `main` turns `maintype` off for good (clabstract.c:682); `=flag` on a group gives all members the setting of the group flag; cpplib.c:8300 compares the comment with its sign to "nestcomment", so the flag is never recognised there.
* C37: `+exportfunc_tion` is not recognised although `+exportfunction` and `+export_function` are; a mode name with punctuation (`+st_rict`) is taken for a mode, but selecting it turns all mode flags off and reports an internal bug.
* C25: `10 - (3 - y)` is simplified to `(0 - y) + 7`, `10 + (0 - y)` to `y + 10`; the difference of named constants to their sum; `maxSet(i + p)` to `maxSet(i) - p`; literals of 2^31 and more wrap around.
* C26: `y + N >= 12` with a named constant `N` of value 5 becomes `y >= 17`.
* C27: `maxSet(p) R sizeof(p) - 1` counts as true for buffers of any type and for `=`, `>=` and `<=`; for `maxSet(p) >= (x + y) - 1` the data of a binary expression are read as those of a term (`&&` for `||` in `sizeofBufComp`).
* C28: `x > 3` is dropped because of `x >= 3`; `x >= y` because of `b < y` and `x >= b + 1`; `x >= 5` because of `x <= y` and `y >= 5`.
* C16: in a library a variable called `Result`, `Param` or `sRef_dump` in a constraint is taken for something else, -12 is read as -8, and of a constraint with alternatives only the first is written (`C16_expr_full_is_false`, `C16_numbers`, `C16_constraint_full_is_false`).
* C55: a[-12] is read back as a[-8], and a value of `*p` as one of `p` (`C55_full_is_false`, `C55_value_moves`).
* C56: a variable declared directly in a `switch` body is in the table of its case only: in the next case it is not found, or an outer variable of the name is, and its state is merged into that of the outer variable (`C56_full_is_false`, `C56_outer_found`, `C56_outer_changed`).
* C57: states at a `break` that is not at the end of a case are forgotten; a loop counts as run at most once; after `a && (x = 1)` x counts as defined; so it does after a `switch` with `default` one of whose cases does not touch x and breaks; in `if (...) return; else x = 1;` what was known of x before is merged with what is known after.
* C58: in `if (c) { int x; { use (x); } }` the reference of x is looked up from the branch, where there is no x or another one (usymtab.c:4757-4761, 4824-4840). usymtab_lookupSafeScope does not return for a name that is not found, and gives nothing for a variable shadowed in the next scope (5046-5070).
* C59: the type of an integer constant does not depend on its value (`3000000000` is `int`); values from 2^63 overflow a `long`; `0x1p3` is not known; `089` is accepted as 89.
* C60: `'\\x41'`, `'\\101'`, `'\\r'`, `'\\a'`, `'\\?'` and others have the value 0 (cscannerHelp.c:1950-1970), and `L'x'` has the value of the apostrophe.
* C61: merging literals (`"ab" "cd"`) advances without writing (cstring.c:934-960), so an uninitialised byte is counted per junction, or the string is cut there (always if the first literal is empty); octal escapes lose their second digit (cstring.c:1008) and take 8 and 9; `\\v` is `v`; an empty literal for an array of size 0 reads `temp[-1]` (exprNode.c:1080).
* C62: a declaration without any word has the unknown type, not `int`, since `ctype_isAnytype` holds for it (see C134); `char unsigned` is `unsigned int`, `char signed` is `int`, `double long` is `long int`; `signed unsigned`, `long long long`, `long float`, `char int`, `double unsigned` are not reported; `short short` is `unsigned int` after its message.
* C63: `%lf` expects `long double`, `%hhd` does not expect `char`, `%ln` is reported, `%a` and `%F` are unrecognised, `%0-5d` is unrecognised, a percent sign at the end reads past the string, an erroneous argument of an asterisk shifts the others.
* C64: `%ln` and `%hn` expect `int *`, `%p` is reported, `%*[%d]` and `%[^]%d]` are read as if `%d` were a conversion, `%[` at the end reads past the string.
* C65: `+longint` does not let `int` take a `long` (`c2 == CTX_INT` is tested where `CTX_LINT` is meant) but lets `short` take an `int`; the recursion for integral types of unknown size drops `deep`; `+matchanyintegral` tests `c2` for `CTX_SIGNEDINTEGRAL` twice, so everything matches it; `+relaxquals`, `+ignoresigns` and `+longintegral` can each turn a match into a mismatch.
* C66: `bool` matches the abstract type whose number in the symbol table is that of `bool` in the table of types (`contents.base` is read where `contents.tid` is meant); with `forwarddecl` an abstract type `struct s **` matches `struct s *`; an array of abstract values takes a `void *` without `abstvoidp`.
* C67: an array of pointers to functions takes a pointer to a function; `typedef void V` makes `V *` match no other pointer; with `relaxquals` a `long *` takes an `int[3]`; structures without name and fields match all without name.
* C68: a `unique` parameter or an array on the stack can be passed to `free` without a message; shared storage can be passed as `keep` or `owned`, unannotated storage as `owned`.
* C69: `g = malloc (n)` is not reported when `g` is a global `observer`: the storage is lost. Arguments for parameters with a state clause skip all checks of transfer.
* C72: on a return, and at the end of a function, a variable that is hidden by one of the same name in an inner scope is not checked: its storage is lost without a message.
* C73: `{ char *p = malloc (3), *q = p; }` is not reported: when a block is left, any alias counts as a remaining reference, also one of the same block.
* C74: parts that are `owned` or `keep` are never reported when the storage around them is released; a pointer whose target was defined piece by piece (`SS_PDEFINED`) hides the messages about all parts, although the comment says this is meant for elements of arrays: `sRef_kill` of a field makes defined bases partly defined, the pointer included, so after `free (p->a)` nothing is reported about the other fields of `*p`.
* C75: `#define f(x) 1.x` replaces `x` inside of the number; `#define f(x) x## ` (blank at the end) is accepted; `#define f() #y` is accepted and the `#` is lost.
* C76: making a string drops `@` before white space; a backslash outside of literals before a quote makes the literal after it be taken as plain text, so its backslashes are not doubled.
* C77: `f()` for a macro with one parameter is reported as used without arguments, `f( )` is not.
* C78: `unsafe_chars` misses `->`, `/*` (`#define DIV(a,b) a/b`, `DIV(x,*p)` starts a comment), the digraphs, and names ending in `$`.
* C79: `raw_before` processing looks for the marker `@-` past the end of the argument; if the next argument starts with it, `memcpy` gets a negative length.
* C80: no function of `<math.h>` is in `reservedNames.nf`, so `sin` or `pow` can be redefined without a report. `cstring_bsearch` starts with `high = nentries` and stops at `mid == nentries`: in tables of 1, 4, 5, 10–13, 22–29, 46–61, 94–125, 190–253 … entries it never looks at the last entry. The table of reserved names has 201, and is saved by its null entry.
* C81: `const_cast`, `explicit`, `export`, `typename` and `wchar_t` are missing from the list of C++ words (`const_class` and `overload` are in it).
* C82: `matchPrefix` skips one character after the `*`: `TWi` matches `T^*`; and the name `T` does not match `T^*`, although the manual gives it as an example.
* C83: `constprefixexclude` and `iterprefixexclude` are not in `excludeCodes`, so they have no effect.
* C84: `checkExpressionDefined` skips the test of the left operand when the right operand is a call, meant for `x = f(…)`; so `i + f(i++)` and `i += f(i++)` are not reported, while `f(i++) + i` and `i + (f(i++))` are.
* C85: `i = (i++, 3)` and `i = (f(i++))` are reported although a sequence point orders the writes; `i = f(i++)` is not.
* C86: `exprNode_switch` keeps only the sets of the controlling expression, so `while (x) { switch (y) { case 1: x--; } }` is said to be infinite.
* C86: `checkInfiniteLoop` does not ask for `break` and `return`, and is called for `while` only, not for `for` and `do`.
* C88: the members are compared by name only; `case 0:` or another member with the same value does not count.
* C89: `exprNode_loopMustExec` takes `for (i = 3; i < 3; …)`, `for (i = 3; i > 3; …)` and `for (i = 3; i == 5; …)` to be executed, and does not take `i <= 3`, `i >= 3`, `i == 3`.
* C90: `-i file` stops the processing of the arguments that follow, even of the files to check.
* C91: `-bool` and other obsolete flags index the flag tables with `SKIP_FLAG`; `--Iinc` adds the directory `Iinc`.
* C92: `-messagestream file` suppresses `~/.splintrc`; a flag such as `showscan` in an options file overrides the command line.
* C93: a line of an options file of more than 1024 characters is written beyond the end of the buffer; `-nof#x` is one flag.
* C95: the absolute name of the root directory is the empty text, and a name like /../x is a fatal error.
* C96: in the directory /u/x.c.old/d the file /u/x.c is printed as `..`; in /u/x.c.old it has no name, and the character before the buffer is read.
* C97: with sysdirs /usr/include the file /usr/include2/x.h is a system file; an empty element of sysdirs hides those after it; an empty element of a search list is looked up as the root directory, an empty first one not at all; a name of 4096 characters or more overflows the buffer of osd_getPath.
* C98: `splint ../foo` reads neither ../foo.c nor ../foo.lcl; the base name of /a.b/foo is a.
* C99: no bound is required for the accesses in `c ? a[i] : 0`, in `(a[i], 0)`, in initializer lists and for `p->x`; `++a[i]` and `a[i] *= 2` only require reading; in `*(a[i]) = 0` the read of a[i] is required as a write; `&a[10]` requires a readable element.
* C100: in the branch of `if (a < b || c < d)` both are assumed, and in that of `if (!(a < b))` a < b is assumed.
* C101: what the body of an `if` or a loop changes is not used for the statements after it; the test of `do` and the three parts of `for` give no requirement.
* C102: the requirements of a case that falls through, and of the tested expression, are lost; `default` keeps the facts of the case before it.
* C103: `#define f(a,) x` is accepted; after a parameter with `...` three characters are skipped after each further parameter, so `#define f(a...,b)` is read beyond its end; bad names only give a message.
* C104: redefining `"a b"` as `"a  b"`, `a ## b` as `a##b`, or `f(a)` as `f(a...)` is not reported.
* C105: `switch (e) { int x; case 1: ...}` never reports `x`, and a use of it counts as a use of an outer `x`; `case 1: x; switch (e) { }` forgets the use of `x`, which is then reported as unused.
* C106: `while (x) {}` and `do x; while (c)` as a macro body are not reported though `x` is evaluated any number of times; `if (c) return; x` is not reported; `switch (e) {case 1: x; break; default: x;}` is; `if (c) x; else return;` is accepted while `if (c) return; else x;` is reported.
* C107: with `#define f() 1` and `#define g f`, the text `g;` is the fatal error "Internal error parseGotoMark"; with `#define k() f`, `k()()` is `1` but with a new line in the first parentheses it is left as `f ()`.
* C108: a variable nothing is known of is written as `^`, which is read as implicitly temporary (uentry.c:4827 against 5123); a function type that is only expected is written as `?`.
* C109: uentry_compare ignores the access sets of constants and the exposure of variables, so grouped entries lose them; enumeration members come back as constants; lines are not checked for length when written but reading one of 16383 characters is fatal.
* C110: `case 1: return; ; case 2:` is reported as falling through; `case 1: f (); int y; case 2: ...` is not reported.
* C111: a break from a loop in a switch in a loop is reported under looploopbreak.
* C112: with 6 significant characters `foobar` is not reported behind `foobarbaz` (cstring.c:379 looks behind the significant characters); with `-externalnamecaseinsensitive -externalnamelen 0` `foo` and `Foo` are reported; names of macros are never checked (uentry.c:11179-11220).
* C113: `%lu` of 18446744073709551615 prints 8446744073709551615; `%-05d` of 42 prints 00042; `%6.2s` of abcd prints two blanks and abcd; vasprintf leaves the pointer unset for an empty output.
* C114: `1 & i` with a signed `i` is not reported though `i & 1` is; `x <= y` for doubles is never reported; `0 > u` is not reported, `0 < u` is; `1 + p` with a pointer that may be null is not reported (the integer is tested); `1 + arr` is reported as incompatible types; `i - p` is accepted.
* C115: `%w` is checked as `unsigned long` but read with `va_arg (p, int)`; a format ending with `%` makes checkMessageArgs read behind its end, one ending with `%5` makes message do so too; `message ("%d %s%&", 2, s)` is reported as a type error.
* C116: `struct { int a; int b; } x = { "a" }` is only reported to be incomplete, with -fullinitblock not at all; `int *p = { 1, 2 }` is accepted and `int *p = { &x }` is reported; `int x = { 1 }`, `char a[3] = { "ab" }` and `int a[2][2] = { 1, 2, 3, 4 }` are reported though valid.
* C117: a function declared in `decls.h`, defined and used in `a.c` only, is not reported by +exportlocal, but is with +showuses.
* C118: what is written for `/*@notfunction@*/`, `/*@notparseable@*/` and `/*@+commentchar c@*/` is one blank longer than the comment.
* C118: `/*@-nestcomment@*/` has no effect on the preprocessor, which alone reports nested comments: the wrong pointer is compared.
* C118: `/*@null@*\\` followed by `/` on the next line makes an assertion fail.
* C119: `/*@null*/` (without the second `@`) makes the scanner read on up to the next `%` of the source; if that is a remainder operator, an assertion fails.
* C119: `/*@ modifies x@*/` is not recognised, because of the blank; neither is a declared annotation after a blank, though `/*@ null@*/` is.
* C119: `/*@access s` with `t@*/` on the next line gives access to `s` only, without message.
* C119: `/*@-null foo -bar@*/` ignores `foo -bar` without message.
* C119: the entries `setBufferSize`, `testInRange`, `MaxSet`, `MaxRead`, `maxSet` and `maxRead` of the table of words are never found, since words are compared in small letters.
* C120: `out` then `in` for the same parameter or variable is not reported, and it stays `out` (`in` then `out` is reported).
* C120: `relnull` in a redeclaration is ignored silently; `null` after `relnull` is silent.
* C120: an `only` parameter is silently not `only` any more after a declaration without annotation (with `-paramimptemp`).
* C120: after one contradiction about ownership, no later one is reported.
* C120: `returned` in a redeclaration is not recorded if its message is suppressed; `sef` in one drops `returned`.
* C120: `exits`, `truenull` and `printflike` in a redeclaration are reported every time, but never in effect.
* C120: prototypes are compared with the last one only; since matching of types is not transitive, contradictions with the first are missed.
* C121: with `-incondefs`, or if the first declaration is in a library, globals that only a later declaration lists are ignored, and uses of them are reported.
* C121: if a function is first declared without a modifies clause and later with one, it may modify nothing afterwards: modifications of what its clause lists are reported.
* C121: with `+mustmod`, a function whose declaration and definition have the same modifies clause is never reported for not modifying it.
* C121: `undef` and `killed` in the globals list of a later declaration are ignored silently.
* C121: a requires clause is reported as redeclared ("Dropping previous precondition: < empty constraint >") though there was none before, or if it is the same.
* C122: a call of a function that lists `undef g` is not reported in functions that do not list `g`, and a function that lists `g` for such a call only is reported not to use it.
* C122: `internalglobsnoglobs` has no effect unless `internalglobs` is set, `checkstrictglobs` none unless `globals` is.
* C123: a requirement is dropped when a list has the same requirement with an alternative (constraintList_add, constraintList_mergeRequires); weakened forms are kept as alternatives; where equals are put in, a requirement becomes an alternative to itself, so that lists double.
* C124: a global variable without an annotation that is modified by a called function is not reported, even with +allglobals (checkCallModifyAux asks uentry_isCheckedModify); parts of static variables of another file are taken for parts of a variable of the calling file.
* C125: storage with several alternatives that were released is reported as "used before definition" under usedef, not under usereleased (exprNode_checkUse asks the state of the merged reference, which is unknown).
* C126: `void f (/*@out@*/ struct s *p) { }` is not reported: whatUndefined returns at the first field that is defined instead of the first that is not (sRef.c:4880), so an allocated structure is never undefined.
* C127: checkCompletelyDefined never sets inUnion (transferChecks.c:1185 passes it on), so structures in unions are checked like others; a union that is only allocated fails (result NO) even if a field is defined, without a report; a pointer in an unknown state fails without a report; at the end of a block undefined fields are not reported.
* C128: an underscore as second or third character of a type name is never reported (nameChecks.c:611, 548); FLG_SLOVAKTYPES has no effect unless FLG_SLOVAK is set (857); FLG_ACCESSCZECHOSLOVAK alone gives no access, as checkNationalName only asks the other two (511, 517); FLG_CONSTPREFIX is asked of global variables only, so never supersedes (483); constants never get access by the access flags alone, though their descriptions say so.
* C129: usymtab_allUsed marks the fields of an unnamed structure as used without a message (usymtab.c:3693), so they are never reported for a named type either; the same happens if the first message is suppressed. uentry_isParam (uentry.c:5559) is false for sef and returned parameters, so they are reported under varuse, not paramuse.
* C130: uentry_mergeDefinition (uentry.c:9705-9740) reports a prototype after a definition as "defined more than once", and says nothing of a second definition when the first declaration is extern or static; posRedeclared (9825) keeps only the last redeclared function of a declaration.
* C131: ctbase_newBase (ctbase.i:2161) drops what is in parentheses that no parameter list follows, so `int (*p);` declares an int; with `[5]` behind them idDecl_notExpectingFunction (idDecl.c:236) leaves the pointers to be applied to the elements, so `int (*p)[5]` is an array of pointers; ctbase_newBaseExpFcn makes arrays without sizes and leaves its first loop at an inner function, so that functions returning pointers to functions lose the pointers; `int (*(*f)(int))[7]` makes ctype_argsFunction read an array as a function.
* C132: assignSorts (checking.c:348) tests `termNodeList_empty (args)` where it must be not empty, so the loop over the arguments never runs: ambiguous operators in arguments are not reported. standardOperators ignores the sort after a colon (checking.c:546) and accepts a comparison only if the left side has one sort (773), so `x = 7` is fine and `7 = x` is not; assignSorts does not use `given` for names.
* C133: getForTimes (loopHeuristics.c:205-224) takes the bound of `i < n` for the number of iterations whatever the initial value, so a buffer of n elements is reported for `for (i = 0; i < n; i++)`, and a counter that starts below -1 is unsound; canGetForTimes tests `t2` twice where `t1` is meant (loopHeuristics.c:163).
* C135: ctype_makeAnytype (ctype.c:1234-1245) combines the unknown type with `ctype_dne`, but ctype_makeConj (ctype.c:1373) returns its first argument for it, as `cany` still is the unknown type. So ctype_isAnytype is true exactly for the unknown type, anytype is no type of its own, ctype_makeConj of an unknown type and another is unknown (the branches at 1381-1388 are dead), and ctype_resolve does nothing (C62).
* C136: AllocChar (lsymbol.c:230-238) doubles the memory for names once, whatever the length of the name: a first name of 8192 or more characters is copied past its end.
* C137: LSLAddSyn (syntable.c:96-99) and LCLAddSyn (lclsyntable.c:55-59) enlarge the table of synonyms for the symbol of the old token, but write at the symbol of the new name: with 256 (1024) or more names in use, a synonym for an early token is written outside of the table. The tests of LSLGetTokenForSyn and LSLGetToken (syntable.c:119, tokentable.c:95) read outside of the table exactly where they are to prevent it.
* C139: the clauses `ensures state = a | b` (exprNode.c:3417-3590) merge into the value of the first operand, which is in the table of the argument itself: the argument gets the merged state, too. A further operand whose state is unknown, or any operand after `...` when its arguments cannot be merged, is an access with index -1 (internal bug).
* C139: uentry_mergeValueStates (uentry.c:10560-10575) changes the place of the merge inside of its loop, so conflicts of later states are reported where an earlier state got its value; a null pointer with an unknown state counts in one branch, but not in the other.
* C138: checkMetaStateTransfer (transferChecks.c:4250-4300) leaves the state unchanged after an error, so the same mistake is reported for each use; checkMetaStateConsistent has no message for leaving transfers (internal bug), and the two values are exchanged in the message for globals.
* C140: functionCallSafe (exprNode.c:3856) asserts that a function with trueexit or falseexit has an argument, after the missing argument was reported.
* C141: checkAnyCall (exprNode.c:10614-10615) compares `paramno < specialArgs`, where specialArgs is the number of the format: `printf (p)` does not check that p is defined and not null, and side effects in the format and in the argument after it are lost. Calls through variables return before any check of the arguments (exprNode.c:2937-2947), and calls through other expressions before the effects are merged (2916-2923).
* Noted beside C141: checkGlobMods (exprNode.c:3121) has `!sRefSet_isDefined (smods)` where the opposite is meant: static variables of other files are not removed from the modifies clause.
* C142: fileTable_createFile (fileTable.c:1026-1037) calls llfatalerror itself if the file exists, so the call of fileTable_noDelete in cppmain.c:129 is not reached, and the cleanup removes the file of the other process. If fdopen fails, it is reached, and the file that Splint has just made is left.
* C142: callLSL (lslparse.c:413) passes the flag keep as deletep, and invokeLSL deletes the input only if deletep is set and keep is not: never.
* C143: nextMsg (fileTable.c:915-917) takes msg for four letters, but it is a copy of "AAA": the fourth is the terminator.
* C143: fileTable_addltemp (fileTable.c:592-597) replaces a name with unusual characters by one in the same directory, for which it does not test whether there is such a file.
* C144: cpplib.c:6938 checks that the result of fileTable_closeFile is 0, but it is TRUE on success: every use of a file of name maps is an internal bug.
* C145: stateInfo_sort (stateInfo.c:116-141) exchanges the contents of the new cell with each later cell in turn and returns the second cell: the content carried out is in the first cell, which is not in the list returned. The first cell is the one stored with the reference.
* C146: stateInfo_update (stateInfo.c:50-54) is said to have the same effect as copy, but keeps the old history behind the last change of the new one.
* C147: inputStream_nextLine (inputStream.c:252) uses strlen (currentLine) - 1 as an index without testing for an empty string: byte 0 at the start of a line.
* C147: inputStream_peekChar (inputStream.c:194) returns a plain char as int: byte 255 is EOF where char is signed.
* C148: inputStream_nextLine (inputStream.c:224-236) counts the terminator as part of the last line and moves the tail behind it; symtable.c:988 works around this.
* C148: the test for lines that are too long (inputStream.c:258) asks for 799 characters, but at most 798 are copied from a string.
* C149: mtscanner_getNextToken (mtscanner.c:256-270) reads a mark up to the next blank, letter or digit, so marks next to each other are not recognised.
* C149: skipComments (mtscanner.c:138) looks behind every slash with inputStream_peekNChar, which asserts that there is a character in the line.
* C150: ctype_sameAltTypes (ctype.c:586-643) compares the first alternative only with the two sides of the other type, so three alternatives in another order are reported as not identical.
* C151: checkPassstateClauseList (transferChecks.c:1786-1857) applies the effect of each clause before it tests the next one, so what is reported depends on the order of the clauses.
* C152: transferChecks_return (transferChecks.c:1726-1727) skips all clauses when the returned expression is definitely null, also `ensures notnull result`; `ensures only result` kills the result before later clauses are tested.
* C153: `releases` does not kill shared storage (sRef.c:5793-5806), and nothing reports that clauses contradict each other.
* C154: stateClause_getPreTestFunction, PostTest, Entry and Effect (stateClause.c:155-370) have no case for temp, keep, kept, unique, null, relnull, yield, nullterminated and user-defined states, which the grammar accepts (cgrammar.y:1341-1359). reflectEnsuresClause (exprNode.c:3312-3327) sets a user-defined state for a part of the result on the result itself.
* C155: reflectChangesEnsures (constraintResolve.c:597-621) puts the new value of an assigned variable into facts about its old value: `y = x; x = 5;` gives `y == 5`.
* C156: exprNode_cast (exprNode.c:5069-5150) does not see an abstract type behind a name for a pointer to it: `typedef set *setp; (int *) p` is not reported for `setp p`.
* C157: exprNode_cast (exprNode.c:5074-5096) exchanges the two messages on function pointers, and takes a pointer to a named type of functions for no function pointer.
* C158: exprNode_cast (exprNode.c:5219) does not report exposure for a cast to a name of an abstract type.
* C159: cpp_shouldCheckMacro (cpplib.c:7954-7957) takes a string or operator right after the name of a macro for part of the name (`#define A"x"`).
* C160: with both notparseable and notfunction, cpp_shouldCheckMacro (cpplib.c:7964-7972) leaves notfunction set for the next definition.
* C161: an expanded macro with the name of a declared variable marks it as defined in the preprocessor (cpplib.c:8134-8141), so the same definition is checked when it is read again.
* C162: exprNode_matchLiteral (exprNode.c:9886) asks `ctype_isUnsigned` of the type itself: `typedef unsigned int u; u x = -1;` is accepted with +numliteral, `unsigned int x = -1;` is not.
* C163: exprNode_matchLiteral does not look through names for floating and character types: `double x = 1;` is accepted with +numliteral, `typedef double r; r x = 1;` is not.
* C164: checkGlobalReturn (usymtab.c:3745-3779) does not look at the null state of a killed global: one that is set to NULL after its storage was released is reported as "not released before return".
* C165: reflectGlobalQualifiers (clabstract.c:187) sets the state for each qualifier, and the list is in reverse order (cgrammar.y:767): with `globals out killed x` the global is not taken to be killed, with `globals killed out x` it is; neither is reported.
* C166: usymtab_allDefined (usymtab.c:3265-3281) reports "specified but not declared" without asking whether the specification is imported or from a library, as it does for "not defined"; and an entry that is neither declared nor defined gets both messages.
* C168: pushInfixOpPartNode (abstract.c:3868-3870) resets the list, so that `lastLeftTerm` is the first node and not the last one: for `a + b * c - d` the pair `*`, `-` is not reported, and `+`, `-` is.
* C169: termNodeList_current (termNodeList.c:147) asserts only that the position is not beyond the end; termNodeList_finish (114) for an empty list makes it -1.
* C170: handlePassThroughFlag (llmain.c:291-304) adds single quotes around each string, and osd_fixDefine (osd.c:534-555) takes them away only if they are around the whole value; for X=' it reads behind the end.

Not modelled at all: the C grammar and type checker proper, the C++/LCL front end,
file input/output, memory management, and the text of messages.
