import Verif.Model.Modify
/-!
# Uses of global variables

Model of src/exprNode.c:1131-1145 (`exprNode_fromIdentifierAux`), 2951-3041 and 3047-3112 (the part
of `checkGlobMods` that is about the globals list of the called function, and what its modifies
clause counts as used), 3219-3260 (`checkGlobUse`), of src/context.c:1867-1896
(`context_enterFunction`), 1958-1994 (`context_checkStrictGlobals`, `context_hasGlobs`,
`context_checkCheckedGlobals`, `context_checkUnknownGlobals`, `context_checkUncheckedGlobals`),
2032-2054 (`context_checkGlobUse`), 2079-2089 (`context_checkInternalUse`), 2130-2144
(`context_usedGlobal`), 2152-2157 (`context_globAccess`), 2535-2538 (`context_exitFunction`), and of
src/exprChecks.c:513-553 (`exprChecks_checkUsedGlobs`).

The elements of globals lists are global or file static variables (named by level and index) and
the special names; an identifier that was not recognized is not in the list (globSet.c:44-58).
`sRef_similar` of two of these is equality. A variable is `defined`, `undefined` or `dead`
(`SS_DEFINED`, `SS_UNDEFINED`, `SS_DEAD`), and not shared; the other states are not modelled, nor is
what is derived from a variable. A message is reported if its flag is set; suppression by comments
is in Model/Report.
-/
namespace Splint.GlobUse

/-- What can be in a globals list. -/
inductive What where
  | var (l i : Int)
  | internal
  | system
  | nothing
  | specState
deriving DecidableEq, Repr

/-- An element of a globals list: `sRef_isUndefGlob`, `sRef_isKilledGlob` (Headers/sRef.h:461-469)
and `sRef_isAllocated` of it. -/
structure Elem where
  what : What
  undef : Bool := false
  killed : Bool := false
  alloc : Bool := false
deriving DecidableEq, Repr

inductive GState where
  | defined | undefined | dead
deriving DecidableEq, Repr

structure Flags where
  globals : Bool
  allGlobals : Bool
  globUnspec : Bool
  checkStrictGlobals : Bool
  internalGlobs : Bool
  internalGlobsNoGlobs : Bool
  modFileSystem : Bool
  modNoMods : Bool
  globState : Bool
  useReleased : Bool
  useAllGlobs : Bool
deriving DecidableEq, Repr

/-- The context: the flags, `context_inFunctionLike ()`, `uentry_hasGlobs` and `uentry_getGlobs` of
the function, `context_hasMods ()`, and the annotations of variables. -/
structure Env where
  flags : Flags
  inFcn : Bool
  fcnHasGlobs : Bool
  globs : List Elem
  hasMods : Bool
  annotation : Int → Int → ChKind

inductive Msg where
  | undocumented (l i : Int)
  | mayAccess (l i : Int)
  | mayAccessSpecial (w : What)
  | undefinedBefore (l i : Int)
  | released (l i : Int)
  | unused (w : What)
deriving DecidableEq, Repr

structure St where
  used : List What
  state : Int → Int → GState
  msgs : List Msg

/-- What happens in a function body: an identifier that is a global variable is read by the parser,
a function is called that has a globals list and a modifies clause (with the global variables at the
roots of its elements), or a variable changes its state. -/
inductive Event where
  | ident (l i : Int)
  | call (globs : List Elem) (modRoots : List (Int × Int))
  | become (l i : Int) (s : GState)
deriving DecidableEq, Repr

/-- `voptgenerror`. -/
def report (flag : Bool) (m : Msg) (st : St) : St :=
  if flag then { st with msgs := st.msgs ++ [m] } else st

/-- `context_hasGlobs`, context.c:1963-1973. -/
def hasGlobs (env : Env) : Bool := if env.inFcn then env.fcnHasGlobs else false

/-- `context_checkGlobUse`, context.c:2032-2054, and the functions it calls. -/
def checkGlob (env : Env) : ChKind → Bool
  | .checkedStrict => env.flags.checkStrictGlobals
  | .checked => env.flags.globals && (env.flags.globUnspec || hasGlobs env)
  | .unknown | .checkMod => env.flags.allGlobals && (env.flags.globUnspec || hasGlobs env)
  | .unchecked => false

/-- `context_checkInternalUse`, context.c:2079-2089. -/
def checkInternalUse (env : Env) : Bool :=
  if hasGlobs env then env.flags.internalGlobs else env.flags.internalGlobsNoGlobs

/-- `context_usedGlobal`, context.c:2130-2144. -/
def usedGlobal (w : What) (st : St) : St :=
  if st.used.contains w then st else { st with used := st.used ++ [w] }

/-- `context_globAccess`, context.c:2152-2157. -/
def globAccess (env : Env) (w : What) : Bool := env.globs.any fun e => e.what == w

/-- `checkGlobUse`, exprNode.c:3219-3260. -/
def checkGlobUse (env : Env) (isCall : Bool) (l i : Int) (st : St) : St :=
  if env.inFcn then
    let st := usedGlobal (.var l i) st
    if checkGlob env (env.annotation l i) then
      if !globAccess env (.var l i) then
        if isCall then report env.flags.globals (.mayAccess l i) st
        else report env.flags.globals (.undocumented l i) st
      else st
    else st
  else st

def setState (l i : Int) (s : GState) (st : St) : St :=
  { st with state := fun l' i' => if l' = l ∧ i' = i then s else st.state l' i' }

/-- `exprNode_checkUse` (exprNode.c:10175-10334) of a variable: dead storage is reported, and
defined afterwards. -/
def checkUse (env : Env) (l i : Int) (st : St) : St :=
  if st.state l i = .dead then setState l i .defined (report env.flags.useReleased (.released l i) st)
  else st

/-- `exprNode_checkSet` (exprNode.c:10354-10454) of a variable: dead storage stays dead. -/
def checkSet (l i : Int) (st : St) : St :=
  if st.state l i = .dead then st else setState l i .defined st

/-- exprNode.c:3004-3032: a variable that is not `undef` in the list of the called function. -/
def usedByCall (env : Env) (e : Elem) (l i : Int) (st : St) : St :=
  let st :=
    if e.alloc then checkSet l i st
    else
      let st :=
        if st.state l i = .undefined then
          setState l i .defined (report env.flags.globState (.undefinedBefore l i) st)
        else st
      checkUse env l i st
  checkGlobUse env true l i st

/-- exprNode.c:2955-3041: one element of the list of the called function. -/
def callElem (env : Env) (st : St) (e : Elem) : St :=
  match e.what with
  | .internal | .system =>
    let st := usedGlobal e.what st
    if checkInternalUse env then
      if !globAccess env e.what then
        if e.what = .system ∧ env.flags.modFileSystem = false then st
        else report env.flags.internalGlobs (.mayAccessSpecial e.what) st
      else st
    else st
  | .nothing | .specState => st
  | .var l i =>
    let st :=
      if e.undef then checkSet l i (setState l i .defined st)
      else usedByCall env e l i st
    if e.killed then usedGlobal (.var l i) (setState l i .dead st) else st

/-- exprNode.c:3047-3112: the global variables that the called function may modify are used. -/
def callMods (env : Env) (roots : List (Int × Int)) (st : St) : St :=
  if env.hasMods || env.flags.modNoMods then
    roots.foldl (fun st r => usedGlobal (.var r.1 r.2) st) st
  else st

def step (env : Env) (st : St) : Event → St
  | .ident l i => checkGlobUse env false l i st
  | .call globs roots => callMods env roots (globs.foldl (callElem env) st)
  | .become l i s => setState l i s st

/-- `exprChecks_checkUsedGlobs`, exprChecks.c:513-553. -/
def checkUsedGlobs (env : Env) (st : St) : St :=
  env.globs.foldl (fun st e =>
    if !st.used.contains e.what then
      match e.what with
      | .internal | .specState | .nothing => st
      | w => report env.flags.useAllGlobs (.unused w) st
    else st) st

/-- A function from `context_enterFunction` to `context_exitFunction`; `st` is what is left of
earlier functions. -/
def function (env : Env) (evs : List Event) (st : St) : St :=
  let st := evs.foldl (step env) { st with used := [] }
  if env.fcnHasGlobs then checkUsedGlobs env st else st

end Splint.GlobUse
