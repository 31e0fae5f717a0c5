import Verif.Model.Modify
/-!
# What a call modifies

Model of src/sRef.c:2323-2392 (`sRef_fixBaseParam`), 8321-8360 (`sRef_aliasCheckPred`), of
src/exprChecks.c:1333-1480 (`checkCallModifyAux`, `exprNode_checkCallModifyVal`), and of the part of
`checkGlobMods` (src/exprNode.c:3046-3131) that checks the modifies clause of the called function
when the calling function has a clause or `+modnomods` is set.

References that are null are `none` here; an outer `none` is a failed assertion or `BADBRANCH`. The
structures that `sRef_fixBaseParam` builds get their address from the structure (`place`), as
`sRef_makeField`, `sRef_makePointer` and `sRef_makeArrayFetch` return the existing derived reference
if there is one. The aliases (`usymtab_allAliases`), the names of references and their exposure are
parameters. `context_usedGlobal` is left out (Model/GlobUse), and so is the copy of the clause that
exprNode.c:3113-3128 makes: the copy has the same elements. A report is what is handed to
`optgenerror`; `shown` is its result.
-/
namespace Splint
namespace SRef

/-- The flags that the reports are made under. -/
inductive CallFlag where
  | modObserver | modifies | modNoMods | modFileSystem
deriving DecidableEq, Repr

/-- The wording of a report: an observer, "Undocumented modification of internal state", and
"Undocumented modification ... possible from call". -/
inductive CallMsg where
  | observer | internalState | modification
deriving DecidableEq, Repr

structure CallReport where
  flag : CallFlag
  msg : CallMsg
  ref : SRef
  /-- The alias that is named in the message. -/
  through : Option SRef
deriving DecidableEq, Repr

structure CallEnv where
  own : ModEnv
  /-- `context_maybeSet (FLG_MODOBSERVER)` -/
  modObserver : Bool
  /-- `context_getFlag (FLG_MODINTERNALSTRICT)` -/
  internalStrict : Bool
  /-- `sRef_isObserver` -/
  observer : SRef → Bool
  /-- `usymtab_allAliases` -/
  aliases : SRef → List SRef
  /-- `sRef_sameName` -/
  sameName : SRef → SRef → Bool
  /-- Whether a report under a flag is shown. -/
  shown : CallFlag → Bool
  /-- The address of a structure that is built. -/
  place : SRef → Nat
  /-- `sRef_equivalent` -/
  equivalent : SRef → SRef → Bool
  /-- Whether the called function is defined in a file other than that of the call,
  exprNode.c:3093-3094. -/
  otherFile : Bool

/-- `sRef_buildArrayFetch` and `sRef_buildArrayFetchKnown`, sRef.c:6619-6743. -/
def makeFetch (place : SRef → Nat) (i : Option Int) : Option SRef → Option SRef
  | none => none
  | some r => some (fetch (place (fetch 0 r i)) r i)

/-- `sRef_buildField`, sRef.c:6265-6362; the field exists in the record's type. -/
def makeField (place : SRef → Nat) (f : Nat) : Option SRef → Option SRef
  | none => none
  | some r => some (field (place (field 0 r f)) r f)

/-- `sRef_buildPointer`, sRef.c:6830-6875. -/
def makePointer (place : SRef → Nat) : Option SRef → Option SRef
  | none => none
  | some (adr _ r) => some r
  | some r => some (ptr (place (ptr 0 r)) r)

/-- `sRef_makeAddress`, sRef.c:3344-3389. -/
def makeAddress (place : SRef → Nat) : Option SRef → Option SRef
  | none => none
  | some (ptr _ r) => some r
  | some (fetch _ r (some 0)) => some r
  | some r => some (adr (place (adr 0 r)) r)

/-- `sRef_makeConj`, sRef.c:4399-4441. -/
def makeConj (env : CallEnv) : Option SRef → Option SRef → Option (Option SRef)
  | some a, some b =>
    if env.equivalent a b then some (some a) else some (some (conj (env.place (conj 0 a b)) a b))
  | _, _ => none

/-- The argument `n`, sRef.c:2335-2351: `none` in the list is an argument that could not be analysed;
an argument may have no reference. A negative number is a failed assertion of `exprNodeList_nth`. -/
def argument (env : CallEnv) (args : List (Option (Option SRef))) (n : Int) : Option (Option SRef) :=
  if n < 0 then none
  else match args[n.toNat]? with
    | some (some r) => some r
    | some none | none => some (some (unknown (env.place (unknown 0))))

/-- `sRef_fixBaseParam`, sRef.c:2323-2392. -/
def fixBaseParam (env : CallEnv) (args : List (Option (Option SRef))) : SRef → Option (Option SRef)
  | param _ n => argument env args n
  | fetch _ r i => (fixBaseParam env args r).map (makeFetch env.place i)
  | field _ r f => (fixBaseParam env args r).map (makeField env.place f)
  | ptr _ r => (fixBaseParam env args r).map (makePointer env.place)
  | adr _ r => (fixBaseParam env args r).map (makeAddress env.place)
  | conj _ x y => do
    let a ← fixBaseParam env args x
    let b ← fixBaseParam env args y
    makeConj env a b
  | s => some (some s)

/-- `uentry_isCheckedModify`, uentry.c:3268-3274. -/
def isCheckedModify : ChKind → Bool
  | .checked | .checkMod | .checkedStrict => true
  | _ => false

/-- The test of exprChecks.c:1394-1405. -/
def rootIsChecked (env : ModEnv) (s : SRef) : Bool :=
  match s.rootBase with
  | some (cvar a l i) => !isFileOrGlobal (cvar a l i) || isCheckedModify (env.annotation l i)
  | _ => true

/-- `sRef_isLocalVar (sRef_getRootBase (s))`, sRef.c:9478-9489. -/
def rootIsLocal (s : SRef) : Bool :=
  match s.rootBase with
  | some (cvar _ l _) => decide (fileScope < l)
  | _ => false

/-- `!sRef_isValid (alias) || sRef_sameName (s, alias)` -/
def isDirect (env : CallEnv) (s : SRef) : Option SRef → Bool
  | none => true
  | some a => env.sameName s a

/-- The flag of the report, exprChecks.c:1390 and 1424-1438; in a function without a clause
`+modnomods` is set, as `checkGlobMods` asks. -/
def callFlag (env : CallEnv) (system : Bool) : CallFlag :=
  if system then
    if env.own.hasMods || env.own.flags.modNoMods then .modFileSystem else .modNoMods
  else if env.own.hasMods then .modifies else .modNoMods

/-- The reports of exprChecks.c:1408-1462, and the result. -/
def callReport (env : CallEnv) (s : SRef) (alias? : Option SRef) : Bool × List CallReport :=
  if isDirect env s alias? then
    if rootIsLocal s then (false, [⟨callFlag env false, .internalState, s, none⟩])
    else (env.shown (callFlag env s.isSystem), [⟨callFlag env s.isSystem, .modification, s, none⟩])
  else (env.shown (callFlag env false), [⟨callFlag env false, .modification, s, alias?⟩])

/-- `checkCallModifyAux`, exprChecks.c:1333-1472: the result, the reports, and the clause
afterwards. -/
def callModifyAux (env : CallEnv) (sl : Mods) (s : SRef) (alias? : Option SRef) :
    Option ((Bool × List CallReport) × Mods) :=
  if env.observer s && env.modObserver then
    some ((env.shown .modObserver,
      [⟨.modObserver, .observer, s, if isDirect env s alias? then none else alias?⟩]), sl)
  else if env.own.flags.modifies then do
    let r ← canModifyVal env.own sl s
    if r.1 then some ((false, []), r.2)
    else if rootIsChecked env.own s then some (callReport env s alias?, r.2)
    else some ((false, []), r.2)
  else if env.own.flags.mustMod then do
    let r ← canModifyVal env.own sl s
    some ((false, []), r.2)
  else some ((false, []), sl)

/-- The loop of sRef.c:8336-8355. -/
def aliasLoop (env : CallEnv) (error : Bool) (s : SRef) : Mods → List SRef →
    Option (List CallReport × Mods)
  | sl, [] => some ([], sl)
  | sl, c :: l =>
    if !c.similar s || (error && env.sameName c s) then do
      let r ← callModifyAux env sl c (some s)
      let q ← aliasLoop env error s r.2 l
      some (r.1.2 ++ q.1, q.2)
    else aliasLoop env error s sl l

/-- `exprNode_checkCallModifyVal`, exprChecks.c:1474-1480, with `sRef_aliasCheckPred`,
sRef.c:8321-8360. For a null reference `sRef_canModifyVal` answers yes (sRef.c:1161-1164), and there
are no aliases. -/
def checkCallModifyVal (env : CallEnv) (args : List (Option (Option SRef))) (sl : Mods) (s : SRef) :
    Option (List CallReport × Mods) := do
  match ← fixBaseParam env args s with
  | none => some ([], sl)
  | some t =>
    let r ← callModifyAux env sl t none
    let q ← aliasLoop env r.1.1 t r.2 (env.aliases t)
    some (r.1.2 ++ q.1, q.2)

/-- `sRef_isKindSpecial`, Headers/sRef.h:242. -/
def isSpecial : SRef → Bool
  | special .. => true
  | _ => false

/-- `sRef_isInternalState`, sRef.c:4547-4551. -/
def isInternalState : SRef → Bool
  | special _ .internal => true
  | _ => false

/-- The body of the loop of exprNode.c:3060-3103. -/
def callElement (env : CallEnv) (args : List (Option (Option SRef))) (sl : Mods) (s : SRef) :
    Option (List CallReport × Mods) :=
  if s.isSpecial then
    if s.isSpecInternal then
      if env.internalStrict then checkCallModifyVal env args sl s
      else some ([], sl.map fun e => (e.1, e.2 || e.1.isInternalState))
    else checkCallModifyVal env args sl s
  else if s.isFileStatic && env.otherFile then some ([], sl)
  else checkCallModifyVal env args sl s

/-- The loop of exprNode.c:3060-3103 over the clause of the called function. -/
def callModifies (env : CallEnv) (args : List (Option (Option SRef))) : Mods → List SRef →
    Option (List CallReport × Mods)
  | sl, [] => some ([], sl)
  | sl, s :: l => do
    let r ← callElement env args sl s
    let q ← callModifies env args r.2 l
    some (r.1 ++ q.1, q.2)

end SRef
end Splint
