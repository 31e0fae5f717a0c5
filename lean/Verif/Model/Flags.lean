import Verif.Model.FlagTable
/-! Setting flags and modes: `src/context.c`. -/
namespace Splint.Flag

/-- `flagcode_isIdemFlag`, `src/flags.c:213-216`. -/
def isIdem (f : Nat) : Bool := (table[f]?).elim false (·.idem)
/-- `flagcode_isModeFlag`, `src/flags.c:218-221`. -/
def isMode (f : Nat) : Bool := (table[f]?).elim false (·.mode)
/-- `flagcode_isGlobalFlag`, `src/flags.c:208-211`. -/
def isGlobal (f : Nat) : Bool := (table[f]?).elim false (·.glob)
/-- `flagcode_isSpecialFlag`, `src/flags.c:203-206`. -/
def isSpecial (f : Nat) : Bool := (table[f]?).elim false (·.special)
/-- `flagcode_hasNumber`, `src/flags.c:1468-1471`. -/
def hasNumber (f : Nat) : Bool := (table[f]?).elim false (·.arg == .number)
/-- `flagcode_hasChar`, `src/flags.c:1473-1476`. -/
def hasChar (f : Nat) : Bool := (table[f]?).elim false (·.arg == .char)

/-- `ynm`, `src/Headers/ynm.h:12`: what a control comment says of a flag, `-`, `+` or `=`
(`ynm_fromCodeChar`, `src/ynm.c:73-90`). -/
inductive Ynm where
  | no | yes | maybe
deriving DecidableEq, Repr

/-- `ynm_fromBool`, `src/Headers/ynm.h`. -/
def Ynm.ofBool (b : Bool) : Ynm := if b then .yes else .no

/-- The part of `gc` (`src/context.c:84-150`) that flags are kept in.  `gc.values` is indexed by the
flag instead of by `flagcode_valueIndex` (`src/flags.c:1490-1530`), which numbers the flags with a
value.  `gc.strings`, `gc.counters` and `gc.library` are left out.  Of a flag marker
(`context_addFlagMarker`, `src/context.c:405-410`) the flag and the setting are kept, not the
place. -/
structure St where
  flags : Nat → Bool
  values : Nat → Int
  saveflags : Nat → Bool
  saved : Bool
  setLocally : Nat → Bool
  setGlobally : Nat → Bool
  anyExports : Bool
  markers : List (Nat × Ynm)

def upd {α : Type} (m : Nat → α) (k : Nat) (v : α) : Nat → α := fun i => if i = k then v else m i

/-- `MINLINELEN`, `src/Headers/constants.h`. -/
def minLineLen : Int := 20

/-- The value `context_setValue` stores, if any: `src/context.c:2799-2846`.  The warnings are left
out. -/
def storedValue (f : Nat) (v : Int) : Option Int :=
  if f = FLG_LINELEN then
    if v ≤ 0 then none else if v < minLineLen then some minLineLen else some v
  else if f = FLG_INCLUDENEST ∨ f = FLG_CONTROLNESTDEPTH ∨ f = FLG_STRINGLITERALLEN
      ∨ f = FLG_NUMSTRUCTFIELDS ∨ f = FLG_NUMENUMMEMBERS ∨ f = FLG_INDENTSPACES then
    if v < 0 then none else some v
  else some v

/-- `context_setValue`, `src/context.c:2799-2846`. -/
def setValue (s : St) (f : Nat) (v : Int) : St :=
  match storedValue f v with
  | none => s
  | some w => { s with values := upd s.values f w }

/-- `context_setValueAndFlag`, `src/context.c:2848-2853`. -/
def setValueAndFlag (s : St) (f : Nat) (v : Int) : St :=
  setValue { s with flags := upd s.flags f true } f v

/-- `flags_setValueFlag`, `src/flags.c:1295-1345`: the argument of a flag that takes a number
(`cstring_toPosInt` of the text, negative when it is not a number) or a character.  The messages are
left out. -/
def setValueFlag (s : St) (f : Nat) (v : Int) : St :=
  if hasNumber f then if v < 0 then s else setValueAndFlag s f v
  else if hasChar f then setValue s f v
  else s

/-- The statements `context_setFlagAux` is made of. -/
inductive Act where
  /-- `DOSET (f, b)` -/
  | set (f : Nat) (b : Bool)
  /-- `context_setValue (f, v)` -/
  | value (f : Nat) (v : Int)
  /-- `gc.anyExports = TRUE` -/
  | exports
deriving DecidableEq

/-- One statement of `context_setFlagAux`.  `DOSET` is `src/context.c:3875-3879`. -/
def act (inFile : Bool) (s : St) : Act → St
  | .set f b =>
    let s := if inFile then
        { s with setLocally := upd s.setLocally f true, markers := s.markers ++ [(f, .ofBool b)] }
      else s
    { s with flags := upd s.flags f b }
  | .value f v => setValue s f v
  | .exports => { s with anyExports := true }

/-- The `its4` flags below `f`, `src/context.c:3904-3922`, and above it, `src/context.c:3926-3944`. -/
def its4Below (f : Nat) : List Nat :=
  if f = FLG_ITS4MOSTRISKY then
    [FLG_ITS4VERYRISKY, FLG_ITS4RISKY, FLG_ITS4MODERATERISK, FLG_ITS4LOWRISK]
  else if f = FLG_ITS4VERYRISKY then [FLG_ITS4RISKY, FLG_ITS4MODERATERISK, FLG_ITS4LOWRISK]
  else if f = FLG_ITS4RISKY then [FLG_ITS4MODERATERISK, FLG_ITS4LOWRISK]
  else if f = FLG_ITS4MODERATERISK then [FLG_ITS4LOWRISK]
  else []

@[inherit_doc its4Below] def its4Above (f : Nat) : List Nat :=
  if f = FLG_ITS4LOWRISK then
    [FLG_ITS4MODERATERISK, FLG_ITS4RISKY, FLG_ITS4VERYRISKY, FLG_ITS4MOSTRISKY]
  else if f = FLG_ITS4MODERATERISK then [FLG_ITS4RISKY, FLG_ITS4VERYRISKY, FLG_ITS4MOSTRISKY]
  else if f = FLG_ITS4RISKY then [FLG_ITS4VERYRISKY, FLG_ITS4MOSTRISKY]
  else if f = FLG_ITS4VERYRISKY then [FLG_ITS4MOSTRISKY]
  else []

/-- The flags of `case FLG_MEMTRANS`, `src/context.c:4225-4242`. -/
def memtrans : List Nat :=
  [FLG_MEMTRANS, FLG_EXPOSETRANS, FLG_OBSERVERTRANS, FLG_DEPENDENTTRANS, FLG_NEWREFTRANS,
   FLG_ONLYTRANS, FLG_OWNEDTRANS, FLG_FRESHTRANS, FLG_SHAREDTRANS, FLG_TEMPTRANS, FLG_KEPTTRANS,
   FLG_REFCOUNTTRANS, FLG_STATICTRANS, FLG_UNKNOWNTRANS, FLG_KEEPTRANS, FLG_IMMEDIATETRANS]

/-- The cases of `context_setFlagAux` that set flags to `b` and do nothing else,
`src/context.c:3967-4242` (`case FLG_EXPORTANY` also sets `gc.anyExports`, see `acts`). -/
def groups : List (Nat × List Nat) :=
  [(FLG_ALLEMPTY, [FLG_ALLEMPTY, FLG_IFEMPTY, FLG_WHILEEMPTY, FLG_FOREMPTY]),
   (FLG_PREDBOOL, [FLG_PREDBOOL, FLG_PREDBOOLINT, FLG_PREDBOOLPTR, FLG_PREDBOOLOTHERS]),
   (FLG_GLOBALIAS, [FLG_CHECKSTRICTGLOBALIAS, FLG_CHECKEDGLOBALIAS, FLG_CHECKMODGLOBALIAS,
     FLG_UNCHECKEDGLOBALIAS]),
   (FLG_ALLBLOCK, [FLG_ALLBLOCK, FLG_IFBLOCK, FLG_WHILEBLOCK, FLG_FORBLOCK]),
   (FLG_GRAMMAR, [FLG_GRAMMAR]),
   (FLG_CODEIMPONLY, [FLG_CODEIMPONLY, FLG_GLOBIMPONLY, FLG_RETIMPONLY, FLG_STRUCTIMPONLY]),
   (FLG_SPECALLIMPONLY, [FLG_SPECALLIMPONLY, FLG_SPECGLOBIMPONLY, FLG_SPECRETIMPONLY,
     FLG_SPECSTRUCTIMPONLY]),
   (FLG_ALLIMPONLY, [FLG_ALLIMPONLY, FLG_GLOBIMPONLY, FLG_RETIMPONLY, FLG_STRUCTIMPONLY,
     FLG_SPECGLOBIMPONLY, FLG_SPECRETIMPONLY, FLG_SPECSTRUCTIMPONLY]),
   (FLG_MODUNSPEC, [FLG_MODNOMODS, FLG_MODGLOBSUNSPEC, FLG_MODSTRICTGLOBSUNSPEC]),
   (FLG_EXPORTANY, [FLG_EXPORTVAR, FLG_EXPORTFCN, FLG_EXPORTTYPE, FLG_EXPORTMACRO,
     FLG_EXPORTCONST]),
   (FLG_REPEXPOSE, [FLG_RETEXPOSE, FLG_ASSIGNEXPOSE, FLG_CASTEXPOSE]),
   (FLG_RETVAL, [FLG_RETVALBOOL, FLG_RETVALINT, FLG_RETVALOTHER]),
   (FLG_DEEPBREAK, [FLG_LOOPLOOPBREAK, FLG_LOOPSWITCHBREAK, FLG_SWITCHLOOPBREAK,
     FLG_SWITCHSWITCHBREAK, FLG_LOOPLOOPCONTINUE, FLG_DEEPBREAK]),
   (FLG_LOOPEXEC, [FLG_FORLOOPEXEC, FLG_WHILELOOPEXEC, FLG_ITERLOOPEXEC]),
   (FLG_ACCESSALL, [FLG_ACCESSMODULE, FLG_ACCESSFILE, FLG_ACCESSCZECH]),
   (FLG_ALLMACROS, [FLG_ALLMACROS, FLG_FCNMACROS, FLG_CONSTMACROS]),
   (FLG_BOUNDS, [FLG_BOUNDSREAD, FLG_BOUNDSWRITE, FLG_LIKELYBOUNDSREAD, FLG_LIKELYBOUNDSWRITE]),
   (FLG_BOUNDSREAD, [FLG_LIKELYBOUNDSREAD]),
   (FLG_BOUNDSWRITE, [FLG_LIKELYBOUNDSWRITE]),
   (FLG_LIKELYBOUNDS, [FLG_LIKELYBOUNDSREAD, FLG_LIKELYBOUNDSWRITE]),
   (FLG_NULL, [FLG_NULLSTATE, FLG_NULLDEREF, FLG_NULLASSIGN, FLG_NULLPASS, FLG_NULLRET]),
   (FLG_MUSTFREE, [FLG_MUSTFREEONLY, FLG_MUSTFREEFRESH]),
   (FLG_MEMCHECKS, [FLG_NULLSTATE, FLG_NULLDEREF, FLG_NULLASSIGN, FLG_NULLPASS, FLG_NULLRET,
     FLG_COMPDEF, FLG_COMPMEMPASS, FLG_UNIONDEF, FLG_MEMTRANS, FLG_USERELEASED, FLG_ALIASUNIQUE,
     FLG_MAYALIASUNIQUE, FLG_MUSTFREEONLY, FLG_MUSTFREEFRESH, FLG_MUSTDEFINE, FLG_GLOBSTATE,
     FLG_COMPDESTROY, FLG_MUSTNOTALIAS, FLG_MEMIMPLICIT, FLG_BRANCHSTATE] ++ memtrans),
   (FLG_MEMTRANS, memtrans)]

/-- The values set with `+ansi89limits` and `+iso99limits`, `src/context.c:4034-4041`, `4053-4060`,
`src/Headers/constants.h:132-176`. -/
def ansi89 : List Act :=
  [.value FLG_CONTROLNESTDEPTH 15, .value FLG_STRINGLITERALLEN 509, .value FLG_INCLUDENEST 8,
   .value FLG_NUMSTRUCTFIELDS 127, .value FLG_NUMENUMMEMBERS 127, .value FLG_EXTERNALNAMELEN 6,
   .value FLG_INTERNALNAMELEN 31]

@[inherit_doc ansi89] def iso99 : List Act :=
  [.value FLG_CONTROLNESTDEPTH 63, .value FLG_STRINGLITERALLEN 4095, .value FLG_INCLUDENEST 63,
   .value FLG_NUMSTRUCTFIELDS 1023, .value FLG_NUMENUMMEMBERS 1023, .value FLG_EXTERNALNAMELEN 31,
   .value FLG_INTERNALNAMELEN 63]

/-- The limits of `case FLG_ANSI89LIMITS` and `case FLG_ISO99LIMITS`, `src/context.c:4026-4063`. -/
def limits : List Nat :=
  [FLG_CONTROLNESTDEPTH, FLG_STRINGLITERALLEN, FLG_INCLUDENEST, FLG_NUMSTRUCTFIELDS,
   FLG_NUMENUMMEMBERS]

/-- The export flags, `src/context.c:4248-4253`. -/
def exportFlags : List Nat :=
  [FLG_EXPORTVAR, FLG_EXPORTFCN, FLG_EXPORTTYPE, FLG_EXPORTMACRO, FLG_EXPORTCONST, FLG_EXPORTANY]

/-- The statements `context_setFlagAux` runs for flag `f` and setting `b`, in order:
`src/context.c:3881-4256`.  Two conditions on the state, at `case FLG_EXTERNALNAMECASEINSENSITIVE`,
`FLG_INTERNALNAMECASEINSENSITIVE` and `FLG_INTERNALNAMELOOKALIKE`, are on a flag that nothing before
them in the function sets, so `flags` is the state at the call.  Left out: where messages, warnings
and errors go (`case FLG_MESSAGESTREAMSTDOUT` and so on) and `yydebug`. -/
def acts (flags : Nat → Bool) (f : Nat) (b : Bool) : List Act :=
  [.set f (if isIdem f then true else b)]
  ++ (if b then (its4Below f).map (Act.set · b) else (its4Above f).map (Act.set · b))
  ++ (if f = FLG_ANSI89LIMITS then
        (FLG_ANSI89LIMITS :: limits).map (Act.set · b) ++ (if b then ansi89 else [])
      else if f = FLG_ISO99LIMITS then
        (FLG_ISO99LIMITS :: limits).map (Act.set · b) ++ (if b then iso99 else [])
      else if f = FLG_EXTERNALNAMELEN then
        [.set FLG_DISTINCTEXTERNALNAMES true, .set FLG_EXTERNALNAMELEN true]
      else if f = FLG_INTERNALNAMELEN then
        [.set FLG_DISTINCTINTERNALNAMES true, .set FLG_INTERNALNAMELEN true]
      else if f = FLG_EXTERNALNAMECASEINSENSITIVE then
        .set FLG_EXTERNALNAMECASEINSENSITIVE b ::
          (if b && !flags FLG_DISTINCTEXTERNALNAMES then
            [.set FLG_DISTINCTEXTERNALNAMES true, .value FLG_EXTERNALNAMELEN 0] else [])
      else if f = FLG_INTERNALNAMECASEINSENSITIVE then
        .set FLG_INTERNALNAMECASEINSENSITIVE b ::
          (if b && !flags FLG_DISTINCTINTERNALNAMES then
            [.set FLG_DISTINCTINTERNALNAMES true, .value FLG_INTERNALNAMELEN 0] else [])
      else if f = FLG_INTERNALNAMELOOKALIKE then
        .set FLG_INTERNALNAMELOOKALIKE b ::
          (if b && !flags FLG_DISTINCTINTERNALNAMES then
            [.set FLG_DISTINCTINTERNALNAMES true, .value FLG_INTERNALNAMELEN 0] else [])
      else if f = FLG_PARTIAL then
        if b then [FLG_EXPORTLOCAL, FLG_DECLUNDEF, FLG_SPECUNDEF, FLG_TOPUNUSED].map (Act.set · false)
        else []
      else if f = FLG_CZECH then
        (if b then [.set FLG_ACCESSCZECH b] else []) ++
        [FLG_CZECHFUNCTIONS, FLG_CZECHVARS, FLG_CZECHCONSTANTS, FLG_CZECHTYPES].map (Act.set · b)
      else if f = FLG_SLOVAK then
        (if b then [.set FLG_ACCESSSLOVAK b] else []) ++
        [FLG_SLOVAKFUNCTIONS, FLG_SLOVAKVARS, FLG_SLOVAKCONSTANTS, FLG_SLOVAKTYPES].map (Act.set · b)
      else if f = FLG_CZECHOSLOVAK then
        (if b then [.set FLG_ACCESSCZECHOSLOVAK b] else []) ++
        [FLG_CZECHOSLOVAKFUNCTIONS, FLG_CZECHOSLOVAKVARS, FLG_CZECHOSLOVAKCONSTANTS,
         FLG_CZECHOSLOVAKTYPES].map (Act.set · b)
      else ((groups.lookup f).getD []).map (Act.set · b)
        ++ (if f = FLG_EXPORTANY then [.exports] else []))
  ++ (if b && exportFlags.contains f then [.exports] else [])

/-- `context_setFlagAux`, `src/context.c:3881-4256`. -/
def setFlagAux (s : St) (f : Nat) (b inFile : Bool) : St := (acts s.flags f b).foldl (act inFile) s

/-- `context_setFlag`, `src/context.c:3862-3866`. -/
def setFlag (s : St) (f : Nat) (b : Bool) : St := setFlagAux s f b false

/-- `context_setFlagTemp`, `src/context.c:3868-3873`. -/
def setFlagTemp (s : St) (f : Nat) (b : Bool) : St := { s with flags := upd s.flags f b }

/-- `context_resetModeFlags`, `src/context.c:672-682`. -/
def resetModeFlags (s : St) : St :=
  ((List.range NUMFLAGS).filter isMode).foldl (fun s f => setFlag s f false) s

/-- The table of a mode; `none` stands for the call of `llcontbug`, `src/context.c:1387`. -/
def modeTable (m : List Char) : Option (List Nat) :=
  if m = c!"standard" then some mode_standard
  else if m = c!"weak" then some mode_weak
  else if m = c!"checks" then some mode_checks
  else if m = c!"strict" then some mode_strict
  else none

/-- `context_setModeAux`, `src/context.c:972-1390`: the state left behind, and whether the mode was
known.  The warning about overridden flags is left out.  `SETFLAGS` (`src/context.c:948-955`) calls
`llbug` for a flag of the table that is not a mode flag; there is none
(`C35_modeTables`), and it is left out here. -/
def setMode (s : St) (m : List Char) : St × Bool :=
  let s := resetModeFlags s
  match modeTable m with
  | some l => (l.foldl (fun s f => setFlag s f true) s, true)
  | none => (s, false)

/-- `context_userSetFlag`, `src/context.c:3715-3817`: a flag on the command line or in an options
file.  The warnings and `gc.library` are left out. -/
def userSetFlag (s : St) (f : Nat) (b : Bool) : St :=
  if f = FLG_NEVERINCLUDE ∧ b then
    let s := if s.flags FLG_EXPORTHEADER then { s with flags := upd s.flags FLG_EXPORTHEADER false }
      else s
    setFlag { s with setGlobally := upd s.setGlobally f true } f b
  else if f = FLG_EXPORTHEADER ∧ b ∧ s.flags FLG_NEVERINCLUDE then
    { s with flags := upd s.flags FLG_EXPORTHEADER false }
  else setFlag { s with setGlobally := upd s.setGlobally f true } f b

/-- `context_saveFlagSettings`, `src/context.c:4276-4281`. -/
def saveFlagSettings (s : St) : St := { s with saved := true, saveflags := s.flags }
/-- `context_restoreFlagSettings`, `src/context.c:4283-4288`. -/
def restoreFlagSettings (s : St) : St := { s with flags := s.saveflags, saved := false }

/-- `context_restoreFlag`, `src/context.c:3842-3860`; when no flags are saved a syntax error is
reported and nothing else happens. -/
def restoreFlag (s : St) (f : Nat) : St :=
  if s.saved then
    setFlagAux { s with markers := s.markers ++ [(f, .maybe)] } f (s.saveflags f) false
  else s

/-- `context_fileSetFlag`, `src/context.c:3819-3840`: a flag in a control comment. -/
def fileSetFlag (s : St) (f : Nat) (y : Ynm) : St :=
  let s := if s.saved then s else saveFlagSettings s
  match y with
  | .no => setFlagAux s f false true
  | .yes =>
    let s := setFlagAux s f true true
    { s with setLocally := upd s.setLocally f true }
  | .maybe => restoreFlag s f

/-- What the command line says about flags, `src/flags.c:1792-1850`: a flag with its argument if it
takes a number or a character, or a mode. -/
inductive Cmd where
  | flag (f : Nat) (b : Bool) (v : Option Int)
  | mode (m : List Char)
deriving DecidableEq

/-- One option of the command line, `src/flags.c:1792-1850`. -/
def cmd (s : St) : Cmd → St
  | .flag f b none => userSetFlag s f b
  | .flag f b (some v) => setValueFlag (userSetFlag s f b) f v
  | .mode m => (setMode s m).1

/-- What a file does to flags while it is checked. -/
inductive Ev where
  /-- a control comment names a flag, `src/cscannerHelp.c:1020-1035`; the value is the argument of a
  flag with a value (`src/cscannerHelp.c:1036-1093`), used only with `+` and `-` -/
  | flag (f : Nat) (y : Ynm) (v : Option Int)
  /-- a control comment names a mode, `src/cscannerHelp.c:992-1008` -/
  | mode (m : List Char)
  /-- an old-style declaration of `main`, `src/clabstract.c:680-683` -/
  | oldMain
deriving DecidableEq

/-- One such step.  A flag that cannot be set locally is refused (`src/cscannerHelp.c:1017-1026`).
The arguments that are strings are left out. -/
def step (s : St) : Ev → St
  | .flag f y v =>
    if isGlobal f then s
    else
      let s := fileSetFlag s f y
      match y, v with
      | .maybe, _ => s
      | _, none => s
      | _, some v => setValueFlag s f v
  | .mode m => (setMode s m).1
  | .oldMain => setFlagTemp s FLG_MAINTYPE false

/-- The part of `context_exitCFile` about flags, `src/context.c:3637-3641`. -/
def exitFile (s : St) : St := if s.saved then restoreFlagSettings s else s

/-- Checking one file: `src/llmain.c:880-882`. -/
def checkFile (s : St) (evs : List Ev) : St := exitFile (evs.foldl step s)

/-- Preprocessing one file: the control comments that the preprocessor acts on,
`src/cpplib.c:8300-8352`.  Nothing is undone at the end of the file (`cppProcess`,
`src/cppmain.c:103-190`). -/
def preprocessFile (s : St) (cs : List (Nat × Ynm)) : St :=
  cs.foldl (fun s c => fileSetFlag s c.1 c.2) s

/-- The flags the preprocessor acts on, `src/cpplib.c:8300-8352` (`nestcomment` is compared with the
text including the sign and so is never recognised). -/
def cppFlags : List Nat :=
  [FLG_NAMECHECKS, FLG_MACROREDEF, FLG_USEVARARGS, FLG_MACRONEXTLINE, FLG_ALLMACROS, FLG_FCNMACROS,
   FLG_CONSTMACROS]

/-- The states in which the checking of each of a list of files starts, `src/llmain.c:820-890`. -/
def startsFrom (s : St) : List (List Ev) → List St
  | [] => []
  | evs :: files => s :: startsFrom (checkFile s evs) files

/-- The same for a whole run: all files are preprocessed, then all are checked,
`src/llmain.c:798-799`, `820-890`. -/
def starts (s : St) (pps : List (List (Nat × Ynm))) (files : List (List Ev)) : List St :=
  startsFrom (pps.foldl preprocessFile s) files

end Splint.Flag
