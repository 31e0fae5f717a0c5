import Verif.Tactics
/-!
# Names that are exported though used in one module only

Model of src/uentry.c: `uentry_setUsed` (10686-10796), what it records of a use; of src/filelocList.c:
`filelocList_addUndefined` (100-113), `filelocList_addDifferentFile` (122-149), `filelocList_add` (151-177); of
src/fileloc.c: `fileloc_sameModule` (352-376); and of src/usymtab.c: `usymtab_exportLocal` (3414-3468).

Simplifications:
* a location is the module it is in (the name of its file without directory and extension), or undefined; files
  that are built in or external are not modelled;
* the entry is one the check is about: not a type, tag, constant, iterator or macro; where it is declared and defined
  does not change while uses are recorded;
* the flags are those read at the first call of `uentry_setUsed`.
-/
namespace Splint.ExportLocal

/-- the module of a location; `none`: undefined -/
abbrev Loc := Option Nat

/-- `fileloc_sameModule` -/
def sameModule : Loc → Loc → Bool
  | none, none => true
  | none, some _ => false
  | some _, none => false
  | some a, some b => a = b

/-- `filelocList_add`: an undefined location is put first, and what was there last. -/
def add (s : List Loc) (el : Loc) : List Loc :=
  match el, s with
  | some m, s => s ++ [some m]
  | none, [] => [none]
  | none, x :: s => none :: s ++ [x]

/-- `filelocList_addUndefined` -/
def addUndefined (s : List Loc) : List Loc :=
  match s with
  | [] => add s none
  | some _ :: _ => add s none
  | none :: _ => s

/-- `filelocList_hasUndefinedLoc` -/
def hasUndefined (s : List Loc) : Bool :=
  match s with
  | none :: _ => true
  | _ => false

/-- `filelocList_addDifferentFile` -/
def addDifferentFile (s : List Loc) (declared loc : Loc) : List Loc :=
  if hasUndefined s || s.length ≥ 2 then s
  else if sameModule declared loc then (if s.isEmpty then add s loc else s)
  else addUndefined s

/-- an entry: where it is declared and defined, whether it is in a special file (`fileloc_isSpecialFile`), whether
it is used, and where (`e->uses`) -/
structure Entry where
  declared : Loc
  defined : Loc
  special : Bool
  used : Bool
  uses : List Loc
deriving DecidableEq, Repr

/-- the flags `showuses`, `exportlocal` and `unusedspecial` -/
structure Flags where
  showUses : Bool
  exportLocal : Bool
  unusedSpecial : Bool
deriving DecidableEq, Repr

/-- a use: where, and whether in a macro -/
structure Use where
  inMacro : Bool
  loc : Loc
deriving DecidableEq, Repr

/-- `uentry_setUsed`, 10770-10796 -/
def setUsed (fl : Flags) (e : Entry) (u : Use) : Entry :=
  { e with
    used := true
    uses :=
      if fl.showUses then add e.uses u.loc
      else if fl.exportLocal then
        if u.inMacro then addUndefined e.uses else addDifferentFile e.uses e.declared u.loc
      else e.uses }

/-- `usymtab_exportLocal`: whether the entry is reported (if the flag is set at its location) -/
def exportLocal (fl : Flags) (e : Entry) : Bool :=
  e.used &&
    !(if e.special && !fl.unusedSpecial then true
      else e.uses.isEmpty || e.uses.any fun u => u.isNone || !sameModule u e.defined)

/-- The entry after all its uses -/
def after (fl : Flags) (declared defined : Loc) (special : Bool) (us : List Use) : Entry :=
  us.foldl (setUsed fl) ⟨declared, defined, special, false, []⟩

end Splint.ExportLocal
