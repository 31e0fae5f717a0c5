import Verif.Tactics
/-!
# What is specified or declared and not defined

Models `usymtab_allDefined` (src/usymtab.c:3246-3335), which is called when all files were read, with `fileloc_isLib`,
`fileloc_isXHFile`, `fileloc_isUser` (src/fileloc.c:407-418, 885-889, 910-914), `fileloc_isImport` and
`fileloc_isPreproc` (src/Headers/fileloc.h:118-122), and `uentry_isCodeDefined` (src/uentry.c:6218-6224).

Simplifications: entries have numbers for names; a location is its kind, and whether its file is an XH file. The three
flags are values for the whole run (they could be set for a region), and messages are not suppressed.
-/
namespace Splint.AllDefined

/-- `flkind` (src/Headers/fileloc.h:16-19) -/
inductive FL where
  | normal | spec | lib | stdlib | stdhdr | imp | builtin | preproc | rc | external
deriving DecidableEq, Repr

structure Loc where
  kind : FL
  /-- `fileTable_isXHFile` of its file -/
  xhFile : Bool := false
deriving DecidableEq, Repr

/-- `fileloc_isLib` -/
def isLib : Option Loc → Bool
  | some l => l.kind == .lib || l.kind == .stdhdr || l.kind == .stdlib
  | none => false

/-- `fileloc_isXHFile` -/
def isXH : Option Loc → Bool
  | some l => l.kind != .builtin && l.kind != .external && l.xhFile
  | none => false

def isKind (k : FL) : Option Loc → Bool
  | some l => l.kind == k
  | none => false

inductive Kind where
  | variable | function | tag | other
deriving DecidableEq, Repr

structure Entry where
  name : Nat
  kind : Kind
  /-- `uentry_isPriv` -/
  priv : Bool := false
  /-- `uentry_isFakeTag`: the name has a `!` -/
  fake : Bool := false
  specified : Option Loc := none
  declared : Option Loc := none
  defined : Option Loc := none
deriving DecidableEq, Repr

structure Flags where
  specUndecl : Bool
  declUndef : Bool
  specUndef : Bool

inductive Msg where
  /-- "specified but not declared" -/
  | specUndecl
  /-- "declared but not defined" -/
  | declUndef
  /-- "specified but not declared or defined" -/
  | specUndeclUndef
  /-- "specified but not defined" -/
  | specUndef
deriving DecidableEq, Repr

def voptgenerror (flag : Bool) (m : Msg) : List Msg := if flag then [m] else []

/-- the body of the loop -/
def check (F : Flags) (e : Entry) : List Msg :=
  if e.priv then []
  else
    (if F.specUndecl && (e.specified.isSome && !e.fake && !e.declared.isSome) then voptgenerror F.specUndecl .specUndecl
      else []) ++
    (if e.defined.isSome then []
     else if isLib e.declared || isXH e.declared then []
     else if e.declared.isSome then
       if e.kind != .tag then
         if isKind .normal e.declared then voptgenerror F.declUndef .declUndef else []
       else []
     else if e.specified.isSome && !isKind .imp e.specified && !isLib e.specified && !isKind .preproc e.specified
         && !e.fake then
       if e.kind == .variable || e.kind == .function then voptgenerror F.specUndef .specUndeclUndef
       else voptgenerror F.specUndef .specUndef
     else [])

/-- `usymtab_allDefined` -/
def allDefined (F : Flags) (tab : List Entry) : List (Nat × Msg) :=
  tab.flatMap fun e => (check F e).map fun m => (e.name, m)

end Splint.AllDefined
