/-!
# Source positions (`src/fileloc.c`, `src/Headers/fileloc.h`)

A `fileloc` is a pointer to a record, or `NULL` (undefined).  Records are values
here; the only address comparison in the file (`f1 == f2` in `fileloc_equal`) is
kept for `NULL`, where it matters.  Two distinct library records are never at the
same address because every stored position is a fresh copy (`fileloc_copy`,
fileloc.c:128-150).  `int` and `fileId` (an `int`) are `Int`.
-/
namespace Splint

/-- `flkind`, Headers/fileloc.h:15-19. -/
inductive FlKind
  | normal | spec | lib | stdlib | stdhdr | import_ | builtin | preproc | rc | external
  deriving DecidableEq, Repr

/-- `struct s_fileloc`, Headers/fileloc.h:21-27. `root` is not in the record but in the file table: the file
that the file is derived from, or the file itself, and `none` for an invalid number; this is what
`fileTable_sameBase` (fileTable.c:757-794) compares. -/
structure FlRec where
  kind   : FlKind
  fid    : Int
  lineno : Int
  column : Int
  root   : Option Int
  deriving DecidableEq, Repr

/-- `fileloc`; `none` is `fileloc_undefined`, Headers/fileloc.h:86. -/
abbrev FileLoc := Option FlRec

namespace FileLoc

/-- `fileloc_isLib`, fileloc.c:885-889. -/
def isLib (f : FileLoc) : Bool :=
  match f with
  | none => false
  | some r => r.kind == .lib || r.kind == .stdhdr || r.kind == .stdlib

/-- `fileTable_sameBase`, fileTable.c:757-794; both `fileId_equal` (fileId.h:25) and `fileId_baseEqual`
(fileTable.h:139) are this. -/
def sameBase (r1 r2 : FlRec) : Bool :=
  match r1.root, r2.root with
  | some a, some b => a == b
  | _, _ => false

/-- `fileloc_sameFile`, fileloc.c:336-348. -/
def sameFile (f1 f2 : FileLoc) : Bool :=
  match f1, f2 with
  | some r1, some r2 => if isLib f1 || isLib f2 then false else sameBase r1 r2
  | _, _ => false

/-- `fileloc_equal`, fileloc.c:239-246. -/
def equal (f1 f2 : FileLoc) : Bool :=
  match f1, f2 with
  | none, none => true            -- `f1 == f2`
  | some r1, some r2 => r1.column == r2.column && (r1.lineno == r2.lineno && sameFile f1 f2)
  | _, _ => false

/-- `INTCOMPARERETURN`, Headers/splintMacros.nf:131-133, as an early return. -/
def intCompare (x y : Int) (rest : Int) : Int :=
  if x > y then 1 else if x < y then -1 else rest

/-- `fileloc_compare`, fileloc.c:248-272. -/
def compare (f1 f2 : FileLoc) : Int :=
  match f1, f2 with
  | none, none => 0
  | none, some _ => -1
  | some _, none => 1
  | some r1, some r2 =>
    intCompare r1.fid r2.fid
      (intCompare r1.lineno r2.lineno (intCompare r1.column r2.column 0))

/-- `fileloc_withinLines`, fileloc.c:274-283. -/
def withinLines (f1 f2 : FileLoc) (n : Int) : Bool :=
  match f1, f2 with
  | some r1, some r2 =>
    r2.lineno ≤ r1.lineno + n && r2.lineno ≥ r1.lineno && sameFile f1 f2
  | _, _ => false

/-- `fileloc_lessthan`, fileloc.c:285-296. -/
def lessthan (f1 f2 : FileLoc) : Bool :=
  match f1, f2 with
  | some r1, some r2 =>
    r1.fid < r2.fid
      || (r1.fid == r2.fid
          && (r1.lineno < r2.lineno || (r1.lineno == r2.lineno && r1.column < r2.column)))
  | _, _ => false

/-- `fileloc_notAfter`, fileloc.c:303-313. -/
def notAfter (f1 f2 : FileLoc) : Bool :=
  match f1, f2 with
  | some r1, some r2 =>
    r1.fid != r2.fid
      || (r1.lineno < r2.lineno || (r1.lineno == r2.lineno && r1.column ≤ r2.column))
  | _, _ => false

/-- `fileloc_sameFileAndLine`, fileloc.c:328-334. -/
def sameFileAndLine (f1 f2 : FileLoc) : Bool :=
  match f1, f2 with
  | some r1, some r2 => sameFile f1 f2 && r1.lineno == r2.lineno
  | _, _ => false

/-- `fileloc_copy`, fileloc.c:128-150: positions are values, so a copy is the value itself. -/
def copy (f : FileLoc) : FileLoc := f

/-- `fileloc_update`, fileloc.c:152-172: the result has the fields of `fnew`. -/
def update (_old fnew : FileLoc) : FileLoc :=
  match fnew with
  | none => none
  | some r => some r

/-- `fileloc_noColumn`, fileloc.c:98-116. -/
def noColumn (f : FileLoc) : FileLoc := f.map fun r => { r with column := 0 }

/-- `fileloc_nextLine`, Headers/fileloc.h:129-130. -/
def nextLine (f : FileLoc) : FileLoc := f.map fun r => { r with lineno := r.lineno + 1, column := 1 }

/-- `fileloc_addLine`, Headers/fileloc.h:133-134. -/
def addLine (f : FileLoc) (i : Int) : FileLoc :=
  f.map fun r => { r with lineno := r.lineno + i, column := 1 }

/-- `fileloc_addColumn`, Headers/fileloc.h:145-146. -/
def addColumn (f : FileLoc) (i : Int) : FileLoc :=
  f.map fun r => { r with column := r.column + i }

/-- `fileloc_setColumn`, Headers/fileloc.h:141-142. -/
def setColumn (f : FileLoc) (i : Int) : FileLoc := f.map fun r => { r with column := i }

/-- `fileloc_decColumn`, fileloc.c:82-96; `none` as outer result is a failed `llassert`. -/
def decColumn (f : FileLoc) (x : Int) : Option FileLoc :=
  if x < 0 then none
  else match f with
    | none => some none
    | some r =>
      if x > 0 then
        (if r.column > x then some (some { r with column := r.column - x }) else none)
      else some (some r)

/-- `fileloc_isUser`, fileloc.c:910-914. -/
def isUser (f : FileLoc) : Bool := match f with | some r => r.kind == .normal | none => false

end FileLoc
end Splint
