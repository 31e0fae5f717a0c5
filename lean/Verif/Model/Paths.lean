import Verif.Model.FlagTable
/-!
# Names of files

Model of `osd_absolutePath` and `osd_outputPath` (src/osd.c:905-1190), `osd_getPath` and `nextdir`
(src/osd.c:159-233, 414-436), `context_isSystemDir` (src/context.c:1403-1454) with
`osd_equalCanonicalPrefix` (src/osd.c:608-679), the functions of src/fileLib.c:33-185 on extensions,
the base name of an entry of the table of files (src/fileTable.c:345), and the distribution of the
files of the command line by their extensions (src/flags.c:1913-1975), all as compiled for Unix.

A name is the list of its characters before the terminating null character.  That an allocation fails
is not modelled.
-/
namespace Splint.Path

abbrev Name := List Char

/-! ### Absolute names -/

/-- The name of a file preceded by the working directory unless it is absolute, src/osd.c:925-949. -/
def full (cwd f : Name) : Name := if f.head? = some '/' then f else cwd ++ '/' :: f

/-- `outp -= 2` and what follows, src/osd.c:988-1004: `out` is what has been written, the last character
first, and begins with a slash.  `none` is the fatal error "Invalid file name". -/
def backup (out : List Char) : Option (List Char) :=
  match (out.drop 1).dropWhile (· ≠ '/') with
  | [] => none
  | o => some o

/-- The loop of `osd_absolutePath`, src/osd.c:962-1018.  `out` is what has been written between
`abs_buffer` and `outp`, the last character first, and `inp` what is still to be read; `outp` never
passes `inp` since every round writes at most what it reads. -/
def absLoop (out : List Char) : List Char → Option (List Char)
  | [] => some out
  | '/' :: r => if out.head? = some '/' then absLoop out r else absLoop ('/' :: out) r
  | ['.'] => if out.head? = some '/' then some out else absLoop ('.' :: out) []
  | '.' :: '/' :: r =>
    if out.head? = some '/' then absLoop out r else absLoop ('.' :: out) ('/' :: r)
  | ['.', '.'] =>
    if out.head? = some '/' then (backup out).bind fun o => absLoop o [] else absLoop ('.' :: out) ['.']
  | '.' :: '.' :: '/' :: r =>
    if out.head? = some '/' then (backup out).bind fun o => absLoop o r
    else absLoop ('.' :: out) ('.' :: '/' :: r)
  | c :: r => absLoop (c :: out) r
termination_by l => l.length

/-- `osd_absolutePath`, src/osd.c:905-1032, for a defined name.  The buffer is not empty. -/
def absolutePath (cwd f : Name) : Option Name :=
  match full cwd f with
  | [] => none
  | c :: r =>
    (absLoop [c] r).map fun out => (if out.head? = some '/' then out.drop 1 else out).reverse

/-! ### Names in messages -/

/-- The first loop of `osd_outputPath`, src/osd.c:1075-1079: the common beginning, and what is left of
the directory and of the name. -/
def common : Name → Name → Name × Name × Name
  | c :: cs, d :: ds =>
    if c = d then
      let r := common cs ds
      (c :: r.1, r.2)
    else ([], c :: cs, d :: ds)
  | cs, ds => ([], cs, ds)

/-- What comes after the last slash of the common beginning, src/osd.c:1106-1116. -/
def afterSlash (s : Name) : Name := (s.reverse.takeWhile (· ≠ '/')).reverse

/-- `osd_outputPath`, src/osd.c:1048-1190.  `none` is the failed assertion for an empty name, and the
character before the buffer being read (src/osd.c:1178).  By the test of src/osd.c:1130 what is
written is shorter than the buffer, so that the tests of src/osd.c:1148 and 1164 never succeed. -/
def outputPath (cwd f : Name) : Option Name :=
  if f = [] then none
  else
    let (pre, c, p) := common cwd f
    if c = [] ∧ (p = [] ∨ p.head? = some '/') then
      if p = [] then some ['.'] else some (p.drop 1)
    else
      let k := if p = [] then [] else afterSlash pre
      let n := (if p = [] then 0 else 1) + (k ++ c).count '/'
      if n * 3 + (k ++ p).length ≥ f.length then some f
      else
        let rel := (List.replicate n ['.', '.', '/']).flatten ++ (k ++ p)
        if rel = [] then none
        else if rel.getLast? = some '/' then some rel.dropLast
        else some rel

/-! ### Lists of directories -/

/-- The parts of a text between separators. -/
def splitAt (sep : Char) : List Char → List (List Char)
  | [] => [[]]
  | c :: s =>
    if c = sep then [] :: splitAt sep s
    else
      match splitAt sep s with
      | [] => [[c]]
      | w :: ws => (c :: w) :: ws

/-- The loop of `context_isSystemDir`, src/context.c:1423-1450, with `thisdir` the first element: it
stops at an empty one. -/
def systemLoop (f : Name) : List Name → Bool
  | [] => false
  | d :: ds =>
    if d = [] then false
    -- `osd_equalCanonicalPrefix`
    else if (if f = [] then d = [] else d.isPrefixOf f) then true
    else systemLoop f ds

/-- `context_isSystemDir`, src/context.c:1403-1454, with the value of `sysdirs`. -/
def isSystemDir (sysdirs f : Name) : Bool := systemLoop f (splitAt ':' sysdirs)

/-- `nextdir`, src/osd.c:414-436: the directory and what is left. -/
def nextdir : Name → Option (Name × Name)
  | [] => none
  | ':' :: s => some (s.takeWhile (· ≠ ':'), s.dropWhile (· ≠ ':'))
  | s => some (s.takeWhile (· ≠ ':'), s.dropWhile (· ≠ ':'))

inductive Found where
  | found (n : Name)
  | notFound
  | tooLong
  /-- the buffer overflows -/
  | overflow
deriving DecidableEq

/-- `MAXPATHLEN`, which is `PATH_MAX` (src/Headers/osd.h:44-51), 4096. -/
def maxPath : Nat := 4096

theorem nextdir_length {s d r : Name} (h : nextdir s = some (d, r)) : r.length < s.length := by
  unfold nextdir at h
  have hl : ∀ l : Name, (l.dropWhile (· ≠ ':')).length ≤ l.length :=
    fun l => (List.dropWhile_sublist _).length_le
  split at h
  · cases h
  · rename_i s
    simp only [Option.some.injEq, Prod.mk.injEq] at h
    rw [← h.2, List.length_cons]
    have := hl s
    omega
  · rename_i h1 h2
    simp only [Option.some.injEq, Prod.mk.injEq] at h
    rw [← h.2]
    cases s with
    | nil => exact absurd rfl h1
    | cons c s =>
      have hc : c ≠ ':' := fun e => h2 s (by rw [e])
      rw [List.dropWhile_cons_of_pos (by simpa using hc), List.length_cons]
      have := hl s
      omega

/-- The loop of `osd_getPath`, src/osd.c:204-228. -/
def pathLoop (ok : Name → Bool) (file : Name) (path : Name) : Found :=
  match h : nextdir path with
  | none => .notFound
  | some (d, r) =>
    if d.length + file.length + 2 ≤ maxPath then
      if ok (d ++ '/' :: file) then .found (d ++ '/' :: file)
      else pathLoop ok file r
    else .tooLong
termination_by path.length
decreasing_by exact nextdir_length h

/-- `osd_getPath`, src/osd.c:159-233: `ok` says which files exist; the path is `none` when it is
undefined. -/
def getPath (ok : Name → Bool) (path : Option Name) (file : Name) : Found :=
  match path with
  | none => direct
  | some p => if file.head? = some '/' then direct else pathLoop ok file p
where
  /-- src/osd.c:189-196. -/
  direct : Found :=
    if maxPath ≤ file.length then .overflow else if ok file then .found file else .notFound

/-! ### Extensions -/

/-- `strrchr (s, '.')`: what begins with the last full stop. -/
def fromDot (s : Name) : Option Name :=
  if '.' ∈ s then some ('.' :: (s.reverse.takeWhile (· ≠ '.')).reverse) else none

/-- `fileLib_getExtension`, src/fileLib.c:178-185. -/
def getExtension (s : Name) : Option Name := fromDot s

/-- `fileLib_removeAnyExtension`, src/fileLib.c:128-154. -/
def removeAnyExtension (s : Name) : Name :=
  match fromDot s with
  | none => s
  | some e => s.take (s.length - e.length)

/-- `fileLib_withoutExtension`, src/fileLib.c:51-74. -/
def withoutExtension (s suffix : Name) : Name :=
  match fromDot s with
  | none => s
  | some e => if e = suffix then s.take (s.length - e.length) else s

/-- `fileLib_addExtension`, src/fileLib.c:157-171. -/
def addExtension (s suffix : Name) : Name :=
  match fromDot s with
  | none => s ++ suffix
  | some _ => s

/-- `fileLib_removePath` and `fileLib_removePathFree`, src/fileLib.c:76-125. -/
def removePath (s : Name) : Name := (s.reverse.takeWhile (· ≠ '/')).reverse

/-- `e->basename`, src/fileTable.c:345. -/
def baseName (s : Name) : Name := removePath (removeAnyExtension s)

/-- `LSLRootName`, src/osd.c:76-93. -/
def rootName (s : Name) : Name := removeAnyExtension (removePath s)

/-- `fileLib_isCExtension`, src/fileLib.c:33-43. -/
def isCExtension (e : Name) : Bool :=
  e ∈ [c!".c", c!".C", c!".h", c!".lh", c!".xh", c!".H", c!".y", c!".l"]

/-- What becomes of a file of the command line. -/
inductive Use where
  | c (n : Name)
  | lcl (n : Name)
  | xh (n : Name)
  | mts (n : Name)
  /-- "File extension used without +nopp flag", if the flag is off -/
  | ppMessage
  /-- "Unrecognized file extension" -/
  | unrecognized
deriving DecidableEq

/-- The distribution of the files, src/flags.c:1913-1975. -/
def dispatch (f : Name) : List Use :=
  match getExtension f with
  | none => [.c (f ++ c!".c"), .lcl (f ++ c!".lcl")]
  | some e =>
    if e = c!".xh" then [.xh f]
    else if e = c!".pp" then [.ppMessage, .c f]
    else if e = c!".lcl" then [.lcl f]
    else if isCExtension e then [.c f]
    else if e = c!".mts" then [.mts f]
    else [.unrecognized, .c f]

end Splint.Path
