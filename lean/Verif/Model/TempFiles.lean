import Verif.Tactics
/-!
# The table of files and the temporary files

Model of src/fileTable.c: `fileTable_getIndex` (101-117), `fileTable_noDelete` (311-324),
`fileTable_addFilePrim` (327-396) and the functions that call it (398-613), `fileTable_cleanup` (798-862),
`nextMsg` and `makeTempName` (891-982), `fileTable_createFile` and `fileTable_createMacrosFile`
(1015-1093); of `cleanupFiles` (llmain.c:1240-1276), `osd_unlink` (osd.c:490-507), and of their callers:
`preprocessFiles` (llmain.c:1322-1381), `cppProcess` (cppmain.c:95-135), `pushString` (macrocache.c:229-275),
`callLSL` and `invokeLSL` (lslparse.c:371-500).

Simplifications:
* a name is a list of character codes; the absolute name of a file (`osd_absolutePath`, Model/Paths) and the
  form under which it is looked up (downcased, with `caseinsensitivefilenames`) are functions of its name;
* the table of names (`cstringTable`) is searched by searching the entries: every entry is entered
  under its name (internAddEntry), and `fileTable_setFilePath` is not called anywhere;
* `fsystem`, `fspecial` and `basename` of the entries are left out, and so is the flag `showscan`;
* a file is its name, and whether it was made by this run; other processes make and remove files between the
  steps of Splint, but not during `callLSL`;
* `llcontbug` continues; a call of `llbug` in `fileTable_cleanup`, a failing assertion and a read beyond the end
  of an array are the outcome `none`.
-/
namespace Splint.TempFiles

abbrev Name := List Nat

def str (s : String) : Name := s.toList.map Char.toNat

inductive FType
  | normal | nodelete | lsltemp | header | xh | macros | metastate
  deriving DecidableEq, Repr

/-- `ftentry`, Headers/fileTable.h:23-32 -/
structure Entry where
  fname : Name
  temp : Bool
  typ : FType
  der : Option Nat
  deriving DecidableEq, Repr

/-- what is fixed during a run -/
structure Env where
  /-- `osd_absolutePath (NULL, _)` -/
  abs : Name → Name
  /-- `cstring_downcase`, with `caseinsensitivefilenames` -/
  fold : Name → Name
  /-- `context_tmpdir ()` -/
  dir : Name
  /-- `pid % 100`, in decimal -/
  pid : Name
  keep : Bool

/-! ### Names of temporary files -/

/-- The four bytes that `mstring_copy ("AAA")` allocates. -/
structure Msg where
  a : Nat
  b : Nat
  c : Nat
  t : Nat
  deriving DecidableEq, Repr

/-- fileTable.c:949-952 -/
def Msg.first : Msg := ⟨65, 65, 65, 0⟩

/-- `nextMsg`, fileTable.c:891-927. -/
def nextMsg (m : Msg) : Option Msg :=
  if m.a < 90 then some { m with a := m.a + 1 }
  else if m.b < 90 then some { m with a := 65, b := m.b + 1 }
  else if m.c < 90 then some { m with a := 65, b := 65, c := m.c + 1 }
  else if m.t < 90 then some ⟨65, 65, 65, m.t + 1⟩
  else none

/-- The string that starts at `msg`: without the terminator, a read beyond the end of the array. -/
def Msg.text (m : Msg) : Option Name :=
  if m.t = 0 then some [m.a, m.b, m.c] else none

/-- A file of the file system. -/
structure File where
  name : Name
  /-- made by this run -/
  own : Bool
  deriving DecidableEq, Repr

/-- `osd_fileExists`, osd.c:300-322, of an absolute name -/
def existsIn (files : List File) (n : Name) : Bool := files.any (fun f => f.name = n)

/-- The loop of `makeTempName`, fileTable.c:967-979; `present` is `osd_fileExists`. -/
def tempLoop (present : Name → Bool) (dir pre pid suf : Name) : Nat → Msg → Option (Name × Msg)
  | 0, _ => none
  | fuel + 1, m =>
    match m.text, nextMsg m with
    | some s, some m' =>
      let n := dir ++ pre ++ pid ++ s ++ suf
      if present n then tempLoop present dir pre pid suf fuel m' else some (n, m')
    | _, _ => none

/-- `makeTempName`, fileTable.c:929-982.  The loop cannot be entered more than 26³ times before the terminator
is overwritten. -/
def makeTempName (present : Name → Bool) (dir pre pid suf : Name) (m : Msg) : Option (Name × Msg) :=
  tempLoop present dir pre pid suf 17577 m

/-- `isalnum` of a character, in the C locale -/
def isAlnum (c : Nat) : Bool := (48 ≤ c ∧ c ≤ 57) ∨ (65 ≤ c ∧ c ≤ 90) ∨ (97 ≤ c ∧ c ≤ 122)

/-- `cstring_hasNonAlphaNumBar`, cstring.c:790-808 -/
def hasNonAlphaNumBar (s : Name) : Bool := s.any (fun c => !isAlnum c && c != 95 && c != 46 && c != 47)

/-- What is before the last `/` (`strrchr`), if there is one -/
def dirPart (s : Name) : Option Name :=
  if 47 ∈ s then some ((s.reverse.dropWhile (· != 47)).drop 1).reverse else none

/-- `fileTable_addltemp`, fileTable.c:569-613, up to the name: the name, the next message, and the next value of
`tmpcounter` -/
def lslName (present : Name → Bool) (dir pid : Name) (m : Msg) (counter : Nat) : Option (Name × Msg × Nat) :=
  match makeTempName present dir (str "ls") pid (str ".lsl") m with
  | none => none
  | some (n, m') =>
    if hasNonAlphaNumBar n then
      match dirPart n with
      | none => none
      | some d => some (d ++ [47] ++ str "lsl" ++ str (toString counter) ++ str ".lsl", m', counter + 1)
    else some (n, m', counter)

/-! ### The table -/

/-- `fileTable_getIndex`, fileTable.c:101-117 -/
def getIndex (E : Env) (t : List Entry) (s : Name) : Option Nat :=
  t.findIdx? (fun e => E.fold e.fname = E.fold (E.abs s))

/-- `fileTable_addFilePrim`, fileTable.c:327-396, and `fileTable_internAddEntry` (279-309): the table and the
index. -/
def addFilePrim (E : Env) (t : List Entry) (name : Name) (temp : Bool) (typ : FType) (der : Option Nat) :
    List Entry × Nat :=
  match getIndex E t (E.abs name) with
  | some i => (t, i)
  | none => (t ++ [⟨E.abs name, temp, typ, der⟩], t.length)

/-- `fileTable_noDelete`, fileTable.c:311-324 -/
def noDelete (E : Env) (t : List Entry) (name : Name) : List Entry :=
  match getIndex E t name with
  | some i => t.modify i (fun e => { e with typ := .nodelete })
  | none => t

inductive Fate
  | stays
  | unlinked
  | bug
  deriving DecidableEq, Repr

/-- The body of the loop of `fileTable_cleanup`, fileTable.c:815-856. -/
def fate (e : Entry) : Fate :=
  if e.temp then
    if e.typ = .lsltemp ∨ e.typ = .nodelete then .stays
    else if e.der.isSome then .unlinked
    else if e.typ = .macros then .unlinked
    else .bug
  else .stays

/-- `osd_unlink`, osd.c:490-507; that it fails is not an outcome, only a message. -/
def unlink (files : List File) (n : Name) : List File := files.filter (fun f => f.name ≠ n)

/-- `fileTable_cleanup`, fileTable.c:798-862 -/
def cleanup : List Entry → List File → Option (List File)
  | [], files => some files
  | e :: t, files =>
    match fate e with
    | .stays => cleanup t files
    | .unlinked => cleanup t (unlink files e.fname)
    | .bug => none

/-! ### A run -/

structure State where
  entries : List Entry
  files : List File
  msg : Msg
  counter : Nat
  exited : Bool
  deriving DecidableEq, Repr

/-- `cleanupFiles`, llmain.c:1240-1276, called by `llexit` and at the end of `main` -/
def exit (E : Env) (s : State) : Option State :=
  if E.keep then some { s with exited := true }
  else (cleanup s.entries s.files).map fun fs => { s with files := fs, exited := true }

inductive Op
  /-- a file that is no temporary file is entered (fileTable.c:398-524) -/
  | user (name : Name) (typ : FType)
  /-- `fileTable_addCTempFile` -/
  | cTemp (fid : Nat)
  /-- `fileTable_addMacrosFile` -/
  | macrosFile
  /-- `fileTable_createFile` in `cppProcess`, or `fileTable_createMacrosFile` in `pushString`; whether
  `fdopen` succeeds is given -/
  | create (i : Nat) (fdopen : Bool)
  /-- `callLSL`; whether the checker of traits succeeds is given -/
  | callLSL (ok : Bool)
  /-- the end of the run: `main`, `llfatalerror`, … -/
  | finish
  /-- another process makes a file -/
  | other (n : Name)
  /-- another process removes a file -/
  | gone (n : Name)
  deriving DecidableEq, Repr

/-- `fileTable_addCTempFile`, fileTable.c:526-566 -/
def addCTemp (E : Env) (s : State) (fid : Nat) : Option State :=
  match makeTempName (fun n => existsIn s.files (E.abs n)) E.dir (str "cl") E.pid (str ".c") s.msg, s.entries[fid]? with
  | some (n, m), some e =>
    let typ := if e.typ = .xh then FType.xh else .normal
    let der := if e.der.isSome then e.der else some fid
    some { s with entries := (addFilePrim E s.entries n true typ der).1, msg := m }
  | _, _ => none

/-- `fileTable_addMacrosFile`, fileTable.c:509-517 -/
def addMacros (E : Env) (s : State) : Option State :=
  match makeTempName (fun n => existsIn s.files (E.abs n)) E.dir (str "lmx") E.pid (str ".llm") s.msg with
  | some (n, m) => some { s with entries := (addFilePrim E s.entries n true .macros none).1, msg := m }
  | none => none

/-- `fileTable_addltemp`, fileTable.c:569-613: the state and the index -/
def addltemp (E : Env) (s : State) : Option (State × Nat) :=
  match lslName (fun n => existsIn s.files (E.abs n)) E.dir E.pid s.msg s.counter with
  | some (n, m, c) =>
    let r := addFilePrim E s.entries n true .lsltemp none
    some ({ s with entries := r.1, msg := m, counter := c }, r.2)
  | none => none

/-- `open (…, O_CREAT | O_TRUNC | O_EXCL, …)` -/
def openNew (files : List File) (n : Name) : Option (List File) :=
  if existsIn files n then none else some (files ++ [⟨n, true⟩])

/-- `fileTable_createFile` and `fileTable_createMacrosFile`, fileTable.c:1015-1093, and what their callers do if
they return NULL: cppmain.c:127-137, macrocache.c:242-248. -/
def createStep (E : Env) (s : State) (i : Nat) (fdopen : Bool) : Option State :=
  match s.entries[i]? with
  | none => none
  | some e =>
    match openNew s.files e.fname with
    | none => exit E s
    | some fs =>
      let s' := { s with files := fs }
      if fdopen then some s'
      else if e.typ = .macros then some s'
      else exit E { s' with entries := noDelete E s'.entries e.fname }

/-- `callLSL` and `invokeLSL`, lslparse.c:371-500. -/
def callLSL (E : Env) (s : State) (ok : Bool) : Option State :=
  match addltemp E s with
  | none => none
  | some (s1, i) =>
    match s1.entries[i]? with
    | none => none
    | some e1 =>
      match openNew s1.files e1.fname with
      | none => exit E s1
      | some fs1 =>
        match addltemp E { s1 with files := fs1 } with
        | none => none
        | some (s2, o) =>
          match s2.entries[o]? with
          | none => none
          | some e2 =>
            match openNew s2.files e2.fname with
            | none => exit E s2
            | some fs2 =>
              -- the output is removed, and made again by the shell
              let fs3 := unlink fs2 e2.fname ++ [⟨e2.fname, true⟩]
              if ok then
                if E.keep then some { s2 with files := fs3 }
                else
                  -- `deletep` is the flag `keep`
                  let fs4 := if E.keep then unlink fs3 e1.fname else fs3
                  some { s2 with files := unlink fs4 e2.fname }
              else exit E { s2 with files := fs3 }

def step (E : Env) (s : State) : Op → Option State
  | .other n => some { s with files := if existsIn s.files n then s.files else s.files ++ [⟨n, false⟩] }
  | .gone n => some { s with files := unlink s.files n }
  | op =>
    if s.exited then some s
    else
      match op with
      | .user n typ => some { s with entries := (addFilePrim E s.entries n false typ none).1 }
      | .cTemp fid => addCTemp E s fid
      | .macrosFile => addMacros E s
      | .create i fd => createStep E s i fd
      | .callLSL ok => callLSL E s ok
      | .finish => exit E s
      | .other _ | .gone _ => some s

def run (E : Env) (s : State) : List Op → Option State
  | [] => some s
  | op :: ops => (step E s op).bind fun s' => run E s' ops

/-- `fileTable_create`, fileTable.c:219-233, before the files `fs` -/
def start (fs : List File) : State := ⟨[], fs, Msg.first, 0, false⟩

end Splint.TempFiles
