import Verif.Tactics
import Verif.Model.FileLoc
/-!
# The macro cache (`src/macrocache.c`)

Definitions of macros, and control comments within them, are kept when they are read and checked later.
-/
namespace Splint.MacroCache

/-- `mce`, Headers/macrocache.h, macrocache.c:60-70. -/
structure Entry where
  fl : FileLoc
  text : String
  defined : Bool
  comment : Bool
deriving DecidableEq, Repr

/-- `macrocache`: the entries, `nspace`, the allocated space, and `mcDisable`. -/
structure Cache where
  entries : List Entry
  nspace : Nat
  alloc : Nat
  disabled : Bool
deriving DecidableEq, Repr

/-- `MCEBASESIZE`, macrocache.c:37. -/
def baseSize : Nat := 8

/-- `macrocache_create`, macrocache.c:79-91. -/
def create : Cache := { entries := [], nspace := baseSize, alloc := baseSize, disabled := false }

/-- `macrocache_grow`, macrocache.c:109-124. -/
def grow (s : Cache) : Cache := { s with nspace := baseSize, alloc := s.entries.length + baseSize }

/-- The loop of `macrocache_exists`, macrocache.c:182-194, with what is done to the entry that is found
(macrocache.c:139-163): the text is replaced. -/
def replace (fl : FileLoc) (text : String) : List Entry → Option (List Entry)
  | [] => none
  | e :: es =>
    if e.fl.equal fl then some ({ e with text := text } :: es)
    else (replace fl text es).map (e :: ·)

/-- The last part of `macrocache_addGenEntry`, macrocache.c:170-172: `none` for a write outside the space. -/
def put (s : Cache) (e : Entry) : Option Cache :=
  if s.entries.length < s.alloc then some { s with entries := s.entries ++ [e], nspace := s.nspace - 1 } else none

/-- `macrocache_addGenEntry`, macrocache.c:126-173. -/
def add (s : Cache) (fl : FileLoc) (text : String) (comment : Bool) : Option Cache :=
  if s.disabled then some s
  else
    match replace fl text s.entries with
    | some es => some { s with entries := es }
    | none =>
      if s.nspace ≤ 0 then put (grow s) ⟨fl, text, false, comment⟩ else put s ⟨fl, text, false, comment⟩

/-- What is handed to the parser by `macrocache_processMacro`, macrocache.c:272-325. -/
structure Checked where
  fl : FileLoc
  text : String
  comment : Bool
deriving DecidableEq, Repr

/-- What is read while a macro is checked, and registered. -/
abbrev During := Checked → List (FileLoc × String × Bool)

def addAll : Cache → List (FileLoc × String × Bool) → Option Cache
  | s, [] => some s
  | s, (fl, t, c) :: rest =>
    match add s fl t c with
    | none => none
    | some s => addAll s rest

/-- The loops of `macrocache_processUndefinedElements` (341-370) and `macrocache_processFileElements`
(383-403), with the entries that are wanted; the first argument bounds the number of rounds, and the answer
`none` is that they are not enough, or a write outside the space. -/
def loop (want : FileLoc → Bool) (during : During) : Nat → Nat → Cache → Option (Cache × List Checked)
  | 0, _, _ => none
  | n + 1, i, s =>
    match s.entries[i]? with
    | none => some (s, [])
    | some e =>
      if e.defined then loop want during n (i + 1) s
      else if want e.fl then
        match addAll { s with entries := s.entries.set i { e with defined := true } } (during ⟨e.fl, e.text, e.comment⟩) with
        | none => none
        | some s => (loop want during n (i + 1) s).map fun x => (x.1, ⟨e.fl, e.text, e.comment⟩ :: x.2)
      else loop want during n (i + 1) s

/-- The loop between the assignments to `mcDisable`, with enough rounds for the entries there are. -/
def pass (want : FileLoc → Bool) (during : During) (s : Cache) : Option (Cache × List Checked) :=
  (loop want during (s.entries.length + 1) 0 { s with disabled := true }).map fun x => ({ x.1 with disabled := false }, x.2)

/-- `macrocache_processUndefinedElements`, macrocache.c:327-373, with the flag `partial`. -/
def processUndefined (during : During) (partial_ : Bool) (s : Cache) : Option (Cache × List Checked) :=
  if partial_ then some ({ s with disabled := false }, []) else pass (fun _ => true) during s

/-- `macrocache_processFileElements`, macrocache.c:375-406. The base name of a position's file is a parameter. -/
def processFile (base : FileLoc → String) (during : During) (b : String) (s : Cache) : Option (Cache × List Checked) :=
  pass (fun fl => base fl == b) during s

/-- What happens: a macro or a comment is read; a file ends (context.c:3557-3581); the end (3536-3548). -/
inductive Ev where
  | add (fl : FileLoc) (text : String) (comment : Bool)
  | file (b : String)
  | all

/-- The base names of positions, what checking a macro registers, and the flag `partial`. -/
structure Sys where
  base : FileLoc → String
  during : During
  partial_ : Bool

def run (S : Sys) : Cache → List Ev → Option (Cache × List Checked)
  | s, [] => some (s, [])
  | s, .add fl t c :: es =>
    match add s fl t c with
    | none => none
    | some s => run S s es
  | s, .file b :: es =>
    match processFile S.base S.during b s with
    | none => none
    | some r => (run S r.1 es).map fun x => (x.1, r.2 ++ x.2)
  | s, .all :: es =>
    match processUndefined S.during S.partial_ s with
    | none => none
    | some r => (run S r.1 es).map fun x => (x.1, r.2 ++ x.2)

end Splint.MacroCache
