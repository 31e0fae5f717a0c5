import Verif.Tactics
/-!
# The table of open files

Model of `fileTable_growOpen` (src/fileTable.c:258-276), `fileTable_addOpen` (1001-1013), `fileTable_closeFile`
(1140-1176) and `fileTable_closeAll` (1178-1202), and of the use of the result of `fileTable_closeFile`
in `read_name_map` (cpplib.c:6938).

Simplifications: a stream is a number (the pointer); names are left out.  The array is a list of cells with its
length; a cell that has not been written, or that was set to NULL, is `none`.  The outcome `none` of an operation is an
access outside of the array, a NULL cell that is followed, or a failing assertion.
-/
namespace Splint.OpenFiles

structure Table where
  /-- `openelements` -/
  cells : List (Option Nat)
  nopen : Nat
  nopenspace : Nat
  deriving DecidableEq, Repr

/-- `FTBASESIZE`, Headers/fileTable.h:14 -/
def baseSize : Nat := 64

/-- `fileTable_create`, fileTable.c:228-230 -/
def create : Table := ⟨List.replicate baseSize none, 0, baseSize⟩

/-- `fileTable_growOpen`, fileTable.c:258-276 -/
def grow (t : Table) : Option Table :=
  if t.nopen ≤ t.cells.length then
    some ⟨t.cells.take t.nopen ++ List.replicate baseSize none, t.nopen, baseSize⟩
  else none

/-- `fileTable_addOpen`, fileTable.c:1001-1013 -/
def addOpen (t : Table) (f : Nat) : Option Table :=
  match (if t.nopenspace = 0 then grow t else some t) with
  | none => none
  | some t =>
    if t.nopen < t.cells.length then
      some ⟨t.cells.set t.nopen (some f), t.nopen + 1, t.nopenspace - 1⟩
    else none

/-- The loop of `fileTable_closeFile`, fileTable.c:1149-1173: the index of the first cell with `f`; a NULL cell is an
error.  `some none` is that there is none. -/
def search (cells : List (Option Nat)) (f : Nat) : Nat → Nat → Option (Option Nat)
  | 0, _ => some none
  | n + 1, i =>
    match (cells[i]? : Option (Option Nat)) with
    | some (some g) => if g = f then some (some i) else search cells f n (i + 1)
    | _ => none

/-- `fileTable_closeFile`, fileTable.c:1140-1176.  The stream itself is closed afterwards. -/
def closeFile (t : Table) (f : Nat) : Option Table :=
  match search t.cells f t.nopen 0 with
  | some (some i) =>
    if i = t.nopen - 1 then some ⟨t.cells.set i none, t.nopen - 1, t.nopenspace + 1⟩
    else
      match (t.cells[t.nopen - 1]? : Option (Option Nat)) with
      | some l => some ⟨(t.cells.set i l).set (t.nopen - 1) none, t.nopen - 1, t.nopenspace + 1⟩
      | none => none
  | _ => none

/-- The loop of `fileTable_closeAll`, fileTable.c:1184-1198: the cells, and the streams closed. -/
def closeLoop (cells : List (Option Nat)) : Nat → Nat → Option (List (Option Nat) × List Nat)
  | 0, _ => some (cells, [])
  | n + 1, i =>
    match (cells[i]? : Option (Option Nat)) with
    | some (some g) => (closeLoop (cells.set i none) n (i + 1)).map fun r => (r.1, g :: r.2)
    | _ => none

/-- `fileTable_closeAll`, fileTable.c:1178-1202: the table, and the streams closed -/
def closeAll (t : Table) : Option (Table × List Nat) :=
  (closeLoop t.cells t.nopen 0).map fun r => (⟨r.1, 0, t.nopenspace + t.nopen⟩, r.2)

inductive Op
  | opened (f : Nat)
  | close (f : Nat)
  | closeAll
  deriving DecidableEq, Repr

/-- The table and all the streams closed so far. -/
def step (t : Table) (closed : List Nat) : Op → Option (Table × List Nat)
  | .opened f => (addOpen t f).map fun t => (t, closed)
  | .close f => (closeFile t f).map fun t => (t, closed ++ [f])
  | .closeAll => (closeAll t).map fun r => (r.1, closed ++ r.2)

def run (t : Table) (closed : List Nat) : List Op → Option (Table × List Nat)
  | [] => some (t, closed)
  | op :: ops => (step t closed op).bind fun r => run r.1 r.2 ops

/-- `check (fileTable_closeFile (…) == 0)`, cpplib.c:6938: whether it is reported as failed (`doCheck`,
llerror.c:2016-2025), for the result `ok` of closing. -/
def mapCheckFails (ok : Bool) : Bool := !(ok == false)

end Splint.OpenFiles
