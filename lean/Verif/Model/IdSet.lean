import Verif.Model.Reader
/-!
# Access sets

Model of src/usymIdSet.c:40-222, 240-323, 348-392 and src/typeIdSet.c:41-52, 68-83, 104-300.

An identifier is an integer. The elements of a set are the used part of its array; `cap` is the
number of cells allocated, and storing at or behind it is undefined behaviour. The outcome `none`
is undefined behaviour, an assertion failure or an internal bug report. Memory is not reused, so
freeing a set is not modelled, nor is the assertion of typeIdSet.c:164 that compares addresses (the
set passed in is always newly made).
-/
namespace Splint
open Reader

/-- `usymIdSet` other than NULL. -/
structure USet where
  elems : List Int
  nspace : Int
  cap : Int
deriving DecidableEq, Repr

/-- `usymIdSet`; `none` is the NULL pointer. -/
abbrev UIdSet := Option USet

namespace UIdSet

/-- `usymIdSet_newEmpty`, usymIdSet.c:40-50 (usymIdSetBASESIZE is 4). -/
def newEmpty : USet := ⟨[], 4, 4⟩

/-- `usymIdSet_grow`, usymIdSet.c:52-69. -/
def grow (s : USet) : USet := { s with nspace := 4, cap := s.elems.length + 4 }

/-- `usymIdSet_single`, usymIdSet.c:71-82. -/
def single (el : Int) : USet := ⟨[el], 3, 4⟩

/-- `usymIdSet_member`, usymIdSet.c:204-222: the loop is a search through the elements. -/
def member (s : UIdSet) (el : Int) : Bool :=
  match s with
  | none => false
  | some s => s.elems.any (el == ·)

/-- `usymIdSet_insert`, usymIdSet.c:84-105. -/
def insert (s : UIdSet) (el : Int) : Option USet :=
  let s := s.getD newEmpty
  if member (some s) el then some s
  else
    let s := if s.nspace ≤ 0 then grow s else s
    if (s.elems.length : Int) < s.cap then some ⟨s.elems ++ [el], s.nspace - 1, s.cap⟩ else none

/-- `usymIdSet_copy`, usymIdSet.c:107-124. -/
def copy (s : USet) : USet := ⟨s.elems, 1, s.elems.length + 1⟩

/-- `usymIdSet_add`, usymIdSet.c:126-140. -/
def add (s : UIdSet) (el : Int) : Option USet :=
  match s with
  | some u => if member s el then none else insert (some (copy u)) el
  | none => some (single el)

/-- Inserting the elements of a list one after the other. -/
def insertAll (t : UIdSet) : List Int → Option UIdSet
  | [] => some t
  | x :: l => do let t ← insert t x; insertAll (some t) l

/-- `usymIdSet_removeFresh`, usymIdSet.c:141-163. -/
def removeFresh (s : UIdSet) (el : Int) : Option UIdSet :=
  match s with
  | some s => insertAll (some newEmpty) (s.elems.filter (fun x => !(el == x)))
  | none => some none

/-- `usymIdSet_elements`, usymIdSet.h:51-56. -/
def elements (s : UIdSet) : List Int := (s.map (·.elems)).getD []

/-- `usymIdSet_newUnion`, usymIdSet.c:165-181. -/
def newUnion (s t : UIdSet) : Option UIdSet := do
  let r ← insertAll none (elements s)
  insertAll r (elements t)

/-- `usymIdSet_subtract`, usymIdSet.c:188-202. -/
def subtract (s t : UIdSet) : Option UIdSet :=
  insertAll none ((elements s).filter (fun x => !member t x))

/-- The loop of `usymIdSet_compare`, usymIdSet.c:361-391. -/
def compareLoop : List Int → List Int → Int
  | x :: l, y :: m => if x = y then compareLoop l m else if x > y then 1 else -1
  | [], [] => 0
  | [], _ :: _ => -1
  | _ :: _, [] => 1

/-- `usymIdSet_compare`, usymIdSet.c:348-392. -/
def compare (l1 l2 : UIdSet) : Int :=
  match l1, l2 with
  | none, _ => if (elements l2).length = 0 then 0 else 1
  | some _, none => if (elements l1).length = 0 then 0 else 1
  | some a, some b => compareLoop a.elems b.elems

/-- The `%d`s separated by commas that usymIdSet.c:250-268 builds. -/
def joinIds : List Int → List Char
  | [] => []
  | [x] => intText x
  | x :: y :: l => intText x ++ ',' :: joinIds (y :: l)

/-- usymId_invalid, usymId.h:22. -/
def invalidId : Int := -17

/-- `usymIdSet_dump`, usymIdSet.c:240-270; `conv` is `usymtab_convertId`. -/
def dump (conv : Int → Int) (s : UIdSet) : List Char :=
  joinIds (((elements s).filter (fun x => !(x == invalidId))).map conv)

/-- Characters that end a set, usymIdSet.c:284. -/
def endsSet (c : Char) : Bool := c = '@' || c = '#' || c = '\n'

/-- The two nested loops of `usymIdSet_undump`, usymIdSet.c:284-320. `olds` is the position of the
last progress, as the number of characters left. An iteration of the outer loop at a comma only
skips it; any other iteration runs the inner loop once, and again only when the number is not
followed by a comma or an ending character: then the position has not moved and the program
reports an internal error. -/
def undumpLoop : Nat → List Char → Nat → UIdSet → Option (UIdSet × List Char)
  | 0, _, _, _ => none
  | _ + 1, [], _, t => some (t, [])
  | f + 1, c :: cs, olds, t =>
    if endsSet c then some (t, c :: cs)
    else if c = ',' then undumpLoop f cs olds t
    else do
      let (tid, _, rest) ← digits 0 true (c :: cs)
      if rest.length = olds then none
      else
        let t ← insert t tid
        undumpLoop f rest rest.length (some t)

/-- `usymIdSet_undump`, usymIdSet.c:276-323. The number of iterations is bounded by the text. -/
def undump (s : List Char) : Option (UIdSet × List Char) :=
  undumpLoop (2 * s.length + 2) s s.length none

end UIdSet

/-- The table of access sets, typeIdSet.c:34-37. -/
structure TisTable where
  sets : List UIdSet
  free : Int
  cap : Int

namespace TisTable

/-- `typeIdSet_initMod`, typeIdSet.c:41-52 (TISTABLEBASESIZE is 16). -/
def init : TisTable := ⟨[none], 15, 16⟩

/-- `tistable_grow` and `tistable_addDirectEntry`, typeIdSet.c:124-153. -/
def addDirect (t : TisTable) (s : UIdSet) : Option TisTable :=
  let t := if t.free = 0 then { t with free := 16, cap := t.sets.length + 16 } else t
  if (t.sets.length : Int) < t.cap then some ⟨t.sets ++ [s], t.free - 1, t.cap⟩ else none

/-- `tistable_addEntry`, typeIdSet.c:155-175. -/
def addEntry (t : TisTable) (s : UIdSet) : Option (TisTable × Nat) :=
  match t.sets.findIdx? (fun u => UIdSet.compare u s == 0) with
  | some i => some (t, i)
  | none => do let t' ← t.addDirect s; some (t', t'.sets.length - 1)

/-- `tistable_fetch`, typeIdSet.c:177-184. -/
def fetch (t : TisTable) (i : Nat) : Option UIdSet := t.sets[i]?

/-- `typeIdSet_member`, typeIdSet.c:199-203. -/
def member (t : TisTable) (i : Nat) (el : Int) : Option Bool := do
  let u ← t.fetch i
  some (UIdSet.member u el)

/-- `typeIdSet_single`, typeIdSet.c:210-213. -/
def single (t : TisTable) (el : Int) : Option (TisTable × Nat) :=
  t.addEntry (some (UIdSet.single el))

/-- `typeIdSet_singleOpt`, typeIdSet.c:215-225. -/
def singleOpt (t : TisTable) (el : Int) : Option (TisTable × Nat) :=
  if el ≠ UIdSet.invalidId then t.single el else some (t, 0)

/-- `typeIdSet_insert`, typeIdSet.c:227-239. -/
def insert (t : TisTable) (i : Nat) (el : Int) : Option (TisTable × Nat) := do
  let u ← t.fetch i
  if UIdSet.member u el then some (t, i)
  else do
    let v ← UIdSet.add u el
    t.addEntry (some v)

/-- `typeIdSet_removeFresh`, typeIdSet.c:241-244. -/
def removeFresh (t : TisTable) (i : Nat) (el : Int) : Option (TisTable × Nat) := do
  let u ← t.fetch i
  let v ← UIdSet.removeFresh u el
  t.addEntry v

/-- `typeIdSet_subtract`, typeIdSet.c:256-267. -/
def subtract (t : TisTable) (i j : Nat) : Option (TisTable × Nat) :=
  if j = 0 then some (t, i)
  else do
    let u ← t.fetch i
    let v ← t.fetch j
    let w ← UIdSet.subtract u v
    t.addEntry w

/-- `typeIdSet_union`, typeIdSet.c:285-300. -/
def union (t : TisTable) (i j : Nat) : Option (TisTable × Nat) :=
  if i = 0 then some (t, j)
  else if j = 0 then some (t, i)
  else do
    let u ← t.fetch i
    let v ← t.fetch j
    let w ← UIdSet.newUnion u v
    t.addEntry w

/-- `typeIdSet_dumpTable`, typeIdSet.c:68-83: one line per set but the first. -/
def dumpTable (conv : Int → Int) (t : TisTable) : List (List Char) :=
  (t.sets.drop 1).map (fun s => UIdSet.dump conv s ++ ['\n'])

/-- The loop of `typeIdSet_loadTable`, typeIdSet.c:111-121, on the lines up to the one starting
with a semicolon. -/
def loadLines (t : TisTable) : List (List Char) → Option TisTable
  | [] => some t
  | l :: ls => do
    let (u, r) ← UIdSet.undump l
    if r = [] ∨ r.head? = some '\n' then do
      let t ← t.addDirect u
      loadLines t ls
    else none

/-- `typeIdSet_loadTable`, typeIdSet.c:104-122. -/
def loadTable (t : TisTable) (ls : List (List Char)) : Option TisTable :=
  if t.sets.length = 1 then loadLines t ls else none

end TisTable
end Splint
