import Verif.Model.SRef
/-!
# Sets of storage references

Model of src/sRefSet.c:41-111 (`sRefSet_newEmpty`, `sRefSet_single`, `sRefSet_grow`,
`sRefSet_insert`), 113-185 (`sRefSet_clear`, `sRefSet_clearStatics`, `sRefSet_delete`), 225-260
(`sRefSet_deleteBase`), 266-378 (unions, `sRefSet_intersect`, `sRefSet_levelUnion`), 380-419
(`sRefSet_levelPrune`), 425-516 (copies), 543-607 (membership tests), 943-983 (`sRefSet_compare`, `sRefSet_equal`), and of
src/aliasTable.c:530-572 (`aliasTable_levelPrune`).

The array has `cap` elements; `none` is a write or read outside it. Elements are not null. The calls
that pass the same set twice (`s1 == s2`), which return it unchanged or fail an assertion, are left
out.
-/
namespace Splint

/-- `struct s_sRefSet`, Headers/sRefSet.h:16-21; `entries` is the length of `elems`. -/
structure SRefSet where
  elems : List SRef
  nspace : Nat
  cap : Nat
deriving DecidableEq, Repr

namespace SRefSet

/-- `sRefSetBASESIZE`, system_constants.h:83. -/
def baseSize : Nat := 4

/-- `sRefSet_newEmpty`, sRefSet.c:41-51. -/
def newEmpty : SRefSet := ⟨[], baseSize, baseSize⟩

/-- `sRefSet_single`, sRefSet.c:53-64. -/
def single (el : SRef) : SRefSet := ⟨[el], baseSize - 1, baseSize⟩

/-- `sRefSet_grow`, sRefSet.c:66-82. -/
def grow (s : SRefSet) : SRefSet := ⟨s.elems, baseSize, s.elems.length + baseSize⟩

/-- Writing behind the last element and counting it. -/
def push (s : SRefSet) (el : SRef) : Option SRefSet :=
  if s.elems.length < s.cap then some ⟨s.elems ++ [el], s.nspace - 1, s.cap⟩ else none

/-- `sRefSet_isSameMember`, sRefSet.c:591-595. -/
def isSameMember (cm : Nat → Nat → Bool) (l : List SRef) (el : SRef) : Bool :=
  l.any fun e => el.realSame cm e

/-- `sRefSet_member`, sRefSet.c:603-607. -/
def member (l : List SRef) (el : SRef) : Bool := l.any fun e => el.similar e

/-- `sRefSet_insert`, sRefSet.c:84-111; `none` is `sRefSet_undefined`. -/
def insert (cm : Nat → Nat → Bool) (s : Option SRefSet) (el : SRef) : Option SRefSet :=
  let s := s.getD newEmpty
  if isSameMember cm s.elems el then some s
  else push (if s.nspace = 0 then grow s else s) el

/-- `sRefSet_clear`, sRefSet.c:113-121. -/
def clear (s : SRefSet) : SRefSet := ⟨[], s.nspace + s.elems.length, s.cap⟩

/-- The loop that moves the elements behind `j` down, sRefSet.c:140-143 and 173-176; `n` is the
number of moves left. -/
def shiftDown : List SRef → Nat → Nat → List SRef
  | l, _, 0 => l
  | l, j, n + 1 =>
    match l[j + 1]? with
    | some x => shiftDown (l.set j x) (j + 1) n
    | none => l

/-- Removing the element with index `i`, sRefSet.c:138-147. -/
def removeAt (s : SRefSet) (i : Nat) : SRefSet :=
  ⟨(shiftDown s.elems i (s.elems.length - 1 - i)).take (s.elems.length - 1), s.nspace + 1, s.cap⟩

/-- `sRef_isFileStatic (sRef_getRootBase (current))`, sRefSet.c:138. -/
def isStatic (cur : SRef) : Bool :=
  match cur.rootBase with
  | some r => r.isFileStatic
  | none => false

/-- The loop of `sRefSet_clearStatics`, sRefSet.c:134-151; `n` bounds the number of rounds. -/
def clearStaticsLoop : Nat → SRefSet → Nat → SRefSet
  | 0, s, _ => s
  | n + 1, s, i =>
    match s.elems[i]? with
    | none => s
    | some cur =>
      if isStatic cur then clearStaticsLoop n (removeAt s i) i
      else clearStaticsLoop n s (i + 1)

/-- `sRefSet_clearStatics`, sRefSet.c:127-153. -/
def clearStatics (s : SRefSet) : SRefSet := clearStaticsLoop s.elems.length s 0

/-- The loop of `sRefSet_delete`, sRefSet.c:164-181. -/
def deleteLoop (cm : Nat → Nat → Bool) (s : SRefSet) (el : SRef) : Nat → Nat → Bool × SRefSet
  | 0, _ => (false, s)
  | n + 1, i =>
    match s.elems[i]? with
    | none => (false, s)
    | some cur => if el.realSame cm cur then (true, removeAt s i) else deleteLoop cm s el n (i + 1)

/-- `sRefSet_delete`, sRefSet.c:155-185. -/
def delete (cm : Nat → Nat → Bool) (s : SRefSet) (el : SRef) : Bool × SRefSet :=
  deleteLoop cm s el s.elems.length 0

/-- The two nested loops of `sRefSet_deleteBase`, sRefSet.c:235-253, as one: both stop when
`i + offset` reaches the end. `n` is the number of elements not looked at. -/
def deleteBaseLoop (base : SRef) : Nat → List SRef → Nat → Nat → List SRef × Nat
  | 0, l, _, off => (l, off)
  | n + 1, l, i, off =>
    match l[i + off]? with
    | none => (l, off)
    | some cur =>
      if cur.includedBy base then deleteBaseLoop base n l i (off + 1)
      else deleteBaseLoop base n (if off > 0 then l.set i cur else l) (i + 1) off

/-- `sRefSet_deleteBase`, sRefSet.c:225-260. -/
def deleteBase (s : SRefSet) (base : SRef) : Bool × SRefSet :=
  let r := deleteBaseLoop base s.elems.length s.elems 0 0
  (decide (r.2 > 0), ⟨r.1.take (s.elems.length - r.2), s.nspace + r.2, s.cap⟩)

/-- Inserting elements one after the other. -/
def insertAll (cm : Nat → Nat → Bool) : Option SRefSet → List SRef → Option (Option SRefSet)
  | s, [] => some s
  | s, el :: l => (insert cm s el).bind fun s => insertAll cm (some s) l

/-- The elements of a set that may be undefined. -/
def elemsOf (s : Option SRefSet) : List SRef := (s.map (·.elems)).getD []

/-- The loop of `sRefSet_copyInto`, sRefSet.c:447-458. -/
def copyLoop : SRefSet → List SRef → Option SRefSet
  | s, [] => some s
  | s, el :: l => (push (if s.nspace = 0 then grow s else s) el).bind fun s => copyLoop s l

/-- `sRefSet_copyInto`, sRefSet.c:425-461. The outer `none` is a bad access. -/
def copyInto (s1 s2 : Option SRefSet) : Option (Option SRefSet) :=
  if s1.isNone && (elemsOf s2).isEmpty then some s1
  else
    let s := s1.getD newEmpty
    (copyLoop ⟨[], s.elems.length + s.nspace, s.cap⟩ (elemsOf s2)).map some

/-- `sRefSet_union`, sRefSet.c:275-296. -/
def union (cm : Nat → Nat → Bool) (s1 s2 : Option SRefSet) : Option (Option SRefSet) :=
  if (elemsOf s1).isEmpty then copyInto s1 s2 else insertAll cm s1 (elemsOf s2)

/-- `sRefSet_unionExcept`, sRefSet.c:302-320. -/
def unionExcept (cm : Nat → Nat → Bool) (s1 s2 : Option SRefSet) (ex : SRef) :
    Option (Option SRefSet) :=
  insertAll cm s1 ((elemsOf s2).filter fun el => !(el.same ex))

/-- `sRefSet_newCopy`, sRefSet.c:463-486. -/
def newCopy (s : Option SRefSet) : Option SRefSet :=
  if (elemsOf s).isEmpty then none
  else s.map fun s => ⟨s.elems, s.nspace, s.elems.length + s.nspace⟩

/-- `sRefSet_realNewUnion`, sRefSet.c:322-342. -/
def realNewUnion (cm : Nat → Nat → Bool) (s1 s2 : Option SRefSet) : Option (Option SRefSet) :=
  if s1.isNone then some (newCopy s2) else insertAll cm (newCopy s1) (elemsOf s2)

/-- `sRefSet_intersect`, sRefSet.c:346-362. -/
def intersect (cm : Nat → Nat → Bool) (s1 s2 : Option SRefSet) : Option (Option SRefSet) :=
  insertAll cm none ((elemsOf s1).filter fun el => member (elemsOf s2) el)

/-- `sRefSet_levelUnion`, sRefSet.c:365-378. -/
def levelUnion (cm : Nat → Nat → Bool) (sr s : Option SRefSet) (level : Int) :
    Option (Option SRefSet) :=
  insertAll cm sr ((elemsOf s).filter fun el => decide (el.lexLevel ≤ level))

/-- `sRefSet_levelCopy`, sRefSet.c:488-516. -/
def levelCopy (s : Option SRefSet) (level : Int) : Option (Option SRefSet) :=
  if (elemsOf s).isEmpty then some none
  else
    let go := (elemsOf s).foldl (fun (r : Option SRefSet) el =>
      if el.lexLevel ≤ level then r.bind fun r => push r el else r)
      (some ⟨[], (elemsOf s).length, (elemsOf s).length⟩)
    go.map some

/-- `sRefSet_equal`, sRefSet.c:964-983. -/
def equal (cm : Nat → Nat → Bool) (l1 l2 : List SRef) : Bool :=
  l1.all (isSameMember cm l2) && l2.all (isSameMember cm l1)

/-- `sRefSet_compare`, sRefSet.c:943-962. -/
def compare (cm : Nat → Nat → Bool) (l1 l2 : List SRef) : Int :=
  if l1.all (isSameMember cm l2) then if l2.all (isSameMember cm l1) then 0 else 1 else -1

end SRefSet

/-! ## Leaving a scope -/

/-- The variables of the compaction loops: the array, the number of entries, `backcount + 1`, and
`nspace`. -/
structure PruneSt (α : Type) where
  arr : List α
  entries : Nat
  back1 : Nat
  nspace : Nat

namespace PruneSt
variable {α : Type}

/-- The inner loop of `sRefSet_levelPrune`, sRefSet.c:397-410, with `j = i + n`; `none` is a read
outside the array. -/
def innerS (good : α → Bool) (i : Nat) : Nat → PruneSt α → Option (PruneSt α)
  | 0, st => some st
  | n + 1, st =>
    let st := { st with back1 := st.back1 - 1, entries := st.entries - 1, nspace := st.nspace + 1 }
    match st.arr[i + n + 1]? with
    | none => none
    | some x =>
      if good x then
        some { st with
          arr := st.arr.set i x
          entries := if st.back1 - 1 = i then st.entries + 1 else st.entries }
      else innerS good i n st

/-- The outer loop of `sRefSet_levelPrune`, sRefSet.c:387-417. `fuel` bounds the number of rounds. -/
def outerS (good : α → Bool) : Nat → Nat → PruneSt α → Option (PruneSt α)
  | 0, _, st => some st
  | fuel + 1, i, st =>
    if i < st.back1 then
      match st.arr[i]? with
      | none => none
      | some x =>
        if good x then outerS good fuel (i + 1) st
        else
          match innerS good i (st.back1 - 1 - i) st with
          | none => none
          | some st =>
            outerS good fuel (i + 1)
              (if st.back1 - 1 = i then { st with entries := st.entries - 1 } else st)
    else some st

/-- The inner loop of `aliasTable_levelPrune`, aliasTable.c:550-564. `move` is what happens to a
moved entry: its value is pruned. -/
def innerA (good : α → Bool) (move : α → α) (i : Nat) : Nat → PruneSt α → Option (PruneSt α)
  | 0, st => some st
  | n + 1, st =>
    let st := { st with back1 := st.back1 - 1, entries := st.entries - 1, nspace := st.nspace + 1 }
    match st.arr[i + n + 1]? with
    | none => none
    | some x =>
      if good x then some { st with arr := st.arr.set i (move x) }
      else innerA good move i n st

/-- The outer loop of `aliasTable_levelPrune`, aliasTable.c:543-572. -/
def outerA (good : α → Bool) (move : α → α) : Nat → Nat → PruneSt α → Option (PruneSt α)
  | 0, _, st => some st
  | fuel + 1, i, st =>
    if i < st.back1 then
      match st.arr[i]? with
      | none => none
      | some x =>
        if good x then outerA good move fuel (i + 1) { st with arr := st.arr.set i (move x) }
        else
          match innerA good move i (st.back1 - 1 - i) st with
          | none => none
          | some st =>
            outerA good move fuel (i + 1)
              (if st.back1 - 1 = i then { st with entries := st.entries - 1 } else st)
    else some st

end PruneSt

/-- `sRefSet_levelPrune`, sRefSet.c:380-419. -/
def SRefSet.levelPrune (s : SRefSet) (level : Int) : Option SRefSet :=
  (PruneSt.outerS (fun el : SRef => decide (el.lexLevel ≤ level)) s.elems.length 0
    ⟨s.elems, s.elems.length, s.elems.length, s.nspace⟩).map
    fun st => ⟨st.arr.take st.entries, st.nspace, s.cap⟩

/-- A table entry, aliasTable.h: a key and its aliases. -/
structure AliasEntry where
  key : SRef
  value : Option SRefSet
deriving DecidableEq

/-- Pruning the value of an entry; the sets are always readable (`C31_set`), so the failure branch
is never taken. -/
def AliasEntry.prune (level : Int) (e : AliasEntry) : AliasEntry :=
  ⟨e.key, e.value.bind fun s => s.levelPrune level⟩

/-- `aliasTable_levelPrune`, aliasTable.c:530-572. -/
def aliasLevelPrune (t : List AliasEntry) (level : Int) : Option (List AliasEntry) :=
  (PruneSt.outerA (fun e : AliasEntry => decide (e.key.lexLevel ≤ level)) (AliasEntry.prune level)
    t.length 0 ⟨t, t.length, t.length, 0⟩).map fun st => st.arr.take st.entries

end Splint
