import Verif.Model.CString
import Verif.Tactics
/-!
# Keyed tables

Model of src/cstringTable.c:52-60, 92-183, 257-296, 339-552 (a table from strings to numbers) and
src/genericTable.c:43-54, 100-190, 264-304, 345-512 (a table from strings to pointers). The two
files have the same buckets, hashing and removal; they differ in insertion, and are described here
by one set of bucket functions and two insertions.

`V` is the type of the values and `dne` the value that means "not found" (HBUCKET_DNE = -23 in the
one, NULL in the other). The outcome `none` is an assertion failure, an internal bug report
(`llbug`, and `llcontbug` for an attempt to add a duplicate), or undefined behaviour. `nentries` is
unbounded. Memory is not reused, so releasing entries is not modelled.
-/
namespace Splint.Tables

/-- A key: a `cstring`. -/
abbrev Key := Option Bytes

/-- `cstring_toCharsSafe`: NULL counts as the empty string. -/
def chars (k : Key) : Bytes := k.getD []

/-- The value of `*p % 256` for a `char` that is signed. -/
def charIndex (c : UInt8) : Int := (if c.toNat < 128 then (c.toNat : Int) else c.toNat - 256).tmod 256

/-- Reading `g_randomNumbers`, randomNumbers.c:31; outside the array is undefined behaviour. -/
def readRandom (rnd : List Nat) (i : Int) : Option Nat := if 0 ≤ i then rnd[i.toNat]? else none

/-- The loop of cstringTable.c:263-266 and genericTable.c:272-275, in 32-bit unsigned
arithmetic. -/
def hashLoop (rnd : List Nat) : Nat → Bytes → Option Nat
  | h, [] => some h
  | h, c :: cs => do
    let r ← readRandom rnd (charIndex c)
    hashLoop rnd (((h * 2) % 4294967296) ^^^ r) cs

/-- `hash_value` of a key's characters, before it is reduced to the size of the table. -/
def hashKey (rnd : List Nat) (s : Bytes) : Option Nat := hashLoop rnd 0 s

variable {V : Type}

/-- `hentry`. -/
structure Entry (V : Type) where
  key : Key
  val : V

/-- `hbucket` other than NULL: the used entries, the count of free cells, the cells allocated. -/
structure Bucket (V : Type) where
  entries : List (Entry V)
  nspace : Int
  cap : Int

/-- `cstringTable`; its `size` is the number of buckets. -/
structure Table (V : Type) where
  buckets : List (Option (Bucket V))
  nentries : Nat

/-- `hbucket_single`, cstringTable.c:92-103. -/
def Bucket.single (e : Entry V) : Bucket V := ⟨[e], 1, 2⟩

/-- `hbucket_grow`, cstringTable.c:105-125. -/
def Bucket.grow (b : Bucket V) : Bucket V :=
  { b with nspace := b.nspace + 2, cap := b.entries.length + 2 }

/-- `hbucket_lookup`, cstringTable.c:164-181. -/
def lookupIn (dne : V) (b : Option (Bucket V)) (key : Key) : V :=
  match b with
  | none => dne
  | some b =>
    match b.entries.find? (fun e => cstring_equal e.key key) with
    | none => dne
    | some e => e.val

variable [DecidableEq V]

/-- `hbucket_add`, cstringTable.c:137-153; `ghbucket_add`, genericTable.c:140-159. -/
def Bucket.add (dne : V) (b : Bucket V) (e : Entry V) : Option (Bucket V) :=
  if lookupIn dne (some b) e.key ≠ dne then none
  else
    let b := if b.nspace = 0 then b.grow else b
    if (b.entries.length : Int) < b.cap then some ⟨b.entries ++ [e], b.nspace - 1, b.cap⟩
    else none

/-- Adding to a bucket that may be NULL, as all callers do. -/
def addTo (dne : V) (b : Option (Bucket V)) (e : Entry V) : Option (Bucket V) :=
  match b with
  | none => some (Bucket.single e)
  | some b => b.add dne e

/-- `cstringTable_hashValue`, cstringTable.c:257-269: the bucket of a key; a table of size 0 is a
division by zero. -/
def bucketOf (hash : Bytes → Option Nat) (t : Table V) (k : Key) : Option Nat := do
  let h ← hash (chars k)
  if t.buckets.length = 0 then none else some (h % t.buckets.length)

/-- `cstringTable_create`, cstringTable.c:278-296. -/
def create (size : Nat) : Table V := ⟨List.replicate size none, 0⟩

/-- `cstringTable_addEntry`, cstringTable.c:391-422; `genericTable_addEntry`,
genericTable.c:345-365. -/
def addEntry (hash : Bytes → Option Nat) (dne : V) (t : Table V) (e : Entry V) :
    Option (Table V) := do
  let i ← bucketOf hash t e.key
  let b ← t.buckets[i]?
  let b' ← addTo dne b e
  some ⟨t.buckets.set i (some b'), t.nentries + 1⟩

/-- The nested loops that move every entry to a new table. -/
def addAll (hash : Bytes → Option Nat) (dne : V) : Table V → List (Entry V) → Option (Table V)
  | t, [] => some t
  | t, e :: l => do let t ← addEntry hash dne t e; addAll hash dne t l

/-- All entries, bucket by bucket. -/
def allEntries (t : Table V) : List (Entry V) :=
  t.buckets.flatMap (fun b => (b.map (·.entries)).getD [])

/-- `cstringTable_rehash`, cstringTable.c:339-389; genericTable.c:380-419. -/
def rehash (hash : Bytes → Option Nat) (dne : V) (t : Table V) : Option (Table V) :=
  addAll hash dne ⟨List.replicate (1 + t.buckets.length * 26244 / 10000) none, 0⟩ (allEntries t)

/-- Storing the new entry, cstringTable.c:440-453, genericTable.c:423-435. -/
def store (hash : Bytes → Option Nat) (dne : V) (t : Table V) (e : Entry V) : Option (Table V) := do
  let i ← bucketOf hash t e.key
  let b ← t.buckets[i]?
  let b' ← addTo dne b e
  some { t with buckets := t.buckets.set i (some b') }

/-- `cstringTable_insert`, cstringTable.c:424-454. -/
def insertC (hash : Bytes → Option Nat) (dne : V) (t : Table V) (k : Key) (v : V) :
    Option (Table V) := do
  let t := { t with nentries := t.nentries + 1 }
  let t ← if t.nentries * 162 > t.buckets.length * 100 then rehash hash dne t else some t
  if v = dne then none
  else store hash dne t ⟨k, v⟩

/-- `genericTable_insert`, genericTable.c:367-436. -/
def insertG (hash : Bytes → Option Nat) (dne : V) (t : Table V) (k : Key) (v : V) :
    Option (Table V) := do
  let t ← if t.nentries * 162 > t.buckets.length * 100 then rehash hash dne t else some t
  let t := { t with nentries := t.nentries + 1 }
  if v = dne then none
  else store hash dne t ⟨k, v⟩

/-- `cstringTable_lookup`, cstringTable.c:456-464; `genericTable_lookup`,
genericTable.c:438-450. -/
def lookup (hash : Bytes → Option Nat) (dne : V) (t : Table V) (k : Key) : Option V := do
  let i ← bucketOf hash t k
  let b ← t.buckets[i]?
  some (lookupIn dne b k)

/-- The search and change of cstringTable.c:475-489 and 505-517: the first entry with the key is
changed in place; not finding one is a bug report. -/
def changeFirst (f : Entry V → Entry V) (k : Key) : List (Entry V) → Option (List (Entry V))
  | [] => none
  | e :: l =>
    if cstring_equal e.key k then some (f e :: l) else (changeFirst f k l).map (e :: ·)

/-- Changing the entry of a key in its bucket. -/
def change (hash : Bytes → Option Nat) (f : Entry V → Entry V) (t : Table V) (k : Key) :
    Option (Table V) := do
  let i ← bucketOf hash t k
  let b ← (← t.buckets[i]?)
  let l ← changeFirst f k b.entries
  some { t with buckets := t.buckets.set i (some { b with entries := l }) }

/-- `cstringTable_update`, cstringTable.c:466-490. The new value is not looked at. -/
def update (hash : Bytes → Option Nat) (t : Table V) (k : Key) (v : V) : Option (Table V) :=
  change hash (fun e => { e with val := v }) t k

/-- `genericTable_update`, genericTable.c:452-477: the new value must not be NULL. -/
def updateG (hash : Bytes → Option Nat) (dne : V) (t : Table V) (k : Key) (v : V) :
    Option (Table V) :=
  if v = dne then none else update hash t k v

/-- `cstringTable_replaceKey`, cstringTable.c:496-520. -/
def replaceKey (hash : Bytes → Option Nat) (t : Table V) (k k' : Key) : Option (Table V) :=
  if cstring_equal k k' then change hash (fun e => { e with key := k' }) t k else none

/-- The removal of cstringTable.c:534-546: the last entry takes the place of the removed one. -/
def removeFirst (k : Key) (l : List (Entry V)) : Option (List (Entry V)) := do
  let i ← l.findIdx? (fun e => cstring_equal e.key k)
  if i < l.length - 1 then do
    let last ← l[l.length - 1]?
    some ((l.set i last).take (l.length - 1))
  else some (l.take (l.length - 1))

/-- `cstringTable_remove`, cstringTable.c:522-552; `genericTable_remove`, genericTable.c:479-507.
Neither `nspace` nor `nentries` changes. -/
def remove (hash : Bytes → Option Nat) (t : Table V) (k : Key) : Option (Table V) := do
  let i ← bucketOf hash t k
  let b ← (← t.buckets[i]?)
  let l ← removeFirst k b.entries
  some { t with buckets := t.buckets.set i (some { b with entries := l }) }

/-- The operations on a table. -/
inductive Op (V : Type) where
  | insert (k : Key) (v : V)
  | update (k : Key) (v : V)
  | replaceKey (k k' : Key)
  | remove (k : Key)

/-- One operation on a `cstringTable`. -/
def stepC (hash : Bytes → Option Nat) (dne : V) (t : Table V) : Op V → Option (Table V)
  | .insert k v => insertC hash dne t k v
  | .update k v => update hash t k v
  | .replaceKey k k' => replaceKey hash t k k'
  | .remove k => remove hash t k

/-- One operation on a `genericTable`, which has no `replaceKey`. -/
def stepG (hash : Bytes → Option Nat) (dne : V) (t : Table V) : Op V → Option (Table V)
  | .insert k v => insertG hash dne t k v
  | .update k v => updateG hash dne t k v
  | .replaceKey _ _ => none
  | .remove k => remove hash t k

/-- A history. -/
def run {T : Type} (step : T → Op V → Option T) : T → List (Op V) → Option T
  | t, [] => some t
  | t, o :: os => do let t ← step t o; run step t os

end Splint.Tables
