import Verif.Tactics
/-!
# User-defined states

Model of src/stateCombinationTable.c and of the part of
`mtDeclarationNode_process` (src/mtDeclarationNode.c:54-708) that turns the clauses of a state
declaration into tables.

A failed `llassert` or an access outside a table is the outcome `none`.  Left out: contexts,
annotations and defaults of a declaration, and the messages about unknown names (such clauses are
skipped, mtDeclarationNode.c:157-200, 281-324, 361-371, 417-484).
-/
namespace Splint.States

/-- `stateEntry`, Headers/stateCombinationTable.h:18-21. -/
structure Entry where
  value : Int
  msg : Option String
  deriving DecidableEq, Repr

/-- `stateCombinationTable`, Headers/stateCombinationTable.h:23-33. -/
structure Table where
  size : Nat
  rows : List (List Entry)
  deriving DecidableEq, Repr

/-- `stateCombinationTable_create`, stateCombinationTable.c:57-93. -/
def create (size : Nat) : Table :=
  ⟨size, (List.range size).map fun (i : Nat) => List.replicate (size + 1) ⟨i, none⟩⟩

/-- `stateCombintationTable_getEntry`, stateCombinationTable.c:153-161. -/
def Table.getEntry (t : Table) (r c : Int) : Option Entry :=
  if r < t.size ∧ c < t.size + 1 ∧ 0 ≤ r ∧ 0 ≤ c then
    (t.rows[r.toNat]?).bind fun row => row[c.toNat]?
  else none

/-- Writing through the pointer returned by `getEntry`. -/
def Table.put (t : Table) (r c : Int) (e : Entry) : Table :=
  { t with rows := t.rows.modify r.toNat fun row => row.set c.toNat e }

/-- `stateCombinationTable_set`, stateCombinationTable.c:163-179. -/
def Table.set (t : Table) (r c : Int) (e : Entry) : Option Table := do
  let old ← t.getEntry r c
  if old.msg.isNone then some (t.put r c e) else none

/-- `stateCombinationTable_update`, stateCombinationTable.c:186-201. -/
def Table.update (t : Table) (r c : Int) (e : Entry) : Option Table := do
  let _ ← t.getEntry r c
  some (t.put r c e)

/-- `stateCombinationTable_lookup`, stateCombinationTable.c:203-214; `stateValue_error` is -1. -/
def Table.lookup (t : Table) (r c : Int) : Option Entry :=
  if r ≠ -1 ∧ c ≠ -1 then t.getEntry r c else none

/-- `stateCombinationTable_lookupLoseReference`, stateCombinationTable.c:216-221. -/
def Table.lookupLose (t : Table) (r : Int) : Option Entry := t.lookup r t.size

/-! ## Declarations -/

/-- `mtTransferAction`, mtTransferAction.c:30-65. -/
inductive Action
  | value (name : String)
  | error (msg : Option String)
  deriving DecidableEq, Repr

/-- `mtTransferClause`: `from as to ==> action`. -/
structure Transfer where
  source : String
  target : String
  action : Action
  deriving DecidableEq, Repr

/-- `mtLoseReference`: `from ==> error "msg"` (the grammar allows only errors here,
mtgrammar.y:378, so the assertion of mtDeclarationNode.c:359 holds). -/
structure Lose where
  source : String
  msg : Option String
  deriving DecidableEq, Repr

/-- `mtMergeItem`. -/
inductive Item
  | star
  | value (name : String)
  deriving DecidableEq, Repr

/-- `mtMergeClause`: `item1 + item2 ==> action`. -/
structure Merge where
  item1 : Item
  item2 : Item
  action : Action
  deriving DecidableEq, Repr

/-- `cstringList_contains` and `cstringList_getIndex`, cstringList.c:297-329. -/
def index (vals : List String) (name : String) : Option Nat :=
  match vals with
  | [] => none
  | v :: vs => if v = name then some 0 else (index vs name).map (· + 1)

/-- The value and message of an action, mtDeclarationNode.c:187-215; `none` for an unknown name. -/
def entryOf (vals : List String) : Action → Option Entry
  | .value n => (index vals n).map fun (i : Nat) => ⟨i, none⟩
  | .error m => some ⟨-1, m⟩

/-- One turn of the loops of mtDeclarationNode.c:139-214 and 263-338. -/
def addTransfer (vals : List String) (t : Table) (c : Transfer) : Option Table :=
  match index vals c.source, index vals c.target, entryOf vals c.action with
  | some f, some g, some e => t.set f g e
  | _, _, _ => some t

/-- One turn of the loop of mtDeclarationNode.c:350-378. -/
def addLose (vals : List String) (t : Table) (c : Lose) : Option Table :=
  match index vals c.source with
  | some f => t.set f vals.length ⟨-1, c.msg⟩
  | none => some t

/-- The transfer table, mtDeclarationNode.c:104-379. -/
def transferTable (vals : List String) (ts : List Transfer) (ls : List Lose) : Option Table := do
  let t ← ts.foldlM (addTransfer vals) (create vals.length)
  ls.foldlM (addLose vals) t

/-- mtDeclarationNode.c:64-65. -/
def defaultMessage : String := "Incompatible state merge (default behavior)"

/-- The index pairs of two nested loops. -/
def pairs (l1 h1 l2 h2 : Int) : List (Int × Int) :=
  (List.range (h1 + 1 - l1).toNat).flatMap fun (i : Nat) =>
    (List.range (h2 + 1 - l2).toNat).map fun (j : Nat) => (l1 + i, l2 + j)

/-- The default merge table, mtDeclarationNode.c:381-396. -/
def initialMerge (n : Nat) : Option Table :=
  (pairs 0 (n - 1) 0 (n - 1)).foldlM (init := create n) fun t p =>
    if p.1 ≠ p.2 then t.set p.1 p.2 ⟨-1, some defaultMessage⟩ else some t

/-- The bounds of an item, mtDeclarationNode.c:417-468. -/
def bounds (vals : List String) : Item → Option (Int × Int)
  | .star => some (0, vals.length - 1)
  | .value n => (index vals n).map fun (i : Nat) => (i, i)

/-- Second loop, mtDeclarationNode.c:520-551 (`cstring_equal` on an undefined message is false
here, as the default message is not empty). -/
def symmetric (e : Entry) (t : Table) (p : Int × Int) : Option Table := do
  let old ← t.lookup p.2 p.1
  if old.value = -1 ∧ old.msg = some defaultMessage then t.update p.2 p.1 e else some t

/-- One turn of the loop of mtDeclarationNode.c:407-552. -/
def addMerge (vals : List String) (t : Table) (c : Merge) : Option Table :=
  match bounds vals c.item1, bounds vals c.item2, entryOf vals c.action with
  | some (l1, h1), some (l2, h2), some e => do
    let t ← (pairs l1 h1 l2 h2).foldlM (fun t p => t.update p.1 p.2 e) t
    (pairs l1 h1 l2 h2).foldlM (symmetric e) t
  | _, _, _ => some t

/-- The merge table, mtDeclarationNode.c:381-553. -/
def mergeTable (vals : List String) (ms : List Merge) : Option Table := do
  let t ← initialMerge vals.length
  ms.foldlM (addMerge vals) t

/-- Does leaving a scope with a reference in state `s` produce a message? usymtab.c:3936-3959. -/
def loseReported (t : Table) (s : Int) : Option Bool := (t.lookupLose s).map fun e => e.msg.isSome

end Splint.States
