import Verif.Model.StateTable
/-! What a state declaration says about a pair of states, read off the list of its clauses.
States are positions in the list of values. -/
namespace Splint.States

/-- Position of the first value with this name. -/
def pos (vals : List String) (name : String) : Option Nat := vals.findIdx? (· = name)

/-- What an action means; `none` if it names an unknown value. -/
def meaning (vals : List String) : Action → Option Entry
  | .value n => (pos vals n).map fun (i : Nat) => ⟨i, none⟩
  | .error m => some ⟨-1, m⟩

/-- What the transfer clauses say about using state `i` as state `j`, in order. -/
def transfersFor (vals : List String) (i j : Nat) (ts : List Transfer) : List Entry :=
  ts.filterMap fun c =>
    if pos vals c.source = some i ∧ pos vals c.target = some j then meaning vals c.action else none

/-- What the lose clauses say about state `i`, in order. -/
def losesFor (vals : List String) (i : Nat) (ls : List Lose) : List (Option String) :=
  ls.filterMap fun c => if pos vals c.source = some i then some c.msg else none

/-- Does the item include the state? -/
def covers (vals : List String) (it : Item) (i : Nat) : Prop :=
  match it with
  | .star => True
  | .value n => pos vals n = some i

instance (vals : List String) (it : Item) (i : Nat) : Decidable (covers vals it i) := by
  unfold covers; split <;> infer_instance

/-- Are the names of an item known? -/
def known (vals : List String) : Item → Prop
  | .star => True
  | .value n => pos vals n ≠ none

instance (vals : List String) (it : Item) : Decidable (known vals it) := by
  unfold known; split <;> infer_instance

/-- What the merge clauses say about `i + j`, in this order, in the order of the clauses. -/
def mergesFor (vals : List String) (i j : Nat) (ms : List Merge) : List Entry :=
  ms.filterMap fun c =>
    if covers vals c.item1 i ∧ covers vals c.item2 j then meaning vals c.action else none

/-- The merge of two states: the last clause for `i + j`; if there is none, the state itself if
the states are the same, else the first clause for `j + i`, else an error. -/
def mergeSpec (vals : List String) (i j : Nat) (ms : List Merge) : Entry :=
  match (mergesFor vals i j ms).getLast? with
  | some e => e
  | none =>
    if i = j then ⟨i, none⟩
    else (mergesFor vals j i ms).head?.getD
      ⟨-1, some "Incompatible state merge (default behavior)"⟩

end Splint.States
