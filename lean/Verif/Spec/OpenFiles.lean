import Verif.Model.OpenFiles
/-!
# What the table of open files must satisfy

The streams that are open are a list in which the order does not matter.
-/
namespace Splint.OpenFiles

/-- Closing a stream that is not open is an error (`none`). -/
def openAfter (l : List Nat) : List Op → Option (List Nat)
  | [] => some l
  | .opened f :: ops => openAfter (f :: l) ops
  | .close f :: ops => if f ∈ l then openAfter (l.erase f) ops else none
  | .closeAll :: ops => openAfter [] ops

/-- all that was opened -/
def allOpened : List Op → List Nat
  | [] => []
  | .opened f :: ops => f :: allOpened ops
  | .close _ :: ops => allOpened ops
  | .closeAll :: ops => allOpened ops

/-- the streams that the table has -/
def Table.content (t : Table) : List Nat := (t.cells.take t.nopen).filterMap id

/-- The full property: operations fail exactly if a stream is closed that is not open; otherwise the table has the
streams that are open, each stream that was opened is closed once or still open; and closing the file of name
maps succeeds silently exactly if closing succeeds. -/
def C144_full : Prop :=
  (∀ ops : List Op,
    (run create [] ops = none ↔ openAfter [] ops = none) ∧
    ∀ t closed, run create [] ops = some (t, closed) →
      (∃ l, openAfter [] ops = some l ∧ t.content.Perm l) ∧ (t.content ++ closed).Perm (allOpened ops)) ∧
  ∀ ok, mapCheckFails ok = !ok

end Splint.OpenFiles
