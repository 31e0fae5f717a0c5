import Verif.Tactics
/-!
# Lists that grow at both ends

Models src/termNodeList.c:35-157 (`termNodeList_new`, `_grow`, `_addh`, `_addl`, `_reset`, `_finish`, `_advance`, `_head`,
`_current`, `_getN`).

Simplifications: numbers have no bound, except that what the code counts down is a natural number; it does so only
where the number is not 0. A cell that was not written yet is `none`. Memory is not reused, so `sfree` is not modelled.
-/
namespace Splint.TermList

inductive Err where
  /-- `llassert` fails -/
  | assertion
  /-- an access outside of the array, or a read of what was not written -/
  | wild
deriving DecidableEq, Repr

/-- `termNodeListGROWLOW`, `termNodeListGROWHI` -/
def growLow : Nat := 4
def growHi : Nat := 4

structure L (V : Type) where
  nelements : Nat
  nspacehigh : Nat
  nspacelow : Nat
  current : Int
  /-- `elements - elementsroot` -/
  elements : Nat
  /-- what `elementsroot` points to -/
  cells : List (Option V)
deriving DecidableEq, Repr

variable {V : Type}

/-- `termNodeList_new` -/
def new : L V := ⟨0, growHi, growLow, 0, growLow, List.replicate (growLow + growHi) none⟩

/-- `s->elements[i] = el` -/
def write (s : L V) (i : Nat) (el : V) : Except Err (L V) :=
  if s.elements + i < s.cells.length then .ok { s with cells := s.cells.set (s.elements + i) (some el) } else .error .wild

/-- `s->elements[i]` -/
def read (s : L V) (i : Int) : Except Err V :=
  if 0 ≤ (s.elements : Int) + i then
    match s.cells[((s.elements : Int) + i).toNat]? with
    | some (some v) => .ok v
    | _ => .error .wild
  else .error .wild

/-- `termNodeList_grow` -/
def grow (s : L V) : Except Err (L V) :=
  if s.elements + s.nelements ≤ s.cells.length then
    .ok { s with
      nspacelow := growLow, nspacehigh := growHi, elements := growLow,
      cells := List.replicate growLow none ++ (s.cells.drop s.elements).take s.nelements ++ List.replicate growHi none }
  else .error .wild

/-- `termNodeList_addh` -/
def addh (s : L V) (el : V) : Except Err (L V) := do
  let s ← if s.nspacehigh = 0 then grow s else .ok s
  let s := { s with nspacehigh := s.nspacehigh - 1 }
  let s ← write s s.nelements el
  .ok { s with nelements := s.nelements + 1 }

/-- `termNodeList_addl` -/
def addl (s : L V) (el : V) : Except Err (L V) := do
  let s ← if s.nspacelow = 0 then grow s else .ok s
  let s := { s with nspacelow := s.nspacelow - 1 }
  let s ← if s.elements = 0 then .error .wild else .ok { s with elements := s.elements - 1 }
  let s ← write s 0 el
  .ok { s with current := s.current + 1, nelements := s.nelements + 1 }

/-- `termNodeList_reset` -/
def reset (s : L V) : L V := { s with current := 0 }

/-- `termNodeList_finish` -/
def finish (s : L V) : L V := { s with current := (s.nelements : Int) - 1 }

/-- `termNodeList_advance` -/
def advance (s : L V) : Except Err (L V) :=
  if s.current + 1 < s.nelements then .ok { s with current := s.current + 1 } else .error .assertion

/-- `termNodeList_current` -/
def getCurrent (s : L V) : Except Err V := if s.current ≥ s.nelements then .error .assertion else read s s.current

/-- `termNodeList_getN` -/
def getN (s : L V) (n : Int) : Except Err V := if 0 ≤ n ∧ n < s.nelements then read s n else .error .assertion

/-- `termNodeList_head` -/
def head (s : L V) : Except Err V := if s.nelements > 0 then read s 0 else .error .assertion

inductive Op (V : Type) where
  | addh (v : V) | addl (v : V) | reset | finish | advance
deriving DecidableEq, Repr

def step (s : L V) : Op V → Except Err (L V)
  | .addh v => addh s v
  | .addl v => addl s v
  | .reset => .ok (reset s)
  | .finish => .ok (finish s)
  | .advance => advance s

/-- any number of calls, the first one first -/
def run : L V → List (Op V) → Except Err (L V)
  | s, [] => .ok s
  | s, o :: os =>
    match step s o with
    | .ok s => run s os
    | .error e => .error e

end Splint.TermList
