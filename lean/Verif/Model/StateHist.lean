import Verif.Tactics
/-!
# The history of a state

Model of `stateInfo_update` (src/stateInfo.c:48-88), `stateInfo_sort` (90-148), `stateInfo_updateLoc` (151-174),
`stateInfo_updateRefLoc` (177-203), `stateInfo_copy` (205-222) and `stateInfo_display` (464-488), and
of `fileloc_lessthan` (fileloc.c:285-296).

A history is a chain of cells in memory, the newest first; `stateInfo_sort` works on the cells that are stored with the
reference, so memory is a function from addresses to cells.

Simplifications: locations are defined (`stateInfo_makeLoc` and `stateInfo_makeRefLoc` replace undefined ones by
the current one); actions and references are numbers; what is displayed is the list of the changes.  Copying
allocates cells at addresses not in use; the functions that only prepend are modelled on lists of changes
(`record`, `recordRef`, `update`).  Recursion and the loop are bounded by a number of steps; running out of
them is the outcome `none`, and so is a failing assertion.
-/
namespace Splint.StateHist

structure Loc where
  fid : Nat
  line : Nat
  col : Nat
  deriving DecidableEq, Repr

/-- `fileloc_lessthan`, fileloc.c:285-296, for defined locations -/
def Loc.lt (a b : Loc) : Bool :=
  decide (a.fid < b.fid) || (a.fid == b.fid && (decide (a.line < b.line) || (a.line == b.line && decide (a.col < b.col))))

/-- a change: `loc`, `action`, `ref` of a `stateInfo` -/
structure Change where
  loc : Loc
  action : Nat
  ref : Option Nat
  deriving DecidableEq, Repr

def before (a b : Change) : Bool := a.loc.lt b.loc

structure Cell where
  val : Change
  previous : Option Nat
  deriving DecidableEq, Repr

abbrev Heap := Nat → Cell

def Heap.set (h : Heap) (a : Nat) (c : Cell) : Heap := fun x => if x = a then c else h x

/-- The loop of `stateInfo_sort`, stateInfo.c:116-141; `st` is `stinfo`. -/
def swapLoop (st : Nat) : Nat → Heap → Option Nat → Option Heap
  | _, h, none => some h
  | 0, _, some _ => none
  | fuel + 1, h, some n =>
    if before (h st).val (h n).val then
      let t := (h n).val
      let h1 := h.set n ⟨(h st).val, (h n).previous⟩
      let h2 := h1.set st ⟨t, (h1 n).previous⟩
      swapLoop st fuel h2 (h2 n).previous
    else some h

/-- `stateInfo_sort`, stateInfo.c:90-148 -/
def sort : Nat → Heap → Option Nat → Option (Heap × Option Nat)
  | _, h, none => some (h, none)
  | 0, _, some _ => none
  | fuel + 1, h, some st =>
    match (h st).previous with
    | none => some (h, some st)
    | some b =>
      match sort fuel h (some b) with
      | some (h', some snext) =>
        if !before (h' st).val (h' snext).val then
          some (h'.set st ⟨(h' st).val, some snext⟩, some st)
        else (swapLoop st (fuel + 1) h' (some snext)).map fun h'' => (h'', some snext)
      | _ => none

/-- The loop of `stateInfo_display`, stateInfo.c:470-485: the changes shown -/
def showLoop (deep : Bool) : Nat → Heap → Option Nat → Option (List Change)
  | _, _, none => some []
  | 0, _, some _ => none
  | fuel + 1, h, some a =>
    if !deep then some [(h a).val]
    else (showLoop deep fuel h (h a).previous).map ((h a).val :: ·)

/-- `stateInfo_display`, stateInfo.c:464-488, of the history at `p`: memory afterwards and what is shown.  `deep` is the
flag `showdeephistory`. -/
def display (deep : Bool) (fuel : Nat) (h : Heap) (p : Option Nat) : Option (Heap × List Change) :=
  match sort fuel h p with
  | some (h', q) => (showLoop deep fuel h' q).map fun l => (h', l)
  | none => none

/-! ### Recording -/

/-- `stateInfo_updateLoc`, stateInfo.c:151-174 -/
def record (old : List Change) (action : Nat) (loc : Loc) : List Change :=
  match old with
  | c :: _ => if c.loc = loc ∧ c.action = action then old else ⟨loc, action, none⟩ :: old
  | [] => [⟨loc, action, none⟩]

/-- `stateInfo_updateRefLoc`, stateInfo.c:177-203 -/
def recordRef (old : List Change) (ref : Option Nat) (action : Nat) (loc : Loc) : List Change :=
  match old with
  | c :: _ => if c.loc = loc ∧ c.action = action ∧ c.ref = ref then old else ⟨loc, action, ref⟩ :: old
  | [] => [⟨loc, action, ref⟩]

/-- `stateInfo_update`, stateInfo.c:48-88; the empty list is NULL -/
def update (old new : List Change) : List Change :=
  match old, new with
  | [], n => n
  | _ :: _, [] => []
  | o :: os, n :: _ => if o.loc = n.loc ∧ o.action = n.action ∧ o.ref = n.ref then o :: os else n :: o :: os

end Splint.StateHist
