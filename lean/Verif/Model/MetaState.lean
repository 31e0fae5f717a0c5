import Verif.Model.StateTable
/-!
# Checking user-defined states

Model of `checkMetaStateTransfer` and `checkMetaStateConsistent` (src/transferChecks.c:4005-4312), of the
lost references of `usymtab_checkFinalScope` (src/usymtab.c:3891-3960), of `uentry_mergeValueStates`
(src/uentry.c:10425-10597) and of the clauses `ensures state = ...` of a call (src/exprNode.c:3383-3605).

A reference is a number, and has a table with its values, if any; a value is changed in place.  What is
known about the reference otherwise (is it a local variable, null, undefined; which are its aliases) is
given.  An internal bug (`llassert`, `BADBRANCH`), and an access outside a table, is the outcome `none`.
Left out: the texts of the messages, and flags that suppress them; how a reference came to its value
before; which references the parts of an ensures clause stand for.
-/
namespace Splint.MetaState

open States (Table Entry)

/-- `stateValue`: the value (-1 is `stateValue_error`), and the place of its last change -/
structure Val where
  v : Int
  loc : Nat
  deriving DecidableEq, Repr

/-- `valueTable`: the names of the states, in the order of the table, and their values -/
structure VTab where
  keys : List String
  val : String → Val

abbrev Refs := Nat → Option VTab

/-- `sRef_getMetaStateValue`, sRef.c:9975-9998; `valueTable_lookup` of `sRef_getValueTable` -/
def look (s : Refs) (r : Nat) (k : String) : Option Val :=
  (s r).bind fun t => if k ∈ t.keys then some (t.val k) else none

/-- `sRef_setMetaStateValue`, sRef.c:9913-9948; for a value that is there also `stateValue_updateValueLoc`,
stateValue.c:92-101 -/
def put (s : Refs) (r : Nat) (k : String) (v : Val) : Refs := fun q =>
  if q = r then
    some (match s r with
      | none => ⟨[k], fun _ => v⟩
      | some t => ⟨if k ∈ t.keys then t.keys else t.keys ++ [k], fun x => if x = k then v else t.val x⟩)
  else s q

/-- `sRef_setMetaStateValueComplete`, sRef.c:9894-9911 -/
def putAll (s : Refs) (r : Nat) (aliases : List Nat) (k : String) (v : Val) : Refs :=
  aliases.foldl (fun s a => put s a k v) (put s r k v)

/-- `metaStateInfo` -/
structure Info where
  transfer : Table
  merge : Table

inductive What
  | transfer | inconsistent | lost | merge | ensures | elipsis
  deriving DecidableEq, Repr

structure Report where
  what : What
  ref : Nat
  key : String
  loc : Nat
  deriving DecidableEq, Repr

structure St where
  refs : Refs
  reports : List Report

def St.put (s : St) (r : Nat) (k : String) (v : Val) : St := ⟨MetaState.put s.refs r k v, s.reports⟩
def St.report (s : St) (r : Report) : St := ⟨s.refs, s.reports ++ [r]⟩

/-- `context_lookupMetaStateInfo` -/
abbrev Infos := String → Option Info

/-- `transferKind`, transferChecks.c:33-44 -/
inductive Kind
  | fcnReturn | doAssign | fieldAssign | fcnPass | globPass | globReturn | paramReturn | leaveTrans | globInit
  deriving DecidableEq, Repr

/-! ## Transfers -/

/-- the body of the loop of `checkMetaStateTransfer`, transferChecks.c:4184-4311; `loc` is the place of the
transfer, and `lcl` tells that the target is a local variable -/
def transferStep (infos : Infos) (kind : Kind) (lcl : Bool) (f t loc : Nat) (s : St) (k : String) : Option St :=
  (look s.refs f k).bind fun fv =>
    match look s.refs t k with
    | none => some s
    | some tv =>
      (infos k).bind fun info =>
        if fv.v = -1 then some s
        else if tv.v = -1 then
          if lcl && decide (kind = .doAssign) then some (s.put t k ⟨fv.v, loc⟩) else some s
        else
          (info.transfer.lookup fv.v tv.v).bind fun e =>
            if kind = .doAssign ∧ lcl = true then some (s.put t k ⟨fv.v, loc⟩)
            else if e.value = -1 then some (s.report ⟨.transfer, f, k, loc⟩)
            else if kind = .fcnReturn then some (s.put f k ⟨-1, loc⟩)
            else if fv.v ≠ e.value then some (s.put f k ⟨e.value, loc⟩)
            else some s

/-- `checkMetaStateTransfer`, transferChecks.c:4161-4312 -/
def transfer (infos : Infos) (kind : Kind) (lcl : Bool) (f t loc : Nat) (s : St) : Option St :=
  match s.refs f, s.refs t with
  | some ft, some _ => ft.keys.foldlM (transferStep infos kind lcl f t loc) s
  | _, _ => some s

/-- the body of the loop of `checkMetaStateConsistent`, transferChecks.c:4030-4156; `null` tells that the
source is definitely null -/
def consistentStep (infos : Infos) (kind : Kind) (null : Bool) (f t loc : Nat) (s : St) (k : String) : Option St :=
  (look s.refs f k).bind fun fv =>
    match look s.refs t k with
    | none => some s
    | some tv =>
      (infos k).bind fun info =>
        if fv.v = -1 ∨ tv.v = -1 then some s
        else if null then some s
        else
          (info.transfer.lookup fv.v tv.v).bind fun e =>
            if e.value = -1 then
              if kind = .leaveTrans then none
              else some ((s.report ⟨.inconsistent, f, k, loc⟩).put f k ⟨-1, loc⟩)
            else if fv.v ≠ e.value then some (s.put f k ⟨e.value, loc⟩)
            else some s

/-- `checkMetaStateConsistent`, transferChecks.c:4005-4158 -/
def consistent (infos : Infos) (kind : Kind) (null : Bool) (f t loc : Nat) (s : St) : Option St :=
  match s.refs f, s.refs t with
  | some ft, some _ => ft.keys.foldlM (consistentStep infos kind null f t loc) s
  | _, _ => some s

/-- the body of the loop for references that are lost, usymtab.c:3914-3959; `undef` tells that the
reference is undefined -/
def loseStep (infos : Infos) (undef : Bool) (r loc : Nat) (s : St) (k : String) : Option St :=
  (look s.refs r k).bind fun fv =>
    (infos k).bind fun info =>
      if fv.v = -1 ∨ undef = true then some s
      else (info.transfer.lookupLose fv.v).bind fun e =>
        if e.msg.isSome then some (s.report ⟨.lost, r, k, loc⟩) else some s

/-- usymtab.c:3891-3960, for a variable that is not a parameter or global; `null` tells that it is definitely
null -/
def lose (infos : Infos) (null undef : Bool) (r loc : Nat) (s : St) : Option St :=
  if null then some s
  else match s.refs r with
    | some t => t.keys.foldlM (loseStep infos undef r loc) s
    | none => some s

/-! ## Branches -/

/-- what is known about the references of a variable in the two branches -/
structure Ctx where
  /-- `sRef_definitelyNullContext (res->sref)` -/
  resNull : Bool
  /-- `sRef_definitelyNullAltContext (other->sref)` -/
  otherNull : Bool
  /-- the reference is undefined or dead (in either branch: the definition states are merged before) -/
  gone : Bool
  /-- `usymtab_allAliases (res->sref)` -/
  aliases : List Nat

/-- the body of the loop of `uentry_mergeValueStates`, uentry.c:10462-10594.  The place of the merge, `loc`, is a
variable that is changed. -/
def mergeStep (infos : Infos) (c : Ctx) (res other : Nat) (sl : St × Nat) (k : String) : Option (St × Nat) :=
  (look sl.1.refs other k).bind fun fv =>
    (look sl.1.refs res k).bind fun tv =>
      (infos k).bind fun info =>
        if fv.v = -1 ∨ c.resNull = true then
          some (⟨putAll sl.1.refs res c.aliases k ⟨fv.v, fv.loc⟩, sl.1.reports⟩, sl.2)
        else if tv.v = -1 ∨ c.otherNull = true then some sl
        else if c.gone then some sl
        else
          (info.merge.lookup fv.v tv.v).bind fun e =>
            let s := if e.value = -1 then sl.1.report ⟨.merge, res, k, sl.2⟩ else sl.1
            let loc :=
              if e.value = fv.v ∧ e.value ≠ tv.v then fv.loc
              else if e.value = tv.v ∧ e.value ≠ fv.v then tv.loc
              else sl.2
            if e.value = fv.v ∧ e.value = tv.v then some (s, loc)
            else some (⟨putAll s.refs res c.aliases k ⟨e.value, loc⟩, s.reports⟩, loc)

/-- `uentry_mergeValueStates`, uentry.c:10425-10597 -/
def mergeValues (infos : Infos) (mustReturn : Bool) (c : Ctx) (res other loc : Nat) (s : St) : Option St :=
  if mustReturn then some s
  else match s.refs other, s.refs res with
    | some ot, some _ => (ot.keys.foldlM (mergeStep infos c res other) (s, loc)).map (·.1)
    | _, _ => some s

/-! ## Ensures clauses -/

/-- a part of the expression: a reference, or what is passed for `...` (`none` if the function has no `...`) -/
inductive Operand
  | one (r : Nat)
  | dots (rs : Option (List Nat))
  deriving Repr

/-- the pieces of exprNode.c:3465-3513 and 3535-3581: `sval` points to the value of a reference -/
def combine (info : Info) (k : String) (cur : Nat) (st : St × Option Nat) (fs : Nat) : Option (St × Option Nat) :=
  match st.2 with
  | some p =>
    match look st.1.refs fs k with
    | none => some st
    | some tv =>
      (look st.1.refs p k).bind fun sv =>
        (info.merge.lookup sv.v tv.v).bind fun e =>
          let s := if e.value = -1 then st.1.report ⟨.ensures, fs, k, cur⟩ else st.1
          some (s.put p k ⟨e.value, cur⟩, some p)
  | none => some (st.1, if (look st.1.refs fs k).isSome then some fs else none)

/-- `stateValue_isError (sval)` -/
def isErr (k : String) (st : St × Option Nat) : Bool :=
  match st.2 with
  | some p => match look st.1.refs p k with
    | some v => decide (v.v = -1)
    | none => false
  | none => false

/-- the loop over the arguments for `...`, exprNode.c:3458-3524; `break` leaves this loop only -/
def dotsLoop (info : Info) (k : String) (cur : Nat) : St × Option Nat → List Nat → Option (St × Option Nat)
  | st, [] => some st
  | st, r :: rs => (combine info k cur st r).bind fun st =>
    if isErr k st then some st else dotsLoop info k cur st rs

/-- the loop over the expression, exprNode.c:3417-3590 -/
def evalLoop (info : Info) (k : String) (cur : Nat) : St × Option Nat → List Operand → Option (St × Option Nat)
  | st, [] => some st
  | st, .one r :: os => (combine info k cur st r).bind fun st =>
    if isErr k st then some st else evalLoop info k cur st os
  | st, .dots none :: _ => some (st.1.report ⟨.elipsis, 0, k, cur⟩, st.2)
  | st, .dots (some rs) :: os => (dotsLoop info k cur st rs).bind fun st => evalLoop info k cur st os

/-- a clause `ensures k:lhs = expression`, exprNode.c:3389-3602 -/
def ensures (info : Info) (k : String) (cur lhs : Nat) (aliases : List Nat) (os : List Operand) (s : St) : Option St :=
  (evalLoop info k cur (s, none) os).bind fun st =>
    match st.2 with
    | none => some st.1
    | some p => (look st.1.refs p k).map fun v =>
      ⟨putAll st.1.refs lhs aliases k ⟨v.v, cur⟩, st.1.reports⟩

end Splint.MetaState
