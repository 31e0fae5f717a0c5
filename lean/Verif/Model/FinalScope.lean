import Verif.Model.Transfer
/-!
# Leaving a scope, and returning

Models the loop of `usymtab_checkFinalScope` over the variables of the scopes that are left (src/usymtab.c:3849-4144), with
`transferChecks_canLoseReference` (src/transferChecks.c:4468-4497), `sRef_setLastReference` (src/sRef.c:5481-5490), the
conditions of `transferChecks_localDestroyed` and `transferChecks_structDestroyed` (src/transferChecks.c:1302-1330),
`usymtab_lookupQuietNoAlt` (src/usymtab.c:4999-5035) and `uentry_sameObject` (src/Headers/uentry.h:259-260).

Simplifications. The scopes are given as a list of lists of variables, innermost first, as the loop reaches them
(alternate branches are dropped both by the loop and by the look-up), up to the scope of the parameters. References are
numbers; what `usymtab_aliasedBy` and `usymtab_allAliases` answer is given, as the table of aliases does not change here.
The check of the parts of a structure is the message `parts` (it is modelled in `Verif.Model.Destroyed`); of its effects
on other references what is kept is that those holding storage of the structure become `only`
(`owners`). All messages are turned on. The checks after the loop (src/usymtab.c:4146-4345) are left out, and so is
`transferChecks_loseReference` (src/usymtab.c:4104-4132).
-/
namespace Splint.FinalScope
open Transfer (isOnly isDependent)

/-- An entry of a scope. -/
structure Var where
  /-- which entry it is; its name; its reference -/
  obj : Nat
  name : Nat
  ref : Nat
  /-- its type is a function -/
  isFcn : Bool := false
  /-- `uentry_isAnyParam`, `uentry_isRefParam` -/
  isParam : Bool := false
  /-- `sRef_isFileOrGlobalScope` of its root -/
  isGlobal : Bool := false
  isStatic : Bool := false
  /-- `ctype_isRealSU` of its type -/
  isSU : Bool := false
  /-- `uentry_isOut` -/
  isOut : Bool := false
  /-- the states of its value table in which `stateCombinationTable_lookupLoseReference` gives a message; states that are
  errors are left out -/
  loses : List Nat := []
deriving DecidableEq, Repr

/-- The state of a reference. -/
structure RS where
  al : AlKind
  /-- `sRef_hasLastReference` -/
  hasLast : Bool := false
  defst : SState := .defined
  /-- `sRef_isDefinitelyNull` -/
  null : Bool := false
  /-- `sRef_isObserver`, `sRef_isExposed` -/
  shown : Bool := false
  /-- `sRef_isReallyDefined` -/
  really : Bool := true
deriving DecidableEq, Repr

abbrev Refs := Nat → RS

/-- A message about a variable. -/
inductive Rep
  /-- the last reference to storage is lost -/
  | last
  /-- a new reference is not released -/
  | newRef
  /-- storage is not released -/
  | notReleased
  /-- parts of a structure are checked -/
  | parts
  /-- `out` storage is not defined -/
  | notDefined
  /-- a reference is lost in a state that does not allow it -/
  | state (k : Nat)
deriving DecidableEq, Repr

structure Env where
  /-- the elements of `usymtab_aliasedBy` (without `SK_EXTERNAL`) and of `usymtab_allAliases` -/
  aliasedBy : Nat → List Nat
  allAliases : Nat → List Nat
  /-- `usymtab_isDefinitelyNull`: shown to be null by a condition -/
  guardNull : Nat → Bool
  /-- references to storage of a structure that take over its release -/
  owners : Nat → List Nat
  mustDefine : Bool := true

structure St where
  refs : Refs
  checked : List Nat := []
  out : List (Nat × Rep) := []

def setAl (R : Refs) (r : Nat) (k : AlKind) (last : Bool) : Refs := fun x =>
  if x = r then { R r with al := k, hasLast := last || (R r).hasLast } else R x

/-- Those that hold storage of a structure become `only` (src/transferChecks.c:1389-1401). -/
def takeParts (R : Refs) : List Nat → Refs
  | [] => R
  | o :: os => takeParts (if isDependent (R o).al then R else setAl R o .only false) os

def St.say (v : Var) (m : Rep) (s : St) : St := { s with out := s.out ++ [(v.obj, m)] }

/-- `transferChecks_localDestroyed`, `transferChecks_structDestroyed` (src/transferChecks.c:1302-1330) -/
def destroyParts (E : Env) (v : Var) (s : St) : St :=
  if (s.refs v.ref).shown || (s.refs v.ref).defst = .partial_ then s
  else { (s.say v .parts) with refs := takeParts s.refs (E.owners v.ref) }

/-- Must the storage be released? (src/usymtab.c:3989-3996) -/
def owes (E : Env) (r : Nat) (s : RS) : Bool :=
  s.al = .newRef ||
    ((isOnly s.al || s.al = .fresh || s.al = .keep || s.al = .owned) && s.defst ≠ .dead && !s.null && !E.guardNull r)

/-- User-defined states (src/usymtab.c:3892-3958) -/
def checkStates (E : Env) (v : Var) (s : St) : St :=
  if v.isParam || v.isGlobal then s
  else if (s.refs v.ref).null || E.guardNull v.ref then s
  else if (s.refs v.ref).defst = .undefined then s
  else { s with out := s.out ++ v.loses.map fun k => (v.obj, .state k) }

/-- Storage that must be released, with no other reference to it (src/usymtab.c:4018-4082) -/
def leak (E : Env) (v : Var) (s : St) : St :=
  if (s.refs v.ref).hasLast then s.say v .last
  else if (s.refs v.ref).al = .newRef then s.say v .newRef
  else if v.isSU then destroyParts E v s
  else s.say v .notReleased

/-- (src/usymtab.c:3962-4088) -/
def checkLeak (E : Env) (isReturn : Bool) (v : Var) (s : St) : St :=
  if s.checked.contains v.ref || v.isGlobal then s
  else if v.isSU && !v.isParam && !v.isStatic && !isDependent (s.refs v.ref).al && (s.refs v.ref).al ≠ .owned then
    if E.allAliases v.ref = [] then destroyParts E v s else s
  else if !v.isStatic && owes E v.ref (s.refs v.ref) then
    if isReturn then leak E v s
    else match E.aliasedBy v.ref with
      | [] => leak E v s
      | a :: _ => { s with refs := setAl s.refs a (s.refs v.ref).al true }
  else s

/-- (src/usymtab.c:4090-4107) -/
def checkOut (E : Env) (v : Var) (s : St) : St :=
  if E.mustDefine && v.isOut && !(s.refs v.ref).really && (s.refs v.ref).defst ≠ .dead then s.say v .notDefined else s

/-- One pass of the loop over the entries of a scope; `same` if the look-up finds this entry (src/usymtab.c:3862-4135). -/
def step (E : Env) (isReturn : Bool) (s : St) (v : Var) : St :=
  if v.isFcn then s
  else
    let s := checkOut E v (checkLeak E isReturn v (checkStates E v s))
    { s with checked := v.ref :: s.checked }

/-- `usymtab_lookupQuietNoAlt` -/
def lookup : List (List Var) → Nat → Option Var
  | [], _ => none
  | sc :: rest, n =>
    match sc.find? (fun v => v.name = n) with
    | some v => some v
    | none => lookup rest n

/-- The entries for which the loop is not continued at once: those of the innermost scope, and those of others
that the look-up finds. -/
def examined (scopes : List (List Var)) : List Var :=
  match scopes with
  | [] => []
  | sc :: rest => sc ++ (rest.flatMap id).filter fun v => ((lookup scopes v.name).map (·.obj)) = some v.obj

/-- `usymtab_checkFinalScope` -/
def run (E : Env) (isReturn : Bool) (scopes : List (List Var)) (R : Refs) : St :=
  (if isReturn then examined scopes else scopes.headD []).foldl (step E isReturn) { refs := R }

end Splint.FinalScope
