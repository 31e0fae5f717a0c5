import Verif.Tactics
/-!
# Globals when a function returns

Models `checkGlobalReturn` (src/usymtab.c:3727-3843) and the two loops of `usymtab_checkFinalScope` that call it
(4317-4344): over the globals in the list of the function, and over those that it uses but does not list.

Simplifications: a global is a number; what is known of its storage is in a table, which changes when a report is shown
(`sRef_setDefState`). Two references to the same global are the same member of a set (`globSet_member`).
`transferChecks_globalReturn` and `transferChecks_globalDestroyed` are given as the fact that they are called (the
latter is in Model/Destroyed). The flag `globstate` is one value; reports are shown.
-/
namespace Splint.GlobReturn

/-- `sstate`, as far as it is asked for -/
inductive Def where
  | undefined | unuseable | unknown | dead
  /-- all others: defined, partially defined, allocated ... -/
  | live
deriving DecidableEq, Repr

/-- what is known of a global -/
structure Glob where
  /-- `uentry_isVariable`, and not `uentry_isRealFunction` -/
  isVar : Bool := true
  st : Def := .live
  /-- `sRef_isKept` -/
  kept : Bool := false
  /-- `sRef_possiblyNull` of the storage -/
  mayNull : Bool := false
  /-- `sRef_definitelyNull` of the storage; the code modelled here does not ask for it -/
  defNull : Bool := false
  /-- `uentry_possiblyNull`: it is declared so -/
  declNull : Bool := false
  /-- `ctype_isRealPointer` -/
  ptr : Bool := false
  /-- `ctype_isVisiblySharable` of the real type -/
  sharable : Bool := false
deriving DecidableEq, Repr

/-- an element of the list of globals: the global, and whether it is listed as killed (`sRef_isKilledGlob`) -/
structure Ref where
  g : Nat
  killed : Bool := false
deriving DecidableEq, Repr

inductive Ev where
  /-- "Killed global not released before return" -/
  | notReleased (g : Nat)
  /-- "Function returns with global undefined" -/
  | undef (g : Nat)
  /-- "Function returns with global referencing released (or kept) storage" -/
  | references (g : Nat) (released : Bool)
  /-- "Function returns with non-null global referencing null storage" -/
  | null (g : Nat)
  /-- `transferChecks_globalDestroyed` -/
  | destroyed (g : Nat)
  /-- `transferChecks_globalReturn`; with the state it finds -/
  | transfer (g : Nat) (st : Def)
deriving DecidableEq, Repr

abbrev State := Nat → Glob

def State.setUnknown (s : State) (g : Nat) : State := fun n => if n = g then { s g with st := .unknown } else s n

/-- `checkGlobalReturn` (src/usymtab.c:3727-3843) -/
def checkGlobal (on : Bool) (s : State) (g : Nat) (killed : Bool) : List Ev × State :=
  if !on then ([], s)
  else if killed then
    match (s g).st with
    | .undefined | .unuseable | .unknown | .dead => ([], s)
    | .live => (if (s g).sharable then [.notReleased g] else [.destroyed g], s)
  else if (s g).st = .undefined then ([.undef g], s)
  else
    let bad := (s g).st == .dead || (s g).kept
    let s' := if bad then s.setUnknown g else s
    ((if bad then [.references g ((s g).st == .dead)] else []) ++
      (if (s g).ptr && (s g).mayNull && !(s g).declNull then [.null g] else [.transfer g (s' g).st]), s')

/-- the first loop: the globals in the list (src/usymtab.c:4317-4329) -/
def listed (on : Bool) : State → List Ref → List Ev × State
  | s, [] => ([], s)
  | s, r :: rs =>
    if (s r.g).isVar then
      let a := checkGlobal on s r.g r.killed
      let b := listed on a.2 rs
      (a.1 ++ b.1, b.2)
    else listed on s rs

/-- the second: those that are used (src/usymtab.c:4331-4344) -/
def used (on : Bool) (sglobs : List Ref) : State → List Nat → List Ev × State
  | s, [] => ([], s)
  | s, g :: gs =>
    if !(sglobs.any fun r => r.g == g) && (s g).isVar then
      let a := checkGlobal on s g false
      let b := used on sglobs a.2 gs
      (a.1 ++ b.1, b.2)
    else used on sglobs s gs

def checkReturn (on : Bool) (sglobs : List Ref) (uglobs : List Nat) (s : State) : List Ev × State :=
  let a := listed on s sglobs
  let b := used on sglobs a.2 uglobs
  (a.1 ++ b.1, b.2)

end Splint.GlobReturn
