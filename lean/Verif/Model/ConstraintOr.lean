import Verif.Model.Constraint
/-!
Bounds requirements with alternatives: what src/constraintResolve.c does with the flag `orconstraint`,
which is on unless it is turned off (context.c:927), and src/constraintList.c:89-160.

A constraint with its alternatives is the list of the constraint and the constraints reached from it by
the field `or` (Headers/constraint.h:17).  It is never empty, except where said.  Constraints are
values: copies are not distinguished, and what is freed is not.  See Model/Constraint.lean for the
rest.
-/
namespace Splint.Bounds.Constraint
open Expr

/-- why a call does not return: the data of an expression are read as those of another kind
(`sizeofBufComp` in Model/Constraint.lean), or an assertion fails -/
inductive Stop where
  | badRead | assertion
  deriving DecidableEq, Repr

/-- a constraint and its alternatives -/
abbrev Chain := List Constraint

/-- `constraint_same` (constraint.c:51-72); the alternatives are not compared -/
def same (sim : Nat → Nat → Bool) (c d : Constraint) : Bool :=
  c.ar == d.ar && (similar sim c.l d.l && similar sim c.r d.r)

/-- `constraint_addOr` (constraintResolve.c:324-344) -/
def addOr (c d : Chain) : Chain := c ++ d

/-- the loop of `inequalitySubstituteStrong` (constraintResolve.c:1318-1347): `x >= y` with the fact
`y <= b` becomes `x >= b`, and with the fact `y < b` it becomes `x >= b + 1` -/
def strongIn (sim : Nat → Nat → Bool) : Constraint → List Constraint → Constraint
  | c, [] => c
  | c, p :: ps =>
    strongIn sim
      (if (p.ar == .lt || p.ar == .lte) && similar sim p.l c.r then
        { c with r := if p.ar == .lte then p.r else inc p.r }
      else c) ps

/-- `inequalitySubstituteStrong` (constraintResolve.c:1300-1351) -/
def strong (sim : Nat → Nat → Bool) (c : Constraint) (p : List Constraint) : Constraint :=
  if c.ar == .gte then simplify sim (strongIn sim c p) else c

/-- the loop of `resolveOr` (constraintResolve.c:361-369); `n` is `numberOr` -/
def resolveFrom (sim : Nat → Nat → Bool) (facts : List Constraint) : Nat → Chain → Except Stop Bool
  | _, [] => .ok false
  | n, c :: cs =>
    match resolve sim c facts with
    | none => .error .badRead
    | some true => .ok true
    | some false => if n + 1 ≤ 10 then resolveFrom sim facts (n + 1) cs else .error .assertion

/-- `resolveOr` (constraintResolve.c:347-372) -/
def resolveOr (sim : Nat → Nat → Bool) (c : Chain) (facts : List Constraint) : Except Stop Bool :=
  resolveFrom sim facts 0 c

/-- a change of the constraint itself, which leaves the alternatives as they are -/
def onHead (f : Constraint → Constraint) : Chain → Chain
  | [] => []
  | c :: cs => f c :: cs

/-- `constraint_same` of two constraints with alternatives -/
def sameHead (sim : Nat → Nat → Bool) : Chain → Chain → Bool
  | c :: _, d :: _ => same sim c d
  | _, _ => false

/-- what `doResolve` returns if nothing is resolved (constraintResolve.c:414-462) -/
def alternatives (sim : Nat → Nat → Bool) (closer : Constraint → Constraint → Bool)
    (facts : List Constraint) (t t2 t3 : Chain) : Chain :=
  let sub := onHead fun d => substitute sim closer d facts
  let r := if !sameHead sim t t2 then addOr t (sub t2) else t
  if !sameHead sim r t3 && !sameHead sim t3 t2 then addOr r (sub t3) else r

/-- `doResolve` (constraintResolve.c:376-500); `.ok none` if the constraint is resolved -/
def doResolve (sim : Nat → Nat → Bool) (closer : Constraint → Constraint → Bool) (c : Chain)
    (facts : List Constraint) : Except Stop (Option Chain) := do
  if ← resolveOr sim c facts then return none
  let t := onHead (fun d => substitute sim closer d facts) c
  if ← resolveOr sim t facts then return none
  let t2 := onHead (fun d => inequality sim d facts) c
  if ← resolveOr sim t2 facts then return none
  let t3 := onHead (fun d => strong sim d facts) t2
  if ← resolveOr sim t3 facts then return none
  let t2 := onHead (fun d => unsound sim d facts) t2
  if ← resolveOr sim t2 facts then return none
  return some (alternatives sim closer facts t t2 t3)

/-- the loop of `doResolveOr` (constraintResolve.c:539-560), with what has been collected so far -/
def resolveRest (sim : Nat → Nat → Bool) (closer : Constraint → Constraint → Bool)
    (facts : List Constraint) : Chain → Chain → Except Stop (Option Chain)
  | ret, [] => .ok (some ret)
  | ret, c :: cs => do
    match ← doResolve sim closer [c] facts with
    | none => return none
    | some curr => resolveRest sim closer facts (addOr ret curr) cs

/-- `doResolveOr` (constraintResolve.c:502-565); `.ok none` if the constraint is resolved -/
def doResolveOr (sim : Nat → Nat → Bool) (closer : Constraint → Constraint → Bool) (c : Chain)
    (facts : List Constraint) : Except Stop (Option Chain) :=
  if facts.isEmpty then .ok (some c)
  else
    match c with
    | [] => .error .assertion
    | c :: next => do
      match ← doResolve sim closer [c] facts with
      | none => return none
      | some ret => resolveRest sim closer facts ret next

/-- the constraints of a list without their alternatives, which is all `constraintList_resolve`
(constraintResolve.c:775-798) and the loops over the facts look at -/
def heads (s : List Chain) : List Constraint := s.filterMap List.head?

/-- `constraintList_add` (constraintList.c:89-111) -/
def add (sim : Nat → Nat → Bool) (s : List Chain) : Chain → Except Stop (List Chain)
  | [] => .error .assertion
  | c :: cs =>
    match resolve sim c (heads s) with
    | none => .error .badRead
    | some true => .ok s
    | some false => .ok (s ++ [c :: cs])

/-- `constraintList_addList`, `constraintList_addListFree` (constraintList.c:130-160) -/
def addList (sim : Nat → Nat → Bool) (s : List Chain) : List Chain → Except Stop (List Chain)
  | [] => .ok s
  | e :: es => do addList sim (← add sim s e) es

/-- the loop of `constraintList_reflectChangesOr` (constraintResolve.c:576-591) -/
def reflectFrom (sim : Nat → Nat → Bool) (closer : Constraint → Constraint → Bool)
    (post : List Chain) : List Chain → List Chain → Except Stop (List Chain)
  | ret, [] => .ok ret
  | ret, e :: es => do
    match ← doResolveOr sim closer e (heads post) with
    | none => reflectFrom sim closer post ret es
    | some t => reflectFrom sim closer post (← add sim ret t) es

/-- `constraintList_reflectChangesOr` (constraintResolve.c:568-595) -/
def reflectOr (sim : Nat → Nat → Bool) (closer : Constraint → Constraint → Bool)
    (pre post : List Chain) : Except Stop (List Chain) :=
  reflectFrom sim closer post [] pre

/-- `constraintList_mergeRequires` (constraintResolve.c:111-139); `redundant` is the flag
`redundantconstraints` -/
def mergeRequires (sim : Nat → Nat → Bool) (closer : Constraint → Constraint → Bool)
    (redundant : Bool) (l1 l2 : List Chain) : Except Stop (List Chain) :=
  if redundant then addList sim l1 l2
  else do
    let temp ← reflectOr sim closer l1 l2
    let ret ← reflectOr sim closer l2 temp
    addList sim ret temp

end Splint.Bounds.Constraint
