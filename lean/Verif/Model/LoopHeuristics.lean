import Verif.Model.Constraint
/-!
Requirements of `for` loops: src/loopHeuristics.c (called by `doFor`, constraintGeneration.c:539).
The requirements of the loop's body are those of one iteration.  If the number of iterations can be
guessed from the test and the increment, a requirement on a variable that the body increments is
required for the variable advanced by that number as well.

Simplifications, with those of Model/CExpr and Model/Constraint:
* of a `for` statement, what is asked here is kept (`Loop`);
* whether a constraint follows from a list (`constraintList_resolve`, Model/Constraint.resolve) is the
  parameter `res`;
* the nodes of test and increment are present (`exprNode_isError` otherwise ends the function).
-/
namespace Splint.Bounds.Heur
open Splint.Bounds

structure Loop where
  /-- `test->trueEnsuresConstraints` -/
  testTrue : List Constraint
  /-- `inc->ensuresConstraints` -/
  incEnsures : List Constraint
  /-- `forBody->ensuresConstraints` -/
  bodyEnsures : List Constraint
  /-- `forBody->requiresConstraints` -/
  requires : List Constraint
  /-- the operand, if the test is `*e` -/
  deref : Option Node := none
  /-- the operand, if the increment is `e++` -/
  postInc : Option Node := none

/-- `constraintList_add` (constraintList.c:89-111): a constraint that follows from the list is left
out. -/
def add (res : Constraint → List Constraint → Bool) (l : List Constraint) (c : Constraint) :
    List Constraint :=
  if res c l then l else l ++ [c]

/-- `constraintList_addListFree` (constraintList.c:147-162) -/
def addList (res : Constraint → List Constraint → Bool) (l new : List Constraint) : List Constraint :=
  new.foldl (add res) l

/-- `isInc` (loopHeuristics.c:438-458), with the left operand -/
def isInc : Expr → Option Expr
  | .bin .plus a b => if b.isLit = some 1 then some a else none
  | _ => none

/-- `incVar` (loopHeuristics.c:463-481): `x = x + 1`? -/
def incVar (sim : Nat → Nat → Bool) (c : Constraint) : Bool :=
  c.ar == .eq &&
  match isInc c.r with
  | some a => c.l.similar sim a
  | none => false

/-- `getLessThanConstraints` (loopHeuristics.c:72-94) -/
def lessThan (res : Constraint → List Constraint → Bool) (l : List Constraint) : List Constraint :=
  addList res [] (l.filter fun c => c.ar == .lt || c.ar == .lte)

/-- `getIncConstraints` (loopHeuristics.c:96-115) -/
def incs (sim : Nat → Nat → Bool) (res : Constraint → List Constraint → Bool) (l : List Constraint) :
    List Constraint :=
  addList res [] (l.filter (incVar sim))

/-- `canGetForTimes` (loopHeuristics.c:118-178) and the end of `getForTimes`
(loopHeuristics.c:236-268): `maxSet(p)` for the test `*p` and the increment `p++`.  `name` is
`sRef_sameName` (which takes two invalid references to be the same). -/
def byString (name : Option Nat → Option Nat → Bool) (L : Loop) : Option Expr :=
  match L.deref, L.postInc with
  | some t1, some t2 => if name t1.ref t2.ref then some (.un .maxSet (.term (.node t1))) else none
  | _, _ => none

/-- `getForTimes` (loopHeuristics.c:183-272): the number of iterations, if known -/
def forTimes (sim : Nat → Nat → Bool) (res : Constraint → List Constraint → Bool)
    (name : Option Nat → Option Nat → Bool) (L : Loop) : Option Expr :=
  match (lessThan res L.testTrue).find? fun el =>
      (incs sim res L.incEnsures).any fun el2 => el2.l.similar sim el.l with
  | some el => some el.r
  | none => byString name L

/-- `constraintExpr_searchAndAdd` (loopHeuristics.c:277-332) -/
def searchAdd (sim : Nat → Nat → Bool) (find n : Expr) : Expr → Expr
  | .term t => if (Expr.term t).similar sim find then .bin .plus (.term t) n else .term t
  | .un o e =>
    if (Expr.un o e).similar sim find then .bin .plus (.un o e) n else .un o (searchAdd sim find n e)
  | .bin o a b =>
    if (Expr.bin o a b).similar sim find then .bin .plus (.bin o a b) n
    else .bin o (searchAdd sim find n a) (searchAdd sim find n b)

/-- the constraint before it is simplified -/
def advance (sim : Nat → Nat → Bool) (find n : Expr) (c : Constraint) : Constraint :=
  ⟨searchAdd sim find n c.l, c.ar, searchAdd sim find n c.r⟩

/-- `constraint_searchAndAdd` (loopHeuristics.c:336-354) -/
def searchAddC (sim : Nat → Nat → Bool) (find n : Expr) (c : Constraint) : Constraint :=
  Constraint.simplify sim (Constraint.simplify sim (advance sim find n c))

/-- `constraintList_searchAndAdd` (loopHeuristics.c:356-381) -/
def searchAddL (sim : Nat → Nat → Bool) (res : Constraint → List Constraint → Bool) (find n : Expr)
    (l : List Constraint) : List Constraint :=
  addList res l
    (addList res [] ((l.filter fun c => Constraint.search sim find c).map (searchAddC sim find n)))

/-- `doAdjust` (loopHeuristics.c:384-399) -/
def adjust (sim : Nat → Nat → Bool) (res : Constraint → List Constraint → Bool) (n : Expr)
    (ensures reqs : List Constraint) : List Constraint :=
  ensures.foldl (fun l el => if incVar sim el then searchAddL sim res el.l n l else l) reqs

/-- `forLoopHeuristicsImpl` (loopHeuristics.c:405-428): the body's requirements afterwards -/
def heuristics (sim : Nat → Nat → Bool) (res : Constraint → List Constraint → Bool)
    (name : Option Nat → Option Nat → Bool) (L : Loop) : List Constraint :=
  match forTimes sim res name L with
  | some n => adjust sim res n L.bodyEnsures L.requires
  | none => L.requires

end Splint.Bounds.Heur
