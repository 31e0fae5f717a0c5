import Verif.Model.Constraint
/-!
Bounds facts after two statements in sequence: `constraintList_mergeEnsures` (src/constraintResolve.c:68-97), as `exprNode_mergeResolve`
uses it (constraintResolve.c:142-222).

The facts of the second statement are changed in place (constraintResolve.c:689-741), so they are part of the result.  Alternatives are left out: facts
have none.  See Model/Constraint.lean for the rest.
-/
namespace Splint.Bounds.Constraint
open Expr

/-- `constraintList_add` (constraintList.c:89-111) -/
def addFact (sim : Nat → Nat → Bool) (s : List Constraint) (c : Constraint) : Option (List Constraint) :=
  (resolve sim c s).map fun r => if r then s else s ++ [c]

/-- `constraintList_addList` (constraintList.c:130-145) -/
def addFacts (sim : Nat → Nat → Bool) : List Constraint → List Constraint → Option (List Constraint)
  | s, [] => some s
  | s, c :: cs => (addFact sim s c).bind fun s' => addFacts sim s' cs

/-- `constraint_fixConflict` (constraintResolve.c:689-702) -/
def fixConflict (sim : Nat → Nat → Bool) (good conflicting : Constraint) : Constraint :=
  if conflicting.ar == .eq then simplify sim { good with r := Expr.replace sim conflicting.l conflicting.r good.r } else good

/-- `conflict` (constraintResolve.c:704-718): the changed list, or `none` if there is no conflict -/
def fixFirst (sim : Nat → Nat → Bool) (c : Constraint) : List Constraint → Option (List Constraint)
  | [] => none
  | el :: els => if conflict sim el c then some (fixConflict sim el c :: els) else (fixFirst sim c els).map (el :: ·)

/-- the loop of `constraintList_fixConflicts` (constraintResolve.c:725-741): what is kept of the first list, and the changed second list -/
def fixConflicts (sim : Nat → Nat → Bool) : List Constraint → List Constraint → List Constraint → Option (List Constraint × List Constraint)
  | [], ret, l2 => some (ret, l2)
  | c :: cs, ret, l2 =>
    match fixFirst sim c l2 with
    | some l2' => fixConflicts sim cs ret l2'
    | none => (addFact sim ret c).bind fun ret' => fixConflicts sim cs ret' l2

/-- the loop of `reflectChangesEnsures` (constraintResolve.c:597-621) -/
def reflectEnsures (sim : Nat → Nat → Bool) (closer : Constraint → Constraint → Bool) (post : List Constraint) :
    List Constraint → List Constraint → Option (List Constraint)
  | [], ret => some ret
  | c :: cs, ret =>
    (resolve sim c post).bind fun r1 =>
      if r1 then reflectEnsures sim closer post cs ret
      else
        (resolve sim (substitute sim closer c post) post).bind fun r2 =>
          if r2 then reflectEnsures sim closer post cs ret
          else (addFact sim ret (substitute sim closer c post)).bind fun ret' => reflectEnsures sim closer post cs ret'

/-- the loop of `constraintList_subsumeEnsures` (constraintResolve.c:224-245) -/
def subsumeInto (sim : Nat → Nat → Bool) (facts : List Constraint) : List Constraint → List Constraint → Option (List Constraint)
  | [], ret => some ret
  | c :: cs, ret =>
    (resolve sim c facts).bind fun r =>
      if r then subsumeInto sim facts cs ret else (addFact sim ret c).bind fun ret' => subsumeInto sim facts cs ret'

/-- `constraintList_mergeEnsures` (constraintResolve.c:68-97): the merged list and the second list as it is then -/
def mergeEnsures (sim : Nat → Nat → Bool) (closer : Constraint → Constraint → Bool) (l1 l2 : List Constraint) :
    Option (List Constraint × List Constraint) :=
  (fixConflicts sim l1 [] l2).bind fun p =>
    (reflectEnsures sim closer p.2 p.1 []).bind fun r1 =>
      (subsumeInto sim p.2 r1 []).bind fun r2 =>
        (subsumeInto sim r2 p.2 []).bind fun t =>
          (addFacts sim t r2).map fun l => (l, p.2)

end Splint.Bounds.Constraint
