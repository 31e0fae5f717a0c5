import Verif.Tactics
/-!
The requirements that are generated for the accesses of an expression: `exprNode_exprTraverse`
(constraintGeneration.c:1178-1593) with `exprNode_isUnhandled` (constraintGeneration.c:57-95),
`checkArgumentList` and `checkCall` (constraintGeneration.c:2140-2290), and their collection,
`exprNode_traverseRequiresConstraints` (constraintGeneration.c:1862-1995).

Simplifications:
* of a node only its kind and its parts are kept, and of the binary operators whether they are `=`,
  `+=` or `-=`, another compound assignment, or no assignment;
* the list is what is generated before requirements that follow from others are dropped (C28) and
  without the suppressed ones;
* a requirement is recorded with the nodes of the buffer and of the index; that these are turned into
  terms is the subject of C29;
* a function's preconditions are one requirement;
* the facts that the traversal also generates are in Model/TestFacts.lean.
-/
namespace Splint.Access

/-- the operators with one operand before it -/
inductive PreOp where
  | incDec | deref | addr | other
  deriving DecidableEq, Repr

/-- the operators with two operands -/
inductive Op where
  /-- `+=` and `-=` -/
  | addAssign
  /-- `*=`, `/=`, `<<=` and so on -/
  | otherAssign
  | plain
  deriving DecidableEq, Repr

mutual
/-- expression nodes -/
inductive Exp where
  /-- a name, a constant or a literal -/
  | leaf (n : Nat)
  /-- `a[i]` -/
  | fetch (a i : Exp)
  | parens (e : Exp)
  | cast (e : Exp)
  /-- a declaration with an initial value -/
  | init (e : Exp)
  | assign (a b : Exp)
  | op (o : Op) (a b : Exp)
  /-- `sizeof` of an expression or type -/
  | sizeOf (e : Exp)
  | call (f : Exp) (args : Args)
  | ret (e : Exp)
  /-- `e.x` -/
  | dot (e : Exp)
  /-- `e->x` -/
  | arrow (e : Exp)
  | pre (o : PreOp) (e : Exp)
  /-- `e++` and `e--` -/
  | post (e : Exp)
  | cond (p t f : Exp)
  | comma (a b : Exp)
  /-- `{ .. }` in an initialisation -/
  | block (es : Args)
  | vaArg (e : Exp)
  deriving DecidableEq, Repr
/-- lists of expressions -/
inductive Args where
  | nil
  | cons (e : Exp) (es : Args)
  deriving DecidableEq, Repr
end

/-- a requirement: `maxRead (base) >= index` or `maxSet (base) >= index` (no index stands for 0), or the
preconditions of the function for the arguments -/
inductive Req where
  | read (base : Exp) (index : Option Exp)
  | write (base : Exp) (index : Option Exp)
  | pre (f : Exp) (args : Args)
  deriving DecidableEq, Repr

/-- `constraint_makeWriteSafeExprNode` and so on, chosen by `definatelv`
(constraintGeneration.c:1206-1219, 1430-1440) -/
def demand (lv : Bool) (base : Exp) (index : Option Exp) : Req :=
  if lv then .write base index else .read base index

mutual
/-- `exprNode_exprTraverse` with `definatelv = lv`, and `exprNode_traverseRequiresConstraints`.  For
`sizeof` the second goes into the operand, but the first has left nothing there. -/
def reqs (lv : Bool) : Exp → List Req
  | .leaf _ => []
  | .fetch a i => demand lv a (some i) :: (reqs false a ++ reqs false i)
  | .parens e => reqs lv e
  | .cast e => reqs lv e
  | .init e => reqs lv e
  | .assign a b => reqs true a ++ reqs lv b
  | .op .addAssign a b => reqs true a ++ reqs lv b
  | .op _ a b => reqs lv a ++ reqs lv b
  | .sizeOf _ => []
  | .call f as => .pre f as :: (reqs lv f ++ reqsArgs as)
  | .ret e => reqs lv e
  | .dot e => reqs lv e
  | .arrow e => reqs lv e
  | .pre .deref e => demand lv e none :: reqs lv e
  | .pre _ e => reqs lv e
  | .post e => reqs true e
  | .cond _ _ _ => []
  | .comma _ _ => []
  | .block _ => []
  | .vaArg _ => []
/-- `checkArgumentList` -/
def reqsArgs : Args → List Req
  | .nil => []
  | .cons e es => reqs false e ++ reqsArgs es
end

end Splint.Access
