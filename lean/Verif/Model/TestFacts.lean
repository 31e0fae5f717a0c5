import Verif.Model.FactLogic
/-!
The facts that are taken from a test: the part of `exprNode_exprTraverse` (constraintGeneration.c:1178-1593)
and `exprNode_booleanTraverse` (constraintGeneration.c:1066-1176) that sets `trueEnsuresConstraints` and
`falseEnsuresConstraints` of a node, and their collection, `exprNode_traverseTrueEnsuresConstraints` and
`exprNode_traverseFalseEnsuresConstraints` (constraintGeneration.c:1596-1859).

Simplifications:
* tests without assignments; a call, `sizeof`, a conditional expression and a comma expression are
  leaves, as no facts are taken from below them;
* a fact is recorded with the nodes it is about; `a < b` is kept as such, where the code makes
  `a <= b - 1` of it (constraint.c:441-455), and likewise `a > b`.
-/
namespace Splint.Facts

inductive Rel where
  | eq | lt | le | gt | ge
  deriving DecidableEq, Repr

/-- the tests -/
inductive Tst where
  | leaf (n : Nat)
  /-- `a[i]` -/
  | fetch (a i : Tst)
  | parens (e : Tst)
  /-- `==`, `<`, `<=`, `>`, `>=` -/
  | cmp (r : Rel) (a b : Tst)
  | and (a b : Tst)
  | or (a b : Tst)
  | not (e : Tst)
  /-- any other operator with one operand, a cast or the selection of a field -/
  | unary (o : Nat) (e : Tst)
  /-- any other operator with two operands -/
  | binary (o : Nat) (a b : Tst)
  deriving DecidableEq, Repr

inductive Fact where
  | rel (r : Rel) (a b : Tst)
  /-- `i <= maxRead (a)` -/
  | within (i a : Tst)
  deriving DecidableEq, Repr

/-- the relation that holds if the given one does not; there is no relation for `!=` -/
def Rel.negate : Rel → Option Rel
  | .eq => none
  | .lt => some .ge
  | .le => some .gt
  | .gt => some .le
  | .ge => some .lt

/-- The facts of the node itself, if it is true (first) and if it is false (second):
`exprNode_exprTraverse` with `exprNode_booleanTraverse`. -/
def own (L : Logic Fact) : Tst → List Fact × List Fact
  | .leaf _ => ([], [])
  | .fetch a i => ([.within i a], [])
  | .parens _ => ([], [])
  | .cmp r a b => ([.rel r a b], (r.negate.map fun q => Fact.rel q a b).toList)
  | .and a b =>
    (L.addList [] (L.addList (own L a).1 (own L b).1),
      L.addList [] (L.or (L.addList (own L a).1 (own L b).2) (own L a).2))
  | .or a b =>
    (L.addList [] (L.or (L.addList (own L a).2 (own L b).1) (own L a).1),
      L.addList [] (L.addList (own L a).2 (own L b).2))
  | .not e => ((own L e).2, (own L e).1)
  | .unary _ _ => ([], [])
  | .binary _ _ _ => ([], [])

/-- `exprNode_traverseTrueEnsuresConstraints` with `side = Prod.fst` and
`exprNode_traverseFalseEnsuresConstraints` with `side = Prod.snd` -/
def collect (L : Logic Fact) (side : List Fact × List Fact → List Fact) : Tst → List Fact
  | .leaf n => side (own L (.leaf n))
  | .fetch a i =>
    L.addList (L.addList (side (own L (.fetch a i))) (collect L side a)) (collect L side i)
  | .parens e => L.addList (side (own L (.parens e))) (collect L side e)
  | .cmp r a b =>
    L.addList (L.addList (side (own L (.cmp r a b))) (collect L side a)) (collect L side b)
  | .and a b =>
    L.addList (L.addList (side (own L (.and a b))) (collect L side a)) (collect L side b)
  | .or a b =>
    L.addList (L.addList (side (own L (.or a b))) (collect L side a)) (collect L side b)
  | .not e => L.addList (side (own L (.not e))) (collect L side e)
  | .unary o e => L.addList (side (own L (.unary o e))) (collect L side e)
  | .binary o a b =>
    L.addList (L.addList (side (own L (.binary o a b))) (collect L side a)) (collect L side b)

/-- what is assumed in the branch for the true test (`doIf`, constraintGeneration.c:338, and so on) -/
def trueFacts (L : Logic Fact) : Tst → List Fact := collect L Prod.fst

/-- what is assumed in the `else` branch (constraintGeneration.c:960) -/
def falseFacts (L : Logic Fact) : Tst → List Fact := collect L Prod.snd

/-- what is assumed after an `if` whose branch may escape (constraintGeneration.c:362-366): here the
facts of the parts are not collected -/
def afterFacts (L : Logic Fact) (t : Tst) : List Fact := (own L t).2

end Splint.Facts
