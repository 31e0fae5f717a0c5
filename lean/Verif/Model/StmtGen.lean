import Verif.Tactics
/-!
How the requirements and the facts of statements are made from those of their parts: `exprNode_stmt`,
`exprNode_stmtList`, `doIf`, `doIfElse`, `doWhile`, `doFor`, `exprNode_multiStatement`
(constraintGeneration.c:148-545, 837-1018) with `exprNode_mergeResolve` (constraintResolve.c:130-220), and
`exprNode_doGenerateConstraintSwitch`, `exprNode_generateConstraintSwitch`
(constraintGeneration.c:552-822).

Simplifications:
* `constraintList_reflectChanges`, `constraintList_mergeRequires`, `constraintList_mergeEnsures`,
  `constraintList_logicalOr` and `constraintList_addList` are parameters (their parts are modelled by
  Model/Constraint.lean and Model/FactLogic.lean), so what is proved without conditions on them holds
  for any of them;
* the requirements and facts of expressions and tests are given (Model/Access.lean, Model/TestFacts.lean);
* that the sizes of arrays are used to discharge requirements (constraintGeneration.c:137-143), and that
  a loop's requirements are copied for the last iteration (`exprNode_forLoopHeuristics`, the field
  `extra`), is not modelled further;
* labels and `goto` are left out.
-/
namespace Splint.StmtGen

variable {C : Type}

/-- the operations on lists of constraints -/
structure Ops (C : Type) where
  /-- `constraintList_reflectChanges (requirements, facts)` -/
  reflect : List C → List C → List C
  mergeReq : List C → List C → List C
  mergeEns : List C → List C → List C
  or : List C → List C → List C
  addList : List C → List C → List C

/-- what is known about an expression -/
structure Ann (C : Type) where
  req : List C
  ens : List C

/-- what is known about a test -/
structure TestAnn (C : Type) where
  req : List C
  ens : List C
  /-- the facts of the node alone -/
  ownEns : List C
  trueEns : List C
  falseEns : List C
  /-- the facts of the node alone -/
  ownFalse : List C

/-- statements; `A` are the expressions and `T` the tests -/
inductive Stmt (A T : Type) where
  | act (a : A)
  | ret (a : A)
  | brk
  | cont
  | seq (s1 s2 : Stmt A T)
  | block (s : Stmt A T)
  /-- `may` is `exprNode_mayEscape` of the body -/
  | ifThen (may : Bool) (t : T) (s : Stmt A T)
  | ifElse (t : T) (s1 s2 : Stmt A T)
  | «while» (may : Bool) (t : T) (s : Stmt A T)
  | doWhile (s : Stmt A T) (t : T)
  /-- `canBreak` is that of the body -/
  | «for» (canBreak : Bool) (init : A) (t : T) (inc : A) (s : Stmt A T)

/-- the requirements and facts of the parts -/
structure Given (C A T : Type) where
  ann : A → Ann C
  test : T → TestAnn C
  /-- `exprNode_forLoopHeuristics` -/
  extra : T → A → List C → List C → List C

variable {A T : Type}

/-- `doIf` (constraintGeneration.c:287-370) -/
def doIf (O : Ops C) (may : Bool) (t : TestAnn C) (body : Ann C) : Ann C where
  req := O.mergeReq (O.reflect (O.reflect body.req t.trueEns) t.ens) t.req
  ens := if may then O.mergeEns t.ens t.ownFalse else t.ens

/-- `doIfElse` (constraintGeneration.c:394-445) -/
def doIfElse (O : Ops C) (t : TestAnn C) (a b : Ann C) : Ann C where
  req := O.mergeReq
    (O.mergeReq (O.reflect (O.reflect a.req t.trueEns) t.ens)
      (O.reflect (O.reflect b.req t.falseEns) t.ens)) t.req
  ens := O.or (O.mergeEns t.ens (O.mergeEns t.trueEns a.ens))
    (O.mergeEns t.ens (O.mergeEns t.falseEns b.ens))

/-- `exprNode_mergeResolve` -/
def mergeResolve (O : Ops C) (a b : Ann C) : Ann C where
  req := O.mergeReq a.req (O.reflect b.req a.ens)
  ens := O.mergeEns a.ens b.ens

/-- `exprNode_generateConstraints` for statements.  The facts of the node of a `for` header
(`forPred->ensuresConstraints`) are never set. -/
def gen (O : Ops C) (G : Given C A T) : Stmt A T → Ann C
  | .act a => G.ann a
  | .ret a => ⟨(G.ann a).req, []⟩
  | .brk => ⟨[], []⟩
  | .cont => ⟨[], []⟩
  | .seq s1 s2 => mergeResolve O (gen O G s1) (gen O G s2)
  | .block s => gen O G s
  | .ifThen may t s => doIf O may (G.test t) (gen O G s)
  | .ifElse t s1 s2 => doIfElse O (G.test t) (gen O G s1) (gen O G s2)
  | .while may t s => doIf O may (G.test t) (gen O G s)
  | .doWhile s _ => gen O G s
  | .for canBreak _ t inc s =>
    let b := gen O G s
    ⟨O.reflect (O.reflect (O.reflect (G.extra t inc b.req b.ens) (G.test t).ownEns) (G.test t).trueEns) [],
      if canBreak then [] else O.addList (O.addList [] []) (G.test t).ownFalse⟩

/-- the items of the body of a `switch` -/
inductive Item (C : Type) where
  /-- `case c:`, with the constraint that the value is `c`, and `exprNode_mustEscape` of what is before
  it -/
  | case (must : Bool) (eq : C)
  | default
  | stmt (a : Ann C)

/-- `currentRequires`, `currentEnsures`, `savedRequires`, `savedEnsures` -/
structure SwSt (C : Type) where
  curReq : List C := []
  curEns : List C := []
  savReq : List C := []
  savEns : List C := []

/-- one item (constraintGeneration.c:612-732); `first` says that nothing is before it.  The saved lists
are never undefined, as the recursion ends by making empty ones (constraintGeneration.c:568-578). -/
def swItem (O : Ops C) (add1 : C → List C) (first : Bool) (s : SwSt C) : Item C → SwSt C
  | .stmt a =>
    { s with curReq := O.mergeReq s.curReq (O.reflect a.req s.curEns), curEns := O.mergeEns s.curEns a.ens }
  | .default =>
    { s with curReq := O.mergeReq s.curReq (O.reflect [] s.curEns), curEns := O.mergeEns s.curEns [] }
  | .case true c =>
    { curReq := [], curEns := add1 c, savEns := O.or s.savEns s.curEns
      savReq := O.mergeReq s.savReq s.curReq }
  | .case false c =>
    { s with curReq := [], curEns := if first then add1 c else O.or s.curEns (add1 c) }

/-- the recursion of `exprNode_doGenerateConstraintSwitch` over the items -/
def swItems (O : Ops C) (add1 : C → List C) : Bool → SwSt C → List (Item C) → SwSt C
  | _, s, [] => s
  | first, s, i :: is => swItems O add1 false (swItem O add1 first s i) is

/-- `exprNode_generateConstraintSwitch`: the tested expression's own requirements are not used.
`add1 c` is the list with `c` only, or the empty one if `c` is always true. -/
def genSwitch (O : Ops C) (add1 : C → List C) (_expr : Ann C) (items : List (Item C)) : Ann C :=
  let s := swItems O add1 true {} items
  ⟨O.mergeReq s.savReq s.curReq, O.or s.savEns s.curEns⟩

end Splint.StmtGen
