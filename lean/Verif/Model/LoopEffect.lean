import Verif.Model.EvalOrder
/-!
# Loops that do not modify their test, and statements without effect

Model of src/exprNode.c:7424-7525 (`checkInfiniteLoop`), src/exprChecks.c:71-176
(`exprChecks_checkStatementEffect`), and of the sets of the nodes of statements: exprNode.c:6728-6843
(`exprNode_concat`), 6853-6883 (`exprNode_statement`, `exprNode_statementError`), 6942-6958
(`exprNode_makeBlock`), 7010-7202 (`exprNode_if`, `exprNode_ifelse`), 7367-7422 (`exprNode_switch`),
7527-7726 (`exprNode_while`, `exprNode_doWhile`), 7799-7894 (`exprNode_for`), 7925-7993
(`exprNode_whilePred`, `exprNode_forPred`).

The expressions are those of `EvalOrder`; no part of a statement is an error.  As there, nothing is
unconstrained, `msets` is empty, and no variable is internal state.  Of the nodes of statements only
`sets` is kept.  The body of a `switch` is one case with a statement; what is left of the node of a
`switch` does not depend on its body.  The flags `infloops` and `noeffect` are on.
-/
namespace Splint
namespace LoopEffect
open EvalOrder

/-- Statements with expressions in `E`. -/
inductive Stmt (E : Type)
  /-- `;` -/
  | skip
  | expr (e : E)
  | seq (s t : Stmt E)
  | ifThen (p : E) (s : Stmt E)
  | ifElse (p : E) (s t : Stmt E)
  | while (t : E) (b : Stmt E)
  | doWhile (b : Stmt E) (t : E)
  | for (init test inc : Option E) (b : Stmt E)
  /-- `switch (e) { case k: s; }` -/
  | switch (e : E) (k : Int) (s : Stmt E)
  | brk
  | cont
  | ret
deriving Repr

/-- `checkInfiniteLoop`, exprNode.c:7424-7525: whether it gives the message. -/
def checkInfiniteLoop (test : Node) (body : List Nat) : Bool :=
  if test.uses.isEmpty then false
  else
    let sets := union body test.sets
    test.uses.all fun x => !decide (x ∈ sets)

/-- The node of an optional expression of a `for`: the sets. -/
def optSets : Option Exp → List Nat
  | some e => (check e).1.sets
  | none => []

/-- `exprNode_forPred`, exprNode.c:7945-7993: the sets. -/
def forPredSets (init test inc : Option Exp) : List Nat :=
  let ret :=
    if inc.isSome then optSets inc else if init.isSome then optSets init else optSets test
  union (union ret (optSets init)) (optSets test)

/-- The sets of the node of a statement. -/
def sets : Stmt Exp → List Nat
  | .skip => []
  | .expr e => (check e).1.sets
  | .seq s t => union (sets s) (sets t)
  | .ifThen p s => union (union (check p).1.sets (sets s)) (sets s)
  | .ifElse p s t => union (union (check p).1.sets (sets s)) (sets t)
  | .while t b => union (check t).1.sets (sets b)
  | .doWhile b t => union (sets b) (check t).1.sets
  | .for i t n b => union (forPredSets i t n) (sets b)
  | .switch e _ _ => (check e).1.sets
  | .brk => []
  | .cont => []
  | .ret => []

/-- The loops for which there is the message, in the order of the messages. -/
def infinite : Stmt Exp → List (Exp × Stmt Exp)
  | .seq s t => infinite s ++ infinite t
  | .ifThen _ s => infinite s
  | .ifElse _ s t => infinite s ++ infinite t
  | .while t b =>
    infinite b ++
      if checkInfiniteLoop (produceGuards (check t).1) (sets b) then [(t, b)] else []
  | .doWhile b _ => infinite b
  | .for _ _ _ b => infinite b
  | .switch _ _ s => infinite s
  | _ => []

/-- What is asked of the type of a call, exprChecks.c:88-120. -/
inductive RetType
  | void
  | unknown
  | bool
  | int
  | other
deriving DecidableEq, Repr

inductive Msg
  | retValBool
  | retValInt
  | retValOther
  | noEffect
deriving DecidableEq, Repr

/-- The flags that are asked; `true` is on. -/
structure Flags where
  retValBool : Bool
  retValInt : Bool
  retValOther : Bool
deriving DecidableEq, Repr

/-- `exprChecks_checkStatementEffect`, exprChecks.c:71-176; `inner` is
`inCompoundStatementExpression`, `typ` the type of `e`, and `escape` is `exprNode_mayEscape (e)` or
`e->canBreak`. -/
def checkStatementEffect (f : Flags) (inner : Nat) (typ : RetType) (escape : Bool) (e : Node) : List Msg :=
  if inner > 0 then []
  else
    let (hasError, msgs) : Bool × List Msg :=
      if e.call then
        match typ with
        | .void => (false, [])
        | .unknown => (false, [])
        | .bool => (f.retValBool, if f.retValBool then [.retValBool] else [])
        | .int => (f.retValInt, if f.retValInt then [.retValInt] else [])
        | .other => (f.retValOther, if f.retValOther then [.retValOther] else [])
      else (false, [])
    if !hasError && !escape then
      if !e.sets.isEmpty then msgs else msgs ++ [.noEffect]
    else msgs

end LoopEffect
end Splint
