import Verif.Model.Kinds
/-!
# Escape information of statements

Model of the control information computed while statements are parsed: `exitCode`, `canBreak`,
`mustBreak` and `isJumpPoint` of the nodes built by src/exprNode.c (called from
src/cgrammar.y:1776-2000).

Dropped: everything else in a node (types, values, definition and use sets), nodes that are parse
errors (undefined), the `notreached` annotation (exprNode.c:6569-6580, a promise of the user),
iterators, and the warnings about fall-through cases.  A label is a statement of its own as in
the grammar (cgrammar.y:1814-1817).
-/
namespace Splint.Control

/-- Expressions as far as they matter for control. -/
inductive Expr
  /-- an expression without calls that leave the program -/
  | plain
  /-- a call of a function annotated with the given kind, exprNode.c:3845-3893 -/
  | call (k : ExitKind)
  /-- a parenthesised expression, exprNode.c:4168-4187 -/
  | paren (e : Expr)
  /-- any other operator: the node is created with `XK_NEVERESCAPE` (exprNode.c:557, 1020) -/
  | op (a b : Expr)
  /-- `a , b`, exprNode.c:8223-8300 -/
  | comma (a b : Expr)
  /-- `p ? a : b`, exprNode.c:6485 -/
  | cond (p a b : Expr)
  deriving DecidableEq, Repr

/-- Statements.  The two flags of `seq` are the oracle for the unreachable-code warning at this
place: whether the flag is set (`context_getFlag`, exprNode.c:6766) and whether the message is
really reported (`optgenerror`, exprNode.c:6784). -/
inductive Stmt
  | semi
  | expr (e : Expr)
  | ret
  | brk
  | cont
  | goto_ (l : Nat)
  | label (l : Nat)
  | case_ (v : Nat)
  | dflt
  | block (s : Stmt)
  | seq (flag rep : Bool) (s1 s2 : Stmt)
  | if_ (e : Expr) (s : Stmt)
  | ifElse (e : Expr) (s1 s2 : Stmt)
  /-- `known` is the integer value of the test, if known: `some true` for a nonzero one -/
  | while_ (known : Option Bool) (e : Expr) (s : Stmt)
  | doWhile (s : Stmt) (e : Expr)
  | for_ (hasTest : Bool) (s : Stmt)
  /-- `allMembers`: the test has an enumerated type and each member has a case
  (exprNode.c:7331-7360) -/
  | switch_ (allMembers : Bool) (e : Expr) (s : Stmt)
  deriving DecidableEq, Repr

/-- The control fields of an expression node (Headers/exprNode.h:140-160). -/
structure Info where
  exit : ExitKind := .neverEscape
  canBreak : Bool := false
  mustBreak : Bool := false
  isJump : Bool := false
  deriving DecidableEq, Repr

/-- `exprNode_mustEscape`, exprNode.c:6706-6715. -/
def Info.mustEscape (i : Info) : Bool := i.exit.mustEscape || i.mustBreak

/-- `exprNode_combineControl`, exprNode.c:253-266. -/
def combineControl (a b : Info) : Info where
  canBreak := a.canBreak || b.canBreak
  mustBreak := (a.mustBreak || a.mustEscape) && (b.mustBreak || b.mustEscape)
  exit := a.exit.combine b.exit

/-- Control fields of an expression. -/
def Expr.info : Expr → Info
  | .plain => {}
  | .call k =>
    if k.isConditionalExit then { exit := .mayExit }
    else if k = .mustExit then { exit := .mustExit }
    else if k.couldExit then { exit := .mayExit }
    else {}
  | .paren e => e.info
  | .op _ _ => {}
  | .comma a b =>
    { exit := a.info.exit.combine b.info.exit
      mustBreak := a.info.mustBreak || b.info.mustBreak
      canBreak := a.info.canBreak || b.info.canBreak }
  | .cond _ a b => combineControl a.info b.info

/-- An element of the flattened body of a switch, as `checkSwitchExpr` sees it. -/
inductive Item
  | case_
  | dflt
  | node (mustEscape canBreak : Bool)
  deriving DecidableEq, Repr

/-- The variables of `checkSwitchExpr`, exprNode.c:7211-7222. -/
structure Scan where
  mustReturn : Bool := true
  thisReturn : Bool := false
  hasDefault : Bool := false
  inSwitch : Bool := false
  canBreak : Bool := false
  fallThrough : Bool := false
  deriving DecidableEq, Repr

/-- A case or default marker, exprNode.c:7303-7315. -/
def Scan.marker (d : Bool) (s : Scan) : Scan where
  hasDefault := s.hasDefault || d
  mustReturn := if s.inSwitch && !s.fallThrough then
      (if !s.thisReturn || s.canBreak then false else s.mustReturn) else s.mustReturn
  fallThrough := true
  inSwitch := true
  thisReturn := false
  canBreak := false

/-- One element, exprNode.c:7244-7321. -/
def Scan.step (s : Scan) : Item → Scan
  | .case_ => s.marker false
  | .dflt => s.marker true
  | .node me cb =>
    { s with
      thisReturn := s.thisReturn || me
      canBreak := s.canBreak || cb
      fallThrough := if s.canBreak || cb then false else s.fallThrough }

/-- `checkSwitchExpr`, exprNode.c:7208-7366: the switch certainly leaves. -/
def checkSwitch (allMembers : Bool) (items : List Item) : Bool :=
  let s := items.foldl Scan.step {}
  let mustReturn := if s.inSwitch then
      (if !s.thisReturn || s.canBreak then false else s.mustReturn) else s.mustReturn
  (s.hasDefault || allMembers) && mustReturn

/-- Is the statement the token `;` (exprNode.c:6775-6776)? -/
def Stmt.isSemi : Stmt → Bool
  | .semi => true
  | _ => false

/-- `exprNode_concat`, exprNode.c:6728-6841: the control fields of a statement list. -/
def concatInfo (flag rep semi2 : Bool) (i1 i2 : Info) : Info :=
  let base : Info := { exit := i2.exit, mustBreak := i2.mustBreak,
                       canBreak := i1.canBreak || i2.canBreak, isJump := i1.isJump }
  if (i1.mustEscape || i1.mustBreak) && !i2.isJump then
    if flag then
      if semi2 then { base with exit := .mustExit, canBreak := true }
      else if rep then { base with isJump := true, mustBreak := false, exit := .error }
      else { base with exit := .mustExit, canBreak := true }
    else base
  else base

/-- The control fields of a statement together with its flattened form
(`exprNode_flatten`, exprNode.c:10043-10064). -/
def Stmt.analyse : Stmt → Info × List Item
  | .semi => ({}, [.node false false])
  | .expr e => let i := e.info                       -- exprNode_statementError, 6861-6883
               ({ i with isJump := false }, [.node i.mustEscape i.canBreak])
  | .ret => ({ exit := .mustReturn }, [.node true false])            -- 8184-8221
  | .brk => ({ canBreak := true, mustBreak := true }, [.node true true])   -- 8057-8065
  | .cont => ({ canBreak := true, mustBreak := true }, [.node true true])  -- 8014-8022
  | .goto_ _ => ({ exit := .goto_, canBreak := true, mustBreak := true }, [.node true true])
  | .label _ => ({ isJump := true }, [.node false false])            -- 6558-6567
  | .case_ _ => ({ isJump := true }, [.case_])                       -- 6612-6636
  | .dflt => ({ isJump := true }, [.dflt])                           -- 6674-6682
  | .block s => let (i, f) := s.analyse                              -- 6941-6957
                ({ i with isJump := false }, f)
  | .seq flag rep s1 s2 =>
    let (i1, f1) := s1.analyse
    let (i2, f2) := s2.analyse
    (concatInfo flag rep s2.isSemi i1 i2, f1 ++ f2)
  | .if_ _ s =>                                                      -- 7073-7084
    let (i, _) := s.analyse
    let r : Info := { exit := i.exit.makeConditional, canBreak := i.canBreak }
    (r, [.node r.mustEscape r.canBreak])
  | .ifElse _ s1 s2 =>                                               -- 7195-7199
    let r := combineControl s1.analyse.1 s2.analyse.1
    (r, [.node r.mustEscape r.canBreak])
  | .while_ known _ s =>                                             -- 7619-7647
    let r : Info := if known = some true ∧ !s.analyse.1.canBreak then { exit := .mustExit } else {}
    (r, [.node r.mustEscape r.canBreak])
  | .doWhile s _ =>                                                  -- 7710-7717
    let (i, _) := s.analyse
    let r : Info := { exit := i.exit.makeConditional, canBreak := i.canBreak }
    (r, [.node r.mustEscape r.canBreak])
  | .for_ hasTest s =>                                               -- 7850-7893
    let (i, _) := s.analyse
    let r : Info := if !hasTest && !i.canBreak then { exit := .mustExit }
                    else { exit := i.exit.makeConditional }
    (r, [.node r.mustEscape r.canBreak])
  | .switch_ allMembers e s =>                                       -- 7368-7407
    let r : Info := { exit := if checkSwitch allMembers s.analyse.2 then .mustReturn else e.info.exit
                      canBreak := e.info.canBreak, mustBreak := e.info.mustBreak }
    (r, [.node r.mustEscape r.canBreak])

/-- The control fields of a statement node. -/
def Stmt.info (s : Stmt) : Info := s.analyse.1

/-- The flattened statement. -/
def Stmt.flat (s : Stmt) : List Item := s.analyse.2

/-- The unreachable-code message is issued at a statement list (exprNode.c:6763-6789). -/
def flagged (flag rep : Bool) (s1 s2 : Stmt) : Bool :=
  (s1.info.mustEscape || s1.info.mustBreak) && !s2.info.isJump && flag && !s2.isSemi && rep

/-- `exprNode_checkFunctionBody`, exprChecks.c:897-937: the missing-return warning for a
function with a non-void result (when the flag is set). -/
def noReturnWarning (body : Stmt) : Bool :=
  !body.info.mustEscape && !(body.info.exit = .error)

end Splint.Control
