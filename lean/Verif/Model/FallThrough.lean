import Verif.Model.Control
/-!
# Cases that are fallen into

Model of the part of `exprNode_concat` (src/exprNode.c:6803-6829) that reports a case no `break` stands
before, with `exprNode_lastStatement` (exprNode.c:10067-10096) and the tests for markers
(exprNode.c:6582-6610), on the statements of Model/Control; and of the grammar's lists
(src/cgrammar.y:1887-1920).

Simplification: declarations are statements. No part of a list is a parse error.
-/
namespace Splint.Control

/-- `exprNode_lastStatement`, exprNode.c:10067-10096. -/
def Stmt.last : Stmt → Stmt
  | .block s => s.last
  | .seq _ _ _ s => s.last
  | s => s

/-- `exprNode_isCaseMarker`, `exprNode_isDefaultMarker`, `exprNode_isLabelMarker`. -/
def Stmt.isMarker : Stmt → Bool
  | .case_ _ => true
  | .dflt => true
  | .label _ => true
  | _ => false

/-- `XPR_CASE` and `XPR_DEFAULT` -/
def Stmt.isCase : Stmt → Bool
  | .case_ _ => true
  | .dflt => true
  | _ => false

/-- exprNode.c:6763-6829: whether "Fall through case" is reported when the second statement is put behind
the first; `ft`: the case is marked with `fallthrough` (its kind is `XPR_FTCASE` or `XPR_FTDEFAULT`). -/
def fallMessage (ft : Bool) (s1 s2 : Stmt) : Bool :=
  if s1.info.mustEscape && !s2.info.isJump then false
  else s2.isCase && !ft && !s1.last.info.mustEscape && !s1.last.isMarker

/-- All messages in a statement, none of whose cases is marked. -/
def fallMessages : Stmt → Nat
  | .block s => fallMessages s
  | .seq _ _ s1 s2 => fallMessages s1 + fallMessages s2 + if fallMessage false s1 s2 then 1 else 0
  | .if_ _ s => fallMessages s
  | .ifElse _ s1 s2 => fallMessages s1 + fallMessages s2
  | .while_ _ _ s => fallMessages s
  | .doWhile s _ => fallMessages s
  | .for_ _ s => fallMessages s
  | .switch_ _ _ s => fallMessages s
  | _ => 0

/-- `stmtList`, cgrammar.y:1917-1920 (and `initializerList`): a list grows at its end. -/
def stmtList (flag rep : Bool) (s : Stmt) (l : List Stmt) : Stmt := l.foldl (.seq flag rep) s

/-- `compoundInitListNext` and `compoundStmtListNext`, cgrammar.y:1860-1868: runs of declarations and of
statements, put together from the end. -/
def runs (flag rep : Bool) : Stmt → List Stmt → Stmt
  | s, [] => s
  | s, t :: l => .seq flag rep s (runs flag rep t l)

end Splint.Control
