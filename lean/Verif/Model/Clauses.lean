import Verif.Tactics
/-!
# The clause stack

Model of src/clauseStack.c, src/clause.c and of the functions of src/context.c that keep the
stack while statements are parsed, in the order given by the grammar actions
(src/cgrammar.y:1030-1075, 1745-1870, 1955-2185).

A failed `llassert` or an internal bug report (`llbuglit`) is the outcome `none`; what happens
after it is not modelled.  Dropped: the symbol-table scopes and guards pushed and popped at the
same places, `gc.kind`/`cdepth`, messages.
-/
namespace Splint.Clauses

/-- `clause`, Headers/clause.h (`CONDCLAUSE`, `TRUEEXITCLAUSE` and `FALSEEXITCLAUSE`, never
pushed, are left out). -/
inductive Clause
  | none_ | true_ | false_ | and_ | or_ | while_ | doWhile | for_ | case_ | switch_ | iter
  deriving DecidableEq, Repr

/-- `clause_isBreakable`, clause.c:132-139. -/
def Clause.isBreakable (c : Clause) : Bool :=
  c = .switch_ || c = .while_ || c = .doWhile || c = .for_ || c = .iter

/-- `clause_isLoop`, clause.c:141-147. -/
def Clause.isLoop (c : Clause) : Bool := c = .while_ || c = .for_ || c = .iter || c = .doWhile

/-- `clause_isConditional`, clause.c:149-157. -/
def Clause.isConditional (c : Clause) : Bool :=
  c = .true_ || c = .false_ || c = .while_ || c = .for_ || c = .switch_ || c = .iter

/-! ## The stack as an array -/

/-- `struct s_clauseStack`, Headers/clauseStack.h:13-19: the live elements (bottom first),
the field `nspace` and the number of elements allocated. -/
structure Stack where
  elems : List Clause
  nspace : Int
  cap : Nat
  deriving Repr

/-- `clauseStackBASESIZE`, Headers/clauseStack.h:49, Headers/system_constants.h:86. -/
def baseSize : Nat := 8

/-- `clauseStack_new`, clauseStack.c:34-45. -/
def Stack.new : Stack := ⟨[], baseSize, baseSize⟩

/-- `clauseStack_grow`, clauseStack.c:47-70. -/
def Stack.grow (s : Stack) : Stack :=
  { s with nspace := s.nspace + baseSize, cap := (s.elems.length + (s.nspace + baseSize)).toNat }

/-- `clauseStack_push`, clauseStack.c:72-80; `none` is a write outside the allocation. -/
def Stack.push (s : Stack) (c : Clause) : Option Stack :=
  let s := if s.nspace ≤ 0 then s.grow else s
  if s.elems.length < s.cap then
    some { s with elems := s.elems ++ [c], nspace := s.nspace - 1 }
  else none

/-- `clauseStack_pop`, clauseStack.c:82-86; `none` when nothing is there. -/
def Stack.pop (s : Stack) : Option Stack :=
  if s.elems = [] then none
  else some { s with elems := s.elems.dropLast, nspace := s.nspace + 1 }

/-- `clauseStack_top`, clauseStack.c:88-91; `none` is a read of `elements[-1]`. -/
def Stack.top (s : Stack) : Option Clause := s.elems.getLast?

/-- `clauseStack_switchTop`, clauseStack.c:93-98. -/
def Stack.switchTop (s : Stack) (c : Clause) : Option Stack :=
  if s.elems = [] then none else some { s with elems := s.elems.dropLast ++ [c] }

/-- The loop of `clauseStack_removeFirst`, clauseStack.c:111-129: `i` counts down from
`nelements - 2`; the elements after a found key are shifted down. -/
def shiftOut (key : Clause) (l : List Clause) : Nat → Option (List Clause)
  | 0 => none
  | i + 1 => if l[i]? = some key then some (l.take i ++ l.drop (i + 1)) else shiftOut key l i

/-- `clauseStack_removeFirst`, clauseStack.c:100-133. -/
def Stack.removeFirst (s : Stack) (key : Clause) : Option Stack :=
  match s.top with
  | none => none
  | some t =>
    if t = key then s.pop
    else (shiftOut key s.elems (s.elems.length - 1)).map fun l =>
      { s with elems := l, nspace := s.nspace + 1 }

/-- `clauseStack_clear`, clauseStack.c:173-178. -/
def Stack.clear (s : Stack) : Stack := { s with elems := [], nspace := s.nspace + s.elems.length }

/-- `clauseStack_controlDepth`, clauseStack.c:135-152. -/
def Stack.controlDepth (s : Stack) : Nat := (s.elems.filter Clause.isConditional).length

/-! ## The context -/

/-- `gc.clauses` and `gc.inclause`, and what has been observed so far: the nesting-depth
warnings and the answers of the queries at `break` and `continue` statements. -/
structure Ctx where
  clauses : Stack
  inclause : Clause := .none_
  depthWarnings : Nat := 0
  queries : List (Clause × Clause × Bool × Bool × Bool × Bool) := []
  deriving Repr

/-- `topClause`, context.c:256-261. -/
def topClause (s : Stack) : Clause := (s.top).getD .none_

/-- `pushClause`, context.c:232-254; `maxdepth` is the flag value, `none` when it is off. -/
def Ctx.push (maxdepth : Option Nat) (x : Ctx) (c : Clause) : Option Ctx := do
  let s ← x.clauses.push c
  let over := match maxdepth with
    | some m => c.isConditional && s.controlDepth == m + 1
    | none => false
  return { x with inclause := c, clauses := s,
                  depthWarnings := x.depthWarnings + if over then 1 else 0 }

/-- `clauseStack_pop (gc.clauses); gc.inclause = topClause (gc.clauses);`. -/
def Ctx.popTop (x : Ctx) : Option Ctx := do
  let s ← x.clauses.pop
  return { x with clauses := s, inclause := topClause s }

/-- A failing `llassert`. -/
def assert (b : Bool) : Option Unit := if b then some () else none

/-- `context_exitAndClause` and `context_exitOrClause`, context.c:1714-1734. -/
def Ctx.exitLogical (x : Ctx) (c : Clause) : Option Ctx := do
  assert (x.inclause = c)
  x.popTop

/-- `context_enterFalseClause`, context.c:1807-1819. -/
def Ctx.enterFalse (x : Ctx) : Option Ctx := do
  let s ← x.clauses.switchTop .false_
  return { x with inclause := .false_, clauses := s }

/-- `context_exitTrueClause`, context.c:2316-2331: otherwise a message, and nothing happens. -/
def Ctx.exitTrue (x : Ctx) : Option Ctx :=
  if x.inclause ≠ .true_ then some x else x.popTop

/-- `context_exitClause`, context.c:2488-2505. -/
def Ctx.exitClause (x : Ctx) : Option Ctx :=
  if x.inclause = .false_ then do
    assert (x.clauses.top = some .false_)
    x.popTop
  else x.exitTrue

/-- `context_exitWhileClause` with `context_popCase`, context.c:2352-2411. -/
def Ctx.exitWhile (x : Ctx) : Option Ctx := do
  let x ← if x.inclause = .case_ then x.popTop else some x
  assert (x.inclause = .while_)
  x.popTop

/-- `context_exitDoWhileClause`, context.c:2413-2433. -/
def Ctx.exitDoWhile (x : Ctx) : Option Ctx := do
  let x ← if x.inclause = .case_ then x.popTop else some x
  assert (x.inclause = .doWhile)
  x.popTop

/-- `context_exitForClause`, context.c:2435-2472. -/
def Ctx.exitFor (x : Ctx) : Option Ctx := do
  assert (x.inclause = .for_)
  x.popTop

/-- `context_exitIterClause`, context.c:2333-2350. -/
def Ctx.exitIter (x : Ctx) : Option Ctx := do
  assert (x.inclause = .iter)
  x.popTop

/-- `context_exitInner`, context.c:3300-3331. -/
def Ctx.exitInner (x : Ctx) : Option Ctx := do
  assert (x.inclause = .none_ || x.inclause = .case_)
  let s ← x.clauses.removeFirst .none_
  return { x with clauses := s, inclause := topClause s }

/-- The loop of `context_exitSwitch`, context.c:1785-1788; `n` bounds the number of rounds. -/
def popCases : Nat → Stack → Option Stack
  | 0, _ => none
  | n + 1, s => do
    let t ← s.top
    if t = .case_ then popCases n (← s.pop) else some s

/-- `context_exitSwitch` and `context_exitClauseSimp`, context.c:1781-1791, 2289-2296. -/
def Ctx.exitSwitch (x : Ctx) : Option Ctx := do
  let s ← popCases (x.clauses.elems.length + 1) x.clauses
  { x with clauses := s }.popTop

/-- `context_breakClause`, context.c:1653-1672 (`clauseStack_elements` goes from the top). -/
def breakClause (s : Stack) : Clause :=
  (s.elems.reverse.find? Clause.isBreakable).getD .none_

/-- `context_nextBreakClause`, context.c:1674-1694. -/
def nextBreakClause (s : Stack) : Clause :=
  match s.elems.reverse.filter Clause.isBreakable with
  | _ :: c :: _ => c
  | _ => .none_

/-- The common form of `context_inDeepLoop`, `context_inDeepSwitch` and
`context_inDeepLoopSwitch`, context.c:1593-1651: a second such clause is found. -/
def deep (p : Clause → Bool) : List Clause → Bool → Bool
  | [], _ => false
  | c :: cs, inLoop => if p c then (if inLoop then true else deep p cs true) else deep p cs inLoop

/-- `context_inConditional`, context.c:1696-1712. -/
def inConditional (s : Stack) : Bool :=
  s.elems.reverse.any fun c => c.isBreakable && !(c = .doWhile)

/-- What `exprNode_break` and `exprNode_continue` ask (exprNode.c:8014-8182). -/
def Ctx.query (x : Ctx) : Ctx :=
  { x with queries := x.queries ++ [(breakClause x.clauses, nextBreakClause x.clauses,
      deep Clause.isLoop x.clauses.elems.reverse false,
      deep (· = .switch_) x.clauses.elems.reverse false,
      deep Clause.isBreakable x.clauses.elems.reverse false,
      inConditional x.clauses)] }

/-! ## Walking through a statement -/

/-- Expressions: operators with clauses. -/
inductive Expr
  | leaf
  | and_ (a b : Expr)
  | or_ (a b : Expr)
  | cond (p a b : Expr)
  deriving DecidableEq, Repr

/-- Statements.  `case_ b`: a case or default; `b` tells whether `usymtab_newCase`
(usymtab.c:2632-2699) opened a new branch. -/
inductive Stmt
  | expr (e : Expr)
  | brk
  | case_ (b : Bool)
  | block (s : Stmt)
  | seq (s1 s2 : Stmt)
  | if_ (e : Expr) (s : Stmt)
  | ifElse (e : Expr) (s1 s2 : Stmt)
  | while_ (e : Expr) (s : Stmt)
  | doWhile (s : Stmt) (e : Expr)
  | for_ (e : Expr) (s : Stmt)
  | switch_ (e : Expr) (s : Stmt)
  | iter (s : Stmt)
  deriving DecidableEq, Repr

variable (md : Option Nat)

/-- Clauses entered and left by an expression, cgrammar.y:1038-1073. -/
def Expr.walk : Expr → Ctx → Option Ctx
  | .leaf, x => some x
  | .and_ a b, x => do (← b.walk (← (← a.walk x).push md .and_)).exitLogical .and_
  | .or_ a b, x => do (← b.walk (← (← a.walk x).push md .or_)).exitLogical .or_
  | .cond p a b, x => do
    let x ← (← p.walk x).push md .true_
    let x ← (← a.walk x).enterFalse
    (← b.walk x).exitClause

/-- Clauses entered and left by a statement, cgrammar.y:1745-1870, 1955-2185 and
exprNode.c:7392, 7721, 8784. -/
def Stmt.walk : Stmt → Ctx → Option Ctx
  | .expr e, x => e.walk md x
  | .brk, x => some x.query
  | .case_ b, x => if b then x.push md .case_ else some x
  | .block s, x => do (← s.walk (← x.push md .none_)).exitInner
  | .seq s1 s2, x => do s2.walk (← s1.walk x)
  | .if_ e s, x => do (← s.walk (← (← e.walk md x).push md .true_)).exitTrue
  | .ifElse e s1 s2, x => do
    let x ← (← e.walk md x).push md .true_
    let x ← (← s1.walk x).enterFalse
    (← s2.walk x).exitClause
  | .while_ e s, x => do (← s.walk (← (← e.walk md x).push md .while_)).exitWhile
  | .doWhile s e, x => do (← e.walk md (← s.walk (← x.push md .doWhile))).exitDoWhile
  | .for_ e s, x => do
    let x ← (← (← e.walk md x).push md .none_).push md .for_
    (← (← s.walk x).exitFor).exitInner
  | .switch_ e s, x => do (← s.walk (← (← e.walk md x).push md .switch_)).exitSwitch
  | .iter s, x => do
    let x ← (← x.push md .iter).push md .none_
    let x ← (← s.walk (← x.push md .none_)).exitInner
    (← x.exitInner).exitIter

end Splint.Clauses
