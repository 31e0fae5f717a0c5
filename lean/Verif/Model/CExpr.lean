import Verif.Tactics
/-!
Bounds expressions: src/constraintExpr.c and src/constraintTerm.c, with the data type of
src/Headers/constraintTerm.h and src/constraintExprData.c.

Simplifications, for the whole file:
* storage (`copy`, `free`) and source locations are left out: trees are values;
* the cast marks `ct` and `origType` of an expression (constraintExpr.c:1127-1172) are left out, so
  `replace` is the code for expressions without a recorded cast;
* a reference (`sRef`) is a number and always valid; whether two references are taken to be the
  same storage (`sRef_similarRelaxed || sRef_sameName`) is the parameter `sim`;
* of an expression node only what these functions ask is kept (`Node`);
* `UNARYOP_UNDEFINED` and `BINARYOP_UNDEFINED` do not occur: the code stops on them;
* `long` arithmetic is exact; conversions to `int` wrap around at 32 bits (`toInt`), as with gcc, and
  so do the sums of two `int`s in `propagate`, which C leaves undefined if they overflow.
-/
namespace Splint.Bounds

/-- What the bounds checker asks about an expression node (`CTT_EXPR`). -/
structure Node where
  id : Nat
  /-- `exprNode_getSref`, if valid -/
  ref : Option Nat := none
  /-- `exprNode_getLongValue`, if `exprNode_knownIntValue` -/
  known : Option Int := none
  /-- the length of the string, if `exprNode_knownStringValue` -/
  str : Option Nat := none
  /-- the number of elements, if `exprNode_isInitBlock` -/
  init : Option Nat := none
  /-- the reference of the operand (`none` if it has no valid one), if the node is a `sizeof`
  (`XPR_SIZEOF`) -/
  sizeOf : Option (Option Nat) := none
  deriving DecidableEq, Repr

/-- `struct s_constraintTerm` (Headers/constraintTerm.h:8-27).  A reference has the integer value
`value` if `sRef_hasValue` and `multiVal_isInt`. -/
inductive Term where
  | lit (n : Int)
  | ref (r : Nat) (value : Option Int)
  | node (n : Node)
  deriving DecidableEq, Repr

/-- `constraintExprUnaryOpKind` -/
inductive UnOp where
  | maxSet | minSet | maxRead | minRead
  deriving DecidableEq, Repr

/-- `constraintExprBinaryOpKind` -/
inductive BinOp where
  | plus | minus
  deriving DecidableEq, Repr

/-- `struct s_constraintExpr` -/
inductive Expr where
  | term (t : Term)
  | un (op : UnOp) (e : Expr)
  | bin (op : BinOp) (a b : Expr)
  deriving DecidableEq, Repr

abbrev Expr.lit (n : Int) : Expr := .term (.lit n)

/-- conversion of a `long` to `int` -/
def toInt (n : Int) : Int := n.bmod (2 ^ 32)

namespace Term

/-- `constraintTerm_canGetValue`, `constraintTerm_getValue` (constraintTerm.c:360-432) -/
def value : Term → Option Int
  | .lit n => some n
  | .ref _ v => v
  | .node _ => none

/-- `constraintTerm_getsRef` (constraintTerm.c:447-461) -/
def getRef : Term → Option Nat
  | .lit _ => none
  | .ref r _ => some r
  | .node n => n.ref

/-- `constraintTerm_similar` (constraintTerm.c:490-545) -/
def similar (sim : Nat → Nat → Bool) (t u : Term) : Bool :=
  match t.value, u.value with
  | some x, some y => x == y
  | some _, none => false
  | none, some _ => false
  | none, none =>
    match t.getRef, u.getRef with
    | some r, some s => sim r s
    | _, _ => false

/-- `constraintTerm_simplify` (constraintTerm.c:172-186) -/
def simplify : Term → Term
  | .lit n => .lit n
  | .ref r v => .ref r v
  | .node n =>
    match n.known with
    | some v => .lit (toInt v)
    | none => .node n

end Term

namespace Expr

/-- `constraintExpr_isLit` (constraintExpr.c:96-110), with the literal's value -/
def isLit : Expr → Option Int
  | .term (.lit n) => some n
  | _ => none

/-- `constraintExpr_canGetValue`, `constraintExpr_getValue` (constraintExpr.c:1843-1869) -/
def value : Expr → Option Int
  | .term t => t.value
  | _ => none

/-- `constraintExpr_similar` (constraintExpr.c:959-1008), and `constraintExpr_same`
(constraintExpr.c:1010-1060), which is the same code. -/
def similar (sim : Nat → Nat → Bool) : Expr → Expr → Bool
  | .term t, .term u => t.similar sim u
  | .un o e, .un p f => o == p && similar sim e f
  | .bin o a b, .bin p c d => o == p && (similar sim a c && similar sim b d)
  | _, _ => false

/-- `constraintExpr_search` (constraintExpr.c:1063-1104): does `old` occur in the expression? -/
def search (sim : Nat → Nat → Bool) (old : Expr) : Expr → Bool
  | .term t => similar sim (.term t) old
  | .un o e => similar sim (.un o e) old || search sim old e
  | .bin o a b => similar sim (.bin o a b) old || (search sim old a || search sim old b)

/-- `constraintExpr_searchandreplace` (constraintExpr.c:1108-1214) -/
def replace (sim : Nat → Nat → Bool) (old new : Expr) : Expr → Expr
  | .term t => if similar sim (.term t) old then new else .term t
  | .un o e => if similar sim (.un o e) old then new else .un o (replace sim old new e)
  | .bin o a b =>
    if similar sim (.bin o a b) old then new
    else .bin o (replace sim old new a) (replace sim old new b)

/-- the operators of `removeZero` (constraintExpr.c:175-189) -/
def BinOp.combine : BinOp → BinOp → BinOp
  | .plus, o => o
  | .minus, .plus => .minus
  | .minus, .minus => .plus

/-- `isZeroBinaryOp` and the new operator and right operand of `removeZero`
(constraintExpr.c:112-195): `a ± (0 ± t)` becomes `a ± t`. -/
def dropZero (op : BinOp) : Expr → BinOp × Expr
  | .bin o (.term (.lit 0)) t => (BinOp.combine op o, t)
  | b => (op, b)

/-- `removeZero` (constraintExpr.c:150-195) -/
def removeZero : Expr → Expr
  | .bin op a b => .bin (dropZero op b).1 a (dropZero op b).2
  | e => e

def size : Expr → Nat
  | .term _ => 1
  | .un _ e => size e + 1
  | .bin _ a b => size a + size b + 1

theorem size_dropZero (op : BinOp) (b : Expr) : size (dropZero op b).2 ≤ size b := by
  unfold dropZero
  split <;> simp [size]
  omega

/-- the operation on integers that an operator stands for -/
def BinOp.apply : BinOp → Int → Int → Int
  | .plus, x, y => x + y
  | .minus, x, y => x - y

/-- `constraintExpr_propagateConstants` (constraintExpr.c:198-332): the expression without its
constants, whether there were any, and their sum.  The operator is read before `removeZero` changes
it (constraintExpr.c:223-227), and only the last step (constraintExpr.c:327-331) uses the changed
one. -/
def propagate : Expr → Expr × Bool × Int
  | .term t => (.term t, false, 0)
  | .un o e => (.un o e, false, 0)
  | .bin op a b =>
    let ra := propagate a
    let rb := propagate (dropZero op b).2
    let e1 := removeZero ra.1
    let e2 := removeZero rb.1
    let l := toInt (BinOp.apply op ra.2.2 rb.2.2)
    match isLit e1, isLit e2 with
    | some x, some y => (.lit (BinOp.apply op x y), false, l)
    | some x, none =>
      (match op with
        | .plus => e2
        | .minus => .bin .minus (.lit 0) e2, true, toInt (l + x))
    | none, some y => (e1, true, toInt (BinOp.apply op l y))
    | none, none => (removeZero (.bin (dropZero op b).1 e1 e2), ra.2.1 || rb.2.1, l)
  termination_by e => size e
  decreasing_by
    · simp only [size]; omega
    · have := size_dropZero op b
      simp only [size]; omega

/-- `constraintExpr_combineConstants` (constraintExpr.c:334-357), with
`constraintExpr_makeBinaryOpConstraintExprIntLiteral` (constraintExpr.c:860-869) -/
def combine (e : Expr) : Expr :=
  let r := propagate e
  if r.2.1 && r.2.2 != 0 then .bin .plus r.1 (.lit r.2.2) else r.1

/-- `constraintExpr_simplifyunaryExpr` (constraintExpr.c:1378-1500) -/
def simplifyUnary (op : UnOp) (e : Expr) : Expr :=
  match op with
  | .minSet | .minRead => .un op e
  | .maxSet | .maxRead =>
    match e with
    | .term (.node n) =>
      match n.str, n.init with
      | some k, _ => .lit (toInt k)
      | none, some k => .lit (k - 1)
      | none, none => .un op e
    | .bin .plus a b => .bin .minus (.un op a) b
    | _ => .un op e

/-- `constraintExpr_simplifybinaryExpr` (constraintExpr.c:1292-1320): two values are added, whatever
the operator is. -/
def simplifyBinary (sim : Nat → Nat → Bool) (op : BinOp) (a b : Expr) : Expr :=
  match a.value, b.value with
  | some x, some y => .lit (x + y)
  | _, _ => if op == .minus && similar sim a b then .lit 0 else .bin op a b

/-- the last step of `constraintExpr_simplify` (constraintExpr.c:1531-1550) -/
def simplifyTop (sim : Nat → Nat → Bool) : Expr → Expr
  | .term t => .term t.simplify
  | .un op e => simplifyUnary op e
  | .bin op a b => simplifyBinary sim op a b

/-- `constraintExpr_simplifyChildren` (constraintExpr.c:1216-1252), given the function for the
children; `none` if that does not return -/
def children (f : Expr → Option Expr) : Expr → Option Expr
  | .term t => some (.term t)
  | .un op e => (f e).map (.un op)
  | .bin op a b => (f a).bind fun a' => (f b).map fun b' => .bin op a' b'

/-- `constraintExpr_simplify` (constraintExpr.c:1503-1554) with a bound on the depth of the
recursion; `none` if that is exceeded.  That it is not, for a bound that depends on the expression
only, is proved (C30). -/
def simplifyN (sim : Nat → Nat → Bool) : Nat → Expr → Option Expr
  | 0, _ => none
  | n + 1, e =>
    (children (simplifyN sim n) e).bind fun e1 =>
      (children (simplifyN sim n) (combine e1)).map (simplifyTop sim)

/-- a bound on the depth of the recursion of `constraintExpr_simplify` -/
def bound (e : Expr) : Nat := 8 * size e

/-- `constraintExpr_simplify` -/
def simplify (sim : Nat → Nat → Bool) (e : Expr) : Expr := (simplifyN sim (bound e) e).getD e

/-- `constraintExpr_getDepth` (constraintExpr.c:2333-2367): in fact the number of nodes -/
def depth : Expr → Nat
  | .term _ => 1
  | .un _ e => depth e + 1
  | .bin _ a b => depth a + 1 + depth b

/-- `constraintExpr_compare` (constraintExpr.c:1821-1841), for expressions that have values -/
def cmpValue (x y : Int) : Int := if x > y then 1 else if x == y then 0 else -1

end Expr
end Splint.Bounds
