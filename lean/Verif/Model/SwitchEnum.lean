import Verif.Tactics
/-!
# The cases of a `switch` over an enumeration, and loops that are certain to be executed

Model of src/exprNode.c:7208-7365 (`checkSwitchExpr`, the messages and `allpaths`; what it says about
leaving the function is in `Control`), exprNode.c:10043-10065 (`exprNode_flatten`),
src/enumNameList.c:129-154 (`enumNameList_member`, `enumNameList_subtract`), and
exprNode.c:7728-7797 (`exprNode_loopMustExec`).

Names are numbers; they are compared as `cstring_equal` does.  A label counts by the name
`exprNode_rootVarName` (9426-9504) finds: an identifier, perhaps in parentheses, that is in
the symbol table; other constant expressions have none.  The messages are not suppressed.
-/
namespace Splint
namespace SwitchEnum

/-- The expression of a `case`: `name` is the declared identifier it consists of, `value` its
value. -/
structure Label where
  name : Option Nat
  value : Int
deriving DecidableEq, Repr

/-- The body of a `switch`, as far as labels are concerned. -/
inductive Body
  | case_ (l : Label)
  | dflt
  /-- a statement without statements in it -/
  | plain
  | block (s : Body)
  | list (s t : Body)
  /-- a loop or conditional with the statement as its body -/
  | inner (s : Body)
  /-- another `switch` with this body -/
  | switch (s : Body)
deriving DecidableEq, Repr

/-- What `checkSwitchExpr` sees of an element of the flattened body. -/
inductive Item
  | case_ (name : Option Nat)
  | dflt
  | other
deriving DecidableEq, Repr

/-- `exprNode_flatten`, exprNode.c:10043-10065. -/
def flatten : Body → List Item
  | .case_ l => [.case_ l.name]
  | .dflt => [.dflt]
  | .plain => [.other]
  | .block s => flatten s
  | .list s t => flatten s ++ flatten t
  | .inner _ => [.other]
  | .switch _ => [.other]

inductive Msg
  | duplicateDefault
  | duplicateCase (n : Nat)
  | notMember (n : Nat)
  | missing (ns : List Nat)
deriving DecidableEq, Repr

/-- `hasDefault`, `usedEnums`, and the messages so far. -/
structure St where
  hasDefault : Bool
  used : List Nat
  msgs : List Msg
deriving DecidableEq, Repr

/-- One element, exprNode.c:7249-7300; `enums` is `none` when the type of the test is no
enumeration. -/
def step (enums : Option (List Nat)) (st : St) : Item → St
  | .dflt =>
    { st with hasDefault := true,
              msgs := st.msgs ++ if st.hasDefault then [.duplicateDefault] else [] }
  | .case_ name =>
    match enums, name with
    | some es, some n =>
      if n ∈ es then
        if n ∈ st.used then { st with msgs := st.msgs ++ [.duplicateCase n] }
        else { st with used := st.used ++ [n] }
      else { st with msgs := st.msgs ++ [.notMember n] }
    | _, _ => st
  | .other => st

/-- `enumNameList_subtract`, enumNameList.c:140-154. -/
def subtract (source del : List Nat) : List Nat := source.filter (· ∉ del)

/-- `checkSwitchExpr`: the messages, and `allpaths`. -/
def checkSwitchExpr (enums : Option (List Nat)) (body : Body) : List Msg × Bool :=
  let st := (flatten body).foldl (step enums) ⟨false, [], []⟩
  match enums with
  | some es =>
    if !st.hasDefault && st.used.length != es.length then
      (st.msgs ++ [.missing (subtract es st.used)], false)
    else (st.msgs, true)
  | none => (st.msgs, st.hasDefault)

/-! ## Loops -/

/-- The operators `exprNode_loopMustExec` knows, and any other. -/
inductive Cmp
  | eq | ne | lt | gt | le | ge | other
deriving DecidableEq, Repr

/-- What is asked of `for (init; test; …)`: the constant value assigned by `init`, if it is an
assignment of one; the operator of the test, the constant value of its right operand, and whether its
left operand is the variable that was assigned. -/
structure ForPred where
  init : Option Int
  op : Cmp
  sameStorage : Bool
  bound : Option Int
deriving DecidableEq, Repr

/-- `exprNode_loopMustExec`, exprNode.c:7728-7797. -/
def loopMustExec (p : ForPred) : Bool :=
  match p.init, p.bound with
  | some v1, some v2 =>
    p.sameStorage &&
      ((p.op == .eq && decide (v1 < v2)) || (p.op == .ne && decide (v1 ≠ v2))
        || (p.op == .lt && decide (v1 ≤ v2)) || (p.op == .gt && decide (v1 ≥ v2))
        || (p.op == .le && decide (v1 < v2)) || (p.op == .ge && decide (v1 > v2)))
  | _, _ => false

end SwitchEnum
end Splint
