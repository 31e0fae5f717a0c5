import Verif.Tactics
/-!
# Infix operators in terms of specifications

Models the rules `simpleOpTerm` and `infixOpPart` (src/llgrammar.y:1236-1260) with `pushInfixOpPartNode`,
`checkAssociativity` and `CollapseInfixTermNode` (src/abstract.c:3808-3888), and `termNodeList_reset`,
`termNodeList_current` and `termNodeList_addh` (src/termNodeList.c:70-81, 105-109, 144-149).

Simplifications: operands (`secondary`) are numbers, since nothing is asked about them. An operator is its code and
text. The nodes of an infix part have no parentheses of their own and their names are operator forms, so that the first
questions of `checkAssociativity` are answered with yes. Sorts are left out.
-/
namespace Splint.InfixTerm

inductive Code where
  | simpleOp | mulOp | logicalOp | eqOp
deriving DecidableEq, Repr

structure Tok where
  code : Code
  text : Nat
deriving DecidableEq, Repr

/-- an element of an infix part: an operator and its right operand -/
structure Part where
  op : Tok
  right : Nat
deriving DecidableEq, Repr

inductive Term where
  | operand (n : Nat)
  | app (op : Tok) (l r : Term)
deriving DecidableEq, Repr

/-- `checkAssociativity` for a node made of `last` without parentheses: the texts in "Parentheses needed to specify
associativity of %s and %s" -/
def checkAssociativity (last op : Tok) : List (Nat × Nat) :=
  if (last.code == .logicalOp && op.code == .logicalOp) ||
      ((last.code == .simpleOp || last.code == .mulOp) && (op.code == .simpleOp || op.code == .mulOp)) then
    if last.text ≠ op.text then [(last.text, op.text)] else []
  else []

/-- `pushInfixOpPartNode`: `termNodeList_reset` makes the first element the current one -/
def push (x : List Part) (op : Tok) (secondary : Nat) : List Part × List (Nat × Nat) :=
  (x ++ [⟨op, secondary⟩],
    match x.head? with
    | some lastLeftTerm => checkAssociativity lastLeftTerm.op op
    | none => [])

/-- `infixOpPart`, for what follows a part that was read -/
def infixOpPart : List Part → List Part → List Part × List (Nat × Nat)
  | x, [] => (x, [])
  | x, p :: ps =>
    let a := push x p.op p.right
    let b := infixOpPart a.1 ps
    (b.1, a.2 ++ b.2)

/-- `CollapseInfixTermNode`: `termNodeList_addl` puts the term so far before the right operand -/
def collapse : Term → List Part → Term
  | left, [] => left
  | left, p :: ps => collapse (.app p.op left (.operand p.right)) ps

/-- `simpleOpTerm`: an operand, and operators each with an operand behind it -/
def simpleOpTerm (secondary : Nat) (src : List Part) : Term × List (Nat × Nat) :=
  let r := infixOpPart [] src
  (collapse (.operand secondary) r.1, r.2)

end Splint.InfixTerm
