import Verif.Model.InfixTerm
/-!
# Terms with infix operators
-/
namespace Splint.InfixTermSpec
open Splint.InfixTerm

/-- What a term without parentheses looks like when it is written. -/
def written : Term → List (Tok ⊕ Nat)
  | .operand n => [.inr n]
  | .app op l r => written l ++ .inl op :: written r

/-- Operators are applied from the left: no right operand is an application. -/
def FromLeft : Term → Prop
  | .operand _ => True
  | .app _ l r => FromLeft l ∧ ∃ n, r = .operand n

/-- What was read. -/
def source (first : Nat) (ps : List Part) : List (Tok ⊕ Nat) := .inr first :: ps.flatMap fun p => [.inl p.op, .inr p.right]

/-- The operators are those that the grammar has there. -/
def Simple (ps : List Part) : Prop := ∀ p ∈ ps, p.op.code = .simpleOp ∨ p.op.code = .mulOp

/-- Two operators that follow each other. -/
def Neighbours (ps : List Part) (a b : Tok) : Prop :=
  ∃ pre p q post, ps = pre ++ p :: q :: post ∧ p.op = a ∧ q.op = b

end Splint.InfixTermSpec
