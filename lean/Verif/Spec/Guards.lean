import Verif.Model.Guards
import Verif.Spec.AliasTable
/-! # What conditions mean -/
namespace Splint
open SRef

/-- What decides the value of an expression without side effects: the values of lvalues, of other
expressions, of declared null tests and of operators. Null and false are 0. -/
structure World where
  ref : SRef → Int
  other : Nat → Int
  call : Bool → Nat → Int → Int
  op : Nat → Int → Int → Int

/-- Declared null tests do what their declarations say: `nullwhentrue` is true of null, and
`falsewhennull` is false of null. -/
def World.Obeys (W : World) : Prop := ∀ n, W.call true n 0 ≠ 0 ∧ W.call false n 0 = 0

namespace GExpr

/-- The value of an expression in C. -/
def eval (W : World) : GExpr → Int
  | ref s _ => W.ref s
  | other n _ => W.other n
  | nullTest ne e => if (e.eval W ≠ 0) = (ne = true) then 1 else 0
  | not_ e => if e.eval W = 0 then 1 else 0
  | and_ a b => if a.eval W ≠ 0 ∧ b.eval W ≠ 0 then 1 else 0
  | or_ a b => if a.eval W ≠ 0 ∨ b.eval W ≠ 0 then 1 else 0
  | paren e => e.eval W
  | call w n e => W.call w n (e.eval W)
  | op n a b => W.op n (a.eval W) (b.eval W)
  | comma _ b => b.eval W
  | cond c a b => if c.eval W ≠ 0 then a.eval W else b.eval W

/-- Operands: lvalues, arithmetic, and pairs of them. -/
def isOperand : GExpr → Bool
  | ref .. | other .. => true
  | paren e => e.isOperand
  | op _ a _ => a.isOperand
  | comma a b => a.isOperand && b.isOperand
  | _ => false

/-- Conditions built from operands and null tests of operands with `!`, `&&`, `||`. -/
def isCond : GExpr → Bool
  | nullTest _ e | call _ _ e => e.isOperand
  | not_ e | paren e => e.isCond
  | and_ a b | or_ a b => a.isCond && b.isCond
  | e => e.isOperand

/-- All lvalues in an expression. -/
def refs : GExpr → List SRef
  | ref s _ => [s]
  | other .. => []
  | nullTest _ e | not_ e | paren e | call _ _ e => e.refs
  | and_ a b | or_ a b | op _ a b | comma a b => a.refs ++ b.refs
  | cond c a b => c.refs ++ a.refs ++ b.refs

/-- The lvalue that an operand is, in parentheses or not. -/
def lvalue : GExpr → Option (SRef × Bool)
  | ref s p => some (s, p)
  | paren e => e.lvalue
  | _ => none

/-- Lvalues and opaque expressions, in parentheses or not. -/
def isPlain : GExpr → Bool
  | ref .. | other .. => true
  | paren e => e.isPlain
  | _ => false

/-- Conditions built from null tests of lvalues with `!`, `&&`, `||`. -/
def isTest : GExpr → Bool
  | nullTest _ e | call _ _ e => e.isPlain
  | not_ e | paren e => e.isTest
  | and_ a b | or_ a b => a.isTest && b.isTest
  | e => e.isPlain

/-- The texts that a condition, being `b`, shows not to be null, looking at one operator at a time. -/
def shows (b : Bool) : GExpr → Set SRef
  | ref s p => {x | p = true ∧ b = true ∧ x = s.strip}
  | other .. => ∅
  | nullTest ne e => {x | ne = b ∧ ∃ p, e.lvalue = some p ∧ x = p.1.strip}
  | call w _ e => {x | w = !b ∧ ∃ p, e.lvalue = some p ∧ x = p.1.strip}
  | not_ e => e.shows !b
  | and_ x y => if b then x.shows b ∪ y.shows b else x.shows b ∩ y.shows b
  | or_ x y => if b then x.shows b ∩ y.shows b else x.shows b ∪ y.shows b
  | paren e => e.shows b
  | op .. | comma .. | cond .. => ∅

end GExpr

namespace SRef

def notFetch : SRef → Bool
  | fetch .. => false
  | _ => true

/-- A variable or parameter, and fields and targets of it: a path without array elements. -/
def FieldPath (H : Nat → SRef) (s : SRef) : Prop := PathRef H s ∧ s.every notFetch = true

end SRef

/-- The world in which variables have the values `ρ`, read through the memory `M`. -/
def World.at (W : World) (M : Reading) (ρ : SRef → Nat) : World :=
  { W with ref := fun s => (s.value M ρ : Int) }

end Splint
