import Verif.Model.Clauses
/-! What the clause context should say, by recursion over statements and without a stack. -/
namespace Splint.Clauses

/-- How many cases of the surrounding switch open a branch in this statement. -/
def opened : Stmt → Nat
  | .case_ b => if b then 1 else 0
  | .block s => opened s
  | .seq s1 s2 => opened s1 + opened s2
  | _ => 0

/-- Cases stand in statement lists and blocks, except that a `while` or `do` body may hold one
(Duff's device). -/
def nested : Stmt → Bool
  | .expr _ | .brk | .case_ _ => true
  | .block s => nested s
  | .seq s1 s2 => nested s1 && nested s2
  | .if_ _ s => nested s && opened s == 0
  | .ifElse _ s1 s2 => nested s1 && opened s1 == 0 && nested s2 && opened s2 == 0
  | .while_ _ s => nested s && decide (opened s ≤ 1)
  | .doWhile s _ => nested s && decide (opened s ≤ 1)
  | .for_ _ s => nested s && opened s == 0
  | .switch_ _ s => nested s
  | .iter s => nested s && opened s == 0

/-- At least two elements with the property. -/
def two (p : Clause → Bool) (l : List Clause) : Bool := decide (2 ≤ (l.filter p).length)

/-- The right answers at a `break` or `continue`, given the loops and switches around it,
innermost first. -/
def answers (env : List Clause) : Clause × Clause × Bool × Bool × Bool × Bool :=
  (env.head?.getD .none_, (env.drop 1).head?.getD .none_,
   two (· ≠ .switch_) env, two (· = .switch_) env, two (fun _ => true) env,
   env.any (· ≠ .doWhile))

/-- The answers at all `break`s of a statement in order. -/
def allAnswers : List Clause → Stmt → List (Clause × Clause × Bool × Bool × Bool × Bool)
  | env, .brk => [answers env]
  | env, .block s => allAnswers env s
  | env, .seq s1 s2 => allAnswers env s1 ++ allAnswers env s2
  | env, .if_ _ s => allAnswers env s
  | env, .ifElse _ s1 s2 => allAnswers env s1 ++ allAnswers env s2
  | env, .while_ _ s => allAnswers (.while_ :: env) s
  | env, .doWhile s _ => allAnswers (.doWhile :: env) s
  | env, .for_ _ s => allAnswers (.for_ :: env) s
  | env, .switch_ _ s => allAnswers (.switch_ :: env) s
  | env, .iter s => allAnswers (.iter :: env) s
  | _, .expr _ => []
  | _, .case_ _ => []

/-- Is a construct inside `d` others exactly one too deep? -/
def over (md : Option Nat) (d : Nat) : Nat :=
  match md with
  | some m => if d = m then 1 else 0
  | none => 0

/-- Number of conditional expressions one level too deep, inside `d` conditionals. -/
def exprTooDeep (md : Option Nat) : Nat → Expr → Nat
  | _, .leaf => 0
  | d, .and_ a b => exprTooDeep md d a + exprTooDeep md d b
  | d, .or_ a b => exprTooDeep md d a + exprTooDeep md d b
  | d, .cond p a b => exprTooDeep md d p + over md d + exprTooDeep md (d + 1) a + exprTooDeep md (d + 1) b

/-- Number of conditional constructs (all but `do` loops) one level too deep. -/
def tooDeep (md : Option Nat) : Nat → Stmt → Nat
  | d, .expr e => exprTooDeep md d e
  | _, .brk => 0
  | _, .case_ _ => 0
  | d, .block s => tooDeep md d s
  | d, .seq s1 s2 => tooDeep md d s1 + tooDeep md d s2
  | d, .if_ e s => exprTooDeep md d e + over md d + tooDeep md (d + 1) s
  | d, .ifElse e s1 s2 =>
    exprTooDeep md d e + over md d + tooDeep md (d + 1) s1 + tooDeep md (d + 1) s2
  | d, .while_ e s => exprTooDeep md d e + over md d + tooDeep md (d + 1) s
  | d, .doWhile s e => tooDeep md d s + exprTooDeep md d e
  | d, .for_ e s => exprTooDeep md d e + over md d + tooDeep md (d + 1) s
  | d, .switch_ e s => exprTooDeep md d e + over md d + tooDeep md (d + 1) s
  | d, .iter s => over md d + tooDeep md (d + 1) s

/-- The array holds the elements and the free space. -/
def Stack.ok (s : Stack) : Prop := 0 ≤ s.nspace ∧ (s.elems.length : Int) + s.nspace = s.cap

end Splint.Clauses
