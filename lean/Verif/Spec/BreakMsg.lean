import Verif.Model.BreakMsg
import Verif.Spec.Clauses
/-!
What the flags say about `break` and `continue` in nested loops and switches (src/flags.def:1685-1755).
-/
namespace Splint.Clauses.Spec

/-- The loops and switches around each `break` or `continue` of a statement, innermost first. -/
def places : List Clause → Stmt → List (List Clause)
  | env, .brk => [env]
  | env, .block s => places env s
  | env, .seq s1 s2 => places env s1 ++ places env s2
  | env, .if_ _ s => places env s
  | env, .ifElse _ s1 s2 => places env s1 ++ places env s2
  | env, .while_ _ s => places (.while_ :: env) s
  | env, .doWhile s _ => places (.doWhile :: env) s
  | env, .for_ _ s => places (.for_ :: env) s
  | env, .switch_ _ s => places (.switch_ :: env) s
  | env, .iter s => places (.iter :: env) s
  | _, .expr _ => []
  | _, .case_ _ => []

/-- The message the flags describe for a plain `break`: what it leaves, and what that is inside of. -/
def documented : List Clause → Option JMsg
  | a :: b :: _ =>
    some (if a = .switch_ then (if b = .switch_ then .switchSwitchBreak else .loopSwitchBreak)
          else if b = .switch_ then .switchLoopBreak else .loopLoopBreak)
  | [_] => none
  | [] => some .notInside

/-- Number of loops and of switches. -/
def loops (env : List Clause) : Nat := (env.filter (· ≠ .switch_)).length
def switches (env : List Clause) : Nat := (env.filter (· = .switch_)).length

end Splint.Clauses.Spec
