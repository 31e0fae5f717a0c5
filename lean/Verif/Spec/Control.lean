import Verif.Model.Control
/-!
Execution of statements: a big-step semantics of the C control statements without data, where
each test may succeed or fail unless its value is known.  Execution may enter a statement at its
beginning or at a label, case or default inside it.
-/
namespace Splint.Control

/-- Places where execution can enter a statement other than its beginning. -/
inductive Marker
  | label (l : Nat)
  | case_ (v : Nat)
  | dflt
  deriving DecidableEq, Repr

inductive Entry
  | start
  | at (m : Marker)
  deriving DecidableEq, Repr

/-- How the execution of a statement ends. -/
inductive Out
  | normal | brk | cont | ret | exit
  | goto_ (l : Nat)
  deriving DecidableEq, Repr

/-- Evaluation of an expression: `true` when it delivers a value, `false` when the program
ends.  Any function may end the program; only one annotated `exits` never returns. -/
inductive Ev : Expr → Bool → Prop
  | plain : Ev .plain true
  | callRet {k} : k ≠ .mustExit → Ev (.call k) true
  | callExit {k} : Ev (.call k) false
  | paren {e b} : Ev e b → Ev (.paren e) b
  | op1 {a b r} : Ev a r → Ev (.op a b) r
  | op2 {a b r} : Ev a true → Ev b r → Ev (.op a b) r
  | comma1 {a b} : Ev a false → Ev (.comma a b) false
  | comma2 {a b r} : Ev a true → Ev b r → Ev (.comma a b) r
  | condP {p a b} : Ev p false → Ev (.cond p a b) false
  | condA {p a b r} : Ev p true → Ev a r → Ev (.cond p a b) r
  | condB {p a b r} : Ev p true → Ev b r → Ev (.cond p a b) r

/-- A default that belongs to the switch whose body this is. -/
def ownsDefault : Stmt → Bool
  | .dflt => true
  | .block s => ownsDefault s
  | .seq _ _ s1 s2 => ownsDefault s1 || ownsDefault s2
  | .if_ _ s => ownsDefault s
  | .ifElse _ s1 s2 => ownsDefault s1 || ownsDefault s2
  | .while_ _ _ s => ownsDefault s
  | .doWhile s _ => ownsDefault s
  | .for_ _ s => ownsDefault s
  | _ => false

/-- What a switch makes of the end of its body. -/
def afterSwitch : Out → Out
  | .brk => .normal
  | o => o

def Marker.isLabel : Marker → Bool
  | .label _ => true
  | _ => false

/-- Execution of a statement from an entry. -/
inductive Exec : Stmt → Entry → Out → Prop
  | semi : Exec .semi .start .normal
  | expr {e} : Ev e true → Exec (.expr e) .start .normal
  | exprExit {e} : Ev e false → Exec (.expr e) .start .exit
  | ret : Exec .ret .start .ret
  | brk : Exec .brk .start .brk
  | cont : Exec .cont .start .cont
  | goto_ {l} : Exec (.goto_ l) .start (.goto_ l)
  | label {l} : Exec (.label l) .start .normal
  | labelAt {l} : Exec (.label l) (.at (.label l)) .normal
  | case_ {v} : Exec (.case_ v) .start .normal
  | caseAt {v} : Exec (.case_ v) (.at (.case_ v)) .normal
  | dflt : Exec .dflt .start .normal
  | dfltAt : Exec .dflt (.at .dflt) .normal
  | block {s en o} : Exec s en o → Exec (.block s) en o
  | seqStop {f r s1 s2 en o} : Exec s1 en o → o ≠ .normal → Exec (.seq f r s1 s2) en o
  | seqGo {f r s1 s2 en o} : Exec s1 en .normal → Exec s2 .start o → Exec (.seq f r s1 s2) en o
  | seqAt {f r s1 s2 m o} : Exec s2 (.at m) o → Exec (.seq f r s1 s2) (.at m) o
  | ifTrue {e s o} : Ev e true → Exec s .start o → Exec (.if_ e s) .start o
  | ifFalse {e s} : Ev e true → Exec (.if_ e s) .start .normal
  | ifExit {e s} : Ev e false → Exec (.if_ e s) .start .exit
  | ifAt {e s m o} : Exec s (.at m) o → Exec (.if_ e s) (.at m) o
  | elseTrue {e s1 s2 o} : Ev e true → Exec s1 .start o → Exec (.ifElse e s1 s2) .start o
  | elseFalse {e s1 s2 o} : Ev e true → Exec s2 .start o → Exec (.ifElse e s1 s2) .start o
  | elseExit {e s1 s2} : Ev e false → Exec (.ifElse e s1 s2) .start .exit
  | elseAt1 {e s1 s2 m o} : Exec s1 (.at m) o → Exec (.ifElse e s1 s2) (.at m) o
  | elseAt2 {e s1 s2 m o} : Exec s2 (.at m) o → Exec (.ifElse e s1 s2) (.at m) o
  | whileEnd {k e s} : Ev e true → k ≠ some true → Exec (.while_ k e s) .start .normal
  | whileExit {k e s} : Ev e false → Exec (.while_ k e s) .start .exit
  | whileLeave {k e s o} : Ev e true → k ≠ some false → Exec s .start o → o ≠ .normal →
      o ≠ .cont → Exec (.while_ k e s) .start (afterSwitch o)
  | whileAgain {k e s o o'} : Ev e true → k ≠ some false → Exec s .start o →
      o = .normal ∨ o = .cont → Exec (.while_ k e s) .start o' → Exec (.while_ k e s) .start o'
  | whileAtLeave {k e s m o} : Exec s (.at m) o → o ≠ .normal → o ≠ .cont →
      Exec (.while_ k e s) (.at m) (afterSwitch o)
  | whileAtAgain {k e s m o o'} : Exec s (.at m) o → o = .normal ∨ o = .cont →
      Exec (.while_ k e s) .start o' → Exec (.while_ k e s) (.at m) o'
  | doLeave {s e en o} : Exec s en o → o ≠ .normal → o ≠ .cont →
      Exec (.doWhile s e) en (afterSwitch o)
  | doEnd {s e en o} : Exec s en o → o = .normal ∨ o = .cont → Ev e true →
      Exec (.doWhile s e) en .normal
  | doExit {s e en o} : Exec s en o → o = .normal ∨ o = .cont → Ev e false →
      Exec (.doWhile s e) en .exit
  | doAgain {s e en o o'} : Exec s en o → o = .normal ∨ o = .cont → Ev e true →
      Exec (.doWhile s e) .start o' → Exec (.doWhile s e) en o'
  | forEnd {s} : Exec (.for_ true s) .start .normal
  | forExit {t s} : Exec (.for_ t s) .start .exit
  | forLeave {t s en o} : Exec s en o → o ≠ .normal → o ≠ .cont →
      Exec (.for_ t s) en (afterSwitch o)
  | forAgain {t s en o o'} : Exec s en o → o = .normal ∨ o = .cont →
      Exec (.for_ t s) .start o' → Exec (.for_ t s) en o'
  | switchExit {a e s} : Ev e false → Exec (.switch_ a e s) .start .exit
  | switchSkip {a e s} : Ev e true → (ownsDefault s || a) = false →
      Exec (.switch_ a e s) .start .normal
  | switchGo {a e s m o} : Ev e true → m.isLabel = false → Exec s (.at m) o →
      Exec (.switch_ a e s) .start (afterSwitch o)
  | switchAt {a e s l o} : Exec s (.at (.label l)) o →
      Exec (.switch_ a e s) (.at (.label l)) (afterSwitch o)

/-- Execution of a function body: jumps continue at their labels. -/
inductive Run (body : Stmt) : Entry → Out → Prop
  | done {en o} : Exec body en o → (∀ l, o ≠ .goto_ l) → Run body en o
  | jump {en l o} : Exec body en (.goto_ l) → Run body (.at (.label l)) o → Run body en o

/-- Labels anywhere in a statement. -/
def labels : Stmt → List Nat
  | .label l => [l]
  | .block s => labels s
  | .seq _ _ s1 s2 => labels s1 ++ labels s2
  | .if_ _ s => labels s
  | .ifElse _ s1 s2 => labels s1 ++ labels s2
  | .while_ _ _ s => labels s
  | .doWhile s _ => labels s
  | .for_ _ s => labels s
  | .switch_ _ _ s => labels s
  | _ => []

/-- The statement contains a case or default of the surrounding switch. -/
def ownsCase : Stmt → Bool
  | .dflt => true
  | .case_ _ => true
  | .block s => ownsCase s
  | .seq _ _ s1 s2 => ownsCase s1 || ownsCase s2
  | .if_ _ s => ownsCase s
  | .ifElse _ s1 s2 => ownsCase s1 || ownsCase s2
  | .while_ _ _ s => ownsCase s
  | .doWhile s _ => ownsCase s
  | .for_ _ s => ownsCase s
  | _ => false

/-- No execution can jump into the statement. -/
def sealed_ (s : Stmt) : Bool := labels s = [] && !ownsCase s

/-- The cases of this switch body stand in statement lists and blocks only, not inside other
statements. -/
def flatCases : Stmt → Bool
  | .block s => flatCases s
  | .seq _ _ s1 s2 => flatCases s1 && flatCases s2
  | .case_ _ => true
  | .dflt => true
  | s => !ownsCase s

/-- No statement hidden behind a silenced unreachable-code warning can be jumped into, switch
bodies are not entered by goto, and cases stand directly in their switch. -/
def tame : Stmt → Bool
  | .block s => tame s
  | .seq flag rep s1 s2 => tame s1 && tame s2 && (!(flag && !rep) || s2.info.isJump || sealed_ s2)
  | .if_ _ s => tame s
  | .ifElse _ s1 s2 => tame s1 && tame s2
  | .while_ _ _ s => tame s
  | .doWhile s _ => tame s
  | .for_ _ s => tame s
  | .switch_ _ _ s => tame s && flatCases s && (labels s = [])
  | _ => true

/-! Reaching a statement inside another one. -/

/-- The statement at a path: 0 and 1 select the parts of a statement. -/
def sub : Stmt → List Nat → Option Stmt
  | s, [] => some s
  | .block s, 0 :: p => sub s p
  | .seq _ _ s1 _, 0 :: p => sub s1 p
  | .seq _ _ _ s2, 1 :: p => sub s2 p
  | .if_ _ s, 0 :: p => sub s p
  | .ifElse _ s1 _, 0 :: p => sub s1 p
  | .ifElse _ _ s2, 1 :: p => sub s2 p
  | .while_ _ _ s, 0 :: p => sub s p
  | .doWhile s _, 0 :: p => sub s p
  | .for_ _ s, 0 :: p => sub s p
  | .switch_ _ _ s, 0 :: p => sub s p
  | _, _ :: _ => none

/-- Some execution of the statement from this entry enters (at the beginning or at a marker
inside) the statement at the path. -/
inductive Reaches : Stmt → Entry → List Nat → Prop
  | here {s} : Reaches s .start []
  | hereAt {s m} : (∃ o, Exec s (.at m) o) → Reaches s (.at m) []
  | block {s en p} : Reaches s en p → Reaches (.block s) en (0 :: p)
  | seq1 {f r s1 s2 en p} : Reaches s1 en p → Reaches (.seq f r s1 s2) en (0 :: p)
  | seq2 {f r s1 s2 en p} : Exec s1 en .normal → Reaches s2 .start p →
      Reaches (.seq f r s1 s2) en (1 :: p)
  | seqAt {f r s1 s2 m p} : Reaches s2 (.at m) p → Reaches (.seq f r s1 s2) (.at m) (1 :: p)
  | if_ {e s en p} : Reaches s en p → Reaches (.if_ e s) en (0 :: p)
  | else1 {e s1 s2 en p} : Reaches s1 en p → Reaches (.ifElse e s1 s2) en (0 :: p)
  | else2 {e s1 s2 en p} : Reaches s2 en p → Reaches (.ifElse e s1 s2) en (1 :: p)
  | while_ {k e s en p} : Reaches s en p → Reaches (.while_ k e s) en (0 :: p)
  | whileAgain {k e s en o p} : Exec s en o → Reaches (.while_ k e s) .start p →
      Reaches (.while_ k e s) en p
  | do_ {e s en p} : Reaches s en p → Reaches (.doWhile s e) en (0 :: p)
  | doAgain {e s en o p} : Exec s en o → Reaches (.doWhile s e) .start p →
      Reaches (.doWhile s e) en p
  | for_ {t s en p} : Reaches s en p → Reaches (.for_ t s) en (0 :: p)
  | forAgain {t s en o p} : Exec s en o → Reaches (.for_ t s) .start p →
      Reaches (.for_ t s) en p
  | switch_ {a e s m p} : Reaches s (.at m) p → Reaches (.switch_ a e s) .start (0 :: p)
  | switchAt {a e s l p} : Reaches s (.at (.label l)) p →
      Reaches (.switch_ a e s) (.at (.label l)) (0 :: p)

end Splint.Control
