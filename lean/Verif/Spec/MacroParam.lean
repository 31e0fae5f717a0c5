import Verif.Model.MacroParam
/-!
How often a parameter is evaluated: every branch may be taken, every loop may be executed any number of times.
-/
namespace Splint.MacroParam.Spec

/-- how an execution ends: normally, or it leaves the macro -/
inductive Out where
  | done
  | left
  deriving DecidableEq, Repr

def Case (b : Body) : Cases → Prop
  | .nil => False
  | .cons a cs => b = a ∨ Case b cs

/-- `Exec b n o`: there is an execution of `b` that evaluates the parameter `n` times and ends with `o`. -/
inductive Exec : Body → Nat → Out → Prop where
  | skip : Exec .skip 0 .done
  | use : Exec .use 1 .done
  | stop : Exec .stop 0 .left
  | seq {a b n m o} : Exec a n .done → Exec b m o → Exec (.seq a b) (n + m) o
  | seqLeft {a b n} : Exec a n .left → Exec (.seq a b) n .left
  | secondNot {a} : Exec (.second a) 0 .done
  | second {a n o} : Exec a n o → Exec (.second a) n o
  | ifNot {a} : Exec (.ifThen a) 0 .done
  | ifThen {a n o} : Exec a n o → Exec (.ifThen a) n o
  | ifTrue {a b n o} : Exec a n o → Exec (.ifElse a b) n o
  | ifFalse {a b n o} : Exec b n o → Exec (.ifElse a b) n o
  | loopEnd {c a n o} : Exec c n o → Exec (.loop c a) n o
  | loopLeft {c a n m} : Exec c n .done → Exec a m .left → Exec (.loop c a) (n + m) .left
  | loop {c a n m k o} : Exec c n .done → Exec a m .done → Exec (.loop c a) k o → Exec (.loop c a) (n + m + k) o
  | doEnd {a c n o} : Exec (.seq a c) n o → Exec (.doWhile a c) n o
  | doWhile {a c n m o} : Exec (.seq a c) n .done → Exec (.doWhile a c) m o → Exec (.doWhile a c) (n + m) o
  | once {a n o} : Exec a n o → Exec (.once a) n o
  | switchNot {a cs} : Exec (.switch false a cs) 0 .done
  | switchFirst {p a cs n o} : Exec a n o → Exec (.switch p a cs) n o
  | switch {p a cs b n o} : Case b cs → Exec b n o → Exec (.switch p a cs) n o

/-- Exactly once in every execution. -/
def ExactlyOnce (b : Body) : Prop := ∀ n o, Exec b n o → n = 1

mutual

/-- the parameter occurs -/
def Occurs : Body → Bool
  | .use => true
  | .seq a b => Occurs a || Occurs b
  | .second a => Occurs a
  | .ifThen a => Occurs a
  | .ifElse a b => Occurs a || Occurs b
  | .loop c a => Occurs c || Occurs a
  | .doWhile a c => Occurs a || Occurs c
  | .once a => Occurs a
  | .switch _ a cs => Occurs a || OccursCases cs
  | .skip => false
  | .stop => false

def OccursCases : Cases → Bool
  | .nil => false
  | .cons a cs => Occurs a || OccursCases cs

end

mutual

/-- No execution leaves the macro early. -/
def Stays : Body → Bool
  | .stop => false
  | .seq a b => Stays a && Stays b
  | .second a => Stays a
  | .ifThen a => Stays a
  | .ifElse a b => Stays a && Stays b
  | .loop c a => Stays c && Stays a
  | .doWhile a c => Stays a && Stays c
  | .once a => Stays a
  | .switch _ a cs => Stays a && StaysCases cs
  | .skip => true
  | .use => true

def StaysCases : Cases → Bool
  | .nil => true
  | .cons a cs => Stays a && StaysCases cs

end

mutual

/-- The parameter does not occur in the condition of a `while` loop nor in a `do` loop, unless that is
`do … while (0)`. -/
def LoopFree : Body → Bool
  | .seq a b => LoopFree a && LoopFree b
  | .second a => LoopFree a
  | .ifThen a => LoopFree a
  | .ifElse a b => LoopFree a && LoopFree b
  | .loop c a => !Occurs c && LoopFree a
  | .doWhile a c => !Occurs a && !Occurs c
  | .once a => LoopFree a
  | .switch _ a cs => LoopFree a && LoopFreeCases cs
  | .skip => true
  | .use => true
  | .stop => true

def LoopFreeCases : Cases → Bool
  | .nil => true
  | .cons a cs => LoopFree a && LoopFreeCases cs

end

/-- The parameter does not occur in a `switch`. -/
def SwitchFree : Body → Bool
  | .seq a b => SwitchFree a && SwitchFree b
  | .second a => SwitchFree a
  | .ifThen a => SwitchFree a
  | .ifElse a b => SwitchFree a && SwitchFree b
  | .loop c a => SwitchFree c && SwitchFree a
  | .doWhile a c => SwitchFree a && SwitchFree c
  | .once a => SwitchFree a
  | .switch _ a cs => !Occurs a && !OccursCases cs
  | .skip => true
  | .use => true
  | .stop => true

/-- What is accepted: the parameter occurs once on each path, where loops are taken for their parts in order,
and `else` branches that leave the macro do not count. -/
def Accepted : Body → Bool
  | .use => true
  | .seq a b => (Accepted a && !Occurs b) || (!Occurs a && Accepted b)
  | .ifElse a b => Accepted a && (Accepted b || (!Occurs b && escapes b))
  | .loop c a => Accepted c && !Occurs a
  | .doWhile a c => (Accepted a && !Occurs c) || (!Occurs a && Accepted c)
  | .once a => Accepted a
  | .second _ => false
  | .ifThen _ => false
  | .switch _ _ _ => false
  | .skip => false
  | .stop => false

end Splint.MacroParam.Spec
