import Verif.Model.StmtGen
/-! What statements do, and what requirements and facts are for (C101, C102). -/
namespace Splint.StmtGen.Spec
open StmtGen

/-- the meaning of the expressions and tests: whether no access of theirs is out of bounds, and how they
change the state -/
structure Sem (S A T : Type) where
  safe : A → S → Prop
  step : A → S → S → Prop
  safeT : T → S → Prop
  stepT : T → S → S → Prop
  /-- in the state after the test -/
  truth : T → S → Prop

inductive Out (S : Type) where
  /-- an access out of bounds -/
  | fault
  | norm (σ : S)
  | brk (σ : S)
  | cont (σ : S)
  | ret (σ : S)

def Out.IsNorm {S : Type} : Out S → Prop
  | .norm _ => True
  | _ => False

variable {C S A T : Type}

/-- statements, and what is left of a `for` statement after the initialisation -/
inductive Code (A T : Type) where
  | s (s : Stmt A T)
  | loop (t : T) (inc : A) (s : Stmt A T)

/-- execution of statements as in C -/
inductive Exec (M : Sem S A T) : Code A T → S → Out S → Prop where
  | act {a σ σ'} : M.safe a σ → M.step a σ σ' → Exec M (.s (.act a)) σ (.norm σ')
  | actBad {a σ} : ¬ M.safe a σ → Exec M (.s (.act a)) σ .fault
  | ret {a σ σ'} : M.safe a σ → M.step a σ σ' → Exec M (.s (.ret a)) σ (.ret σ')
  | retBad {a σ} : ¬ M.safe a σ → Exec M (.s (.ret a)) σ .fault
  | brk {σ} : Exec M (.s .brk) σ (.brk σ)
  | cont {σ} : Exec M (.s .cont) σ (.cont σ)
  | seq {s1 s2 σ σ' o} : Exec M (.s s1) σ (.norm σ') → Exec M (.s s2) σ' o → Exec M (.s (.seq s1 s2)) σ o
  | seqStop {s1 s2 σ o} : Exec M (.s s1) σ o → ¬ o.IsNorm → Exec M (.s (.seq s1 s2)) σ o
  | block {s σ o} : Exec M (.s s) σ o → Exec M (.s (.block s)) σ o
  | ifBad {m t s σ} : ¬ M.safeT t σ → Exec M (.s (.ifThen m t s)) σ .fault
  | ifTrue {m t s σ σ' o} : M.safeT t σ → M.stepT t σ σ' → M.truth t σ' → Exec M (.s s) σ' o →
      Exec M (.s (.ifThen m t s)) σ o
  | ifFalse {m t s σ σ'} : M.safeT t σ → M.stepT t σ σ' → ¬ M.truth t σ' →
      Exec M (.s (.ifThen m t s)) σ (.norm σ')
  | elseBad {t s1 s2 σ} : ¬ M.safeT t σ → Exec M (.s (.ifElse t s1 s2)) σ .fault
  | elseTrue {t s1 s2 σ σ' o} : M.safeT t σ → M.stepT t σ σ' → M.truth t σ' → Exec M (.s s1) σ' o →
      Exec M (.s (.ifElse t s1 s2)) σ o
  | elseFalse {t s1 s2 σ σ' o} : M.safeT t σ → M.stepT t σ σ' → ¬ M.truth t σ' → Exec M (.s s2) σ' o →
      Exec M (.s (.ifElse t s1 s2)) σ o
  | whileBad {m t s σ} : ¬ M.safeT t σ → Exec M (.s (.while m t s)) σ .fault
  | whileEnd {m t s σ σ'} : M.safeT t σ → M.stepT t σ σ' → ¬ M.truth t σ' →
      Exec M (.s (.while m t s)) σ (.norm σ')
  | whileNext {m t s σ σ' σ'' o o'} : M.safeT t σ → M.stepT t σ σ' → M.truth t σ' → Exec M (.s s) σ' o →
      (o = .norm σ'' ∨ o = .cont σ'') → Exec M (.s (.while m t s)) σ'' o' → Exec M (.s (.while m t s)) σ o'
  | whileBrk {m t s σ σ' σ''} : M.safeT t σ → M.stepT t σ σ' → M.truth t σ' → Exec M (.s s) σ' (.brk σ'') →
      Exec M (.s (.while m t s)) σ (.norm σ'')
  | whileRet {m t s σ σ' σ''} : M.safeT t σ → M.stepT t σ σ' → M.truth t σ' → Exec M (.s s) σ' (.ret σ'') →
      Exec M (.s (.while m t s)) σ (.ret σ'')
  | whileFault {m t s σ σ'} : M.safeT t σ → M.stepT t σ σ' → M.truth t σ' → Exec M (.s s) σ' .fault →
      Exec M (.s (.while m t s)) σ .fault
  | doFault {s t σ} : Exec M (.s s) σ .fault → Exec M (.s (.doWhile s t)) σ .fault
  | doRet {s t σ σ'} : Exec M (.s s) σ (.ret σ') → Exec M (.s (.doWhile s t)) σ (.ret σ')
  | doBrk {s t σ σ'} : Exec M (.s s) σ (.brk σ') → Exec M (.s (.doWhile s t)) σ (.norm σ')
  | doBad {s t σ σ' o} : Exec M (.s s) σ o → (o = .norm σ' ∨ o = .cont σ') → ¬ M.safeT t σ' →
      Exec M (.s (.doWhile s t)) σ .fault
  | doEnd {s t σ σ' σ'' o} : Exec M (.s s) σ o → (o = .norm σ' ∨ o = .cont σ') → M.safeT t σ' →
      M.stepT t σ' σ'' → ¬ M.truth t σ'' → Exec M (.s (.doWhile s t)) σ (.norm σ'')
  | doNext {s t σ σ' σ'' o o'} : Exec M (.s s) σ o → (o = .norm σ' ∨ o = .cont σ') → M.safeT t σ' →
      M.stepT t σ' σ'' → M.truth t σ'' → Exec M (.s (.doWhile s t)) σ'' o' → Exec M (.s (.doWhile s t)) σ o'
  | forBad {b a t i s σ} : ¬ M.safe a σ → Exec M (.s (.for b a t i s)) σ .fault
  | «for» {b a t i s σ σ' o} : M.safe a σ → M.step a σ σ' → Exec M (.loop t i s) σ' o →
      Exec M (.s (.for b a t i s)) σ o
  | loopBad {t i s σ} : ¬ M.safeT t σ → Exec M (.loop t i s) σ .fault
  | loopEnd {t i s σ σ'} : M.safeT t σ → M.stepT t σ σ' → ¬ M.truth t σ' →
      Exec M (.loop t i s) σ (.norm σ')
  | loopFault {t i s σ σ'} : M.safeT t σ → M.stepT t σ σ' → M.truth t σ' → Exec M (.s s) σ' .fault →
      Exec M (.loop t i s) σ .fault
  | loopRet {t i s σ σ' σ''} : M.safeT t σ → M.stepT t σ σ' → M.truth t σ' →
      Exec M (.s s) σ' (.ret σ'') → Exec M (.loop t i s) σ (.ret σ'')
  | loopBrk {t i s σ σ' σ''} : M.safeT t σ → M.stepT t σ σ' → M.truth t σ' →
      Exec M (.s s) σ' (.brk σ'') → Exec M (.loop t i s) σ (.norm σ'')
  | loopInc {t i s σ σ' σ'' o} : M.safeT t σ → M.stepT t σ σ' → M.truth t σ' →
      Exec M (.s s) σ' o → (o = .norm σ'' ∨ o = .cont σ'') → ¬ M.safe i σ'' →
      Exec M (.loop t i s) σ .fault
  | loopNext {t i s σ σ' σ'' σ₃ o o'} : M.safeT t σ → M.stepT t σ σ' → M.truth t σ' →
      Exec M (.s s) σ' o → (o = .norm σ'' ∨ o = .cont σ'') → M.safe i σ'' → M.step i σ'' σ₃ →
      Exec M (.loop t i s) σ₃ o' → Exec M (.loop t i s) σ o'

/-- Nothing is changed. -/
def Still (M : Sem S A T) : Stmt A T → Prop
  | .act a => ∀ σ σ', M.step a σ σ' → σ' = σ
  | .ret a => ∀ σ σ', M.step a σ σ' → σ' = σ
  | .brk => True
  | .cont => True
  | .seq s1 s2 => Still M s1 ∧ Still M s2
  | .block s => Still M s
  | .ifThen _ t s => (∀ σ σ', M.stepT t σ σ' → σ' = σ) ∧ Still M s
  | .ifElse t s1 s2 => (∀ σ σ', M.stepT t σ σ' → σ' = σ) ∧ Still M s1 ∧ Still M s2
  | .while _ t s => (∀ σ σ', M.stepT t σ σ' → σ' = σ) ∧ Still M s
  | .doWhile s t => (∀ σ σ', M.stepT t σ σ' → σ' = σ) ∧ Still M s
  | .for _ a t i s => (∀ σ σ', M.step a σ σ' → σ' = σ) ∧ (∀ σ σ', M.stepT t σ σ' → σ' = σ)
    ∧ (∀ σ σ', M.step i σ σ' → σ' = σ) ∧ Still M s

/-- When requirements hold, and when facts describe what has happened between two states. -/
structure Meaning (C S : Type) where
  holds : C → S → Prop
  desc : List C → S → S → Prop

/-- The operations on lists are right. -/
structure Right (N : Meaning C S) (O : Ops C) : Prop where
  /-- a requirement after a change is the reflected one before it -/
  reflect : ∀ R E σ σ', N.desc E σ σ' → (∀ r ∈ O.reflect R E, N.holds r σ) → ∀ r ∈ R, N.holds r σ'
  mergeReq : ∀ R1 R2 σ, (∀ r ∈ O.mergeReq R1 R2, N.holds r σ) →
    (∀ r ∈ R1, N.holds r σ) ∧ ∀ r ∈ R2, N.holds r σ
  mergeEns : ∀ E1 E2 σ σ1 σ2, N.desc E1 σ σ1 → N.desc E2 σ1 σ2 → N.desc (O.mergeEns E1 E2) σ σ2
  /-- if nothing has changed, facts of two branches may be combined -/
  or : ∀ E1 E2 σ, N.desc E1 σ σ ∨ N.desc E2 σ σ → N.desc (O.or E1 E2) σ σ
  none : ∀ σ, N.desc [] σ σ

/-- What is known about the expressions and tests is right: if their requirements hold they are safe, and
their facts describe what they do. -/
structure Known (N : Meaning C S) (M : Sem S A T) (G : Given C A T) : Prop where
  safe : ∀ a σ, (∀ r ∈ (G.ann a).req, N.holds r σ) → M.safe a σ
  step : ∀ a σ σ', M.safe a σ → M.step a σ σ' → N.desc (G.ann a).ens σ σ'
  safeT : ∀ t σ, (∀ r ∈ (G.test t).req, N.holds r σ) → M.safeT t σ
  stepT : ∀ t σ σ', M.safeT t σ → M.stepT t σ σ' → N.desc (G.test t).ens σ σ'
  true_ : ∀ t σ σ', M.safeT t σ → M.stepT t σ σ' → M.truth t σ' → N.desc (G.test t).trueEns σ' σ'
  false_ : ∀ t σ σ', M.safeT t σ → M.stepT t σ σ' → ¬ M.truth t σ' → N.desc (G.test t).falseEns σ' σ'
  ownFalse : ∀ t σ σ', M.safeT t σ → M.stepT t σ σ' → ¬ M.truth t σ' → N.desc (G.test t).ownFalse σ' σ'

/-- The statements for which the requirements and facts are right: the branches of an `if` and the
bodies of loops change nothing, a branch that may be left with `break` and so on is always left so, a
`while` has no `break`, and there is no `do` or `for`. -/
def Tame (M : Sem S A T) : Stmt A T → Prop
  | .act _ => True
  | .ret _ => True
  | .brk => True
  | .cont => True
  | .seq s1 s2 => Tame M s1 ∧ Tame M s2
  | .block s => Tame M s
  | .ifThen may _ s => Tame M s ∧ Still M s
    ∧ (may = true → ∀ σ σ', ¬ Exec M (.s s) σ (.norm σ'))
  | .ifElse t s1 s2 => Tame M s1 ∧ Tame M s2 ∧ Still M s1 ∧ Still M s2
    ∧ ∀ σ σ', M.stepT t σ σ' → σ' = σ
  | .while may t s => Tame M s ∧ Still M s ∧ (∀ σ σ', M.stepT t σ σ' → σ' = σ)
    ∧ (may = true → ∀ σ σ', ¬ Exec M (.s s) σ (.brk σ'))
  | .doWhile _ _ => False
  | .for _ _ _ _ _ => False

/-- If the requirements of a statement hold before it, no access in it is out of bounds, and what is
recorded describes what it does if it ends normally. -/
def Sound (N : Meaning C S) (M : Sem S A T) (O : Ops C) (G : Given C A T) (s : Stmt A T) : Prop :=
  ∀ σ, (∀ r ∈ (gen O G s).req, N.holds r σ) →
    ¬ Exec M (.s s) σ .fault ∧ ∀ σ', Exec M (.s s) σ (.norm σ') → N.desc (gen O G s).ens σ σ'

/-- A `case` of a `switch` with the statements after it; `must` says that what is before it is taken
never to run into it. -/
structure Sect (C A T : Type) where
  must : Bool
  /-- that the tested value is that of the case -/
  eq : C
  body : List (Stmt A T)

/-- the body of the `switch` statement -/
def items (O : Ops C) (G : Given C A T) (ss : List (Sect C A T)) : List (Item C) :=
  ss.flatMap fun x => .case x.must x.eq :: x.body.map fun s => .stmt (gen O G s)

/-- execution of some statements one after the other -/
inductive Run (M : Sem S A T) : List (Stmt A T) → S → Out S → Prop where
  | nil {σ} : Run M [] σ (.norm σ)
  | next {s l σ σ' o} : Exec M (.s s) σ (.norm σ') → Run M l σ' o → Run M (s :: l) σ o
  | stop {s l σ o} : Exec M (.s s) σ o → ¬ o.IsNorm → Run M (s :: l) σ o

/-- A case is taken not to be run into only if it is not. -/
def Truthful (M : Sem S A T) : List (Sect C A T) → Prop
  | x :: y :: ss => (y.must = true → ∀ σ σ', ¬ Run M x.body σ (.norm σ')) ∧ Truthful M (y :: ss)
  | _ => True

/-- Whichever case is entered, if the requirements of the `switch` statement hold before it no access is
out of bounds.  What is recorded is that the value is that of the case. -/
def SwSound (N : Meaning C S) (M : Sem S A T) (O : Ops C) (G : Given C A T) (add1 : C → List C)
    (e : Ann C) (ss : List (Sect C A T)) : Prop :=
  ∀ σ, (∀ r ∈ (genSwitch O add1 e (items O G ss)).req, N.holds r σ) →
    ∀ pre x post, ss = pre ++ x :: post → N.desc (add1 x.eq) σ σ →
      ¬ Run M (x.body ++ post.flatMap Sect.body) σ .fault

end Splint.StmtGen.Spec
