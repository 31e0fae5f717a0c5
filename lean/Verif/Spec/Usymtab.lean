import Verif.Model.Usymtab
/-!
Scopes and paths of programs: what names refer to by the rules of C, and what is known of the
variables on each path through a program. Nothing here knows of branch tables.
-/
namespace Splint.Symtab.Spec

variable {S : Type}

/-- The names declared in each scope, from the inside out; a scope lists its names in order. -/
abbrev Scopes := List (List Nat)

/-- What a name refers to: the innermost declaration. -/
def resolve (x : Nat) : Scopes → Option Ref
  | [] => none
  | sc :: r =>
    match sc.findIdx? (· == x) with
    | some i => some ⟨r.length, i⟩
    | none => resolve x r

def declare (x : Nat) : Scopes → Scopes
  | [] => []
  | sc :: r => (if x ∈ sc then sc else sc ++ [x]) :: r

/-- The scopes after a statement. -/
def after : Stmt S → Scopes → Scopes
  | .decl x _, sc => declare x sc
  | .seq a b, sc => after b (after a sc)
  | _, sc => sc

mutual

/-- What the names used in a statement refer to, in order. -/
def uses : Stmt S → Scopes → List (Option Ref)
  | .act x _, sc => [resolve x sc]
  | .seq a b, sc => uses a sc ++ uses b (after a sc)
  | .block b, sc => uses b ([] :: sc)
  | .ifThen _ b, sc => uses b sc
  | .ifElse _ _ a b, sc => uses a sc ++ uses b sc
  | .loop _ b, sc => uses b sc
  | .andAlso b, sc => uses b sc
  | .orElse b, sc => uses b sc
  | .switch _ cs, sc => usesCases cs ([] :: sc)
  | _, _ => []

def usesCases : Cases S → Scopes → List (Option Ref)
  | .nil, _ => []
  | .cons b _ cs, sc => uses b sc ++ usesCases cs (after b sc)

end

mutual

/-- Declarations occur in blocks only (`true`: here is one), not as a branch or directly in the block
of a `switch`; and every `switch` has a `case`. -/
def Placed : Bool → Stmt S → Prop
  | d, .decl _ _ => d = true
  | d, .seq a b => Placed d a ∧ Placed d b
  | _, .block b => Placed true b
  | _, .ifThen _ b => Placed false b
  | _, .ifElse _ _ a b => Placed false a ∧ Placed false b
  | _, .loop _ b => Placed false b
  | _, .andAlso b => Placed false b
  | _, .orElse b => Placed false b
  | _, .switch _ cs => cs ≠ .nil ∧ PlacedCases cs
  | _, _ => True

def PlacedCases : Cases S → Prop
  | .nil => True
  | .cons b _ cs => Placed false b ∧ PlacedCases cs

end

mutual

/-- Declarations occur in blocks, and the block of a `switch` is one. -/
def Legal : Bool → Stmt S → Prop
  | d, .decl _ _ => d = true
  | d, .seq a b => Legal d a ∧ Legal d b
  | _, .block b => Legal true b
  | _, .ifThen _ b => Legal false b
  | _, .ifElse _ _ a b => Legal false a ∧ Legal false b
  | _, .loop _ b => Legal false b
  | _, .andAlso b => Legal false b
  | _, .orElse b => Legal false b
  | _, .switch _ cs => LegalCases cs
  | _, _ => True

def LegalCases : Cases S → Prop
  | .nil => True
  | .cons b _ cs => Legal true b ∧ LegalCases cs

end

/-! ## Paths -/

/-- What is known of the variables of each scope. -/
abbrev Env (S : Type) := List (List (Nat × S))

/-- Changing what is known of the variable that a name refers to. -/
def assign (x : Nat) (f : S → S) : Env S → Env S
  | [] => []
  | fr :: r =>
    if x ∈ fr.map (·.1) then fr.map (fun p => if p.1 = x then (p.1, f p.2) else p) :: r
    else fr :: assign x f r

def bind (x : Nat) (s : S) : Env S → Env S
  | [] => []
  | fr :: r => (if x ∈ fr.map (·.1) then fr else fr ++ [(x, s)]) :: r

/-- How a path through a statement ends. -/
inductive Exit where
  | next | brk | stop
  deriving DecidableEq

mutual

/-- `Path m p E E' k`: there is a path through `p` from `E` to `E'`, ending in the given way. If `m` is
`false`, every loop is run once or not at all. -/
inductive Path (m : Bool) : Stmt S → Env S → Env S → Exit → Prop where
  | skip {E} : Path m .skip E E .next
  | act {x f E} : Path m (.act x f) E (assign x f E) .next
  | decl {x s E} : Path m (.decl x s) E (bind x s E) .next
  | seq {a b E E' E'' k} : Path m a E E' .next → Path m b E' E'' k → Path m (.seq a b) E E'' k
  | seqExit {a b E E' k} : Path m a E E' k → k ≠ .next → Path m (.seq a b) E E' k
  | block {b E E' k} : Path m b ([] :: E) E' k → Path m (.block b) E E'.tail k
  | ifThen {e b E E' k} : Path m b E E' k → Path m (.ifThen e b) E E' k
  | ifNot {e b E} : Path m (.ifThen e b) E E .next
  | ifTrue {eT eF a b E E' k} : Path m a E E' k → Path m (.ifElse eT eF a b) E E' k
  | ifFalse {eT eF a b E E' k} : Path m b E E' k → Path m (.ifElse eT eF a b) E E' k
  | loopZero {e b E} : Path m (.loop e b) E E .next
  | loopOnce {e b E E' k} : Path m b E E' k → k ≠ .stop → Path m (.loop e b) E E' .next
  | loopMore {e b E E' E'' k} : m = true → Path m b E E' .next → Path m (.loop e b) E' E'' k →
      Path m (.loop e b) E E'' k
  | loopStop {e b E E'} : Path m b E E' .stop → Path m (.loop e b) E E' .stop
  | andNot {b E} : Path m (.andAlso b) E E .next
  | andThen {b E E' k} : Path m b E E' k → Path m (.andAlso b) E E' k
  | orNot {b E} : Path m (.orElse b) E E .next
  | orThen {b E E' k} : Path m b E E' k → Path m (.orElse b) E E' k
  | brk {E} : Path m .brk E E .brk
  | ret {E} : Path m .ret E E .stop
  | switchNone {cs E} : Path m (.switch false cs) E E .next
  | switchNext {all cs E E' k} : Enter m cs ([] :: E) E' k → k ≠ .stop →
      Path m (.switch all cs) E E'.tail .next
  | switchStop {all cs E E'} : Enter m cs ([] :: E) E' .stop → Path m (.switch all cs) E E'.tail .stop

/-- The paths through the cases that start at the first of them. -/
inductive From (m : Bool) : Cases S → Env S → Env S → Exit → Prop where
  | nil {E} : From m .nil E E .next
  | exit {b e cs E E' k} : Path m b E E' k → k ≠ .next → From m (.cons b e cs) E E' k
  | brk {b cs E E'} : Path m b E E' .next → From m (.cons b .brk cs) E E' .brk
  | ret {b cs E E'} : Path m b E E' .next → From m (.cons b .ret cs) E E' .stop
  | fall {b cs E E' E'' k} : Path m b E E' .next → From m cs E' E'' k →
      From m (.cons b .fall cs) E E'' k

/-- The paths through the cases that start at any of them. -/
inductive Enter (m : Bool) : Cases S → Env S → Env S → Exit → Prop where
  | here {cs E E' k} : cs ≠ .nil → From m cs E E' k → Enter m cs E E' k
  | there {b e cs E E' k} : Enter m cs E E' k → Enter m (.cons b e cs) E E' k

end

/-- The same variables, and less is known (more is possible) of each in the second. -/
def Below (le : S → S → Prop) (E E' : Env S) : Prop :=
  List.Forall₂ (List.Forall₂ fun p q => p.1 = q.1 ∧ le p.2 q.2) E E'

/-- What is assumed of merging: the result allows for both states. -/
structure Merges (le : S → S → Prop) (o : Ops S) : Prop where
  refl : ∀ a, le a a
  trans : ∀ a b c, le a b → le b c → le a c
  left : ∀ a b, le a (o.join a b)
  right : ∀ a b, le b (o.join a b)

mutual

/-- Accesses do not turn more possibilities into fewer, and the flags of the branches are right. -/
def Fair (m : Bool) (le : S → S → Prop) : Stmt S → Prop
  | .act _ f => ∀ a b, le a b → le (f a) (f b)
  | .seq a b => Fair m le a ∧ Fair m le b
  | .block b => Fair m le b
  | .ifThen e b => (e = true → ∀ E E', ¬ Path m b E E' .next) ∧ Fair m le b
  | .ifElse eT eF a b =>
    (eT = true → ∀ E E', ¬ Path m a E E' .next) ∧ (eF = true → ∀ E E', ¬ Path m b E E' .next)
    ∧ Fair m le a ∧ Fair m le b
  | .loop e b => (e = true → ∀ E E', ¬ Path m b E E' .next) ∧ Fair m le b
  | .andAlso b => Fair m le b
  | .orElse b => Fair m le b
  | .switch _ cs => FairCases m le cs
  | _ => True

def FairCases (m : Bool) (le : S → S → Prop) : Cases S → Prop
  | .nil => True
  | .cons b _ cs => Fair m le b ∧ FairCases m le cs

end

mutual

/-- No `break` but at the end of a `case`, and no `switch` that is known to take one of its cases. -/
def Simple : Stmt S → Prop
  | .seq a b => Simple a ∧ Simple b
  | .block b => Simple b
  | .ifThen _ b => Simple b
  | .ifElse _ _ a b => Simple a ∧ Simple b
  | .loop _ b => Simple b
  | .andAlso b => Simple b
  | .orElse b => Simple b
  | .brk => False
  | .switch all cs => all = false ∧ SimpleCases cs
  | _ => True

def SimpleCases : Cases S → Prop
  | .nil => True
  | .cons b _ cs => Simple b ∧ SimpleCases cs

end

/-- The scopes of an environment. -/
def names (E : Env S) : Scopes := E.map (·.map (·.1))

/-- A table of scopes without branches. -/
def tables : Env S → Stack S
  | [] => []
  | fr :: r => { kind := .normal, level := r.length,
                 entries := fr.map fun p => ⟨p.1, p.2, none⟩ } :: tables r

/-- There is a scope, and no scope has a name twice. -/
def Proper (E : Env S) : Prop := E ≠ [] ∧ ∀ fr ∈ E, (fr.map (·.1)).Nodup

/-- The tables there are while a program is being checked, from its beginning on. -/
inductive Reached (o : Ops S) (E : Env S) : Stack S → Prop where
  | start : Reached o E (tables E)
  | stmt {st st' d p} : Reached o E st → Placed d p →
      (d = true → ∃ t r, st = t :: r ∧ t.kind = .normal) → run o p st = some st' → Reached o E st'
  | block {st} : Reached o E st → Reached o E (push .normal st)
  | branch {st} : Reached o E st → Reached o E (push .tbranch st)
  | other {st st'} : Reached o E st → altBranch st = some st' → Reached o E st'
  | switch {st} : Reached o E st → Reached o E (push .normal (push .switch st))
  | case {cts n r st'} : Reached o E (cts ++ n :: r) → (∀ c ∈ cts, c.kind = .cbranch) →
      n.kind = .normal → newCase o (cts ++ n :: r) = some st' → Reached o E st'
  | endCase {st e} : Reached o E st → Reached o E (setEnd e st)

/-- What is known of the variable that a name is found to be. -/
def known (x : Nat) (st : Stack S) : Option S :=
  (lookup x st).2.bind fun p => stateAt p (lookup x st).1

/-- Its reference. -/
def found (x : Nat) (st : Stack S) : Option Ref :=
  (lookup x st).2.bind fun p => refAt p (lookup x st).1

/-- The innermost branch and what is outside of it. -/
def branch (st : Stack S) : Stack S := st.dropWhile (·.kind == .normal)

/-- The variable with the reference is declared in the innermost scope, or the innermost branch is
inside of the scope of the variable. -/
def Direct (ref : Ref) (st : Stack S) : Prop :=
  ∀ t b, st.head? = some t → (branch st).head? = some b → ref.level = t.level ∨ ref.level ≤ b.level

/-! ## What is to be known, exactly -/

/-- Merging what is known on two ways to the same place, variable by variable. -/
def both (join : S → S → S) : Env S → Env S → Env S :=
  List.zipWith (List.zipWith fun p q => (p.1, join p.2 q.2))

/-- There is no `switch`. -/
def NoSwitch : Stmt S → Prop
  | .seq a b => NoSwitch a ∧ NoSwitch b
  | .block b => NoSwitch b
  | .ifThen _ b => NoSwitch b
  | .ifElse _ _ a b => NoSwitch a ∧ NoSwitch b
  | .loop _ b => NoSwitch b
  | .andAlso b => NoSwitch b
  | .orElse b => NoSwitch b
  | .switch _ _ => False
  | _ => True

/-- There is no `switch`, and no true branch that is not left but has an alternative that is. -/
def Plain : Stmt S → Prop
  | .seq a b => Plain a ∧ Plain b
  | .block b => Plain b
  | .ifThen _ b => Plain b
  | .ifElse eT eF a b => (eT = true → eF = true) ∧ Plain a ∧ Plain b
  | .loop _ b => Plain b
  | .andAlso b => Plain b
  | .orElse b => Plain b
  | .switch _ _ => False
  | _ => True

/-- What is known after a statement: a branch that is not left counts for nothing, and of two others
what is known is merged. -/
def result (o : Ops S) : Stmt S → Env S → Env S
  | .act x f, E => assign x f E
  | .decl x s, E => bind x s E
  | .seq a b, E => result o b (result o a E)
  | .block b, E => (result o b ([] :: E)).tail
  | .ifThen e b, E => if e then E else both o.join E (result o b E)
  | .ifElse eT eF a b, E =>
    if eF then result o a E else if eT then result o b E
    else both o.join (result o a E) (result o b E)
  | .loop e b, E => if e then E else both o.join E (result o b E)
  | .andAlso b, E => both (fun s t => o.andFix t (o.join s t)) E (result o b E)
  | .orElse b, E => both o.join E (result o b E)
  | _, E => E

end Splint.Symtab.Spec
