import Verif.Model.Access
/-! Which accesses an expression may make according to the C standard (C99). -/
namespace Splint.Access.Spec

/-- What is done with the object an expression stands for. -/
inductive Mode where
  /-- its value is taken -/
  | value
  /-- it is assigned -/
  | write
  /-- its value is taken and it is assigned -/
  | update
  /-- its address is taken -/
  | address
  deriving DecidableEq, Repr

/-- the requirements of an access to element `i` of `a` -/
def access (m : Mode) (a : Exp) (i : Option Exp) : List Req :=
  match m with
  | .value => [.read a i]
  | .write => [.write a i]
  | .update => [.read a i, .write a i]
  | .address => []

mutual
/-- The accesses that may be made when an expression is evaluated, and the preconditions that must
hold.  (Elements of arrays are not themselves arrays.) -/
def needs (m : Mode) : Exp → List Req
  | .leaf _ => []
  | .fetch a i => access m a (some i) ++ (needs .value a ++ needs .value i)
  | .parens e => needs m e
  | .cast e => needs m e
  | .init e => needs .value e
  | .assign a b => needs .write a ++ needs .value b
  | .op .plain a b => needs .value a ++ needs .value b
  | .op _ a b => needs .update a ++ needs .value b
  | .sizeOf _ => []
  | .call f as => .pre f as :: (needs .value f ++ needsArgs as)
  | .ret e => needs .value e
  | .dot e => needs m e
  | .arrow e => access m e none ++ needs .value e
  | .pre .deref e => access m e none ++ needs .value e
  | .pre .incDec e => needs .update e
  | .pre .addr e => needs .address e
  | .pre .other e => needs .value e
  | .post e => needs .update e
  | .cond p t f => needs .value p ++ (needs m t ++ needs m f)
  | .comma a b => needs .value a ++ needs m b
  | .block es => needsArgs es
  | .vaArg e => needs .update e
def needsArgs : Args → List Req
  | .nil => []
  | .cons e es => needs .value e ++ needsArgs es
end

mutual
/-- A condition on each access of an expression: `acc` on what is done and whether the traversal takes
it for an assignment (which it does on the left of an assignment and under `++` after it, and from
there down through everything but brackets and arguments), `arr` on what is done with `->`, and `un` on
the conditional expressions, comma expressions and so on. -/
def along (acc : Mode → Bool → Bool) (arr : Mode → Bool) (un : Mode → Exp → Bool)
    (m : Mode) (lv : Bool) : Exp → Bool
  | .leaf _ => true
  | .fetch a i => acc m lv && (along acc arr un .value false a && along acc arr un .value false i)
  | .parens e => along acc arr un m lv e
  | .cast e => along acc arr un m lv e
  | .init e => along acc arr un .value lv e
  | .assign a b => along acc arr un .write true a && along acc arr un .value lv b
  | .op .plain a b => along acc arr un .value lv a && along acc arr un .value lv b
  | .op .addAssign a b => along acc arr un .update true a && along acc arr un .value lv b
  | .op .otherAssign a b => along acc arr un .update lv a && along acc arr un .value lv b
  | .sizeOf _ => true
  | .call f as => along acc arr un .value lv f && alongArgs acc arr un as
  | .ret e => along acc arr un .value lv e
  | .dot e => along acc arr un m lv e
  | .arrow e => arr m && along acc arr un .value lv e
  | .pre .deref e => acc m lv && along acc arr un .value lv e
  | .pre .incDec e => along acc arr un .update lv e
  | .pre .addr e => along acc arr un .address lv e
  | .pre .other e => along acc arr un .value lv e
  | .post e => along acc arr un .update true e
  | .cond p t f => un m (.cond p t f)
  | .comma a b => un m (.comma a b)
  | .block es => un m (.block es)
  | .vaArg e => un m (.vaArg e)
def alongArgs (acc : Mode → Bool → Bool) (arr : Mode → Bool) (un : Mode → Exp → Bool) : Args → Bool
  | .nil => true
  | .cons e es => along acc arr un .value false e && alongArgs acc arr un es
end

/-- Every access is taken for what it is: nothing is updated, values are not taken below something that
is assigned; `->` is used for addresses only; and no access is made in a conditional expression and so
on. -/
def Seen (m : Mode) (lv : Bool) (e : Exp) : Prop :=
  along (fun m lv => m == .address || (m == .value && !lv) || (m == .write && lv))
    (fun m => m == .address) (fun m e => (needs m e).isEmpty) m lv e = true

/-- No access is taken for what it is not: `&` is not applied to an access, and values are not taken
below something that is assigned. -/
def Honest (m : Mode) (lv : Bool) (e : Exp) : Prop :=
  along (fun m lv => m == .update || (m == .value && !lv) || (m == .write && lv))
    (fun _ => true) (fun _ _ => true) m lv e = true

end Splint.Access.Spec
