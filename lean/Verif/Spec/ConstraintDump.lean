import Verif.Model.ConstraintDump
import Verif.Spec.LibRef
/-!
What the constraints in a library are about, independent of how they are written.
-/
namespace Splint.Lib.Spec
open Bounds

/-- What a term stands for. -/
inductive Thing where
  | number (n : Int)
  | variable (w : List Char)
  | result
  | param (type no : Int)
  | storage (r : Ref)
  deriving DecidableEq, Repr

/-- An expression over what its terms stand for. -/
inductive Sense where
  | term (t : Thing)
  | un (op : UnOp) (e : Sense)
  | bin (op : BinOp) (a b : Sense)
  deriving DecidableEq, Repr

/-- An expression node is written by the name of its entry, so it stands for that. -/
def thing : LTerm → Thing
  | .expr w => .variable w
  | .result _ => .result
  | .param ct n => .param ct n
  | .ref r => .storage r
  | .named w => .variable w
  | .lit n => .number n

def sense : LExpr → Sense
  | .term t => .term (thing t)
  | .un op e => .un op (sense e)
  | .bin op a b => .bin op (sense a) (sense b)

/-- A constraint: whether it is of the precondition, of the postcondition, and the alternatives, one
of which has to hold. -/
def content (c : LCon) : Bool × Bool × List (Ar × Sense × Sense) :=
  (c.pre, c.post, (c.ar, sense c.l, sense c.r) :: c.alt.map fun a => (a.1, sense a.2.1, sense a.2.2))

/-- Names: not empty, not longer than a line, and without the characters that end a word. -/
def Name (w : List Char) : Prop :=
  w ≠ [] ∧ w.length < 16383 ∧ ∀ c ∈ w, c ≠ ' ' ∧ c ≠ ',' ∧ c ≠ '\n' ∧ c ≠ '\t' ∧ c ≠ '#'

/-- The names that are taken for something else. -/
def keywords : List (List Char) :=
  [['R', 'e', 's', 'u', 'l', 't'], ['P', 'a', 'r', 'a', 'm'],
   ['s', 'R', 'e', 'f', '_', 'd', 'u', 'm', 'p']]

/-- Terms a library can hold. -/
inductive GoodTerm (eqv : Ref → Ref → Bool) : LTerm → Prop
  | expr {w} : Name w → GoodTerm eqv (.expr w)
  | result {ct} : GoodTerm eqv (.result ct)
  | param {ct n} : 0 ≤ ct → ct < 2 ^ 31 → Num n → -1 ≤ n → GoodTerm eqv (.param ct n)
  | ref {r} : Good eqv r → r.dump.length < 16000 → GoodTerm eqv (.ref r)
  | named {w} : Name w → w ∉ keywords → GoodTerm eqv (.named w)
  | lit {n} : Num n → GoodTerm eqv (.lit n)

inductive GoodExpr (eqv : Ref → Ref → Bool) : LExpr → Prop
  | term {t} : GoodTerm eqv t → GoodExpr eqv (.term t)
  | un {op e} : GoodExpr eqv e → GoodExpr eqv (.un op e)
  | bin {op a b} : GoodExpr eqv a → GoodExpr eqv b → GoodExpr eqv (.bin op a b)

/-- Constraints a library can hold: without alternatives. -/
def GoodCon (eqv : Ref → Ref → Bool) (c : LCon) : Prop :=
  c.alt = [] ∧ GoodExpr eqv c.l ∧ GoodExpr eqv c.r

/-- The list `l'` consists of constraints with the content of those of `l`, except that each one that
is resolved by those before it is left out. -/
def Reread (res : LCon → List LCon → Bool) (l l' : List LCon) : Prop :=
  ∃ k : List LCon, k.map content = l.map content ∧
    l' = k.foldl (fun done c => if res c done then done else done ++ [c]) []

def RereadPart (res : LCon → List LCon → Bool) : Option (List LCon) → Option (List LCon) → Prop
  | none, none => True
  | some l, some l' => Reread res l l'
  | _, _ => False

/-- What is set for the functions `us` when `us'` is read. -/
def RereadFcns (res : LCon → List LCon → Bool) : List FcnCons → List FcnCons → Prop :=
  List.Forall₂ fun u u' => u'.name = u.name ∧ RereadPart res u.pre u'.pre ∧
    RereadPart res u.post u'.post

end Splint.Lib.Spec
