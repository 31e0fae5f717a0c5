import Verif.Model.SwitchEnum
/-!
# Which values a `switch` handles, and when the body of a `for` is executed
-/
namespace Splint
namespace SwitchEnum
namespace Spec

/-- The label belongs to the `switch` with this body.  With `deep`, also when it is inside a loop or a
conditional of the body, as the language has it. -/
inductive HasCase (deep : Bool) (l : Label) : Body → Prop
  | here : HasCase deep l (.case_ l)
  | block {s} : HasCase deep l s → HasCase deep l (.block s)
  | left {s t} : HasCase deep l s → HasCase deep l (.list s t)
  | right {s t} : HasCase deep l t → HasCase deep l (.list s t)
  | inner {s} : deep = true → HasCase deep l s → HasCase deep l (.inner s)

/-- The same for `default`. -/
inductive HasDefault (deep : Bool) : Body → Prop
  | here : HasDefault deep .dflt
  | block {s} : HasDefault deep s → HasDefault deep (.block s)
  | left {s t} : HasDefault deep s → HasDefault deep (.list s t)
  | right {s t} : HasDefault deep t → HasDefault deep (.list s t)
  | inner {s} : deep = true → HasDefault deep s → HasDefault deep (.inner s)

/-- How many `default` there are outside of inner statements. -/
def defaults : Body → Nat
  | .dflt => 1
  | .block s => defaults s
  | .list s t => defaults s + defaults t
  | _ => 0

/-- How many labels outside of inner statements are the name `n`. -/
def named (n : Nat) : Body → Nat
  | .case_ l => if l.name = some n then 1 else 0
  | .block s => named n s
  | .list s t => named n s + named n t
  | _ => 0

/-- For the value `v` of the test some label is reached. -/
def Handles (body : Body) (v : Int) : Prop :=
  HasDefault true body ∨ ∃ l, HasCase true l body ∧ l.value = v

/-- An enumeration: its names and their values. -/
structure Enum where
  names : List Nat
  value : Nat → Int
  nodup : names.Nodup

/-- The labels that are names of members have the values of the members. -/
def Agrees (e : Enum) (body : Body) : Prop :=
  ∀ l, HasCase true l body → ∀ n ∈ e.names, l.name = some n → l.value = e.value n

/-- No label is inside a loop or conditional of the body. -/
def Flat (body : Body) : Prop :=
  (HasDefault true body → HasDefault false body) ∧ ∀ l, HasCase true l body → HasCase false l body

/-- Whether the comparison holds. -/
def Cmp.holds : Cmp → Int → Int → Prop
  | .eq, a, b => a = b
  | .ne, a, b => a ≠ b
  | .lt, a, b => a < b
  | .gt, a, b => a > b
  | .le, a, b => a ≤ b
  | .ge, a, b => a ≥ b
  | .other, _, _ => False

/-- The variable is assigned a constant, the test compares it with a constant, and the comparison
holds the first time. -/
def Executed (p : ForPred) : Prop :=
  ∃ v w, p.init = some v ∧ p.bound = some w ∧ p.sameStorage = true ∧ Cmp.holds p.op v w

end Spec
end SwitchEnum
end Splint
