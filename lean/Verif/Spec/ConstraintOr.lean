import Verif.Model.ConstraintOr
import Verif.Spec.Constraint
/-! What a requirement with alternatives says, for C123. -/
namespace Splint.Bounds.Spec
open Bounds.Constraint

/-- one of the alternatives holds -/
def AnyHolds (ρ : State) (c : List Constraint) : Prop := ∃ a ∈ c, Holds ρ a

/-- each of the requirements holds -/
def AllHold (ρ : State) (l : List (List Constraint)) : Prop := ∀ c ∈ l, AnyHolds ρ c

/-- the forms in which a requirement is looked up among the facts: itself; with equals put in for
equals; with its right side lowered by the facts `b < y`; that with its right side raised by the facts
`y < b` and `y <= b`, or with its left side raised by the facts `x < b` and `x <= b` -/
def forms (sim : Nat → Nat → Bool) (closer : Constraint → Constraint → Bool)
    (facts : List Constraint) (c : Constraint) : List Constraint :=
  [c, substitute sim closer c facts, inequality sim c facts,
    strong sim (inequality sim c facts) facts, unsound sim (inequality sim c facts) facts]

/-- A requirement about which the facts lead to no wrong conclusion: it can be evaluated and is not
strict, also after equals are put in for equals; and if it is a lower bound, then it is in simplest form
and no fact is an upper bound. -/
structure Safe (sim : Nat → Nat → Bool) (closer : Constraint → Constraint → Bool) (ρ : State)
    (facts : List Constraint) (c : Constraint) : Prop where
  proper : Proper ρ c
  notStrict : ¬ Strict c.ar
  linear : Linear sim ρ (substituteIn sim closer c facts)
  proper' : Proper ρ (substitute sim closer c facts)
  notStrict' : ¬ Strict (substitute sim closer c facts).ar
  lower : c.ar = .gte → (∀ p ∈ facts, p.ar ≠ .lt ∧ p.ar ≠ .lte) ∧ simplify sim c = c

/-- a lower bound in simplest form, without alternatives, except that it may be repeated -/
def Lower (sim : Nat → Nat → Bool) (ρ : State) (c : List Constraint) : Prop :=
  ∃ d, c ≠ [] ∧ (∀ a ∈ c, a = d) ∧ Proper ρ d ∧ d.ar = .gte ∧ simplify sim d = d

end Splint.Bounds.Spec
