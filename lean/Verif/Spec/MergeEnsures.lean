import Verif.Model.MergeEnsures
import Verif.Spec.Constraint
/-!
# What is known after an assignment
-/
namespace Splint.Bounds.Spec

/-- the state after an assignment to the variable `x`, which is the same as the references that `sim` says -/
def assign (sim : Nat → Nat → Bool) (x : Nat) (v : Val) (ρ : State) : State :=
  { ρ with ref := fun r => if r = x ∨ sim x r = true then v else ρ.ref r }

/-- the expression does not contain the variable -/
def Free (sim : Nat → Nat → Bool) (x : Nat) : Expr → Prop
  | .term (.lit _) => True
  | .term (.ref r _) => r ≠ x ∧ sim x r = false ∧ sim r x = false
  | .term (.node n) => ∀ r, n.ref = some r → r ≠ x ∧ sim x r = false ∧ sim r x = false
  | .un _ e => Free sim x e
  | .bin _ a b => Free sim x a ∧ Free sim x b

/-- C155 in full: what is known after `x = e`, from facts that held before it and the fact `x == e`, holds after it. -/
def C155_full : Prop :=
  ∀ (sim : Nat → Nat → Bool) (closer : Constraint → Constraint → Bool) (ρ : State) (l1 : List Constraint) (x : Nat) (e : Expr) (v : Val)
    (l l2 : List Constraint), Same sim ρ → (∀ c ∈ l1, Holds ρ c) → eval ρ e = some v →
    Constraint.mergeEnsures sim closer l1 [⟨.term (.ref x none), .eq, e⟩] = some (l, l2) → ∀ c ∈ l, Holds (assign sim x v ρ) c

end Splint.Bounds.Spec
