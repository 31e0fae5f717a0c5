import Verif.Spec.CExpr
/-! Conditions on constraints (C27, C28). -/
namespace Splint.Bounds.Spec

/-- The constants of the expression can be collected: it is a single term or `maxSet(..)` and the like,
or `c - e` does not occur as a right operand, it does not begin with a reference with a recorded
value, and its literals are small. -/
def Clean (ρ : State) (e : Expr) : Prop :=
  (∀ op a b, e ≠ .bin op a b)
  ∨ ∃ S K u w k, Regular (fun _ _ => false) IsLit S K u k e ∧ Typed ρ w e ∧ mag e < 2 ^ 31

/-- both sides have values that can be compared -/
def Comparable (ρ : State) (c : Constraint) : Prop :=
  ∃ x y, eval ρ c.l = some x ∧ eval ρ c.r = some y ∧ x.base = y.base

/-- a regular expression without references with recorded values, which can be evaluated -/
def Plain (sim : Nat → Nat → Bool) (ρ : State) (S : Term → Prop) (k : Option Term) (e : Expr) : Prop :=
  Regular sim Const S False false k e ∧ Typed ρ false e

/-- The constraints that are rearranged as they should be: each side is a constant or regular, without
references with recorded values; the first term of the right side is not taken to be the same as that
of a right operand on the left; both sides can be evaluated and compared, and the literals are small. -/
structure Linear (sim : Nat → Nat → Bool) (ρ : State) (c : Constraint) : Prop where
  left : Fits ρ c.l
  right : Fits ρ c.r
  comparable : Comparable ρ c
  small : mag c.l + mag c.r < 2 ^ 31
  form : (Const c.l ∧ (Const c.r ∨ ∃ S k, Plain sim ρ S k c.r))
    ∨ ∃ S k, Plain sim ρ S k c.l ∧ (Const c.r ∨ ∃ S' k', Plain sim ρ S' k' c.r
        ∧ ∀ s, S s → ∀ t, k' = some t → t.similar sim s = false)

/-- the right side is not `sizeof(..)` plus or minus something -/
def NoSizeof (c : Constraint) : Prop :=
  ∀ op n e, c.r = .bin op (.term (.node n)) e → n.sizeOf = none

def Strict (ar : Ar) : Prop := ar = .gt ∨ ar = .lt

/-- what is recorded in a known constraint is true, and the constants on its right side can be
collected -/
structure Fact (ρ : State) (c : Constraint) : Prop where
  left : Fits ρ c.l
  right : Fits ρ c.r
  clean : Clean ρ c.r

/-- the same for a requirement, which also can be evaluated and is not about `sizeof` -/
structure Proper (ρ : State) (c : Constraint) : Prop extends Fact ρ c where
  comparable : Comparable ρ c
  noSizeof : NoSizeof c

end Splint.Bounds.Spec
