import Verif.Spec.CExpr
/-!
The iterations of a loop, for C133.

The variables `ts` are incremented once in each iteration; nothing else that the requirements are
about changes.
-/
namespace Splint.Bounds.HeurSpec
open Splint.Bounds Splint.Bounds.Spec

/-- the operands of an expression -/
def terms : Expr → List Term
  | .term t => [t]
  | .un _ e => terms e
  | .bin _ a b => terms a ++ terms b

/-- the operands of a constraint -/
def termsC (c : Constraint) : List Term := terms c.l ++ terms c.r

/-- a value moved by `k` -/
def _root_.Splint.Bounds.Spec.Val.move (v : Val) (k : Int) : Val := ⟨v.base, v.off + k⟩

/-- the term is one of the variables -/
def OneOf (sim : Nat → Nat → Bool) (ts : List Term) (t : Term) : Prop :=
  ∃ u ∈ ts, t.similar sim u = true

/-- `σ` is the state after `k` iterations, as far as the terms `l` are concerned, of a loop that
starts in `ρ` and increments the variables `ts`. -/
structure After (sim : Nat → Nat → Bool) (ts : List Term) (l : List Term) (ρ : State) (k : Int)
    (σ : State) : Prop where
  size : σ.size = ρ.size
  moved : ∀ t ∈ l, OneOf sim ts t → evalTerm σ t = (evalTerm ρ t).move k
  kept : ∀ t ∈ l, ¬ OneOf sim ts t → evalTerm σ t = evalTerm ρ t

/-- `x = x + 1`, read in one state for the left side and in the state before for the right side, says
that `x` has been incremented. -/
def Increment (sim : Nat → Nat → Bool) (t : Term) (c : Constraint) : Prop :=
  c.l = .term t ∧ c.ar = .eq ∧ ∃ u, c.r = .bin .plus (.term u) (.lit 1) ∧ t.similar sim u = true

/-- `i < n` or `i <= n`, where `i` is incremented by the loop and starts at 0 or above, and `n` is an
integer that does not change -/
structure Counter (sim : Nat → Nat → Bool) (ts : List Term) (ρ : State) (c : Constraint) : Prop where
  var : ∃ t, c.l = .term t ∧ OneOf sim ts t ∧ ∃ i0, evalTerm ρ t = .int i0 ∧ 0 ≤ i0
  bound : ∃ n, eval ρ c.r = some (.int n)
  fixed : ∀ t ∈ terms c.r, ¬ OneOf sim ts t

/-- The iteration `k` (counted from 0) of `for (i = i0; i < n; i++)` (or `i <= n`) takes place. -/
def Executed (strict : Bool) (i0 n k : Int) : Prop :=
  0 ≤ k ∧ if strict then i0 + k < n else i0 + k ≤ n

/-- all hold -/
def AllHold (ρ : State) (l : List Constraint) : Prop := ∀ c ∈ l, Holds ρ c

end Splint.Bounds.HeurSpec
