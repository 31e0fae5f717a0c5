import Verif.Model.SameAlt
/-!
# When alternate types are the same
-/
namespace Splint.SameAlt

variable {α : Type} [DecidableEq α]

/-- the alternatives -/
def Ty.alts : Ty α → List α
  | .leaf a => [a]
  | .alt a b _ => a.alts ++ b.alts

/-- The full property: alternate types are the same exactly if they have the same alternatives, in any order. -/
def C150_full : Prop :=
  ∀ t1 t2 : Ty Nat, t1.isConj = true → t2.isConj = true → (same t1 t2 = some true ↔ ∀ a, a ∈ t1.alts ↔ a ∈ t2.alts)

/-- The last two are exchanged. -/
def SwapLast (l l' : List α) : Prop := ∃ p a b, l = p ++ [a, b] ∧ l' = p ++ [b, a]

end Splint.SameAlt
