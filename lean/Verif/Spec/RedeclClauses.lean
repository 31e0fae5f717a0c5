import Verif.Model.RedeclClauses
import Verif.Spec.Modify
/-!
# What clauses in several declarations say together

Only what is in the clauses is used here.
-/
namespace Splint.RedeclClauses.Spec

/-- the name is in the list -/
def Lists (l : Globs) (g : GName) : Prop := ∃ s, (g, s) ∈ l

/-- the conjunction of what is left of a contract: its parts -/
inductive Part {C : Type} : C → Option (Cons C) → Prop where
  | base (c : C) : Part c (some (.base c))
  | left {c : C} {a : Option (Cons C)} (b : Option (Cons C)) : Part c a → Part c (some (.conj a b))
  | right {c : C} (a : Option (Cons C)) {b : Option (Cons C)} : Part c b → Part c (some (.conj a b))

/-- Nothing of the storage is listed or free, for some alternative. -/
def NotPermitted (env : ModEnv) (l : SRef.Mods) (s : SRef) : Prop :=
  ∃ c ∈ s.alts, ∀ u ∈ c, (∀ e ∈ l, u.similar e.1 = false) ∧ u.freeRoot env = false

end Splint.RedeclClauses.Spec
