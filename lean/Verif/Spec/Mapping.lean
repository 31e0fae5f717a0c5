import Verif.Model.Mapping
/-!
# What a mapping should be: a function that is changed at one point at a time
-/
namespace Splint.MappingSpec

/-- The function after some bindings, the first one first. -/
def meaning : (Nat → Nat) → List (Nat × Nat) → Nat → Nat
  | f, [] => f
  | f, b :: bs => meaning (fun n => if n = b.1 then b.2 else f n) bs

end Splint.MappingSpec
