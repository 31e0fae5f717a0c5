/-!
Types with a complete list of their values, so that statements about all values of a C
enumeration can be decided by the kernel.  Nothing of the model depends on this file.
-/
namespace Splint

/-- A type with a list containing all its values. -/
class Listed (α : Type) where
  all : List α
  complete : ∀ a, a ∈ all

instance Listed.decAll {α : Type} [Listed α] {p : α → Prop} [DecidablePred p] :
    Decidable (∀ a, p a) :=
  decidable_of_iff (∀ a ∈ (Listed.all : List α), p a)
    ⟨fun h a => h a (Listed.complete a), fun h a _ => h a⟩

instance Listed.decEx {α : Type} [Listed α] {p : α → Prop} [DecidablePred p] :
    Decidable (∃ a, p a) :=
  decidable_of_iff (∃ a ∈ (Listed.all : List α), p a)
    ⟨fun ⟨a, _, h⟩ => ⟨a, h⟩, fun ⟨a, h⟩ => ⟨a, Listed.complete a, h⟩⟩

end Splint
