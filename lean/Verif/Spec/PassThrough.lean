import Verif.Model.PassThrough
/-!
# Quotes in the text of a flag
-/
namespace Splint.PassThroughSpec
open Splint.PassThrough

/-- How many double quotes of a text count: those that are not behind a backslash that counts itself. The first
argument says whether one is just before. -/
def quotes : Bool → Str → Nat
  | _, [] => 0
  | esc, '\\' :: cs => quotes (!esc) cs
  | true, '"' :: cs => quotes false cs
  | false, '"' :: cs => quotes false cs + 1
  | _, _ :: cs => quotes false cs

/-- No quotes, backslashes or equal signs. -/
def Plain (s : Str) : Prop := ∀ c ∈ s, c ≠ '"' ∧ c ≠ '\'' ∧ c ≠ '\\' ∧ c ≠ '='

end Splint.PassThroughSpec
