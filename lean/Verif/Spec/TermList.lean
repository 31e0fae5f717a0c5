import Verif.Model.TermList
/-!
# Lists that grow at both ends, as plain lists
-/
namespace Splint.TermListSpec
open Splint.TermList
variable {V : Type}

/-- The elements after some calls. -/
def content : List V → List (Op V) → List V
  | l, [] => l
  | l, .addh v :: os => content (l ++ [v]) os
  | l, .addl v :: os => content (v :: l) os
  | l, _ :: os => content l os

/-- The index of the current element: it stays with its element when others are put before it. There is none after an
advance beyond the end. -/
def position : List V → Int → List (Op V) → Option Int
  | _, p, [] => some p
  | l, p, .addh v :: os => position (l ++ [v]) p os
  | l, p, .addl v :: os => position (v :: l) (p + 1) os
  | l, _, .reset :: os => position l 0 os
  | l, _, .finish :: os => position l (l.length - 1) os
  | l, p, .advance :: os => if p + 1 < l.length then position l (p + 1) os else none

/-- `finish` is not called while the list is empty. -/
def NoEmptyFinish : List V → List (Op V) → Prop
  | _, [] => True
  | l, .addh v :: os => NoEmptyFinish (l ++ [v]) os
  | l, .addl v :: os => NoEmptyFinish (v :: l) os
  | l, .finish :: os => l ≠ [] ∧ NoEmptyFinish l os
  | l, _ :: os => NoEmptyFinish l os

end Splint.TermListSpec
