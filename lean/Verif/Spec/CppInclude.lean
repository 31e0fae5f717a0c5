import Verif.Model.CppInclude
import Verif.Spec.CppCond
/-!
# Files that may be included once

A file that a second #include may pass over: nothing but blank lines outside one `#ifndef` ... `#endif`.
-/
namespace Splint.CppInclude
open CppCond (Block Tail)

variable {κ : Type}

/-- Nothing but blank lines. -/
def Blanks : Block (Ln κ) → Prop
  | .nil => True
  | .line l r => l = .blank ∧ Blanks r
  | .cond .. => False

/-- The file is within `#ifndef g`, with no #else or #elif. -/
def Guarded (g : String) : Block (Ln κ) → Prop
  | .nil => False
  | .line l r => l = .blank ∧ Guarded g r
  | .cond l _ t r => l = .ifndef g ∧ (∃ e, t = .endif e) ∧ Blanks r

/-- There is no #else. -/
def NoElse : Tail (Ln κ) → Prop
  | .endif _ => True
  | .els .. => False
  | .elif _ _ t => NoElse t

/-- Text has been seen, and no #include since. -/
def seenAfter (seen : Bool) : Ln κ → Bool
  | .text _ => true
  | .incl _ => false
  | _ => seen

def isIncl : Ln κ → Bool
  | .incl _ => true
  | _ => false

/-- The file ends with a conditional that begins with `#ifndef g` and has no #else, and there is no text
before it with no #include in between. -/
def Ends (seen : Bool) (g : String) : Block (Ln κ) → Prop
  | .nil => False
  | .line l r => Ends (seenAfter seen l) g r
  | .cond l c t r => (seen = false ∧ l = .ifndef g ∧ NoElse t ∧ Blanks r) ∨ Ends (seen && !(c.lines ++ t.lines).any isIncl) g r

/-- The file is properly nested, and if it ends like one that may be passed over, it is one. -/
def Good (ls : List (Ln κ)) : Prop :=
  ∃ b : Block (Ln κ), b.Ok Ln.kind ∧ b.lines = ls ∧ ∀ g, Ends false g b → Guarded g b

/-- The preprocessor started on a file. -/
def start (macros : String → Bool) : St := { macros := macros, out := [], fresh := false, files := [] }

end Splint.CppInclude
