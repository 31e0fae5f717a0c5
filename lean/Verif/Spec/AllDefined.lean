import Verif.Model.AllDefined
/-!
# Where things are specified and declared
-/
namespace Splint.AllDefinedSpec
open Splint.AllDefined

/-- The place is in a library, or a specification that is imported, or comes from the command line: what it specifies
is for other programs to define. -/
def Elsewhere (l : Loc) : Prop := l.kind ∈ [FL.lib, .stdlib, .stdhdr, .imp, .preproc]

/-- The place is in a file of the program that is checked, which is not an XH file. -/
def Own (l : Loc) : Prop := l.kind = .normal ∧ l.xhFile = false

/-- The entry is specified for this program, and is neither declared nor defined. -/
def Absent (e : Entry) : Prop :=
  e.priv = false ∧ e.fake = false ∧ e.declared = none ∧ e.defined = none ∧ ∃ l, e.specified = some l ∧ ¬Elsewhere l

end Splint.AllDefinedSpec
