import Verif.Spec.FileLoc
import Verif.Model.MessageLog
/-! # Which messages are new -/
namespace Splint.Spec

/-- A message is identified by its place and its text. -/
abbrev Seen := List (Option (Int × Int × Int) × Bytes)

/-- Answers of an ideal log: new iff not seen before. -/
def fresh (seen : Seen) : List (FileLoc × Bytes) → List Bool
  | [] => []
  | (fl, mess) :: rest =>
    decide ((place fl, mess) ∉ seen) :: fresh ((place fl, mess) :: seen) rest

/-- A position in user text: known and not in a library or system header; the file is not derived from another. -/
def Ordinary (f : FileLoc) : Prop := f ≠ none ∧ ¬ InLibrary f ∧ Plain f

end Splint.Spec
