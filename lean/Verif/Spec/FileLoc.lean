import Verif.Model.FileLoc
/-!
# What "before" means for source positions

Written without the comparison functions of the tool: a position is a file number,
a line and a column; an undefined position precedes everything.
-/
namespace Splint.Spec

/-- The place a position denotes, for the user: in a file that is derived from another (preprocessed text), it
is a place in the other. -/
def place (f : FileLoc) : Option (Int × Int × Int) := f.map fun r => (r.root.getD r.fid, r.lineno, r.column)

/-- The position as it is numbered. -/
def number (f : FileLoc) : Option (Int × Int × Int) := f.map fun r => (r.fid, r.lineno, r.column)

/-- The file of the position, if any, is not derived from another one. -/
def Plain (f : FileLoc) : Prop := ∀ r, f = some r → r.root = some r.fid

/-- `p` is strictly before `q`: by file, then line, then column; unknown first. -/
def Before (p q : Option (Int × Int × Int)) : Prop :=
  match p, q with
  | none, none => False
  | none, some _ => True
  | some _, none => False
  | some (a, l, c), some (a', l', c') => a < a' ∨ (a = a' ∧ (l < l' ∨ (l = l' ∧ c < c')))

/-- A position inside a library or system header. -/
def InLibrary (f : FileLoc) : Prop :=
  ∃ r, f = some r ∧ (r.kind = .lib ∨ r.kind = .stdhdr ∨ r.kind = .stdlib)

end Splint.Spec
