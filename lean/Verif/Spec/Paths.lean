import Verif.Model.Paths
/-! What names of files mean. -/
namespace Splint.Path.Spec

/-- The parts of a name between slashes. -/
def pieces : Name → List Name
  | [] => [[]]
  | c :: s =>
    if c = '/' then [] :: pieces s
    else
      match pieces s with
      | [] => [[c]]
      | w :: ws => (c :: w) :: ws

/-- Where a part leads from the directory that is reached by the names `cs` from the root: the root is
above itself. -/
def step (cs : List Name) (p : Name) : List Name :=
  if p = [] ∨ p = c!"." then cs else if p = c!".." then cs.dropLast else cs ++ [p]

/-- Where an absolute name leads, without regard to symbolic links. -/
def resolve (n : Name) : List Name := (pieces n).foldl step []

/-- The name with these parts. -/
def render (cs : List Name) : Name := cs.flatMap ('/' :: ·)

/-- On the way the name leads above the root. -/
def Climbs (n : Name) : Prop := ∃ a b, pieces n = a ++ c!".." :: b ∧ a.foldl step [] = []

/-- A part that is the name of a file or directory. -/
def Proper (w : Name) : Prop := w ≠ [] ∧ w ≠ c!"." ∧ w ≠ c!".." ∧ '/' ∉ w

/-- The shortest absolute name of something other than the root. -/
def Normal (n : Name) : Prop := ∃ cs, cs ≠ [] ∧ (∀ w ∈ cs, Proper w) ∧ n = render cs

/-- The name of the working directory as the system gives it. -/
def Cwd (n : Name) : Prop := n = ['/'] ∨ Normal n

/-- The file `f` is in the directory `d` or below. -/
def Below (d f : Name) : Prop := ∃ r, f = d ++ '/' :: r

end Splint.Path.Spec

namespace Splint.Path.Spec

/-- A text and its parts between separators. -/
def IsSplit (sep : Char) (s : List Char) (ws : List (List Char)) : Prop :=
  ws ≠ [] ∧ (∀ w ∈ ws, sep ∉ w) ∧ s = List.intercalate [sep] ws

/-- A file in a directory of a search list; an empty element is the current directory. -/
def entry (d file : Name) : Name := if d = [] then file else d ++ '/' :: file

/-- The last part of a name and what is before it. -/
def IsLast (f dir last : Name) : Prop := f = dir ++ last ∧ '/' ∉ last ∧ (dir = [] ∨ dir.getLast? = some '/')

/-- The parts of a last part before and from its last full stop, the second empty if there is none. -/
def IsExt (last stem ext : Name) : Prop :=
  last = stem ++ ext ∧ (('.' ∉ last ∧ ext = []) ∨ ∃ e, ext = '.' :: e ∧ '.' ∉ e)

end Splint.Path.Spec
