import Verif.Model.IncludeNest
/-!
# Trees of include files
-/
namespace Splint.IncludeNest

mutual
/-- A file: its number, what it includes, its last line. -/
inductive Tree where
  | file (f : Nat) (body : Body) (last : Nat)
/-- The #include lines of a file: the line, the file included. -/
inductive Body where
  | nil
  | incl (site : Nat) (t : Tree) (rest : Body)
end

def Tree.root : Tree → Nat
  | .file f _ _ => f

mutual
/-- What is told from the beginning of a file to its end. -/
def Tree.events : Tree → List Ev
  | .file f body last => body.events f ++ [.line last]
/-- The same for the #include lines of `f`: the line, the marker at the beginning of the file, the file, and
the marker after it. -/
def Body.events (f : Nat) : Body → List Ev
  | .nil => []
  | .incl site t rest => .line site :: .marker t.root 1 :: (t.events ++ .marker f (site + 1) :: rest.events f)
end

mutual
/-- No file is open twice: `open_` are the files that include this one. -/
def Tree.Once (open_ : List Nat) : Tree → Prop
  | .file f body _ => f ∉ open_ ∧ body.Once (f :: open_)
def Body.Once (open_ : List Nat) : Body → Prop
  | .nil => True
  | .incl _ t rest => t.Once open_ ∧ rest.Once open_
end

/-- The include sites that lead to a place, but for special files; the one in the main file is there anyway. -/
def listed (special : Nat → Bool) (chain : List Fl) : List Fl :=
  chain.dropLast.filter (fun e => !special e.file) ++ chain.getLast?.toList

mutual
/-- The inclusions that are too deep, in the order of the text: `chain` has the sites that lead here, the
innermost first, the one in the main file last. The depth of a file is the number of files between it and
the main file, with it and without the main file, special files not counted. -/
def Tree.tooDeep (special : Nat → Bool) (max : Nat) (chain : List Fl) : Tree → List Report
  | .file f body _ =>
    (match chain with
      | [] => []
      | site :: outer =>
        let depth := ((f :: chain.map (·.file)).dropLast.filter (fun f => !special f)).length
        if depth > max then [⟨depth, site, listed special outer⟩] else []) ++
    body.tooDeep special max f chain
def Body.tooDeep (special : Nat → Bool) (max : Nat) (f : Nat) (chain : List Fl) : Body → List Report
  | .nil => []
  | .incl site t rest => t.tooDeep special max (⟨f, site⟩ :: chain) ++ rest.tooDeep special max f chain
end

end Splint.IncludeNest
