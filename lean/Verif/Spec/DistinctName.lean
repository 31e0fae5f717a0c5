import Verif.Tactics
/-!
# Names that are not distinguishable: what is documented

flags.def:2680-2761: a name is not distinguishable from another one using the number of significant
characters, if case is ignored, or if similar looking characters match.
-/
namespace Splint.Distinct.Spec

/-- The same letter up to case (letters are those of ASCII). -/
def SameLetter (a b : Char) : Prop :=
  a = b ∨ ∃ k < 26, (a.toNat = 65 + k ∧ b.toNat = 97 + k) ∨ (a.toNat = 97 + k ∧ b.toNat = 65 + k)

/-- The characters that look alike. -/
def classes : List (List Char) := [['1', 'I', 'l'], ['0', 'O', 'o'], ['2', 'Z'], ['5', 'S']]

def LookAlike (a b : Char) : Prop := a = b ∨ ∃ k ∈ classes, a ∈ k ∧ b ∈ k

/-- Two characters that do not distinguish names. -/
def Match (ci la : Bool) (a b : Char) : Prop :=
  a = b ∨ (ci = true ∧ SameLetter a b) ∨ (la = true ∧ LookAlike a b)

/-- The significant characters; a limit of 0 is none. -/
def sig (n : Nat) (s : List Char) : List Char := if n = 0 then s else s.take n

/-- Not distinguishable. -/
def Indistinct (n : Nat) (ci la : Bool) (s t : List Char) : Prop :=
  List.Forall₂ (Match ci la) (sig n s) (sig n t)

end Splint.Distinct.Spec
