import Verif.Model.CppDefine
/-!
When two definitions of a macro are the same (ISO C 6.10.3): the parameters have the same number and
spelling, and so have the tokens of the text, with white space between the same ones, however much of it.
-/
namespace Splint.CppMacro.Spec

/-- of each run of white space one space is kept -/
def squash (sp : Char → Bool) : List Char → List Char
  | [] => []
  | c :: l =>
    if sp c then if (l.head?.map sp).getD false then squash sp l else ' ' :: squash sp l
    else c :: squash sp l

def quoteChar (c : Char) : Bool := c = '\'' || c = '"'

/-- the same, but not within literals; the first argument is the delimiter of the literal -/
def norm : Option Char → List Char → List Char
  | _, [] => []
  | none, c :: l =>
    if isHor c then if (l.head?.map isHor).getD false then norm none l else ' ' :: norm none l
    else c :: norm (if quoteChar c then some c else none) l
  | some _, [c] => [c]
  | some d, c :: e :: l =>
    if c = '\\' then c :: e :: norm (some d) l
    else c :: norm (if c = d then none else some d) (e :: l)
termination_by _ l => l.length

/-- the text without white space at the end -/
def trimEnd (l : List Char) : List Char := (l.reverse.dropWhile isSp).reverse

def SameText (a b : List Char) : Prop := norm none (trimEnd a) = norm none (trimEnd b)

def SameDef (m1 m2 : Made) : Prop := m1.params = m2.params ∧ SameText m1.body m2.body

/-- names of parameters have no comma -/
def NoComma (m : Made) : Prop := ∀ p ∈ m.params.getD [], ',' ∉ p.1

end Splint.CppMacro.Spec
