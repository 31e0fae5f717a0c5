import Verif.Model.MtScan
/-!
# What the tokens of state definitions must be
-/
namespace Splint.MtScan

/-- what may stand between tokens -/
inductive Gap
  | blank (c : Char)
  | comment (text : List Char)
  deriving DecidableEq, Repr

/-- the end of a comment does not occur in its text -/
def CommentText (t : List Char) : Prop := ∀ a b : List Char, t ≠ a ++ '*' :: '/' :: b

def Gap.ok : Gap → Prop
  | .blank c => isSpace c = true
  | .comment t => CommentText t

def Gap.text : Gap → List Char
  | .blank c => [c]
  | .comment t => '/' :: '*' :: t ++ ['*', '/']

def gapText (g : List Gap) : List Char := g.flatMap Gap.text

/-- a string of which every quote is escaped, and which does not end in an escape -/
inductive StrText : List Char → Prop
  | nil : StrText []
  | esc {c : Char} {t : List Char} : StrText t → StrText ('\\' :: c :: t)
  | plain {c : Char} {t : List Char} : c ≠ '\\' → c ≠ '"' → StrText t → StrText (c :: t)

/-- the tokens of the language: the words and marks of the table, names, and strings -/
def Tok.ok : Tok → Prop
  | .known s => s ∈ words ∨ s ∈ marks
  | .ident s => (∃ c l, s = c :: l ∧ isAlpha c = true ∧ ∀ x ∈ l, wordChar x = true) ∧ s ∉ words
  | .strLit s => StrText s
  | .bad => False
  | .eof => False

def Tok.text : Tok → List Char
  | .known s => s
  | .ident s => s
  | .strLit s => '"' :: s ++ ['"']
  | .bad => []
  | .eof => []

def Tok.isWord : Tok → Bool
  | .known s => words.contains s
  | .ident _ => true
  | _ => false

def Tok.isMark : Tok → Bool
  | .known s => marks.contains s
  | _ => false

/-- The text of tokens, each with the gap behind it. -/
def render : List (Tok × List Gap) → List Char
  | [] => []
  | (t, g) :: r => t.text ++ gapText g ++ render r

/-- Two words in a row need a gap; all else is clear without. -/
def Clear : List (Tok × List Gap) → Prop
  | [] => True
  | [_] => True
  | (t, g) :: (t', g') :: r => (t.isWord = true → t'.isWord = true → g ≠ []) ∧ Clear ((t', g') :: r)

/-- What the scanner needs: behind a mark, a blank or a word. -/
def Spaced : List (Tok × List Gap) → Prop
  | [] => True
  | (t, g) :: r =>
    (t.isMark = true → (∃ c g', g = .blank c :: g') ∨ (g = [] ∧ ∀ t' g' r', r = (t', g') :: r' → t'.isWord = true)) ∧ Spaced r

/-- The full property: tokens are found wherever it is clear where they end. -/
def C149_full : Prop :=
  ∀ (lead : List Gap) (ts : List (Tok × List Gap)), (∀ g ∈ lead, g.ok) → (∀ p ∈ ts, p.1.ok ∧ ∀ g ∈ p.2, g.ok) → Clear ts →
    scan (gapText lead ++ render ts) = some (.ok (ts.map Prod.fst))

end Splint.MtScan
