import Verif.Model.CppSkip
/-!
# The lines of a file

What a line is: white space, then text or a directive; comments, strings and continued lines are part of
it. And which lines belong together.
-/
namespace Splint.CppSkip

/-- White space within a line, C11 5.2.1 and 6.4. -/
def hspace (c : Char) : Bool := [' ', '\t', '\x0b', '\x0c', '\r'].contains c

/-- A character of a name, C11 6.4.2.1; `$` too, as the preprocessor does. -/
def idchar (c : Char) : Bool := c.isAlphanum || c == '_' || c == '$'

/-- The text without the line ends that a backslash hides. -/
def splice : List Char → List Char
  | '\\' :: '\n' :: t => splice t
  | c :: t => c :: splice t
  | [] => []

/-- The characters of a comment after its first two: they end with the first `*/`. -/
def Comment (t : List Char) : Prop :=
  (∃ u, splice t = u ++ ['*', '/'] ∧ ¬ ['*', '/'] <:+: u ++ ['*']) ∧ t.getLast? = some '/'

/-- White space at the beginning of a line. -/
inductive White : List Char → Prop where
  | nil : White []
  | space {c w} : hspace c = true → White w → White (c :: w)
  | cont {w} : White w → White ('\\' :: '\n' :: w)
  | comment {t w} : Comment t → White w → White ('/' :: '*' :: (t ++ w))

/-- A number of hidden line ends. -/
def conts : Nat → List Char
  | 0 => []
  | n + 1 => '\\' :: '\n' :: conts n

/-- What is between two quotes. -/
inductive Quoted (q : Char) : List Char → Prop where
  | nil : Quoted q []
  | char {c l} : c ≠ q → c ≠ '\n' → c ≠ '\\' → Quoted q l → Quoted q (c :: l)
  | cont {l} : Quoted q l → Quoted q ('\\' :: '\n' :: l)
  | esc {c l} (n : Nat) : c ≠ '\n' → ¬ (c = '\\' ∧ l.head? = some '\n') → Quoted q l →
      Quoted q ('\\' :: (conts n ++ c :: l))

/-- A comment to the end of the line, after the slashes. -/
inductive LineComment : List Char → Prop where
  | nil : LineComment []
  | char {c l} : c ≠ '\n' → c ≠ '\\' → LineComment l → LineComment (c :: l)
  | cont {l} : LineComment l → LineComment ('\\' :: '\n' :: l)
  | backslash {c l} : c ≠ '\n' → LineComment (c :: l) → LineComment ('\\' :: c :: l)

/-- The characters of a line, without its end, in which every quote has its partner. -/
inductive Lexed : List Char → Prop where
  | nil : Lexed []
  | char {c l} : c ∉ ['\n', '\\', '\'', '"', '/'] → Lexed l → Lexed (c :: l)
  | slash {l} : (∀ c, l.head? = some c → c ∉ ['*', '/', '\\']) → Lexed l → Lexed ('/' :: l)
  | cont {l} : Lexed l → Lexed ('\\' :: '\n' :: l)
  | backslash {c l} : c ≠ '\n' → Lexed (c :: l) → Lexed ('\\' :: c :: l)
  | quoted {q t l} : q = '"' ∨ q = '\'' → Quoted q t → Lexed l → Lexed (q :: (t ++ q :: l))
  | comment {t l} : Comment t → Lexed l → Lexed ('/' :: '*' :: (t ++ l))
  | line {t} : LineComment t → Lexed ('/' :: '/' :: t)

/-- A line. -/
inductive SLine where
  | text (white body : List Char)
  | directive (white white2 name rest : List Char)
deriving DecidableEq, Repr

def SLine.chars : SLine → List Char
  | .text w t => w ++ t
  | .directive w w2 n r => w ++ '#' :: (w2 ++ (n ++ r))

/-- The characters do not begin with white space. -/
def NotWhite (t : List Char) : Prop :=
  (∀ c, t.head? = some c → hspace c = false) ∧ ¬ ['/', '*'] <+: t ∧ ¬ ['\\', '\n'] <+: t

/-- The line is as it should be. -/
def SLine.Valid : SLine → Prop
  | .text w t => White w ∧ Lexed t ∧ NotWhite t ∧ t.head? ≠ some '#'
  | .directive w w2 n r => White w ∧ White w2 ∧ (∀ c ∈ n, idchar c = true) ∧ Lexed r ∧
      (∀ c, r.head? = some c → idchar c = false) ∧ ¬ ['\\', '\n'] <+: r ∧
      (n = [] → NotWhite r ∧ ¬ ['/', '/'] <+: r)

/-- The directives for conditionals, C11 6.10. -/
def conditionals : List (String × Kind) :=
  [("if", .opens), ("ifdef", .opens), ("ifndef", .opens), ("elif", .elif), ("else", .els), ("endif", .endif)]

def dirKind (name : List Char) : Kind :=
  ((conditionals.find? fun p => p.1.toList == name).map (·.2)).getD .other

/-- Which directive it is. -/
def SLine.kind : SLine → Kind
  | .text .. => .other
  | .directive _ _ n _ => dirKind n

def render : List SLine → List Char
  | [] => []
  | l :: ls => l.chars ++ '\n' :: render ls

mutual
/-- Lines in which every conditional is complete. -/
inductive Balanced : List SLine → Prop where
  | nil : Balanced []
  | line {l ls} : l.kind = .other → Balanced ls → Balanced (l :: ls)
  | group {o m ls} : o.kind = .opens → Middle m → Balanced ls → Balanced (o :: (m ++ ls))
/-- From after #if to #endif. -/
inductive Middle : List SLine → Prop where
  | endif {b e} : Balanced b → e.kind = .endif → Middle (b ++ [e])
  | next {b e m} : Balanced b → (e.kind = .elif ∨ e.kind = .els) → Middle m → Middle (b ++ e :: m)
end

end Splint.CppSkip
