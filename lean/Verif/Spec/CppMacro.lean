import Verif.Model.CppMacro
/-!
The replacement list of a macro as tokens (ISO C 6.4), and the substitution of arguments (ISO C 6.10.3).
The classes of characters are those of the model.
-/
namespace Splint.CppMacro.Spec

/-- Preprocessing tokens, and white space between them. Punctuators are single characters here, as they are copied. -/
inductive Tok
  | ws (l : List Char)
  | word (l : List Char)
  | num (l : List Char)
  | lit (l : List Char)
  | hash
  | paste
  | oth (c : Char)
deriving DecidableEq, Repr

/-- the rest of a literal, up to the delimiter `q` -/
def litBody (q : Char) : List Char → List Char × List Char
  | [] => ([], [])
  | [c] => ([c], [])
  | c :: d :: r =>
    if c = q then ([c], d :: r)
    else if c = '\\' then
      let (b, r') := litBody q r
      (c :: d :: b, r')
    else
      let (b, r') := litBody q (d :: r)
      (c :: b, r')

/-- the rest of a number: letters, digits, points, and signs after an `e` or `p` -/
def numBody (prev : Char) : List Char → List Char × List Char
  | [] => ([], [])
  | c :: r =>
    if isId c || c = '.' || ((c = '+' || c = '-') && (prev = 'e' || prev = 'E' || prev = 'p' || prev = 'P')) then
      let (b, r') := numBody c r
      (c :: b, r')
    else ([], c :: r)

def isQuote (c : Char) : Bool := c = '\'' || c = '"'

/-- the first token, `sp` being white space -/
def lex1 (sp : Char → Bool) (c : Char) (r : List Char) : Tok × List Char :=
  if sp c then (.ws (c :: r.takeWhile sp), r.dropWhile sp)
  else if isQuote c then (.lit (c :: (litBody c r).1), (litBody c r).2)
  else if c = 'L' && (r.head?.map isQuote).getD false then
    match r with
    | q :: r' => (.lit (c :: q :: (litBody q r').1), (litBody q r').2)
    | [] => (.oth c, [])
  else if isStart c then (.word (c :: r.takeWhile isId), r.dropWhile isId)
  else if isDig c || (c = '.' && (r.head?.map isDig).getD false) then (.num (c :: (numBody c r).1), (numBody c r).2)
  else if c = '#' then
    match r with
    | '#' :: r' => (.paste, r')
    | _ => (.hash, r)
  else (.oth c, r)

theorem litBody_length (q : Char) (l : List Char) : (litBody q l).2.length ≤ l.length := by
  fun_induction litBody q l with
  | case1 => simp
  | case2 => simp
  | case3 => simp
  | case4 => simp_all; omega
  | case5 => simp_all; omega

theorem numBody_length (p : Char) (l : List Char) : (numBody p l).2.length ≤ l.length := by
  fun_induction numBody p l with
  | case1 => simp
  | case2 => simp_all; omega
  | case3 => simp

theorem lex1_length (sp : Char → Bool) (c : Char) (r : List Char) : (lex1 sp c r).2.length ≤ r.length := by
  unfold lex1
  split
  · exact length_dropWhile_le _ _
  split
  · exact litBody_length _ _
  split
  · cases r with
    | nil => simp
    | cons q r' => have := litBody_length q r'; simp; omega
  split
  · exact length_dropWhile_le _ _
  split
  · exact numBody_length _ _
  split
  · split <;> simp
  · simp

def lex (sp : Char → Bool) : List Char → List Tok
  | [] => []
  | c :: r =>
    have := lex1_length sp c r
    (lex1 sp c r).1 :: lex sp (lex1 sp c r).2
termination_by l => l.length
decreasing_by simp; omega

def Tok.text : Tok → List Char
  | .ws l | .word l | .num l | .lit l => l
  | .hash => ['#']
  | .paste => ['#', '#']
  | .oth c => [c]

def skipWs : List Tok → List Tok
  | .ws _ :: ts => ts
  | ts => ts

/-- the number of a parameter -/
def paramNo (ps : Params) (n : List Char) : Option Nat := ps.findIdx? fun p => p.1 = n

def isPaste (ts : List Tok) : Bool := ts.head? = some .paste

/-- An argument next to `##`: as it was written, without the white space at the `##`. -/
def trimmed (pre post : Bool) (l : List Char) : List Char :=
  let l := if pre then l.dropWhile isSp else l
  if post then (l.reverse.dropWhile isSp).reverse else l

/-- `##` and `#` act on the tokens next to them: white space in between does not matter. -/
def tighten : List Tok → List Tok
  | [] => []
  | .ws l :: ts => if isPaste ts then tighten ts else .ws l :: tighten ts
  | .paste :: .ws _ :: ts => .paste :: tighten ts
  | .hash :: .ws _ :: ts => .hash :: tighten ts
  | t :: ts => t :: tighten ts

/-- what comes before a token -/
inductive Mode
  | none | hash | paste
deriving DecidableEq, Repr

/-- What a word is replaced by: a parameter after `#` by a string, one next to `##` by the argument as written, all others by the
expanded argument. -/
def value (ps : Params) (args : Nat → Arg) (str : List Char → List Char) (m : Mode) (w : List Char) (post : Bool) : List Char :=
  match paramNo ps w with
  | Option.none => w
  | some i =>
    if m = .hash then str (args i).raw
    else if m = .paste || post then trimmed (m = .paste) post (args i).raw
    else (args i).expanded

/-- The replacement list with the arguments in it. -/
def replaced (ps : Params) (args : Nat → Arg) (str : List Char → List Char) : Mode → List Tok → List Char
  | _, [] => []
  | _, .paste :: ts => replaced ps args str .paste ts
  | _, .hash :: ts => replaced ps args str .hash ts
  | m, .word w :: ts => value ps args str m w (isPaste ts) ++ replaced ps args str .none ts
  | _, t :: ts => t.text ++ replaced ps args str .none ts

/-- Each `#` is followed by a parameter, and the last token is not `##` (unless `atEnd`). -/
def wellFormed (ps : Params) (atEnd : Bool) : Mode → List Tok → Bool
  | .none, [] => true
  | .hash, [] => false
  | .paste, [] => atEnd
  | .hash, .word w :: ts => (paramNo ps w).isSome && wellFormed ps atEnd .none ts
  | .hash, _ => false
  | _, .paste :: ts => wellFormed ps atEnd .paste ts
  | _, .hash :: ts => wellFormed ps atEnd .hash ts
  | _, _ :: ts => wellFormed ps atEnd .none ts

/-- In a macro without a list of parameters `#` is like any other character. -/
def conv (fn : Bool) : Tok → Tok
  | .hash => if fn then .hash else .oth '#'
  | t => t

/-- the tokens of a replacement list -/
def tokens (fn : Bool) (l : List Char) : List Tok := (lex isHor l).map (conv fn)

/-- the longest parts of a text that have only letters and digits -/
def runs : List Char → List (List Char)
  | [] => []
  | c :: r =>
    have := length_dropWhile_le isId r
    if isId c then (c :: r.takeWhile isId) :: runs (r.dropWhile isId) else runs r
termination_by l => l.length
decreasing_by all_goals (simp; try omega)

/-- No part of a number is the name of a parameter. -/
def numbersSafe (ps : Params) (ts : List Tok) : Prop := ∀ l, Tok.num l ∈ ts → ∀ w ∈ runs l, paramNo ps w = Option.none

/-- The text without the markers that keep tokens apart. -/
def erase : List Char → List Char
  | '@' :: ' ' :: l => erase l
  | c :: l => c :: erase l
  | [] => []

/-- every `@` starts a marker -/
def paired : List Char → Bool
  | [] => true
  | '@' :: ' ' :: l => paired l
  | c :: l => c ≠ '@' && paired l

/-- the text without white space at the end -/
def body (buf : List Char) : List Char := (buf.reverse.dropWhile isSp).reverse

/-- Blanks follow the text. -/
def blankAfter (buf : List Char) : Bool := ((buf.drop (body buf).length).head?.map isHor).getD false

/-! ## Strings -/

/-- the characters of a literal in a string literal -/
def quoted (l : List Char) : List Char := l.flatMap fun c => if c = '"' || c = '\\' then ['\\', c] else [c]

def spelled : Tok → List Char
  | .lit l => quoted l
  | t => t.text

/-- the tokens of an argument: white space is one blank, none at the end -/
def inner : List Tok → List Char
  | [] => []
  | [.ws _] => []
  | .ws _ :: ts => ' ' :: inner ts
  | t :: ts => spelled t ++ inner ts

/-- the string made of an argument (ISO C 6.10.3.2) -/
def stringized (raw : List Char) : List Char := '"' :: inner (skipWs (lex isSp raw)) ++ ['"']

/-- the argument as written, white space being one blank, none at the ends -/
def squeezed : List Tok → List Char
  | [] => []
  | [.ws _] => []
  | .ws _ :: ts => ' ' :: squeezed ts
  | t :: ts => t.text ++ squeezed ts

/-- the characters of a string literal: a backslash means the character after it -/
def unquote : List Char → List Char
  | '\\' :: c :: l => c :: unquote l
  | c :: l => c :: unquote l
  | [] => []

/-! ## Tokens next to each other -/

/-- the punctuators of C99 and the starts of comments that have more than one character, longer ones first -/
def puncts : List (List Char) :=
  ["%:%:", "...", "<<=", ">>=", "->", "++", "--", "<<", ">>", "<=", ">=", "==", "!=", "&&", "||", "*=", "/=", "%=", "+=", "-=", "&=", "^=", "|=",
   "##", "<:", ":>", "<%", "%>", "%:", "/*", "//"].map String.toList

def firstOf : Tok → List Char → List Char
  | .ws w, _ => w
  | .word w, _ => w
  | .num w, _ => w
  | .lit w, _ => w
  | _, punct => punct

/-- the first token of a text: the longest that fits -/
def first : List Char → List Char
  | [] => []
  | c :: r => firstOf (lex1 isSp c r).1 ((puncts.find? fun p => p.isPrefixOf (c :: r)).getD [c])

/-- `a` is a token, also if more follows -/
def isToken (a : List Char) : Prop := a ≠ [] ∧ first (a ++ [' ']) = a

/-- The pairs that `unsafe_chars` misses. -/
def missed (c1 c2 : Char) : Bool :=
  (c1 = '-' && c2 = '>') || (c1 = '/' && c2 = '*') || (c1 = '<' && (c2 = ':' || c2 = '%')) || (c1 = '%' && (c2 = ':' || c2 = '>')) ||
  (c1 = ':' && (c2 = '>' || c2 = '%')) || (c1 = '$' && (isId c2 || c2 = '.'))

/-! ## Arguments -/

/-- Arguments without `@`, also in what follows them, and without a minus sign at the start of a line; in the expanded
arguments each `@` starts a marker. -/
structure Plain (args : Nat → Arg) : Prop where
  raw : ∀ i, '@' ∉ (args i).raw
  follow : ∀ i, '@' ∉ (args i).follow
  dash : ∀ i, ¬ ['\n', '-'] <:+: (args i).raw
  expanded : ∀ i, paired (args i).expanded = true

/-- An argument without `@` and with printable characters only, where backslashes are in literals. -/
structure Clean (raw : List Char) : Prop where
  noAt : '@' ∉ raw
  stray : Tok.oth '\\' ∉ lex isSp raw
  print : ∀ t ∈ lex isSp raw, (∀ w, t ≠ .ws w) → ∀ c ∈ t.text, isPrint c = true

end Splint.CppMacro.Spec
