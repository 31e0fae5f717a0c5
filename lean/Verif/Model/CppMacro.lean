import Verif.Tactics
/-!
# Definition and expansion of macros

Models `collect_expansion` (src/cpplib.c:1511-1835; `collect_expansionLoc`, 1842-2182, is the same), `unsafe_chars` (3925-3966)
and, of `cpplib_macroExpand` (3976-4537), the making of strings (4176-4262) and the substitution of arguments
(4300-4476), with the character tables of `initialize_char_syntax` (548-591).

Simplifications. Text is a list of characters with codes below 128 (indices of the tables are not negative). The text of a
definition is kept in pieces: for each use of a parameter the text before it (`nchars` characters of `expansion` in the
code), and the text after the last. Not traditional. Of the messages only whether there is one is kept. What
`cpp_expand_to_buffer` makes of an argument is given (`Arg.expanded`). `arg->newlines` is always false in the code, so
`change_newlines` is not called. A parameter that takes the rest of the arguments is one parameter like the others here, except
for what is done if there is nothing left for it (`restZero`).
-/
namespace Splint.CppMacro

/-- `is_hor_space` -/
def isHor (c : Char) : Bool := c = ' ' || c = '\t' || c = '\x0b' || c = '\x0c' || c = '\r'
/-- `is_space` -/
def isSp (c : Char) : Bool := isHor c || c = '\n'
def isLetter (c : Char) : Bool := ('a' ≤ c && c ≤ 'z') || ('A' ≤ c && c ≤ 'Z')
def isDig (c : Char) : Bool := '0' ≤ c && c ≤ '9'
/-- `is_idstart` -/
def isStart (c : Char) : Bool := isLetter c || c = '_' || c = '$'
/-- `is_idchar` -/
def isId (c : Char) : Bool := isStart c || isDig c

/-- A use of a parameter: `struct reflist` -/
structure Pat where
  arg : Nat
  stringify : Bool
  rawBefore : Bool
  rawAfter : Bool
  rest : Bool := false
deriving DecidableEq, Repr

/-- A definition: the text before each use of a parameter, and the text after the last. -/
structure Def where
  segs : List (List Char × Pat)
  last : List Char
  error : Bool := false
deriving DecidableEq, Repr

/-- What the loop knows: the pieces so far, in reverse; the text since the last of them, in reverse; the delimiter of the literal it
is in; whether `concat` and `stringify` are the current place. -/
structure CS where
  segs : List (List Char × Pat) := []
  cur : List Char := []
  delim : Option Char := none
  cc : Bool := false
  st : Bool := false
  error : Bool := false

def CS.emit (s : CS) (l : List Char) : CS := { s with cur := l.reverse ++ s.cur, cc := false, st := false }

/-- the parameters: their names, with whether they take all other arguments -/
abbrev Params := List (List Char × Bool)

def findParam (ps : Params) (n : List Char) : Option (Nat × Bool) :=
  match ps.findIdx? (fun p => p.1 = n) with
  | some i => some (i, (ps.getD i ([], false)).2)
  | none => none

/-- does a literal with the prefix `L` start here? -/
def wide : List Char → Bool
  | 'L' :: c :: _ => c = '\'' || c = '"'
  | _ => false

def startsPaste : List Char → Bool
  | '#' :: '#' :: _ => true
  | _ => false

/-- An identifier or number, from `c` on (src/cpplib.c:1735-1813). -/
def onWord (ps : Params) (s : CS) (word after : List Char) : CS :=
  let use : Option (Nat × Bool) :=
    if (word.head?.map isStart).getD false && !(word = ['L'] && wide (word ++ after)) && s.delim = none
    then findParam ps word else none
  match use with
  | some (i, rest) =>
    { s with
      segs := (s.cur.reverse, ⟨i, s.st, s.cc, startsPaste (after.dropWhile isHor), rest⟩) :: s.segs
      cur := [], cc := false, st := false }
  | none => { (s.emit word) with error := s.error || s.st }

/-- The character `#` outside of literals (src/cpplib.c:1627-1670): the state and what remains. `trail`: white space at the end
was left out. -/
def onHash (fn trail : Bool) (s : CS) (rest : List Char) : CS × List Char :=
  match rest with
  | '#' :: r =>
    let r' := r.dropWhile isHor
    ({ s with cur := s.cur.dropWhile isHor, cc := true, st := false, error := s.error || (r' = [] && !trail) }, r')
  | _ =>
    if fn then
      let r' := rest.dropWhile isHor
      if (r'.head?.map isStart).getD false && !wide r' then ({ s with cc := false, st := true }, r')
      else ({ s with cc := false, st := false, error := true }, r')
    else (s.emit ['#'], rest)

/-- Any other character (src/cpplib.c:1593-1626). -/
def onChar (s : CS) (c : Char) (rest : List Char) : CS × List Char :=
  if c = '\'' || c = '"' then
    ({ (s.emit [c]) with delim := match s.delim with
        | none => some c
        | some d => if c = d then none else some d }, rest)
  else if c = '\\' && s.delim.isSome then
    match rest with
    | d :: r => (s.emit [c, d], r)
    | [] => (s.emit [c], [])
  else if c = '@' && s.delim.isNone then (s.emit ['@', '@'], rest)
  else (s.emit [c], rest)

/-- One pass of the loop (src/cpplib.c:1588-1814). -/
def step (ps : Params) (fn trail : Bool) (s : CS) (c : Char) (rest : List Char) : CS × List Char :=
  if c = '#' && s.delim.isNone then onHash fn trail s rest
  else if isId c && !ps.isEmpty then
    (onWord ps s (c :: rest.takeWhile isId) (rest.dropWhile isId), rest.dropWhile isId)
  else onChar s c rest

theorem length_dropWhile_le {α} (p : α → Bool) (l : List α) : (l.dropWhile p).length ≤ l.length :=
  (List.dropWhile_sublist p).length_le

theorem onHash_length (fn trail : Bool) (s : CS) (rest : List Char) : (onHash fn trail s rest).2.length ≤ rest.length := by
  unfold onHash
  split
  · next r =>
    have := length_dropWhile_le isHor r
    simp only [List.length_cons]; omega
  · have := length_dropWhile_le isHor rest
    simp only
    split_ifs <;> simp [this]

theorem onChar_length (s : CS) (c : Char) (rest : List Char) : (onChar s c rest).2.length ≤ rest.length := by
  unfold onChar
  split
  · simp
  · split
    · cases rest <;> simp
    · split <;> simp

theorem step_length (ps : Params) (fn trail : Bool) (s : CS) (c : Char) (rest : List Char) :
    (step ps fn trail s c rest).2.length ≤ rest.length := by
  unfold step
  split
  · exact onHash_length _ _ _ _
  · split
    · exact length_dropWhile_le _ _
    · exact onChar_length _ _ _

def loop (ps : Params) (fn trail : Bool) (s : CS) : List Char → CS
  | [] => s
  | c :: rest =>
    have := step_length ps fn trail s c rest
    loop ps fn trail (step ps fn trail s c rest).1 (step ps fn trail s c rest).2
termination_by l => l.length
decreasing_by simp; omega

/-- `collect_expansion`. `fn`: the macro has a list of parameters (`nargs >= 0`). -/
def collect (ps : Params) (fn : Bool) (buf : List Char) : Def :=
  let body := (buf.reverse.dropWhile isSp).reverse
  let trail := ((buf.drop body.length).head?.map isHor).getD false
  let s : CS := { cur := [' ', '@'] }
  let s := if startsPaste body then loop ps fn trail { s with error := true } (body.drop 2) else loop ps fn trail s body
  { segs := s.segs.reverse, last := s.cur.reverse ++ (if s.delim = none then ['@', ' '] else []), error := s.error }

/-! ## Strings -/

/-- What is known while a string is made. -/
structure SS where
  out : List Char := []
  /-- `need_space`: none is -1 -/
  space : Option Bool := none
  escaped : Bool := false
  inStr : Option Char := none

/-- `isprint` in the C locale -/
def isPrint (c : Char) : Bool := ' ' ≤ c && c ≤ '~'

def octDigit (n : Nat) : Char := Char.ofNat (48 + n % 8)

/-- `sprintf ("\\%03o")` -/
def octal (c : Char) : List Char := ['\\', octDigit (c.toNat / 64), octDigit (c.toNat / 8), octDigit c.toNat]

/-- The literal the text is in, after a character (src/cpplib.c:4220-4243). -/
def SS.quote (s : SS) (c : Char) : SS :=
  if s.escaped then { s with escaped := false }
  else
    { s with
      escaped := c = '\\'
      inStr := match s.inStr with
        | some d => if c = d then none else some d
        | none => if c = '"' || c = '\'' then some c else none }

/-- Writing of a character (src/cpplib.c:4245-4255). -/
def SS.put (s : SS) (c : Char) : SS :=
  let esc := if c = '"' || (s.inStr.isSome && c = '\\') then ['\\'] else []
  { s with out := s.out ++ esc ++ (if isPrint c then [c] else octal c) }

/-- One character (src/cpplib.c:4190-4256). -/
def SS.step (s : SS) (c : Char) : SS :=
  match s.inStr with
  | some _ => (s.quote c).put c
  | none =>
    if isSp c then
      if s.out.getLast? = some '@' then { s with out := s.out.dropLast }
      else { s with space := s.space.map fun _ => true }
    else
      let s := if s.space = some true then { s with out := s.out ++ [' '] } else s
      (({ s with space := some false }).quote c).put c

/-- Making a string of an argument (src/cpplib.c:4176-4262). -/
def makeString (raw : List Char) : List Char :=
  (raw.foldl SS.step { out := ['"'] }).out ++ ['"']

/-! ## Expansion -/

structure Arg where
  raw : List Char
  expanded : List Char
  /-- what follows `raw` in the buffer: usually the next argument -/
  follow : List Char := []
deriving DecidableEq, Repr

/-- `unsafe_chars` -/
def unsafeChars (c1 c2 : Char) : Bool :=
  let word := isId c2 || c2 = '.'
  if c1 = '+' || c1 = '-' then (c2 = c1 || c2 = '=') || word
  else if c1 = '.' || isDig c1 || c1 = 'e' || c1 = 'E' || c1 = 'p' || c1 = 'P' then (c2 = '-' || c2 = '+') || word
  else if c1 = 'L' then (c2 = '\'' || c2 = '"') || word
  else if c1 = '_' || isLetter c1 then word
  else if c1 = '<' || c1 = '>' || c1 = '!' || c1 = '%' || c1 = '#' || c1 = ':' || c1 = '^' || c1 = '&' || c1 = '|' || c1 = '*'
      || c1 = '/' || c1 = '=' then c2 = c1 || c2 = '='
  else false

/-- Leaving out what is before a pasted argument (src/cpplib.c:4361-4377): what is written at once, and what remains. -/
def pasteBefore (l : List Char) : List Char × List Char :=
  let l := l.dropWhile isSp
  let w := l.takeWhile isId
  (w, match l.dropWhile isId with
    | '@' :: '-' :: r => r
    | r => r)

/-- The test for a marker after an argument reads past its end (src/cpplib.c:4375): if `@-` is found there, the number of
characters left to copy is negative. -/
def overrun (p : Pat) (a : Arg) : Bool :=
  !p.stringify && p.rawBefore &&
    match (a.raw.dropWhile isSp).dropWhile isId with
    | [] => ['@', '-'].isPrefixOf a.follow
    | ['@'] => ['-'].isPrefixOf a.follow
    | _ => false

/-- Leaving out what is after a pasted argument (src/cpplib.c:4378-4408), the text being in reverse. -/
def pasteAfter : List Char → List Char
  | [] => []
  | c :: l =>
    if isSp c then pasteAfter l
    else if c = '-' && (l.takeWhile (· = '\n')).length % 2 = 1 then pasteAfter (l.drop 1)
    else c :: l
termination_by l => l.length

/-- An argument next to `##` -/
def pasted (p : Pat) (raw : List Char) : List Char :=
  let (w, l) := if p.rawBefore then pasteBefore raw else ([], raw)
  w ++ (if p.rawAfter then (pasteAfter l.reverse).reverse else l)

/-- the marker that keeps tokens apart -/
def mark (a b : Option Char) : List Char :=
  match a, b with
  | some a, some b => if unsafeChars a b then ['@', ' '] else []
  | _, _ => []

/-- Deleting what is before an empty rest (src/cpplib.c:4325-4343). -/
def deleteRun (l : List Char) : List Char :=
  ((l.reverse.dropWhile isSp).dropWhile fun c => !isSp c).reverse

/-- The value of a use of a parameter: `before` is what was written, `next` the character that follows in the definition
(src/cpplib.c:4345-4455). -/
def useOf (p : Pat) (a : Arg) (before : List Char) (next : Option Char) : List Char :=
  if p.stringify then makeString a.raw
  else if p.rawBefore || p.rawAfter then pasted p a.raw
  else
    let l := (if a.expanded = [] then [] else mark before.getLast? a.expanded.head?) ++ a.expanded
    l ++ mark (before ++ l).getLast? next

/-- The loop over the uses (src/cpplib.c:4308-4470); the result has what was written, and the last use. -/
def substLoop (args : Nat → Arg) (restZero : Bool) (next : List (List Char × Pat) → Option Char) :
    List (List Char × Pat) → Option Pat → List Char → List Char × Option Pat
  | [], lp, out => (out, lp)
  | (t, p) :: segs, lp, out =>
    let t := if restZero && ((p.rest && p.rawBefore) || (lp.map fun q => q.rest && q.rawAfter).getD false)
      then deleteRun t else t
    let out := out ++ t
    substLoop args restZero next segs (some p) (out ++ useOf p (args p.arg) out (next segs))

/-- the first character of the text of a definition from some piece on -/
def firstChar (last : List Char) (segs : List (List Char × Pat)) : Option Char := (segs.flatMap (·.1) ++ last).head?

/-- (src/cpplib.c:4300-4476) -/
def subst (d : Def) (args : Nat → Arg) (restZero : Bool) : List Char :=
  let (out, lp) := substLoop args restZero (firstChar d.last) d.segs none []
  let drop := restZero && (lp.map fun q => q.rest && q.rawAfter).getD false
  out ++ (if drop then d.last.dropWhile (· ≠ ')') else d.last)

/-- The same; none if memory is overwritten. -/
def expand (d : Def) (args : Nat → Arg) (restZero : Bool) : Option (List Char) :=
  if d.segs.any (fun q => overrun q.2 (args q.2.arg)) then none else some (subst d args restZero)

/-! ## Sizes of buffers -/

def segLen (segs : List (List Char × Pat)) : Nat := (segs.map fun q => q.1.length).sum

/-- `defn->length` -/
def Def.size (d : Def) : Nat := segLen d.segs + d.last.length

/-- The room for a text in which each `@` is doubled. -/
def room (l : List Char) : Nat := l.length + l.count '@'

/-- The room for the text of a definition, without the definition itself (src/cpplib.c:1547-1556). -/
def maxSize (buf : List Char) : Nat := room (buf.reverse.dropWhile isSp).reverse + 5

/-- the room for a use of a parameter (src/cpplib.c:4164-4292) -/
def need (args : Nat → Arg) (p : Pat) : Nat :=
  if p.stringify then (makeString (args p.arg).raw).length
  else if p.rawBefore || p.rawAfter then (args p.arg).raw.length + 4
  else (args p.arg).expanded.length + 4

/-- `xbuf_len` -/
def xbufLen (d : Def) (args : Nat → Arg) : Nat := d.size + (d.segs.map fun q => need args q.2).sum

end Splint.CppMacro
