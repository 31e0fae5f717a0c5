import Verif.Tactics
/-!
# Reading and writing library files: characters and numbers

Model of src/reader.c:30-75 (`reader_getInt`), 77-90 (`reader_loadChar`), 107-131
(`reader_getWord`), 181-222 (`reader_optCheckChar`, `reader_doCheckChar`), and of the text that
`message ("%d", …)` produces.

The text still to be read is a list of characters; its end stands for the terminating NUL.
The outcome `none` is a bug report (`llbug`), signed overflow, or reading behind the NUL.
-/
namespace Splint.Reader

/-- The digit character of a number below ten. -/
def digit (d : Nat) : Char := Char.ofNat (48 + d)

/-- `%d` for a number that is not negative. -/
def decimal (n : Nat) : List Char :=
  if h : n < 10 then [digit n] else decimal (n / 10) ++ [digit (n % 10)]
termination_by n
decreasing_by omega

/-- `%d`. -/
def intText (n : Int) : List Char :=
  if 0 ≤ n then decimal n.toNat else '-' :: decimal (-n).toNat

/-- `c >= '0' && c <= '9'`. -/
def isDig (c : Char) : Bool := 48 ≤ c.toNat && c.toNat ≤ 57

/-- `(int) (c - '0')`. -/
def digVal (c : Char) : Int := (c.toNat : Int) - 48

/-- Does the value fit an `int`? -/
def inInt (x : Int) : Bool := -2147483648 ≤ x && x ≤ 2147483647

/-- The loop of reader.c:56-62; returns the value, whether a digit was read, and the rest. -/
def digits : Int → Bool → List Char → Option (Int × Bool × List Char)
  | i, g, [] => some (i, g, [])
  | i, g, c :: cs =>
    if isDig c then
      if inInt (i * 10) && inInt (i * 10 + digVal c) then digits (i * 10 + digVal c) true cs
      else none
    else some (i, g, c :: cs)

/-- White space skipped after a number, reader.c:69-72. -/
def isBlank (c : Char) : Bool := c = '\n' || c = ' ' || c = '\t'

/-- `reader_getInt`, reader.c:30-75. -/
def getInt (s : List Char) : Option (Int × List Char) := do
  let s := s.dropWhile (· = ' ')
  let (i, g, s) ← match s with
    | '-' :: c :: cs => if isDig c then some (-1 * digVal c, true, cs) else none
    | ['-'] => none
    | s => some (0, false, s)
  let (i, g, s) ← digits i g s
  if g then some (i, s.dropWhile isBlank) else none

/-- `reader_loadChar`, reader.c:77-90; behind the end of the text it returns NUL and leaves the
text. -/
def loadChar (s : List Char) : Option (Char × List Char) :=
  match s.dropWhile (· = ' ') with
  | [] => none
  | c :: cs => some (c, cs)

/-- `reader_optCheckChar`, reader.c:181-193. -/
def optCheckChar (c : Char) (s : List Char) : Bool × List Char :=
  match s with
  | x :: xs => if x = c then (true, xs) else (false, s)
  | [] => (false, [])

/-- `reader_doCheckChar`, reader.c:195-222. -/
def checkChar (c : Char) (s : List Char) : Option (List Char) :=
  match s with
  | x :: xs => if x = c then some xs else none
  | [] => none

/-- Characters of a word, reader.c:113-117. -/
def isWordChar (c : Char) : Bool :=
  !(c = ' ' || c = ',' || c = '\n' || c = '\t' || c = '#')

/-- `reader_getWord`, reader.c:107-131 (`none` inside stands for the NULL returned for an empty
word). -/
def getWord (s : List Char) : Option (List Char) × List Char :=
  let w := s.takeWhile isWordChar
  (if w = [] then none else some w, s.dropWhile isWordChar)

end Splint.Reader
