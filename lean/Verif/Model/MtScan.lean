import Verif.Model.FlagTable
/-!
# The tokens of state definitions

Model of `mtscanner_initMod` (src/mtscanner.c:45-106), `skipComments` (132-180) and `mtscanner_getNextToken`
(182-286).

Simplifications: the input is the list of the characters that are read (`inputStream_nextChar`, see Model/InputStream.lean and
C147), every line of which is ended by a newline; characters are ASCII; so `inputStream_peekNChar` fails its
assertion exactly if the character wanted is the newline at the end of the line (or there is none).  Locations are left out.
The token table is looked up by search (see the model of cstringTable).
The recursion is bounded by a number of steps, which is enough if it is the length of the input (`none` otherwise).
-/
namespace Splint.MtScan

inductive Stop
  /-- a failing `llassert` -/
  | bug
  /-- `llfatalerror` -/
  | fatal
  deriving DecidableEq, Repr

inductive Tok
  /-- a word or mark of the table -/
  | known (s : List Char)
  | ident (s : List Char)
  | strLit (s : List Char)
  | bad
  | eof
  deriving DecidableEq, Repr

/-- the words of mtscanner.c:50-88 -/
def words : List (List Char) :=
  [c!"attribute", c!"global", c!"context", c!"oneof", c!"defaults", c!"default", c!"parameter", c!"result", c!"literal", c!"null",
   c!"reference", c!"clause", c!"annotations", c!"merge", c!"transfers", c!"preconditions", c!"postconditions", c!"losereference",
   c!"error", c!"end", c!"as", c!"char", c!"int", c!"float", c!"double", c!"void", c!"anytype", c!"integraltype",
   c!"unsignedintegraltype", c!"signedintegraltype", c!"const", c!"volatile", c!"restrict"]

/-- the marks of mtscanner.c:94-104 -/
def marks : List (List Char) :=
  [c!"==>", c!"+", c!"*", c!"{", c!"}", c!"(", c!")", c!"[", c!"]", c!",", c!"|"]

def lookup (s : List Char) : Bool := words.contains s || marks.contains s

def isSpace (c : Char) : Bool := c.toNat == 32 || (9 ≤ c.toNat && c.toNat ≤ 13)
def isAlpha (c : Char) : Bool := (97 ≤ c.toNat && c.toNat ≤ 122) || (65 ≤ c.toNat && c.toNat ≤ 90)
def isDigit (c : Char) : Bool := 48 ≤ c.toNat && c.toNat ≤ 57
def isAlnum (c : Char) : Bool := isAlpha c || isDigit c

/-- the loop to the end of a comment, mtscanner.c:143-150: what is behind it -/
def skipComment : List Char → Option (List Char)
  | [] => none
  | [_] => none
  | a :: b :: l => if a = '*' ∧ b = '/' then some l else skipComment (b :: l)

/-- `skipComments`, mtscanner.c:132-180 -/
def skip : Nat → List Char → Option (Except Stop (List Char))
  | 0, _ => none
  | fuel + 1, l =>
    match l with
    | [] => some (.ok [])
    | c :: rest =>
      if c = '/' then
        match rest with
        | [] => some (.error .bug)
        | d :: rest' =>
          if d = '\n' then some (.error .bug)
          else if d = '*' then
            match skipComment rest' with
            | none => some (.error .fatal)
            | some r => skip fuel r
          else some (.ok l)
      else if isSpace c then skip fuel (l.dropWhile isSpace)
      else some (.ok l)

/-- the loop through a string literal, mtscanner.c:208-221: its text, and the input from the closing quote on -/
def strLoop : Bool → List Char → Option (List Char × List Char)
  | _, [] => none
  | esc, c :: l =>
    if esc then (strLoop false l).map fun r => (c :: r.1, r.2)
    else if c = '\\' then (strLoop true l).map fun r => (c :: r.1, r.2)
    else if c = '"' then some ([], l)
    else (strLoop false l).map fun r => (c :: r.1, r.2)

def wordChar (c : Char) : Bool := isAlnum c || c.toNat == 95 || c.toNat == 36

def markChar (c : Char) : Bool := !(isSpace c || isAlnum c)

/-- `mtscanner_getNextToken` behind the blanks and comments, mtscanner.c:192-285 -/
def token : List Char → Except Stop (Tok × List Char)
  | [] => .ok (.eof, [])
  | c :: l =>
    if c = '"' then
      match strLoop false l with
      | none => .error .fatal
      | some (t, r) => .ok (.strLit t, r)
    else if isAlpha c then
      let t := c :: l.takeWhile wordChar
      .ok (if lookup t then .known t else .ident t, l.dropWhile wordChar)
    else
      let t := c :: l.takeWhile markChar
      .ok (if lookup t then .known t else .bad, l.dropWhile markChar)

/-- `mtscanner_getNextToken`, mtscanner.c:182-286 -/
def next (l : List Char) : Option (Except Stop (Tok × List Char)) :=
  match skip (l.length + 1) l with
  | none => none
  | some (.error e) => some (.error e)
  | some (.ok l') => some (token l')

/-- all the tokens up to the end of the input -/
def tokens : Nat → List Char → Option (Except Stop (List Tok))
  | 0, _ => none
  | fuel + 1, l =>
    match next l with
    | none => none
    | some (.error e) => some (.error e)
    | some (.ok (.eof, _)) => some (.ok [])
    | some (.ok (t, l')) =>
      match tokens fuel l' with
      | some (.ok ts) => some (.ok (t :: ts))
      | r => r

def scan (l : List Char) : Option (Except Stop (List Tok)) := tokens (l.length + 1) l

end Splint.MtScan
