import Verif.Model.FlagTable
/-!
# Comments in the preprocessor

Model of src/cpplib.c: `skip_comment` (1025-1124), what `cppGetToken` does with a comment (6080-6136), and
`cpp_handleComment` (8159-8474), with the markers of src/Headers/constants.h (226-230).

Simplifications:
* the text of the file is a list of characters; the position and `pfile->lineno` are not kept, only the number of
  lines that is added to it;
* `put_out_comments` and `cplusplus_comments` are set, as they always are in a file (`cppOptions_init` 958, 964);
* what the preprocessor does besides writing is a list of actions; whether a message is printed when it is asked for
  is not modelled (`cppoptgenerror`, `ppllerror`);
* a failed assertion is `none`.
-/
namespace Splint.Comment

abbrev Text := List Char

/-! ## `skip_comment` -/

/-- What is read after the `/`: the text, the number of lines, and what is left -/
structure Skip where
  text : Text
  lines : Nat
  rest : Text
deriving DecidableEq, Repr

/-- one character more in front -/
def Skip.cons (c : Char) (n : Nat) (s : Skip) : Skip := { s with text := c :: s.text, lines := n + s.lines }

/-- 1043-1076: `prev` is `prev_c`. A backslash at the end of a line is read together with the next character.
`none` is EOF. -/
def skipBlock : Char → Text → Option Skip
  | _, [] => none
  | prev, '\\' :: '\n' :: r => (skipBlock prev r).map fun s => (s.cons '\n' 1).cons '\\' 0
  | prev, c :: r =>
    if prev = '*' ∧ c = '/' then some ⟨['/'], 0, r⟩
    else (skipBlock c r).map (Skip.cons c (if c = '\n' then 1 else 0))

/-- 1090-1117: a comment from `//` to the end of the line, which is not part of it -/
def skipLine : Text → Skip
  | [] => ⟨[], 0, []⟩
  | '\\' :: '\n' :: r => ((skipLine r).cons '\n' 1).cons '\\' 0
  | c :: r => if c = '\n' then ⟨[], 0, c :: r⟩ else (skipLine r).cons c 0

inductive Skipped where
  /-- `/` -/
  | no
  /-- EOF -/
  | unterminated
  /-- ` ` -/
  | comment (s : Skip)
deriving DecidableEq, Repr

/-- `skip_comment` after the lines that end with a backslash: the character before the comment is 0. -/
def skipHere : Text → Skipped
  | '*' :: r => match skipBlock (Char.ofNat 0) r with
    | none => .unterminated
    | some s => .comment (s.cons '*' 0)
  | '/' :: r => .comment ((skipLine r).cons '/' 0)
  | _ => .no

def Skipped.cons (c : Char) (n : Nat) : Skipped → Skipped
  | .comment s => .comment (s.cons c n)
  | x => x

/-- `skip_comment`, given the text after `/` -/
def skip : Text → Skipped
  | '\\' :: '\n' :: r => ((skip r).cons '\n' 1).cons '\\' 0
  | r => skipHere r

/-! ## `cpp_handleComment` -/

inductive Act where
  /-- FLG_NESTCOMMENT: "Comment starts inside syntactic comment" -/
  | nestSyntactic
  /-- FLG_NESTCOMMENT: "Comment starts inside comment" -/
  | nest
  | suppressOn
  | suppressOff
  | notparseable
  | notfunction
  | iter
  | function
  | constant
  /-- "Cannot restore commentchar" -/
  | noRestore
  /-- "Syntactic commentchar comment is not followed by a whitespace character" -/
  | noBlank
  /-- "Cannot set commentchar to NUL" -/
  | nul
  | setChar (c : Char)
  /-- `context_fileSetFlag` of the flag with `+`, `-` or `=` -/
  | setFlag (flag : Text) (set : Char)
  /-- `notfunction = FALSE` -/
  | isfunction
deriving DecidableEq, Repr

structure Cfg where
  /-- `context_getCommentMarkerChar ()` -/
  marker : Char
  /-- FLG_NOCOMMENTS -/
  nocomments : Bool
  /-- FLG_LINTCOMMENTS -/
  lintcomments : Bool

/-- `mstring_equalPrefix` (general.c 455-468): the second is without NUL -/
def prefixed (s p : Text) : Bool := p.isPrefixOf s

/-- `strstr (s, "/*") != NULL` -/
def opens : Text → Bool
  | '/' :: '*' :: _ => true
  | c :: r => if c = Char.ofNat 0 then false else opens r
  | [] => false

/-- 8272-8306: after `commentchar`; `next` is the text there -/
def commentChar (next : Text) : Act :=
  match next with
  | c :: r =>
    if c ≠ ' ' ∧ c ≠ '\t' ∧ c ≠ '\n' then .noBlank
    else match r with
      | d :: _ => if d = Char.ofNat 0 then .nul else .setChar d
      | [] => .nul
  | [] => .noBlank

/-- 8207-8245: the words; `s` is `scomment`, to the end of the comment -/
def word (cfg : Cfg) (s : Text) : Option (List Act × Bool) :=
  if prefixed s c!"ignore" then some (if cfg.nocomments then [] else [.suppressOn], false)
  else if prefixed s c!"end" then some (if cfg.nocomments then [] else [.suppressOff], false)
  else if prefixed s c!"notparseable" then some ([.notparseable], true)
  else if prefixed s c!"notfunction" then some ([.notfunction], true)
  else if prefixed s c!"iter" then some ([.iter], false)
  else if prefixed s c!"function" then some ([.function], false)
  else if prefixed s c!"constant" then some ([.constant], false)
  else none

/-- 8258-8356: the flags, after `=`, `-` or `+` -/
def flag (sChar : Char) (rest : Text) : List Act × Bool :=
  if prefixed rest c!"commentchar" then
    (if sChar = '=' then [.noRestore] else [commentChar (rest.drop 11)], true)
  -- `scomment` and not `rest`
  else if prefixed (sChar :: rest) c!"nestcomment" then ([.setFlag c!"nestcomment" sChar], false)
  else if prefixed rest c!"namechecks" then ([.setFlag c!"namechecks" sChar], false)
  else if prefixed rest c!"macroredef" then ([.setFlag c!"macroredef" sChar], false)
  else if prefixed rest c!"usevarargs" then ([.setFlag c!"usevarargs" sChar], false)
  else if prefixed rest c!"nextlinemacros" then ([.setFlag c!"nextlinemacros" sChar], false)
  else if prefixed rest c!"allmacros" then ([.setFlag c!"allmacros" sChar, .isfunction], false)
  else if prefixed rest c!"fcnmacros" then ([.setFlag c!"fcnmacros" sChar, .isfunction], false)
  else if prefixed rest c!"constmacros" then ([.setFlag c!"constmacros" sChar, .isfunction], false)
  else ([], false)

/-- 8207-8366: what is done with the comment, and whether it is left out -/
def directive (cfg : Cfg) (s : Text) : List Act × Bool :=
  match word cfg s with
  | some r => r
  | none => match s with
    | [] => ([], false)
    | sChar :: rest => if sChar = '=' ∨ sChar = '-' ∨ sChar = '+' then flag sChar rest else ([], false)

/-- 8402-8435: the name written for a comment that lint understands -/
def lintName (start : Text) : Option Text :=
  if prefixed start c!"*NOTREACHED*/" then some c!"l_notreach"
  else if prefixed start c!"*PRINTFLIKE*/" then some c!"l_printfli"
  else if prefixed start c!"*FALLTHROUGH*/" then some c!"l_fallthrou"
  else if prefixed start c!"*ARGSUSED*/" then some c!"l_argsus"
  else if prefixed start c!"*FALLTHRU*/" then some c!"l_fallth"
  else none

/-- 8446-8463: each character that is not the end of a line becomes a blank -/
def blanks : Text → Text
  | [] => []
  | c :: r => (if c ≠ '\n' then ' ' else c) :: blanks r

def nests : Text → List Act
  | [] => []
  | [_] => []
  | c :: d :: r => if c = '/' ∧ d = '*' then .nest :: nests (d :: r) else nests (d :: r)

/-- 8387-8473, `removeComment`: what is written, and what else is done -/
def remove (cfg : Cfg) (start : Text) : Option (Text × List Act) :=
  match if cfg.lintcomments then lintName start else none with
  | some name =>
    -- 8440
    if name.length ≠ start.length - 3 then none
    else some ('%' :: '{' :: name ++ ['%', '}'], [])
  | none => some (' ' :: blanks start, nests start)

/-- 8370-8379: blanks for what would end the comment -/
def hide (marker : Char) (c : Char) : Char := if c = '%' ∨ c = '{' ∨ c = marker then ' ' else c

/-- `cpp_handleComment`: what is written for the comment whose text after the `/` is `start`, and what else is done.
8192-8196: the last two characters are looked at after the first two have been written over. -/
def handle (cfg : Cfg) (start : Text) : Option (Text × List Act) :=
  match start with
  | c0 :: c1 :: s =>
    if c0 = '*' ∧ c1 = cfg.marker then
      let all := '%' :: '{' :: s
      if all[all.length - 2]? ≠ some '*' ∨ all[all.length - 1]? ≠ some '/' then none
      else
        let inner := s.take (s.length - 2)
        let scomment := inner ++ ['%', '}']
        let nest := if opens scomment then [Act.nestSyntactic] else []
        let d := directive cfg scomment
        if d.2 = true then
          (remove cfg ('%' :: '{' :: scomment)).map fun r => (' ' :: r.1, nest ++ d.1 ++ r.2)
        else some (' ' :: '%' :: '{' :: (inner.map (hide cfg.marker) ++ ['%', '}']), nest ++ d.1)
    else remove cfg start
  | _ => remove cfg start

end Splint.Comment
