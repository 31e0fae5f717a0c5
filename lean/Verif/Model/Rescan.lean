import Verif.Tactics
/-!
Scanning of text with macros: the case of a name in `cpplib_getToken` (src/cpplib.c:6528-6663) and the end of a
buffer (6041-6072), `cpplib_macroExpand` for macros without parameters (3968-4058, 4136-4147, 4478-4537),
`macarg` (3338-3394), `push_macro_expansion` (4540-4581), `cppReader_popBuffer` (3043-3052),
`cppReader_macroCleanup` (992-1007), `parseGotoMark` (7416-7430).

Text is a list of tokens; what `cppSkipHspace` passes is `space`, `mark` is the marker `@ ` that
`collect_expansion` puts at the end of an expansion.  The marker at its start only makes a space and is left out.
Macros are object-like, or function-like without parameters (arguments that are given are read, reported
and dropped).  Without -traditional; no macro is marked not to be expanded; no directives, strings and
comments in the text, no special symbols such as `__LINE__`.
-/
namespace Splint.Rescan

inductive Tok where
  | name (n : Nat)
  | lparen
  | rparen
  | other (k : Nat)
  | space
  | newline
  | mark
  deriving DecidableEq, Repr

inductive Def where
  | object (body : List Tok)
  | function (body : List Tok)
  deriving DecidableEq, Repr

def Def.body : Def → List Tok
  | .object b => b
  | .function b => b

/-- The macros; `glue`: `unsafe_chars` of the last character of a token and the first of another. -/
structure Env where
  defs : List (Nat × Def)
  glue : Tok → Tok → Bool

/-- A buffer of the input stack: the macro it is an expansion of (none: the file), and what is left of its text. -/
structure Buf where
  owner : Option Nat
  text : List Tok
  deriving DecidableEq, Repr

/-- which macros have type `T_DISABLED` -/
abbrev Dis := Nat → Bool

/-- `cppReader_macroCleanup`, 992-1007 -/
def enable (d : Dis) (n : Nat) : Dis := fun m => d m && m != n

def disable (d : Dis) (n : Nat) : Dis := fun m => d m || m == n

/-- What a character after an expansion must be for `unsafe_chars` (3927-3966) to hold. -/
def solid : Tok → Bool
  | .name _ => true
  | .other _ => true
  | _ => false

/-- Is the marker at the end kept (6649-6661)?  `st`: the buffers below. -/
def keep (env : Env) (body : List Tok) (st : List Buf) : Bool :=
  match body.getLast?, st with
  | some a, ⟨_, t :: _⟩ :: _ => solid t && env.glue a t
  | _, _ => false

/-- The end of the text of an expansion: new lines if the call is on more than one line (4484-4515), else the marker
if it is kept. -/
def tail (env : Env) (body : List Tok) (nl : Nat) (st : List Buf) : List Tok :=
  if body.count .newline < nl then .mark :: List.replicate (nl - body.count .newline) .newline
  else if keep env body st then [.mark]
  else []

/-- The loop that leaves expansions that are at their end (6603-6617); with whether there was one. -/
def skipEnds : List Buf → Dis → List Buf × Dis × Bool
  | [], d => ([], d, false)
  | ⟨none, l⟩ :: r, d => (⟨none, l⟩ :: r, d, false)
  | ⟨some m, l⟩ :: r, d =>
    if l.dropWhile (· == .space) = [] then
      let q := skipEnds r (enable d m)
      (q.1, q.2.1, true)
    else (⟨some m, l.dropWhile (· == .space)⟩ :: r, d, false)

def white (t : Tok) : Bool := t == .space || t == .newline

/-- The loop that looks for the parenthesis (6621-6630): the stack after it, if there is one. -/
def openParen : List Buf → Option (List Buf)
  | ⟨o, l⟩ :: r =>
    match l.dropWhile white with
    | .lparen :: l => some (⟨o, l⟩ :: r)
    | _ => none
  | [] => none

/-- Reading to the closing parenthesis in one buffer: what follows it, or how many are still open. -/
def close : Nat → List Tok → List Tok ⊕ Nat
  | d, [] => .inr d
  | d, .lparen :: l => close (d + 1) l
  | 0, .rparen :: l => .inl l
  | d + 1, .rparen :: l => close d l
  | d, _ :: l => close d l

/-- The arguments (4016-4058 and `macarg`): the stack after them, and the number of lines of the file they
cross.  None: the call is not terminated. -/
def readArgs : Nat → List Buf → Dis → Option (List Buf × Dis × Nat)
  | _, [], _ => none
  | d, ⟨o, l⟩ :: r, dis =>
    match close d l with
    | .inl l' => some (⟨o, l'⟩ :: r, dis, if o = none then l.count .newline - l'.count .newline else 0)
    | .inr d' =>
      match o with
      | none => none
      | some m => readArgs d' r (enable dis m)

inductive Step where
  | next (st : List Buf) (d : Dis) (out : List Tok)
  | done
  | unterminated
  /-- "Internal error parseGotoMark" -/
  | fatal

def push (env : Env) (n : Nat) (body : List Tok) (nl : Nat) (st : List Buf) (d : Dis) : Step :=
  .next (⟨some n, body ++ tail env body nl st⟩ :: st) (disable d n) []

def step (env : Env) : List Buf → Dis → Step
  | [], _ => .done
  | ⟨none, []⟩ :: _, _ => .done
  | ⟨some m, []⟩ :: r, d => .next r (enable d m) []
  | ⟨o, .name n :: l⟩ :: r, d =>
    match env.defs.lookup n with
    | none => .next (⟨o, l⟩ :: r) d [.name n]
    | some df =>
      if d n then .next (⟨o, l⟩ :: r) d [.name n]
      else match df with
        | .object body => push env n body 0 (⟨o, l⟩ :: r) d
        | .function body =>
          let q := skipEnds (⟨o, l⟩ :: r) d
          match openParen q.1 with
          | some st =>
            match readArgs 0 st q.2.1 with
            | some (st, d, nl) => push env n body nl st d
            | none => .unterminated
          | none => if q.2.2 then .fatal else .next (⟨o, l⟩ :: r) d [.name n]
  | ⟨o, t :: l⟩ :: r, d => .next (⟨o, l⟩ :: r) d [t]

inductive End where
  | done
  | unterminated
  | fatal
  deriving DecidableEq, Repr

/-- At most `fuel` tokens and ends; none: not finished. -/
def run (env : Env) : Nat → List Buf → Dis → Option (List Tok × End)
  | 0, _, _ => none
  | fuel + 1, st, d =>
    match step env st d with
    | .done => some ([], .done)
    | .unterminated => some ([], .unterminated)
    | .fatal => some ([], .fatal)
    | .next st' d' out => (run env fuel st' d').map fun q => (out ++ q.1, q.2)

/-- A file. -/
def scan (env : Env) (fuel : Nat) (text : List Tok) : Option (List Tok × End) :=
  run env fuel [⟨none, text⟩] fun _ => false

end Splint.Rescan
