import Verif.Tactics
/-!
# The messages, and the check of calls that make them

Models `message` (src/message.c:143-291) and `identify_control` (60-119), with `reader_getInt` (src/reader.c:31-77)
on text that starts with a digit, `cstring_fill` (src/cstring.c:623-655), `mstring_append` and `mstring_concatFree`
(src/general.c:263-300); and `checkMessageArgs` (src/exprNode.c:2105-2316), which checks the calls of a function
annotated with `messagelike`.

`none` stands for reading behind the end of the format, for reading an argument as what it is not or that is not
there, and for an overflow.

Simplifications: the text of a floating point number, a pointer, a place and a type is given with the argument (of
a type by a function of its number); what is printed on standard output about a code that is not known is left out;
that `%q` frees its argument is left out. In the check, an argument is given by its type; whether types match
(`exprNode_matchArgType`, with the exception for pointers to `void`) is a parameter; flags are on; no argument is a
parse error; the checks of how an argument is transferred (`checkOneArg`) are left out.
-/
namespace Splint.Message

/-- an argument as it is passed: characters, booleans and types are passed as `int` -/
inductive VArg where
  | int (z : Int)
  | ulong (n : Nat)
  /-- a `double`, with what `%.2lf` makes of it -/
  | dbl (text : List Char)
  /-- a string, that may be undefined -/
  | str (s : Option (List Char))
  | loc (text : List Char)
  | ptr (text : List Char)
deriving DecidableEq, Repr

/-- `ccode` (src/message.c:38-43), without those no format leads to -/
inductive Code where
  | invalid | char | string | stringFree | int | float | bool | percent | ctype | plural | reprefix | fileloc | pointer
deriving DecidableEq, Repr

def isDigit (c : Char) : Bool := '0' ≤ c && c ≤ '9'
def digitVal (c : Char) : Nat := c.toNat - 48

/-- the loop of `reader_getInt` over digits: the number, and what is left -/
def readDigits : Nat → List Char → Option (Nat × List Char)
  | n, [] => some (n, [])
  | n, c :: l =>
    if isDigit c then
      if n * 10 + digitVal c < 2147483648 then readDigits (n * 10 + digitVal c) l else none
    else some (n, c :: l)

/-- the end of `reader_getInt` -/
def skipBlanks : List Char → List Char
  | [] => []
  | c :: l => if c = '\n' ∨ c = ' ' ∨ c = '\t' then skipBlanks l else c :: l

/-- the `switch` of `identify_control` -/
def codeOf (c : Char) : Code :=
  if c = '%' then .percent
  else if c = 'h' ∨ c = 'c' then .char
  else if c = 's' then .string
  else if c = 'q' then .stringFree
  else if c = 'x' then .stringFree
  else if c = 'd' then .int
  else if c = 'u' then .int
  else if c = 'w' then .int
  else if c = 'f' then .float
  else if c = 'b' then .bool
  else if c = 't' then .ctype
  else if c = 'p' then .pointer
  else if c = 'l' then .fileloc
  else if c = '&' then .plural
  else if c = 'r' then .reprefix
  else .invalid

/-- `identify_control`: the code, `modcode`, and what is left of the format -/
def identify : List Char → Option (Code × Nat × List Char)
  | [] => some (.invalid, 0, [])
  | c :: l =>
    (if isDigit c then (readDigits 0 (c :: l)).map fun r => (r.1, skipBlanks r.2) else some (0, c :: l)).bind fun r =>
      match r.2 with
      | [] => none
      | d :: l => some (codeOf d, r.1, l)

/-- `cstring_fill` -/
def fill (s : Option (List Char)) (n : Nat) : List Char :=
  let t := s.getD []
  if n < t.length then t.take n else t ++ List.replicate (n - t.length) ' '

/-- what `%d` of `snprintf` makes of an `int` -/
def decimal (z : Int) : List Char :=
  if z < 0 then '-' :: Nat.toDigits 10 z.natAbs else Nat.toDigits 10 z.natAbs

/-- `(char) va_arg (pvar, int)`, appended to a string: nothing, if it is NUL. -/
def charText (z : Int) : List Char :=
  let b := (z % 256).toNat
  if b = 0 then [] else [Char.ofNat b]

/-- One directive: the text, the last integer, and the arguments left. -/
def directive (types : Int → List Char) (code : Code) (modcode : Nat) (last : Int) (args : List VArg) :
    Option (List Char × Int × List VArg) :=
  match code, args with
  | .percent, args => some (['%'], last, args)
  | .char, .int z :: l => some (charText z, last, l)
  | .string, .str s :: l => some (if modcode ≠ 0 then fill s modcode else s.getD [], last, l)
  | .stringFree, .str s :: l => some (if modcode ≠ 0 then fill s modcode else s.getD [], last, l)
  | .reprefix, .int z :: l => some (if z ≠ 0 then ['r', 'e'] else [], z, l)
  | .plural, args => some (if last ≠ 1 then ['s'] else [], last, args)
  | .int, .int z :: l => some ((decimal z).take 63, z, l)
  | .float, .dbl t :: l => some (t.take 63, last, l)
  | .bool, .int z :: l => some (if z ≠ 0 then ['t', 'r', 'u', 'e'] else ['f', 'a', 'l', 's', 'e'], last, l)
  | .ctype, .int z :: l => some (types z, last, l)
  | .pointer, .ptr t :: l => some (t.take 63, last, l)
  | .fileloc, .loc t :: l => some (t, last, l)
  | .invalid, args => some ([], last, args)
  | _, _ => none

/-- the loop of `message`: what is appended, and the arguments left -/
def run (types : Int → List Char) : Nat → List Char → Int → List VArg → Option (List Char × List VArg)
  | 0, _, _, _ => none
  | _ + 1, [], _, args => some ([], args)
  | n + 1, c :: l, last, args =>
    if c = '%' then
      (identify l).bind fun r => (directive types r.1 r.2.1 last args).bind fun d =>
        (run types n r.2.2 d.2.1 d.2.2).map fun o => (d.1 ++ o.1, o.2)
    else (run types n l last args).map fun o => (c :: o.1, o.2)

/-- `message` -/
def message (types : Int → List Char) (fmt : List Char) (args : List VArg) : Option (List Char) :=
  (run types (fmt.length + 1) fmt 0 args).map (·.1)

/-! ### The check -/

/-- the types that are expected: `ctype_char`, `cstringType`, `ctype_int` ... -/
inductive Expect where
  | char | cstring | int | uint | ulint | float | bool | ctype | voidPtr | fileloc
deriving DecidableEq, Repr

/-- the `switch` of `checkMessageArgs` -/
def expectOf (key : Char) : Option Expect :=
  if key = 'c' ∨ key = 'h' then some .char
  else if key = 's' then some .cstring
  else if key = 'q' then some .cstring
  else if key = 'x' then some .cstring
  else if key = 'd' then some .int
  else if key = 'u' then some .uint
  else if key = 'w' then some .ulint
  else if key = 'f' then some .float
  else if key = 'b' then some .bool
  else if key = 't' then some .ctype
  else if key = 'p' then some .voidPtr
  else if key = 'l' then some .fileloc
  else if key = '&' then some .int
  else if key = 'r' then some .bool
  else none

inductive CMsg where
  /-- "Message missing format arg" -/
  | missing
  /-- "Unrecognized format code" -/
  | unrecognized
  /-- "Format argument ... expects ... gets ..." -/
  | badType
  /-- "Format string for ... has ... args, given ..." -/
  | tooMany
deriving DecidableEq, Repr

variable {T : Type} (ok : Expect → T → Bool)

/-- the messages about an argument -/
def checkArg (key : Char) (a : T) : List CMsg :=
  match expectOf key with
  | some e => if ok e a then [] else [.badType]
  | none => [.unrecognized]

/-- the digits behind a `%` -/
def dropDigits : List Char → List Char
  | [] => []
  | c :: l => if isDigit c then dropDigits l else c :: l

/-- The loop of `checkMessageArgs`: `a` is the argument last looked at, at first the format itself. -/
def check : Nat → List Char → T → List T → Option (List CMsg)
  | 0, _, _, _ => none
  | _ + 1, [], _, args => some (if args.isEmpty then [] else [.tooMany])
  | n + 1, c :: l, a, args =>
    if c = '%' then
      match dropDigits l with
      -- the key is the NUL at the end, and `++code` goes behind it
      | [] => none
      | key :: l =>
        if key = '%' then check n l a args
        else if key = '&' then (check n l a args).map (checkArg ok key a ++ ·)
        else match args with
          | [] => (check n l a []).map (.missing :: ·)
          | b :: args => (check n l b args).map (checkArg ok key b ++ ·)
    else check n l a args

/-- `checkMessageArgs`; `fmtTy` is the type of the format -/
def checkMessageArgs (fmtTy : T) (fmt : List Char) (args : List T) : Option (List CMsg) :=
  check ok (fmt.length + 1) fmt fmtTy args

end Splint.Message
