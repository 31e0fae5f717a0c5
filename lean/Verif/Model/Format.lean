import Verif.Model.TypeSpec
/-!
# Format strings

Model of src/exprNode.c: `isFlagKey` (248-251), `checkPrintfArgs` (1446-1788) and `checkScanfArgs`
(1790-2103), as far as they decide which argument is checked against which type.

Simplifications:
* the comparison of an argument with the type that is expected (`exprNode_matchArgType`, `checkOneArg`)
  is left out: the event `arg i t` says that argument `i` is compared with `t`;
* arguments are counted from 0, from the first one after the format; `args` says of each whether it is an
  error node;
* the format is the text of the literal, in which escapes are not expanded and adjacent literals are not
  merged (`exprNode_stringLiteral`, 863-875);
* positions in the format and the text of messages are left out;
* `none`: undefined behaviour (reading past the end of the string, or an uninitialised variable);
* a fatal error ends everything: the event `badSet` is the last;
* the loops have fuel (see `Proofs/Format.lean`: it suffices).
-/
namespace Splint.Format
open TypeSpec

/-- The types that are expected: a number, `int` or a character (`ctype_makeConj`), a string, a pointer
to nothing special, a pointer to a number, a pointer to characters, unknown. -/
inductive Exp where
  | val (t : Ty) | anyChar | string | voidPtr | ptr (t : Ty) | ptrAnyChar | unknown
  deriving DecidableEq, Repr

inductive Event where
  | arg (i : Nat) (e : Exp)
  /-- "No argument corresponding to ..." -/
  | missing (i : Nat)
  /-- "Unrecognized format code" -/
  | unrecognised
  /-- "Format code should not be used in scanf" -/
  | notInScanf
  /-- a message of `ctype_combine` -/
  | qual
  /-- "Format string for ... has ..., given ..." -/
  | extra (used given : Nat)
  /-- "Bad character set format" -/
  | badSet
  deriving DecidableEq, Repr

/-- `isFlagKey`, 248-251. -/
def isFlagKey (c : Char) : Bool := c = '-' || c = '+' || c = ' ' || c = '#'

def isDigit (c : Char) : Bool := 48 ≤ c.toNat && c.toNat ≤ 57

/-- The modifier of length (1530-1562, 1843-1878): the type, the letter if it is l or L, and the rest. -/
def modifier : List Char → Ty × Option Char × List Char
  | 'h' :: 'h' :: s => (.char, none, s)
  | 'h' :: s => (.sint, none, s)
  | c :: s =>
    if c = 'l' || c = 'L' then
      match s with
      | d :: s' => if d = 'l' || d = 'L' then (.llint, some c, s') else (.lint, some c, s)
      | [] => (.lint, some c, [])
    else (.int, none, c :: s)
  | [] => (.int, none, [])

/-- The events of a type from `ctype_combine`. -/
def combined (d m : Ty) : Ty × List Event :=
  ((combine false d m).1, (combine false d m).2.map fun _ => .qual)

/-- The set of characters after `[`: the first character is skipped, and then everything up to `]`. -/
inductive SetResult where
  | past | bad | ok (rest : List Char)

def skipSet : List Char → SetResult
  | [] => .past
  | _ :: s =>
    match s.dropWhile (· ≠ ']') with
    | [] => .bad
    | t => .ok t

/-- What a letter of `printf` means (1599-1685): the type that is expected, or nothing for an
unrecognised letter. The case `n` combines a pointer type. -/
def printfType (key : Char) (m : Ty) : Option (Exp × List Event) :=
  if key = 'u' ∨ key = 'o' ∨ key = 'x' ∨ key = 'X' then
    some (.val (combined .uint m).1, (combined .uint m).2)
  else if key = 'i' ∨ key = 'd' then some (.val (combined .int m).1, (combined .int m).2)
  else if key = 'e' ∨ key = 'E' ∨ key = 'g' ∨ key = 'G' ∨ key = 'f' then
    some (.val (combined .double m).1, (combined .double m).2)
  else if key = 'c' then some (.anyChar, [])
  else if key = 's' then some (.string, [])
  else if key = 'p' then some (.voidPtr, [])
  else if key = 'n' then some (.ptr .int, (combined .other m).2)
  else none

/-- Flags, width and precision (1496-1541): where the modifier starts, and where the flags end. -/
def afterFlags (s : List Char) : List Char := s.dropWhile isFlagKey

def afterPrecision (s : List Char) : List Char :=
  match s.dropWhile isDigit with
  | '.' :: t => if t.head? = some '*' then t else t.dropWhile isDigit
  | t => t

/-- The loop of `checkPrintfArgs`, from the character `code` on, with `i` the next argument. -/
def printfGo (args : List Bool) : Nat → Nat → List Char → Option (List Event)
  | 0, _, _ => none
  | f + 1, i, s =>
    match s.dropWhile (· ≠ '%') with
    | [] => some (if i < args.length then [.extra i args.length] else [])
    | _ :: s =>
      let s1 := afterFlags s
      if s1.head? = some 'm' then printfGo args f i s1
      else
        let m := modifier (afterPrecision s1)
        match m.2.2 with
        | [] => none
        | key :: s5 =>
          if key = '%' then printfGo args f i s5
          else if args.length ≤ i then (printfGo args f (i + 1) s5).map (.missing i :: ·)
          else if args.getD i true then printfGo args f (i + 1) s5
          else if key = '*' then (printfGo args f (i + 1) ('%' :: s5)).map (.arg i (.val .int) :: ·)
          else if key = '[' then
            match skipSet s5 with
            | .past => none
            | .bad => some [.badSet]
            | .ok t => (printfGo args f (i + 1) t).map (.arg i .string :: ·)
          else if key = 'm' then none
          else match printfType key m.1 with
            | some (e, ev) => (printfGo args f (i + 1) s5).map (ev ++ .arg i e :: ·)
            | none => (printfGo args f (i + 1) s5).map ([.unrecognised, .arg i .unknown] ++ ·)

/-- `checkPrintfArgs`, 1446-1788, for a format that is a literal. -/
def printf (args : List Bool) (format : List Char) : Option (List Event) :=
  printfGo args (format.length + 1) 0 format

/-- What a letter of `scanf` means (1914-1995). -/
def scanfType (key : Char) (m : Ty) (l : Option Char) : Option (Exp × List Event) :=
  if key = 'u' ∨ key = 'o' ∨ key = 'x' ∨ key = 'X' then
    some (.ptr (combined .uint m).1, (combined .uint m).2)
  else if key = 'i' ∨ key = 'd' then some (.ptr (combined .int m).1, (combined .int m).2)
  else if key = 'e' ∨ key = 'E' ∨ key = 'g' ∨ key = 'G' ∨ key = 'f' then
    some (.ptr (if l = some 'l' then .double else if l = some 'L' then .ldouble else .float), [])
  else if key = 'c' then some (.ptrAnyChar, [])
  else if key = 's' then some (.string, [])
  else if key = 'p' then some (.unknown, [.notInScanf])
  else if key = 'n' then some (.ptr .int, [])
  else none

/-- The loop of `checkScanfArgs`. -/
def scanfGo (args : List Bool) : Nat → Nat → List Char → Option (List Event)
  | 0, _, _ => none
  | f + 1, i, s =>
    match s.dropWhile (· ≠ '%') with
    | [] => some (if i < args.length then [.extra i args.length] else [])
    | _ :: s =>
      let ignore := s.head? = some '*'
      let s1 := (if ignore then s.tail else s).dropWhile isDigit
      let m := modifier s1
      match m.2.2 with
      | [] => none
      | key :: s5 =>
        if key = '%' then scanfGo args f i s5
        else if ignore then scanfGo args f i s5
        else if args.length ≤ i then (scanfGo args f (i + 1) s5).map (.missing i :: ·)
        else if args.getD i true then scanfGo args f (i + 1) s5
        else if key = '*' then (scanfGo args f (i + 1) ('%' :: s5)).map (.arg i (.ptr .int) :: ·)
        else if key = '[' then
          match skipSet s5 with
          | .past => none
          | .bad => some [.badSet]
          | .ok t => (scanfGo args f (i + 1) t).map (.arg i .string :: ·)
        else match scanfType key m.1 m.2.1 with
          | some (e, ev) => (scanfGo args f (i + 1) s5).map (ev ++ .arg i e :: ·)
          | none => (scanfGo args f (i + 1) s5).map ([.unrecognised, .arg i .unknown] ++ ·)

/-- `checkScanfArgs`, 1790-2103, for a format that is a literal. -/
def scanf (args : List Bool) (format : List Char) : Option (List Event) :=
  scanfGo args (format.length + 1) 0 format

end Splint.Format
