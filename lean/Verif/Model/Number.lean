import Verif.Tactics
/-!
# Constants in the text of a program

Model of the rules of src/cscanner.l:58-68, 228-308 for constants, and of src/cscannerHelp.c:
`cscannerHelp_processChar` (1950-1970), `processSuffix` (1979-2007), `cscannerHelp_processHex`
(2009-2038), `cscannerHelp_processOctal` (2040-2063), `cscannerHelp_processBinary` (2065-2098),
`cscannerHelp_processDec` (2100-2103).

Simplifications:
* the scanner is that which flex makes of the rules: the rule that matches most, and of those the
  first; the rules for other tokens are left out (none of them matches text that starts with a digit,
  with a `.` and a digit, or with an apostrophe; `L'` is also the start of an identifier, which is
  shorter);
* a `long` has 64 bits; a value that does not fit is undefined behaviour (overflow in the loops, and
  `atol`): `none`;
* the value of a floating constant is left out, and so are the types of 0 and 1 that the flags
  `zeroptr`, `zerobool` and so on allow as well (`cscannerHelp_returnInt`);
* the assertions of the functions hold for what the rules match (proved for the first; that of
  `cscannerHelp_processBinary` is `a && b || c`, and as weak as that).
-/
namespace Splint.Scan

/-- The bases of the rules: `0[xX]{H}+`, `0{ODigit}+`, `0[bB]{BDigit}+`, `{Digit}+`. -/
inductive Base where
  | hex | oct | bin | dec
  deriving DecidableEq, Repr

/-- The suffixes of the rules: none, `{U}`, `{L}`, `{L}{L}`, `{ULSuffix}`, `{U}{L}{L}`, `{L}{L}{U}`. -/
inductive Suffix where
  | no | u | l | ll | ul | ull | llu
  deriving DecidableEq, Repr

/-- `ctype_int` and so on, as far as constants have them. -/
inductive CType where
  | int | uint | lint | ulint | llint | ullint | float | double | ldouble | char
  deriving DecidableEq, Repr

inductive Token where
  /-- an integer constant; `none` if its value is undefined -/
  | num (t : CType) (v : Option Int)
  | real (t : CType) (text : List Char)
  | chr (c : Char)
  deriving DecidableEq, Repr

def isDigit (c : Char) : Bool := 48 ≤ c.toNat && c.toNat ≤ 57

/-- The digits of a base, with their values: `{H}`, `{ODigit}`, `{BDigit}`, `{Digit}`
(cscanner.l:56-60, cscannerHelp.c:2019-2025). -/
def Base.digit (b : Base) (c : Char) : Option Nat :=
  let n := c.toNat
  match b with
  | .hex =>
    if isDigit c then some (n - 48)
    else if 65 ≤ n && n ≤ 70 then some (n - 65 + 10)
    else if 97 ≤ n && n ≤ 102 then some (n - 97 + 10)
    else none
  | .oct => if 48 ≤ n && n ≤ 55 then some (n - 48) else none
  | .bin => if 48 ≤ n && n ≤ 49 then some (n - 48) else none
  | .dec => if isDigit c then some (n - 48) else none

def Base.radix : Base → Nat
  | .hex => 16 | .oct => 8 | .bin => 2 | .dec => 10

/-- What a base starts with: the rest of the text. -/
def Base.start : Base → List Char → Option (List Char)
  | .hex, '0' :: c :: s => if c = 'x' || c = 'X' then some s else none
  | .oct, '0' :: s => some s
  | .bin, '0' :: c :: s => if c = 'b' || c = 'B' then some s else none
  | .dec, s => some s
  | _, _ => none

def isU (c : Char) : Bool := c = 'u' || c = 'U'
def isL (c : Char) : Bool := c = 'l' || c = 'L'

/-- A suffix: the rest of the text. -/
def Suffix.cut : Suffix → List Char → Option (List Char)
  | .no, s => some s
  | .u, a :: s => if isU a then some s else none
  | .l, a :: s => if isL a then some s else none
  | .ll, a :: b :: s => if isL a && isL b then some s else none
  | .ul, a :: b :: s => if isU a && isL b || isL a && isU b then some s else none
  | .ull, a :: b :: c :: s => if isU a && isL b && isL c then some s else none
  | .llu, a :: b :: c :: s => if isL a && isL b && isU c then some s else none
  | _, _ => none

/-- The types of the rules (cscanner.l:228-284). -/
def Suffix.type : Suffix → CType
  | .no => .int | .u => .uint | .l => .lint | .ll => .llint | .ul => .ulint
  | .ull => .ullint | .llu => .ullint

/-- The largest `long`. -/
def longMax : Int := 2 ^ 63 - 1

/-- The loops of `cscannerHelp_processHex` and the others: the digits of the text, with overflow. -/
def value (b : Base) : Int → List Char → Option Int
  | v, [] => some v
  | v, c :: s =>
    match b.digit c with
    | none => some v
    | some d => if v * b.radix + d ≤ longMax then value b (v * b.radix + d) s else none

/-- A rule for integer constants: the token and the rest of the text. -/
def intRule (b : Base) (x : Suffix) (s : List Char) : Option (Token × List Char) :=
  match b.start s with
  | none => none
  | some t =>
    let ds := t.takeWhile fun c => (b.digit c).isSome
    if ds.isEmpty then none
    else
      match x.cut (t.dropWhile fun c => (b.digit c).isSome) with
      | none => none
      | some r => some (.num x.type (value b 0 ds), r)

/-- `{E}`: the rest of the text. -/
def expo (s : List Char) : Option (List Char) :=
  match s with
  | e :: s =>
    if e = 'e' || e = 'E' then
      let t := match s with
        | c :: s' => if c = '+' || c = '-' then s' else s
        | [] => []
      if (t.takeWhile isDigit).isEmpty then none else some (t.dropWhile isDigit)
    else none
  | [] => none

/-- `({E})?`: as long as possible. -/
def optExpo (s : List Char) : List Char := (expo s).getD s

/-- `[fF]`, `[lL]` and nothing, with the types. -/
def realSuffix : List (CType × (List Char → Option (List Char))) :=
  [(.float, fun s => match s with | c :: s => if c = 'f' || c = 'F' then some s else none | [] => none),
   (.ldouble, fun s => match s with | c :: s => if isL c then some s else none | [] => none),
   (.double, some)]

/-- The forms of floating constants: `{Digit}+{E}`, `{Digit}*"."{Digit}+({E})?`,
`{Digit}+"."{Digit}*({E})?`. -/
def realForms : List (List Char → Option (List Char)) :=
  [fun s => if (s.takeWhile isDigit).isEmpty then none else expo (s.dropWhile isDigit),
   fun s => match s.dropWhile isDigit with
    | '.' :: t => if (t.takeWhile isDigit).isEmpty then none else some (optExpo (t.dropWhile isDigit))
    | _ => none,
   fun s => if (s.takeWhile isDigit).isEmpty then none else match s.dropWhile isDigit with
    | '.' :: t => some (optExpo (t.dropWhile isDigit))
    | _ => none]

/-- A rule for floating constants (cscanner.l:289-308). -/
def realRule (f : List Char → Option (List Char)) (x : CType × (List Char → Option (List Char)))
    (s : List Char) : Option (Token × List Char) :=
  match f s with
  | none => none
  | some t =>
    match x.2 t with
    | none => none
    | some r => some (.real x.1 (s.take (s.length - r.length)), r)

/-- `(\\.|[^\\'])+'`: what is before the apostrophe, and the rest. -/
def charBody : List Char → Option (List Char × List Char)
  | [] => none
  | '\'' :: s => some ([], s)
  | '\\' :: c :: s => if c = '\n' then none else (charBody s).map fun p => ('\\' :: c :: p.1, p.2)
  | '\\' :: [] => none
  | c :: s => (charBody s).map fun p => (c :: p.1, p.2)

/-- `cscannerHelp_processChar`, 1950-1970. -/
def processChar (text : List Char) : Char :=
  match text[1]? with
  | none => '\x00'
  | some c =>
    if c ≠ '\\' then c
    else match text[2]? with
      | some 'n' => '\n'
      | some 't' => '\t'
      | some '"' => '"'
      | some '\'' => '\''
      | some '\\' => '\\'
      | _ => '\x00'

/-- The rules for character constants (cscanner.l:285-288). -/
def charRule (wide : Bool) (s : List Char) : Option (Token × List Char) :=
  let s := if wide then (match s with | 'L' :: t => some t | _ => none) else some s
  match s with
  | some ('\'' :: t) =>
    match charBody t with
    | some (b, r) =>
      if b.isEmpty then none
      else some (.chr (processChar ((if wide then ['L'] else []) ++ '\'' :: b ++ ['\''])), r)
    | none => none
  | _ => none

/-- The rules, in their order. -/
def rules : List (List Char → Option (Token × List Char)) :=
  [Suffix.no, .l, .ll, .u, .ul, .ull, .llu].map (intRule .hex)
  ++ [Suffix.no, .u, .l, .ll, .ul, .ull, .llu].map (intRule .oct)
  ++ [Suffix.no, .u, .l, .ll, .ul, .ull, .llu].map (intRule .bin)
  ++ [Suffix.no, .u, .l, .ll, .ul, .ull, .llu].map (intRule .dec)
  ++ [charRule false, charRule true]
  ++ realForms.flatMap fun f => realSuffix.map (realRule f)

/-- The longest match, and the first of those. -/
def best {α : Type} : List (Option (α × List Char)) → Option (α × List Char)
  | [] => none
  | none :: l => best l
  | some p :: l =>
    match best l with
    | none => some p
    | some q => if q.2.length < p.2.length then some q else some p

/-- The token at the start of a text, if it is a constant, and the rest of the text. -/
def scan (s : List Char) : Option (Token × List Char) := best (rules.map (· s))

end Splint.Scan
