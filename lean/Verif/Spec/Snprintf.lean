import Verif.Model.Snprintf
/-!
# Formatted output: what C prescribes

C17 7.21.6.1, for the conversions d, i, o, u, x, X, c, s and %%.  From the model only the type of arguments is
used.
-/
namespace Splint.Snp.Spec

inductive Conv | d | i | o | u | x | X | c | s
  deriving DecidableEq, Repr

inductive Len | none_ | h | l | ll
  deriving DecidableEq, Repr

/-- A field width: none, a number (its digits) or an asterisk. -/
inductive Width | none_ | num (ds : List Char) | star
  deriving DecidableEq, Repr

/-- A precision: none, a period with a number (maybe without digits), or a period with an asterisk. -/
inductive Prec | none_ | num (ds : List Char) | star
  deriving DecidableEq, Repr

structure Directive where
  flags : List Char
  width : Width
  prec : Prec
  len : Len
  conv : Conv
  deriving DecidableEq, Repr

inductive Piece | lit (c : Char) | pct | dir (d : Directive)
  deriving DecidableEq, Repr

def Conv.text : Conv → Char
  | .d => 'd' | .i => 'i' | .o => 'o' | .u => 'u' | .x => 'x' | .X => 'X' | .c => 'c' | .s => 's'

def Len.text : Len → List Char
  | .none_ => [] | .h => ['h'] | .l => ['l'] | .ll => ['l', 'l']

def Width.text : Width → List Char
  | .none_ => [] | .num ds => ds | .star => ['*']

def Prec.text : Prec → List Char
  | .none_ => [] | .num ds => '.' :: ds | .star => ['.', '*']

def Directive.text (d : Directive) : List Char :=
  d.flags ++ d.width.text ++ d.prec.text ++ d.len.text ++ [d.conv.text]

def Piece.text : Piece → List Char
  | .lit c => [c]
  | .pct => ['%', '%']
  | .dir d => '%' :: d.text

/-- The value of a decimal number. -/
def value (ds : List Char) : Nat := ds.foldl (fun n c => 10 * n + (c.toNat - 48)) 0

/-- The width that counts and whether it asks for left adjustment: a negative argument is a `-` flag followed by
a positive width. -/
def widthOf : Width → List Arg → Option ((Nat × Bool) × List Arg)
  | .none_, l => some ((0, false), l)
  | .num ds, l => some ((value ds, false), l)
  | .star, .sint z :: l => some ((z.natAbs, decide (z < 0)), l)
  | .star, _ => none

/-- The precision; a negative argument is taken as if the precision were omitted. -/
def precOf : Prec → List Arg → Option (Option Nat × List Arg)
  | .none_, l => some (none, l)
  | .num ds, l => some (some (value ds), l)
  | .star, .sint z :: l => some (if z < 0 then none else some z.toNat, l)
  | .star, _ => none

/-- The value of a number argument, converted to short for `h`. -/
def signedOf : Len → List Arg → Option (Int × List Arg)
  | .none_, .sint z :: l => some (z, l)
  | .h, .sint z :: l => some ((z + 2^15) % 2^16 - 2^15, l)
  | .l, .slong z :: l => some (z, l)
  | .ll, .sllong z :: l => some (z, l)
  | _, _ => none

def unsignedOf : Len → List Arg → Option (Nat × List Arg)
  | .none_, .uint n :: l => some (n, l)
  | .h, .uint n :: l => some (n % 2^16, l)
  | .l, .ulong n :: l => some (n, l)
  | .ll, .ullong n :: l => some (n, l)
  | _, _ => none

/-- Fill up to the width with blanks. -/
def fill (minus : Bool) (w : Nat) (s : List Char) : List Char :=
  if minus then s ++ List.replicate (w - s.length) ' ' else List.replicate (w - s.length) ' ' ++ s

/-- A number: sign or prefix, at least as many digits as the precision says (none for 0 with precision 0), blanks or
zeros up to the width. -/
def number (flags : List Char) (minus : Bool) (w : Nat) (p : Option Nat) (sign digits : List Char)
    (zeroValue : Bool) : List Char :=
  let ds := if p = some 0 ∧ zeroValue = true then [] else digits
  let body := List.replicate (p.getD 1 - ds.length) '0' ++ ds
  if '0' ∈ flags ∧ minus = false ∧ p = none then
    sign ++ List.replicate (w - sign.length - body.length) '0' ++ body
  else fill minus w (sign ++ body)

def signOf (flags : List Char) (z : Int) : List Char :=
  if z < 0 then ['-'] else if '+' ∈ flags then ['+'] else if ' ' ∈ flags then [' '] else []

/-- The upper case of the digits of a hexadecimal number. -/
def upperHex : List Char → List Char := List.map fun c =>
  if c = 'a' then 'A' else if c = 'b' then 'B' else if c = 'c' then 'C' else if c = 'd' then 'D'
  else if c = 'e' then 'E' else if c = 'f' then 'F' else c

/-- What a directive prints, for directives without the flag `#`. -/
def render (d : Directive) (args : List Arg) : Option (List Char × List Arg) :=
  (widthOf d.width args).bind fun (wm, args) =>
  (precOf d.prec args).bind fun (p, args) =>
    let w := wm.1
    let minus := decide ('-' ∈ d.flags) || wm.2
    match d.conv with
    | .d | .i => (signedOf d.len args).map fun (z, args) =>
        (number d.flags minus w p (signOf d.flags z) (Nat.toDigits 10 z.natAbs) (decide (z = 0)), args)
    | .u => (unsignedOf d.len args).map fun (n, args) =>
        (number d.flags minus w p [] (Nat.toDigits 10 n) (decide (n = 0)), args)
    | .o => (unsignedOf d.len args).map fun (n, args) =>
        (number d.flags minus w p [] (Nat.toDigits 8 n) (decide (n = 0)), args)
    | .x => (unsignedOf d.len args).map fun (n, args) =>
        (number d.flags minus w p [] (Nat.toDigits 16 n) (decide (n = 0)), args)
    | .X => (unsignedOf d.len args).map fun (n, args) =>
        (number d.flags minus w p [] (upperHex (Nat.toDigits 16 n)) (decide (n = 0)), args)
    | .c => match args with
      | .sint z :: args => some (fill minus w [Char.ofNat (z % 256).toNat], args)
      | _ => none
    | .s => match args with
      | .str (some s) :: args => some (fill minus w (match p with | none => s | some p => s.take p), args)
      | _ => none

def renderAll : List Piece → List Arg → Option (List Char)
  | [], _ => some []
  | .lit c :: ps, args => (renderAll ps args).map (c :: ·)
  | .pct :: ps, args => (renderAll ps args).map ('%' :: ·)
  | .dir d :: ps, args => (render d args).bind fun (o, args) => (renderAll ps args).map (o ++ ·)

/-- A directive of C: flags are flags, a width does not start with 0, numbers consist of digits and fit into an
int; no `#`; only conversions of numbers have a length. -/
def Directive.Ok (d : Directive) : Prop :=
  (∀ c ∈ d.flags, c ∈ ['-', '+', ' ', '0']) ∧
  (∀ ds, d.width = .num ds → ds ≠ [] ∧ ds.head? ≠ some '0' ∧ (∀ c ∈ ds, c.isDigit = true) ∧ value ds < 2^31) ∧
  (∀ ds, d.prec = .num ds → (∀ c ∈ ds, c.isDigit = true) ∧ value ds < 2^31) ∧
  (d.conv = .c ∨ d.conv = .s → d.len = .none_)

def Piece.Ok : Piece → Prop
  | .lit c => c ≠ '%'
  | .pct => True
  | .dir d => d.Ok

/-- Arguments are values of their types. -/
def Arg.Ok : Arg → Prop
  | .sint z => -2^31 ≤ z ∧ z < 2^31
  | .uint n => n < 2^32
  | .slong z | .sllong z => -2^63 ≤ z ∧ z < 2^63
  | .ulong n | .ullong n => n < 2^64
  | _ => True

end Splint.Snp.Spec
