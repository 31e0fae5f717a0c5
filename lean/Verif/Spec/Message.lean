import Verif.Model.Message
/-!
# What a message is

The format is read as a list of pieces; what each prints is said by the comment in src/message.c:121-136 and by
the uses of the function.
-/
namespace Splint.Message.Spec

/-- a character of its own, or a directive: `%`, digits, a code -/
inductive Piece where
  | lit (c : Char)
  | dir (digits : List Char) (code : Char)
deriving DecidableEq, Repr

def Piece.text : Piece → List Char
  | .lit c => [c]
  | .dir ds k => '%' :: ds ++ [k]

def text (ps : List Piece) : List Char := ps.flatMap Piece.text

def Digit (c : Char) : Prop := c ∈ ['0', '1', '2', '3', '4', '5', '6', '7', '8', '9']

def Piece.WF : Piece → Prop
  | .lit c => c ≠ '%'
  | .dir ds k => (∀ d ∈ ds, Digit d) ∧ ¬ Digit k

def WF (ps : List Piece) : Prop := ∀ p ∈ ps, p.WF

/-- the number written by digits -/
def number (ds : List Char) : Nat := ds.foldl (fun n d => n * 10 + (d.toNat - '0'.toNat)) 0

/-- how an argument of a type is passed to a function with `...` -/
inductive Pass where
  | int | ulong | dbl | str | loc | ptr
deriving DecidableEq, Repr

def passOf : VArg → Pass
  | .int _ => .int
  | .ulong _ => .ulong
  | .dbl _ => .dbl
  | .str _ => .str
  | .loc _ => .loc
  | .ptr _ => .ptr

/-- The codes that take an argument, and how it is passed. -/
def codes : List (Char × Expect × Pass) :=
  [('c', .char, .int), ('h', .char, .int), ('s', .cstring, .str), ('q', .cstring, .str), ('x', .cstring, .str),
   ('d', .int, .int), ('u', .uint, .int), ('w', .ulint, .ulong), ('f', .float, .dbl), ('b', .bool, .int),
   ('t', .ctype, .int), ('p', .voidPtr, .ptr), ('l', .fileloc, .loc), ('r', .bool, .int)]

/-- A string in a field of `n` columns: cut, or filled with blanks at its end; as it is, if no number is given. -/
def field (n : Nat) (s : Option (List Char)) (t : List Char) : Prop :=
  if n = 0 then t = s.getD []
  else t.length = n ∧ ∃ blanks, (∀ c ∈ blanks, c = ' ') ∧
    (t = s.getD [] ++ blanks ∨ (blanks = [] ∧ ∃ cut, s.getD [] = t ++ cut))

/-- A value of an integer as text -/
def IntText (z : Int) (t : List Char) : Prop := t = (toString z).toList

/-- A character, passed as an integer: NUL is not printed. -/
def CharText (z : Int) (t : List Char) : Prop :=
  ∃ n : Nat, n < 256 ∧ (256 : Int) ∣ z - n ∧ ((n = 0 ∧ t = []) ∨ (n ≠ 0 ∧ t = [Char.ofNat n]))

/-- What is printed: `last` is the last integer printed (by `%d`, `%u`) or the last value of `%r`, 0 at first. -/
inductive Prints (types : Int → List Char) : Int → List Piece → List VArg → List Char → Prop
  | nil {last} : Prints types last [] [] []
  | lit {last c ps args t} : Prints types last ps args t → Prints types last (.lit c :: ps) args (c :: t)
  | percent {last ds ps args t} : Prints types last ps args t → Prints types last (.dir ds '%' :: ps) args ('%' :: t)
  | plural {last ds ps args t} : Prints types last ps args t →
      Prints types last (.dir ds '&' :: ps) args ((if last = 1 then [] else ['s']) ++ t)
  | char {last ds k ps z f args t} : k = 'c' ∨ k = 'h' → CharText z f → Prints types last ps args t →
      Prints types last (.dir ds k :: ps) (.int z :: args) (f ++ t)
  | str {last ds k ps s args f t} : k = 's' ∨ k = 'q' ∨ k = 'x' → field (number ds) s f → Prints types last ps args t →
      Prints types last (.dir ds k :: ps) (.str s :: args) (f ++ t)
  | int {last ds k ps z args f t} : k = 'd' ∨ k = 'u' → IntText z f → Prints types z ps args t →
      Prints types last (.dir ds k :: ps) (.int z :: args) (f ++ t)
  | float {last ds ps x args t} : Prints types last ps args t →
      Prints types last (.dir ds 'f' :: ps) (.dbl x :: args) (x ++ t)
  | bool {last ds ps z args t} : Prints types last ps args t →
      Prints types last (.dir ds 'b' :: ps) (.int z :: args) ((if z = 0 then "false" else "true").toList ++ t)
  | type {last ds ps z args t} : Prints types last ps args t →
      Prints types last (.dir ds 't' :: ps) (.int z :: args) (types z ++ t)
  | ptr {last ds ps x args t} : Prints types last ps args t →
      Prints types last (.dir ds 'p' :: ps) (.ptr x :: args) (x ++ t)
  | loc {last ds ps x args t} : Prints types last ps args t →
      Prints types last (.dir ds 'l' :: ps) (.loc x :: args) (x ++ t)
  | re {last ds ps z args t} : Prints types z ps args t →
      Prints types last (.dir ds 'r' :: ps) (.int z :: args) ((if z = 0 then [] else ['r', 'e']) ++ t)

/-- The arguments are those the format asks for. -/
inductive Asks {T : Type} (ok : Expect → T → Bool) : List Piece → List T → Prop
  | nil : Asks ok [] []
  | lit {c ps args} : Asks ok ps args → Asks ok (.lit c :: ps) args
  | none {ds k ps args} : k = '%' ∨ k = '&' → Asks ok ps args → Asks ok (.dir ds k :: ps) args
  | code {ds k e q ps a args} : (k, e, q) ∈ codes → ok e a = true → Asks ok ps args →
      Asks ok (.dir ds k :: ps) (a :: args)

/-- What the check asks for instead: for `%&`, the argument that was last looked at, at first the format itself,
is to be an `int`. -/
inductive Fits {T : Type} (ok : Expect → T → Bool) : T → List Piece → List T → Prop
  | nil {cur} : Fits ok cur [] []
  | lit {cur c ps args} : Fits ok cur ps args → Fits ok cur (.lit c :: ps) args
  | percent {cur ds ps args} : Fits ok cur ps args → Fits ok cur (.dir ds '%' :: ps) args
  | plural {cur ds ps args} : ok .int cur = true → Fits ok cur ps args → Fits ok cur (.dir ds '&' :: ps) args
  | code {cur ds k e q ps a args} : (k, e, q) ∈ codes → ok e a = true → Fits ok a ps args →
      Fits ok cur (.dir ds k :: ps) (a :: args)

/-- An argument as a C program can pass it: an `int` of 32 bits, and texts that fit into 63 characters. -/
def Passable : VArg → Prop
  | .int z => -2147483648 ≤ z ∧ z < 2147483648
  | .dbl t => t.length ≤ 63
  | .ptr t => t.length ≤ 63
  | _ => True

end Splint.Message.Spec
