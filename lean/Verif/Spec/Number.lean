import Verif.Model.Number
/-! Constants in C (C99 6.4.4), and binary ones. -/
namespace Splint.Scan.Spec

/-- the letters of a suffix: unsigned, long, long long in either order -/
inductive Letters : Suffix → List Char → Prop
  | no : Letters .no []
  | u {a} : a ∈ ['u', 'U'] → Letters .u [a]
  | l {a} : a ∈ ['l', 'L'] → Letters .l [a]
  | ll {a} : a ∈ ['l', 'L'] → Letters .ll [a, a]
  | ul {a b} : a ∈ ['u', 'U'] → b ∈ ['l', 'L'] → Letters .ul [a, b]
  | lu {a b} : a ∈ ['u', 'U'] → b ∈ ['l', 'L'] → Letters .ul [b, a]
  | ull {a b} : a ∈ ['u', 'U'] → b ∈ ['l', 'L'] → Letters .ull [a, b, b]
  | llu {a b} : a ∈ ['u', 'U'] → b ∈ ['l', 'L'] → Letters .llu [b, b, a]

/-- the digits, as characters -/
def digits : List Char := ['0', '1', '2', '3', '4', '5', '6', '7', '8', '9']
def lower : List Char := digits ++ ['a', 'b', 'c', 'd', 'e', 'f']
def upper : List Char := digits ++ ['A', 'B', 'C', 'D', 'E', 'F']

/-- the value of a digit: its place -/
def digitValue (c : Char) : Nat := if c ∈ lower then lower.idxOf c else upper.idxOf c

/-- the number that digits stand for -/
def number (r : Nat) (ds : List Char) : Nat := ds.foldl (fun n c => n * r + digitValue c) 0

/-- the digits that a base has -/
def allowed : Base → List Char
  | .hex => lower ++ upper
  | .oct => digits.take 8
  | .bin => digits.take 2
  | .dec => digits

/-- `Constant b ds s`: the text `s` is a constant with base `b` and digits `ds`, without suffix. A
decimal constant does not begin with 0, apart from 0 itself (which for C is octal). -/
inductive Constant : Base → List Char → List Char → Prop
  | hex {ds x} : x ∈ ['x', 'X'] → ds ≠ [] → (∀ c ∈ ds, c ∈ allowed .hex) →
      Constant .hex ds ('0' :: x :: ds)
  | oct {ds} : ds ≠ [] → (∀ c ∈ ds, c ∈ allowed .oct) → Constant .oct ds ('0' :: ds)
  | bin {ds x} : x ∈ ['b', 'B'] → ds ≠ [] → (∀ c ∈ ds, c ∈ allowed .bin) →
      Constant .bin ds ('0' :: x :: ds)
  | dec {d ds} : d ≠ '0' → (∀ c ∈ d :: ds, c ∈ allowed .dec) → Constant .dec (d :: ds) (d :: ds)
  | zero : Constant .dec ['0'] ['0']

/-- The text goes on with something that cannot belong to a constant: not a letter, digit, underscore
or full stop. -/
def Ends (s : List Char) : Prop :=
  ∀ c, s.head? = some c → ¬ c.isAlphanum ∧ c ≠ '_' ∧ c ≠ '.'

/-- the largest value of a type, with 32 bits for `int` and 64 bits for `long` -/
def maxOf : CType → Int
  | .int => 2 ^ 31 - 1
  | .uint => 2 ^ 32 - 1
  | .lint | .llint => 2 ^ 63 - 1
  | .ulint | .ullint => 2 ^ 64 - 1
  | _ => 0

/-- the types of a constant, in the order of preference (C99 6.4.4.1) -/
def candidates : Base → Suffix → List CType
  | .dec, .no => [.int, .lint, .llint]
  | _, .no => [.int, .uint, .lint, .ulint, .llint, .ullint]
  | _, .u => [.uint, .ulint, .ullint]
  | .dec, .l => [.lint, .llint]
  | _, .l => [.lint, .ulint, .llint, .ullint]
  | _, .ul => [.ulint, .ullint]
  | .dec, .ll => [.llint]
  | _, .ll => [.llint, .ullint]
  | _, .ull | _, .llu => [.ullint]

/-- the type of a constant: the first in which the value fits -/
def typeOf (b : Base) (x : Suffix) (n : Nat) : Option CType :=
  (candidates b x).find? fun t => decide ((n : Int) ≤ maxOf t)

/-- the escapes of C, and their values -/
inductive Escape : List Char → Nat → Prop
  | simple {c n} : (c, n) ∈ [('\'', 39), ('"', 34), ('?', 63), ('\\', 92), ('a', 7), ('b', 8), ('f', 12),
      ('n', 10), ('r', 13), ('t', 9), ('v', 11)] → Escape [c] n
  | oct {ds} : ds ≠ [] → ds.length ≤ 3 → (∀ c ∈ ds, c ∈ allowed .oct) → Escape ds (number 8 ds)
  | hex {ds} : ds ≠ [] → (∀ c ∈ ds, c ∈ allowed .hex) → Escape ('x' :: ds) (number 16 ds)

/-- one character of a constant, and its value -/
inductive OneChar : List Char → Nat → Prop
  | plain {c} : c ≠ '\'' → c ≠ '\\' → c ≠ '\n' → OneChar [c] c.toNat
  | escape {e n} : Escape e n → OneChar ('\\' :: e) n

/-- an exponent -/
inductive Exponent : List Char → Prop
  | mk {e sg ds} : e ∈ ['e', 'E'] → sg ∈ [[], ['+'], ['-']] → ds ≠ [] → (∀ c ∈ ds, c ∈ digits) →
      Exponent (e :: sg ++ ds)

/-- a decimal floating constant without suffix -/
inductive Real : List Char → Prop
  | point {a b x} : (∀ c ∈ a, c ∈ digits) → (∀ c ∈ b, c ∈ digits) → (a ≠ [] ∨ b ≠ []) →
      (x = [] ∨ Exponent x) → Real (a ++ '.' :: b ++ x)
  | expo {a x} : a ≠ [] → (∀ c ∈ a, c ∈ digits) → Exponent x → Real (a ++ x)

/-- its suffix -/
inductive RealLetters : CType → List Char → Prop
  | no : RealLetters .double []
  | f {a} : a ∈ ['f', 'F'] → RealLetters .float [a]
  | l {a} : a ∈ ['l', 'L'] → RealLetters .ldouble [a]

end Splint.Scan.Spec
