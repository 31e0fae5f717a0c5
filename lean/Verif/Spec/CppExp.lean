import Verif.Model.CppExp
/-!
# Integer constant expressions of C

The grammar and the meaning of the expressions allowed after `#if`, with 64-bit `intmax_t` and
`uintmax_t` (C99 6.6, 6.10.1; C90 with a 64-bit `long`). A signed value is in `[-2^63, 2^63)`, an
unsigned one in `[0, 2^64)`.
-/
namespace Splint.CppExp

/-- Expressions, with the parentheses that are written. -/
inductive CExp where
  | lit (v : Int) (u : Bool)
  | paren (e : CExp)
  | un (o : Op) (e : CExp)
  | bin (o : Op) (a b : CExp)
  | cond (c a b : CExp)
deriving DecidableEq, Repr

def Op.isUnary : Op → Bool
  | plus | minus | not_ | compl => true
  | _ => false

def Op.isBinary : Op → Bool
  | not_ | compl | lpar | rpar | colon | quest => false
  | _ => true

/-- The level of a binary operator in the grammar of C: 1 for the comma, 2 for conditionals, and so on
up to 12 for multiplication; 13 are unary expressions and 14 primary ones. -/
def Op.grammarLevel : Op → Nat
  | comma => 1
  | oror => 3
  | andand => 4
  | or => 5
  | xor => 6
  | and => 7
  | eq | ne => 8
  | lt | gt | le | ge => 9
  | lsh | rsh => 10
  | plus | minus => 11
  | mul | div | mod => 12
  | not_ | compl => 13
  | lpar | rpar | colon | quest => 0

namespace CExp

/-- The tokens as they are written; the lexer gives numbers as `long`. -/
def tokens : CExp → List Tok
  | lit v u => [.num (toLong v) u]
  | paren e => .op .lpar :: e.tokens ++ [.op .rpar]
  | un o e => .op o :: e.tokens
  | bin o a b => a.tokens ++ .op o :: b.tokens
  | cond c a b => c.tokens ++ .op .quest :: (a.tokens ++ .op .colon :: b.tokens)

def grammarLevel : CExp → Nat
  | lit .. | paren _ => 14
  | un .. => 13
  | bin o .. => o.grammarLevel
  | cond .. => 2

/-- Whether the expression is a tree of the grammar of C, that is, has all parentheses it needs. -/
def inGrammar : CExp → Bool
  | lit v u => if u then decide (0 ≤ v ∧ v < 2 ^ 64) else decide (0 ≤ v ∧ v < 2 ^ 63)
  | paren e => e.inGrammar
  | un o e => o.isUnary && e.inGrammar && decide (13 ≤ e.grammarLevel)
  | bin o a b => o.isBinary && a.inGrammar && b.inGrammar && decide (o.grammarLevel ≤ a.grammarLevel) &&
      decide (o.grammarLevel < b.grammarLevel)
  | cond c a b => c.inGrammar && a.inGrammar && b.inGrammar && decide (3 ≤ c.grammarLevel) &&
      decide (2 ≤ b.grammarLevel)

/-- Whether the type of the expression is unsigned. -/
def isUnsigned : CExp → Bool
  | lit _ u => u
  | paren e => e.isUnsigned
  | un o e => match o with
    | .not_ => false
    | _ => e.isUnsigned
  | bin o a b => match o with
    | .lt | .gt | .le | .ge | .eq | .ne | .andand | .oror => false
    | .lsh | .rsh => a.isUnsigned
    | .comma => b.isUnsigned
    | _ => a.isUnsigned || b.isUnsigned
  | cond _ a b => a.isUnsigned || b.isUnsigned

/-- A value in a type: unsigned values are reduced, signed ones have to fit. -/
def fit (u : Bool) (v : Int) : Option Int :=
  if u then some (v % 2 ^ 64) else if -2 ^ 63 ≤ v ∧ v < 2 ^ 63 then some v else none

/-- Conversion of a value of one of the two types to the common type. -/
def conv (u : Bool) (v : Int) : Int := if u then v % 2 ^ 64 else v

/-- Truth values. -/
def truth (b : Bool) : Option Int := some (if b then 1 else 0)

/-- A bitwise operation on two's complement, as a value of the type. -/
def bitwise (u : Bool) (f : BitVec 64 → BitVec 64 → BitVec 64) (a b : Int) : Option Int :=
  some (if u then ((f (BitVec.ofInt 64 a) (BitVec.ofInt 64 b)).toNat : Int)
    else (f (BitVec.ofInt 64 a) (BitVec.ofInt 64 b)).toInt)

/-- Binary operators on values of the common type `u`; `ua` is the type of the left operand. -/
def apply (o : Op) (u : Bool) (a b : Int) : Option Int :=
  match o with
  | .plus => fit u (a + b)
  | .minus => fit u (a - b)
  | .mul => fit u (a * b)
  | .div => if b = 0 then none else fit u (Int.tdiv a b)
  | .mod => if b = 0 then none else if (fit u (Int.tdiv a b)).isSome then fit u (Int.tmod a b) else none
  | .lt => truth (decide (a < b))
  | .gt => truth (decide (b < a))
  | .le => truth (decide (a ≤ b))
  | .ge => truth (decide (b ≤ a))
  | .eq => truth (decide (a = b))
  | .ne => truth (decide (a ≠ b))
  | .and => bitwise u (· &&& ·) a b
  | .xor => bitwise u (· ^^^ ·) a b
  | .or => bitwise u (· ||| ·) a b
  | _ => none

/-- Shifts of a value of type `u` by less than `w`; the right shift of a negative value is
arithmetic. -/
def shift (w : Int) (o : Op) (u : Bool) (a n : Int) : Option Int :=
  if n < 0 ∨ w ≤ n then none
  else match o with
    | .lsh => if u then fit u (a * 2 ^ n.toNat) else if a < 0 then none else fit u (a * 2 ^ n.toNat)
    | .rsh => some (a / 2 ^ n.toNat)
    | _ => none

/-- The value of the expression, where shifts are defined for counts less than `w`. -/
def evalW (w : Int) : CExp → Option Int
  | lit v _ => some v
  | paren e => (e.evalW w)
  | un o e => (e.evalW w).bind fun v => match o with
    | .plus => some v
    | .minus => fit e.isUnsigned (-v)
    | .not_ => truth (decide (v = 0))
    | .compl => fit e.isUnsigned (-v - 1)
    | _ => none
  | bin o a b => match o with
    | .andand => (a.evalW w).bind fun x => if x = 0 then some 0 else (b.evalW w).bind fun y => truth (decide (y ≠ 0))
    | .oror => (a.evalW w).bind fun x => if x ≠ 0 then some 1 else (b.evalW w).bind fun y => truth (decide (y ≠ 0))
    | .comma => (a.evalW w).bind fun _ => (b.evalW w)
    | .lsh | .rsh => (a.evalW w).bind fun x => (b.evalW w).bind fun n => shift w o a.isUnsigned x n
    | _ => (a.evalW w).bind fun x => (b.evalW w).bind fun y =>
        apply o (a.isUnsigned || b.isUnsigned) (conv (a.isUnsigned || b.isUnsigned) x)
          (conv (a.isUnsigned || b.isUnsigned) y)
  | cond c a b => (c.evalW w).bind fun x =>
      (if x ≠ 0 then (a.evalW w) else (b.evalW w)).map (conv (a.isUnsigned || b.isUnsigned))

/-- The value of the expression; `none` if C does not define it. -/
def eval (e : CExp) : Option Int := e.evalW 64

/-! ### What the parser can read -/

/-- The smallest left priority of the operators that are not in parentheses. -/
def ledge : CExp → Nat
  | lit .. => 31
  | paren _ => 30
  | un o _ => match o with
    | .plus | .minus => 24
    | _ => 28
  | bin o _ _ => o.lprio
  | cond .. => 6

/-- The smallest right priority of the operators that are still open at the right end. -/
def redge : CExp → Nat
  | lit .. => 31
  | paren _ => 30
  | un o _ => o.rprio
  | bin o _ _ => o.rprio
  | cond .. => 6

/-- The trees of the grammar that the parser in fact implements: a sign applies to a whole product and
comes only after operators that bind less than `+`, and neither a conditional nor a comma is in the
middle of a conditional. -/
def readable : CExp → Bool
  | lit .. => true
  | paren e => e.readable
  | un o e => o.isUnary && e.readable && decide (o.rprio ≤ e.ledge)
  | bin o a b => o.isBinary && a.readable && b.readable && decide (o.lprio < a.redge) &&
      decide (o.rprio ≤ b.ledge)
  | cond c a b => c.readable && a.readable && b.readable && decide (7 < c.redge) &&
      decide (6 < a.redge) && decide (6 ≤ b.ledge)

/-- Operators are used with the right number of operands, and literals have values of their
type. -/
def inType : CExp → Bool
  | lit v u => if u then decide (0 ≤ v ∧ v < 2 ^ 64) else decide (0 ≤ v ∧ v < 2 ^ 63)
  | paren e => e.inType
  | un o e => o.isUnary && e.inType
  | bin o a b => o.isBinary && a.inType && b.inType
  | cond c a b => c.inType && a.inType && b.inType

def _root_.Splint.CppExp.Op.isSign : Op → Bool
  | .plus | .minus => true
  | _ => false

def _root_.Splint.CppExp.Op.isProduct : Op → Bool
  | .mul | .div | .mod => true
  | _ => false

/-- A product with a sign in front is read as a sign in front of the product. -/
def product (o : Op) (a b : CExp) : CExp :=
  match a with
  | un s x => if o.isProduct && s.isSign then un s (bin o x b) else bin o (un s x) b
  | a => bin o a b

/-- The tree that the parser builds for the tokens of an expression, if it accepts them. -/
def regroup : CExp → CExp
  | lit v u => lit v u
  | paren e => paren e.regroup
  | un o e => un o e.regroup
  | bin o a b => product o a.regroup b.regroup
  | cond c a b => cond c.regroup a.regroup b.regroup

/-- Quotients and remainders with a sign in front are signed. -/
def signedQuotients : CExp → Bool
  | lit .. => true
  | paren e | un _ e => e.signedQuotients
  | bin o a b => a.signedQuotients && b.signedQuotients &&
      (match a.regroup with
      | un s _ => !(decide (o = .div ∨ o = .mod) && s.isSign) || !(a.isUnsigned || b.isUnsigned)
      | _ => true)
  | cond c a b => c.signedQuotients && a.signedQuotients && b.signedQuotients

/-- In a part of a conditional (`q`) that gives it its type, there is no quotient or remainder of a signed
number by an unsigned one. -/
def plainTypes (q : Bool) : CExp → Bool
  | lit .. => true
  | paren e => e.plainTypes q
  | un o e => match o with
    | .not_ => e.plainTypes false
    | _ => e.plainTypes q
  | bin o a b => match o with
    | .lt | .gt | .le | .ge | .eq | .ne | .andand | .oror => a.plainTypes false && b.plainTypes false
    | .lsh | .rsh => a.plainTypes q && b.plainTypes false
    | .comma => a.plainTypes false && b.plainTypes q
    | .div | .mod => a.plainTypes q && b.plainTypes q && (!q || a.isUnsigned || !b.isUnsigned)
    | _ => a.plainTypes q && b.plainTypes q
  | cond c a b => c.plainTypes false && a.plainTypes true && b.plainTypes true

/-- A literal or something in parentheses. -/
def isPrimary : CExp → Bool
  | lit .. | paren _ => true
  | _ => false

/-- All operands are literals or in parentheses. -/
def parenthesised : CExp → Bool
  | lit .. => true
  | paren e => e.parenthesised
  | un _ e => e.parenthesised && e.isPrimary
  | bin _ a b => a.parenthesised && a.isPrimary && b.parenthesised && b.isPrimary
  | cond c a b => c.parenthesised && c.isPrimary && a.parenthesised && a.isPrimary && b.parenthesised && b.isPrimary

end CExp
end Splint.CppExp

namespace Splint.CppExp

/-! ### Lines that cannot confuse the stack -/

/-- The operators that look at the operand on their left while they are pushed. -/
def Op.follows : Op → Bool
  | .andand | .oror | .quest | .colon | .comma => true
  | _ => false

/-- The operators after which a colon may follow. -/
def Op.opens : Op → Bool
  | .quest | .colon | .comma => true
  | _ => false

/-- A check of a line from left to right: `&&`, `||`, `?`, `:` and `,` come directly after a number or a
closing parenthesis, parentheses are balanced, and in the same parentheses there is a `?` or a comma before
each colon. `groups` and `g` say for the open parentheses and outside whether there was one, `operand` says
whether the last token was an operand. Nothing else is required: operands and operators may be missing. -/
def Tok.check : List Tok → (groups : List Bool) → (g operand : Bool) → Bool
  | [], groups, _, _ => groups.isEmpty
  | .num .. :: ts, groups, g, _ => check ts groups g true
  | .other :: ts, groups, g, _ => check ts groups g false
  | .op o :: ts, groups, g, operand =>
    if o = .lpar then check ts (g :: groups) false false
    else if o = .rpar then
      match groups with
      | [] => false
      | g' :: groups' => check ts groups' g' true
    else (!o.follows || operand) && (o != .colon || g) && check ts groups (g || o.opens) false

/-- A line that is not empty and passes the check. -/
def Tok.safe (ts : List Tok) : Bool := ts ≠ [] && Tok.check ts [] false false

/-- The operators that can crash. -/
def Op.risky : Op → Bool
  | .mul | .div | .mod | .lsh | .rsh => true
  | _ => false

/-! ### Numerals -/

/-- The value of a digit in base 8, 10 or 16: its place. -/
def digitValue (base : Nat) (c : Char) : Option Nat :=
  (("0123456789abcdef".toList.take base).idxOf? c).or (("0123456789ABCDEF".toList.take base).idxOf? c)

/-- The value of the digits after those with value `n`, the least significant digit last. -/
def numeral (base : Nat) : List Char → (n : Nat) → Option Nat
  | [], n => some n
  | c :: cs, n => (digitValue base c).bind fun d => numeral base cs (n * base + d)

/-- The suffixes of C90, and whether they make the number unsigned. -/
def numberSuffixes : List (String × Bool) :=
  [("", false), ("l", false), ("L", false), ("u", true), ("U", true),
   ("ul", true), ("uL", true), ("Ul", true), ("UL", true),
   ("lu", true), ("lU", true), ("Lu", true), ("LU", true)]

end Splint.CppExp
