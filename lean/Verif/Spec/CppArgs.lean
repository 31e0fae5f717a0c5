import Verif.Model.CppArgs
/-! The arguments of a macro call (ISO C 6.10.3 paragraphs 4, 10 and 11). -/
namespace Splint.CppArgs.Spec

def opens (l : List AT) : Nat := l.count .lp
def closes (l : List AT) : Nat := l.count .rp

/-- No parenthesis is closed before it is opened. -/
def fits (l : List AT) : Prop := ∀ q, q <+: l → closes q ≤ opens q

def balanced (l : List AT) : Prop := fits l ∧ opens l = closes l

/-- every comma is inside of parentheses -/
def noComma (l : List AT) : Prop := ∀ q, q ++ [AT.comma] <+: l → closes q < opens q

/-- the arguments with commas in between -/
def joined : List (List AT) → List AT
  | [] => []
  | [a] => a
  | a :: as => a ++ .comma :: joined as

/-- The argument with number `i` takes all that remain. -/
def takesRest (nargs : Nat) (va : Bool) (i : Nat) : Bool := va && decide (i + 1 = nargs)

/-- the arguments, the first having the number `i` -/
def areArgs (nargs : Nat) (va : Bool) (i : Nat) (as : List (List AT)) : Prop :=
  ∀ k a, as[k]? = some a → balanced a ∧ if takesRest nargs va (i + k) then k + 1 = as.length else noComma a

/-- The number of arguments that a call has: for a macro without parameters, nothing but white space is none. -/
def given (nargs : Nat) (as : List (List AT)) : Nat :=
  match as with
  | [a] => if nargs = 0 ∧ ∀ c ∈ a.flatMap AT.text, CppMacro.isSp c = true then 0 else 1
  | as => as.length

end Splint.CppArgs.Spec
