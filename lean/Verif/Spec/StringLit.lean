import Verif.Model.StringLit
import Verif.Spec.Number
/-! String literals in C (C99 6.4.5): what the characters of a literal are. -/
namespace Splint.StrLit.Spec
open Scan.Spec

/-- A character of a literal: its text and its value. -/
inductive Item : List Char → Nat → Prop
  | plain {c} : c ≠ '"' → c ≠ '\\' → c ≠ '\n' → c ≠ '\x00' → c.toNat < 256 → Item [c] c.toNat
  | escape {e n} : Escape e n → n < 256 → Item ('\\' :: e) n

/-- A text that could go on as an escape: octal with fewer than three digits, or hexadecimal. -/
def shortOctal (t : List Char) : Prop :=
  ∃ ds, t = '\\' :: ds ∧ ds ≠ [] ∧ ds.length < 3 ∧ ∀ c ∈ ds, c ∈ allowed .oct

def hexEscape (t : List Char) : Prop := ∃ ds, t = '\\' :: 'x' :: ds

/-- The text and the values of a list of characters. -/
def text (is : List (List Char × Nat)) : List Char := is.flatMap Prod.fst
def values (is : List (List Char × Nat)) : List Nat := is.map Prod.snd

/-- A literal, character by character. An escape is as long as it can be. -/
inductive Literal : List (List Char × Nat) → Prop
  | nil : Literal []
  | cons {t n is} : Item t n → Literal is →
      (shortOctal t → ∀ c, (text is).head? = some c → c ∉ allowed .oct) →
      (hexEscape t → ∀ c, (text is).head? = some c → c ∉ allowed .hex) →
      Literal ((t, n) :: is)

/-- `Joined iss t`: the text `t` between the outer quotation marks consists of one literal after the
other, with blanks, tabs and newlines between them. -/
inductive Joined : List (List (List Char × Nat)) → List Char → Prop
  | one {is} : Literal is → Joined [is] (text is)
  | more {is w iss t} : Literal is → (∀ c ∈ w, c ∈ [' ', '\t', '\n']) → Joined iss t →
      Joined (is :: iss) (text is ++ '"' :: (w ++ '"' :: t))

/-- No octal escape with fewer than three digits is followed by 8 or 9. -/
def No89 : List (List Char × Nat) → Prop
  | [] => True
  | (t, _) :: is => (shortOctal t → ∀ c, (text is).head? = some c → c ≠ '8' ∧ c ≠ '9') ∧ No89 is

/-- The second digit of an octal escape is 0. -/
def secondZero (t : List Char) : Prop :=
  ∀ a b r, t = '\\' :: a :: b :: r → a ∈ allowed .oct → b = '0'

/-- What should be said of an array with `k` elements and a literal with these characters. -/
def expected (k : Nat) (vs : List Nat) : Option Msg :=
  if vs.length = k then some (if vs.getLast? = some 0 then .noRoomFinalNull else .noRoom)
  else if k < vs.length then some .tooLong
  else if vs.length + 1 < k then some .smaller
  else none

end Splint.StrLit.Spec
