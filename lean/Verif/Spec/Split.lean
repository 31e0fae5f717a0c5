import Verif.Model.CString
/-! # What breaking a text into lines may do -/
namespace Splint.Spec

/-- What may be dropped between two lines: nothing, a blank, a newline, or a newline followed by
an indentation mark (`\1` … `\7`). -/
def Separator (sep : Bytes) : Prop :=
  sep = [] ∨ sep = [32] ∨ sep = [9] ∨ sep = [10] ∨ ∃ k : UInt8, 1 ≤ k ∧ k ≤ 7 ∧ sep = [10, k]

/-- Indentation after a separator. -/
def indentAfter (i : Nat) : Bytes → Nat
  | [10, k] => i + k.toNat
  | _ => i

/-- `lines` is a correct layout of the text `s` when the current indentation is `i`: every line
is the next part of the text, indented, and only separators are dropped. -/
inductive Layout : Nat → Bytes → List Bytes → Prop
  | last (i : Nat) (s p sep : Bytes) : Separator sep →
      List.replicate i 32 ++ s = p ++ sep → Layout i s [p]
  | more (i : Nat) (s p sep r : Bytes) (ps : List Bytes) : Separator sep →
      List.replicate i 32 ++ s = p ++ sep ++ r → Layout (indentAfter i sep) r ps →
      Layout i s (p :: ps)

/-- The visible characters of a text. -/
def ink (s : Bytes) : Bytes := s.filter fun c => !(c == 32 || c == 9 || c == 10 || (1 ≤ c && c ≤ 7))

/-- Sum of all indentation marks in a text. -/
def marks (s : Bytes) : Nat := (s.map fun c => if 1 ≤ c && c ≤ 7 then c.toNat else 0).sum

end Splint.Spec
