import Verif.Model.MacroCheck
/-!
# Macro definitions, as C has them
-/
namespace Splint.MacroCheckSpec
open Splint.MacroCheck

/-- the characters of identifiers -/
def IdChar (c : Char) : Prop := c.isAlphanum = true ∨ c = '_'

/-- A definition of the name `n`, and the text that follows the name. -/
def Defines (text : List Char) (n rest : List Char) : Prop :=
  ∃ w1 w2 : List Char, (∀ c ∈ w1, c = ' ' ∨ c = '\t') ∧ (∀ c ∈ w2, c = ' ' ∨ c = '\t') ∧ w2 ≠ [] ∧
    n ≠ [] ∧ (∀ c ∈ n, IdChar c) ∧ (∀ c, rest.head? = some c → ¬IdChar c) ∧
    text = '#' :: w1 ++ ['d', 'e', 'f', 'i', 'n', 'e'] ++ w2 ++ n ++ rest

/-- White space, in C. -/
def Space (c : Char) : Prop := c ∈ [' ', '\t', '\n', Char.ofNat 11, Char.ofNat 12, '\r']

/-- No comment asked for anything. -/
def NoMarks (M : Marks) : Prop :=
  M.notParse = false ∧ M.notFcn = false ∧ M.iter = false ∧ M.const = false ∧ M.endIter = false

/-- An entry for the name that others see. -/
def Known (T : Table) (n : Name) (e : Ent) : Prop := T n = some e ∧ e.priv = false

/-- The name is that of something that is no macro: a declaration or definition in the code or in a library. -/
def Ordinary (e : Ent) : Prop :=
  e.expanded = false ∧ (e.defn = .code ∨ e.defn = .lib ∨
    ((e.defn = .undef ∨ e.defn = .ext) ∧ e.decl ≠ .preproc))

end Splint.MacroCheckSpec
