import Verif.Model.CppDefine
/-!
The form of a definition of a macro (ISO C 6.10.3), with the extension that a name followed by `...` may
stand for the last arguments.  The classes of characters are those of the model.
-/
namespace Splint.CppMacro.Spec

def Blank (l : List Char) : Prop := ∀ c ∈ l, isHor c = true

def Ident (l : List Char) : Prop := (∃ c m, l = c :: m ∧ isStart c = true) ∧ ∀ c ∈ l, isId c = true

/-- the text of a parameter, and what it stands for: the name, and whether it takes all other arguments -/
inductive Param : List Char → List Char × Bool → Prop where
  | name {n} : Ident n → Param n (n, false)
  | rest {n} : Ident n → Param (n ++ ['.', '.', '.']) (n, true)
  | dots : Param ['.', '.', '.'] (c!"__VA_ARGS__", true)

/-- The parameters after the opening parenthesis, with the closing one; only the last one may take all
other arguments.  `extra`: there may be a comma after the last one. -/
inductive Tail (extra : Bool) : List Char → Params → Prop where
  | last {w t v p} : Blank w → Param t p → Blank v → Tail extra (w ++ t ++ v ++ [')']) [p]
  | comma {w t v u p} : extra = true → Blank w → Param t p → Blank v → Blank u →
      Tail extra (w ++ t ++ v ++ [','] ++ u ++ [')']) [p]
  | next {w t v p l ps} : Blank w → Param t p → p.2 = false → Blank v → Tail extra l ps →
      Tail extra (w ++ t ++ v ++ [','] ++ l) (p :: ps)

inductive PList (extra : Bool) : List Char → Params → Prop where
  | none {w} : Blank w → PList extra (w ++ [')']) []
  | some {l ps} : Tail extra l ps → PList extra l ps

/-- no two parameters have the same name -/
def Distinct (ps : Params) : Prop := (ps.map Prod.fst).Nodup

/-- the directive `name text` or `name(parameters) text`, after the word `define` -/
inductive Define (extra : Bool) : List Char → List Char → Option Params → List Char → Prop where
  | plain {w n b body} : Blank w → Ident n → n ≠ c!"defined" → Blank b → b ≠ [] →
      (∀ c, body.head? = some c → isHor c = false) → Define extra (w ++ n ++ b ++ body) n none body
  | empty {w n} : Blank w → Ident n → n ≠ c!"defined" → Define extra (w ++ n) n none []
  | fn {w n l ps b body} : Blank w → Ident n → n ≠ c!"defined" → PList extra l ps → Distinct ps → Blank b →
      (∀ c, body.head? = some c → isHor c = false) →
      Define extra (w ++ n ++ ['('] ++ l ++ b ++ body) n (some ps) body

end Splint.CppMacro.Spec
