import Verif.Model.Comment
/-!
# Comments in C, and what should be left of them

ISO C 5.1.1.2: a backslash at the end of a line joins it to the next; 6.4.9: the comment ends at the first `*/`, or at
the end of the line.
-/
namespace Splint.Comment.Spec

/-- the text without backslashes at the ends of lines -/
def join : Text → Text
  | '\\' :: '\n' :: r => join r
  | c :: r => c :: join r
  | [] => []

/-- `*/` is not in the text. -/
def NoEnd (t : Text) : Prop := ¬ ['*', '/'] <:+: t

/-- where the ends of the lines are -/
def shape (t : Text) : List Bool := t.map (· == '\n')

/-- The text after the `/` is that of a comment that is meant for the checker: `s` is what follows the marker. -/
def Syntactic (marker : Char) (text s : Text) : Prop := text = '*' :: marker :: s

/-- how often a comment starts in the text -/
def starts (t : Text) : Nat :=
  ((List.range t.length).filter fun i => t[i]? = some '/' ∧ t[i + 1]? = some '*').length

/-- the comments that are left out -/
def Eliminated (inner : Text) : Prop :=
  c!"notparseable" <+: inner ∨ c!"notfunction" <+: inner ∨ c!"=commentchar" <+: inner ∨ c!"-commentchar" <+: inner
    ∨ c!"+commentchar" <+: inner

instance (inner : Text) : Decidable (Eliminated inner) := by unfold Eliminated; infer_instance

/-- the flags that the preprocessor sets -/
def cppFlags : List Text :=
  [c!"namechecks", c!"macroredef", c!"usevarargs", c!"nextlinemacros", c!"allmacros", c!"fcnmacros", c!"constmacros"]

def Sign (x : Char) : Prop := x = '=' ∨ x = '-' ∨ x = '+'

def Blank (c : Char) : Prop := c = ' ' ∨ c = '\t' ∨ c = '\n'

/-- What is done because of a comment for the checker: `inner` is what is between the marker and the `*/`. After it
the preprocessor sees `%`. -/
inductive Does (nocomments : Bool) (inner : Text) : Act → Prop
  | suppressOn : nocomments = false → c!"ignore" <+: inner → Does nocomments inner .suppressOn
  | suppressOff : nocomments = false → c!"end" <+: inner → Does nocomments inner .suppressOff
  | notparseable : c!"notparseable" <+: inner → Does nocomments inner .notparseable
  | notfunction : c!"notfunction" <+: inner → Does nocomments inner .notfunction
  | iter : c!"iter" <+: inner → Does nocomments inner .iter
  | function : c!"function" <+: inner → Does nocomments inner .function
  | constant : c!"constant" <+: inner → Does nocomments inner .constant
  | noRestore : c!"=commentchar" <+: inner → Does nocomments inner .noRestore
  | noBlank {x c} : x = '-' ∨ x = '+' → ¬ Blank c → x :: c!"commentchar" ++ [c] <+: inner ++ ['%'] →
      Does nocomments inner .noBlank
  | nul {x b} : x = '-' ∨ x = '+' → Blank b → x :: c!"commentchar" ++ [b, Char.ofNat 0] <+: inner →
      Does nocomments inner .nul
  | setChar {x b c} : x = '-' ∨ x = '+' → Blank b → c ≠ Char.ofNat 0 →
      x :: c!"commentchar" ++ [b, c] <+: inner ++ ['%'] → Does nocomments inner (.setChar c)
  | setFlag {x f} : Sign x → f ∈ cppFlags → x :: f <+: inner → Does nocomments inner (.setFlag f x)
  | isfunction {x f} : Sign x → f = c!"allmacros" ∨ f = c!"fcnmacros" ∨ f = c!"constmacros" → x :: f <+: inner →
      Does nocomments inner .isfunction

end Splint.Comment.Spec
