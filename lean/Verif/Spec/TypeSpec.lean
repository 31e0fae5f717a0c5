import Verif.Model.TypeSpec
/-! Type specifiers in C (C99 6.7.2): lists of words, in any order. -/
namespace Splint.TypeSpec.Spec

/-- The lists of words, in one order, and their types (`signed char` counts as `char`; structures, unions,
type names and `void` as `other`). No words at all stand for `int`, as in C89. -/
def table : List (List Word × Ty) :=
  [([], .int),
   ([.other], .other), ([.bool], .bool), ([.char], .char), ([.signed, .char], .char),
   ([.unsigned, .char], .uchar),
   ([.short], .sint), ([.signed, .short], .sint), ([.short, .int], .sint),
   ([.signed, .short, .int], .sint),
   ([.unsigned, .short], .usint), ([.unsigned, .short, .int], .usint),
   ([.int], .int), ([.signed], .int), ([.signed, .int], .int),
   ([.unsigned], .uint), ([.unsigned, .int], .uint),
   ([.long], .lint), ([.signed, .long], .lint), ([.long, .int], .lint), ([.signed, .long, .int], .lint),
   ([.unsigned, .long], .ulint), ([.unsigned, .long, .int], .ulint),
   ([.long, .long], .llint), ([.signed, .long, .long], .llint), ([.long, .long, .int], .llint),
   ([.signed, .long, .long, .int], .llint),
   ([.unsigned, .long, .long], .ullint), ([.unsigned, .long, .long, .int], .ullint),
   ([.float], .float), ([.double], .double), ([.long, .double], .ldouble)]

/-- The words are those of a type of C, in any order. -/
def Means (ws : List Word) (t : Ty) : Prop := ∃ r, (r, t) ∈ table ∧ ws.Perm r

/-- a word that is not signed, unsigned, short or long -/
def Word.isBase : Word → Bool
  | .signed | .unsigned | .short | .long => false
  | _ => true

/-- The word that decides: the last, if it is not signed, unsigned, short or long; otherwise `int`. -/
def base (ws : List Word) : Word :=
  match ws.getLast? with
  | some w => if Word.isBase w then w else .int
  | none => .int

/-- When the code is silent: depending on that word and on how often there is unsigned, short, long. -/
def Silent (b : Word) (u s l : Nat) : Prop :=
  match b with
  | .int => u ≤ 1 ∧ s ≤ 1 ∧ (s = 0 ∨ l = 0)
  | .char => u ≤ 1 ∧ s = 0
  | .double => u = 0 ∧ s = 0 ∧ l ≤ 1
  | _ => u = 0 ∧ s = 0

/-- The type then. -/
def typeFor (b : Word) (u s l : Nat) : Ty :=
  match b with
  | .int =>
    if s ≠ 0 then if u ≠ 0 then .usint else .sint
    else if l = 0 then if u ≠ 0 then .uint else .int
    else if l = 1 then if u ≠ 0 then .ulint else .lint
    else if u ≠ 0 then .ullint else .llint
  | .char => if u ≠ 0 then .uchar else .char
  | .double => if l ≠ 0 then .ldouble else .double
  | .float => .float
  | .bool => .bool
  | _ => .other

/-- The same for a list of words. -/
def silent (ws : List Word) : Prop :=
  Silent (base ws) (ws.count .unsigned) (ws.count .short) (ws.count .long)

def typeOf (ws : List Word) : Ty :=
  typeFor (base ws) (ws.count .unsigned) (ws.count .short) (ws.count .long)

end Splint.TypeSpec.Spec
